import Verif.Props.OBBMore
import Verif.Props.Quat

set_option linter.unusedSectionVars false

/-! C66: construction and change of oriented boxes, the part with square roots. -/

namespace MGL
open V3

/-- `f` multiplies every distance by `s`. -/
def Spec.Scales (f : V3 ℝ → V3 ℝ) (s : ℝ) : Prop := ∀ p q, distSq (f p) (f q) = s * s * distSq p q

/-- `P` is an affine map with linear part `D`. -/
structure AffPair (P D : V3 ℝ → V3 ℝ) : Prop where
  pos : ∀ p v, P (p + v) = P p + D v
  smul : ∀ (s : ℝ) v, D (s • v) = s • D v
  add : ∀ v w, D (v + w) = D v + D w

theorem affPair34 (m : Mat34 ℝ) : AffPair (Mat34.mulPos m) (Mat34.mulDir m) := by
  constructor <;> intros <;> ext <;> simp [Mat34.mulPos, Mat34.mulDir] <;> ring
theorem affPair4 (m : Mat4 ℝ) : AffPair (Mat4.mulPos m) (Mat4.mulDir m) := by
  constructor <;> intros <;> ext <;> simp [Mat4.mulPos, Mat4.mulDir] <;> ring
theorem affPair3 (m : Mat3 ℝ) : AffPair (Mat3.mulVec m) (Mat3.mulVec m) := by
  constructor <;> intros <;> ext <;> simp [Mat3.mulVec] <;> ring

theorem AffPair.dot {P D : V3 ℝ → V3 ℝ} (h : AffPair P D) {s : ℝ} (hs : Spec.Scales P s) (v w : V3 ℝ) :
    V3.dot (D v) (D w) = s * s * V3.dot v w := by
  have l : ∀ v, V3.dot (D v) (D v) = s * s * V3.dot v v := by
    intro v
    have := hs (0 + v) 0
    rw [h.pos] at this
    simp only [distSq_eq, add_x, add_y, add_z, zero_x, zero_y, zero_z, V3.dot] at *
    linarith
  have := l (v + w)
  have hv := l v
  have hw := l w
  rw [h.add] at this
  simp only [V3.dot, add_x, add_y, add_z] at *
  linarith

/-- The images of an orthonormal frame, divided by the scale factor. -/
theorem AffPair.frame {P D : V3 ℝ → V3 ℝ} (h : AffPair P D) {s : ℝ} (h0 : 0 < s) (hs : Spec.Scales P s) {u v w : V3 ℝ}
    (hf : Spec.Frame u v w) : Spec.Frame ((1 / s) • D u) ((1 / s) • D v) ((1 / s) • D w) := by
  have hne : s ≠ 0 := h0.ne'
  have g : ∀ a b : V3 ℝ, V3.dot ((1 / s) • D a) ((1 / s) • D b) = V3.dot a b := by
    intro a b
    rw [dot_smul, smul_dot, h.dot hs]; field_simp
  exact ⟨(g _ _).trans hf.uu, (g _ _).trans hf.vv, (g _ _).trans hf.ww, (g _ _).trans hf.uv, (g _ _).trans hf.uw, (g _ _).trans hf.vw⟩

theorem AffPair.image_obb {P D : V3 ℝ → V3 ℝ} (h : AffPair P D) {s : ℝ} (h0 : 0 < s) (c u v w r : V3 ℝ) :
    Spec.obb (P c) ((1 / s) • D u) ((1 / s) • D v) ((1 / s) • D w) (s • r) = P '' Spec.obb c u v w r := by
  have hne : s ≠ 0 := h0.ne'
  have e : ∀ a b d : ℝ, P (c + a • u + b • v + d • w) = P c + (s * a) • ((1 / s) • D u) + (s * b) • ((1 / s) • D v) + (s * d) • ((1 / s) • D w) := by
    intro a b d
    rw [h.pos, h.pos, h.pos, h.smul, h.smul, h.smul]
    ext <;> simp <;> field_simp
  ext p
  constructor
  · rintro ⟨a, b, d, a1, a2, b1, b2, d1, d2, rfl⟩
    simp only [smul_x, smul_y, smul_z] at *
    refine ⟨c + (a / s) • u + (b / s) • v + (d / s) • w, ⟨a / s, b / s, d / s, ?_, ?_, ?_, ?_, ?_, ?_, rfl⟩, ?_⟩
    · rw [le_div_iff₀ h0]; linarith
    · rw [div_le_iff₀ h0]; linarith
    · rw [le_div_iff₀ h0]; linarith
    · rw [div_le_iff₀ h0]; linarith
    · rw [le_div_iff₀ h0]; linarith
    · rw [div_le_iff₀ h0]; linarith
    · rw [e, mul_div_cancel₀ _ hne, mul_div_cancel₀ _ hne, mul_div_cancel₀ _ hne]
  · rintro ⟨_, ⟨a, b, d, a1, a2, b1, b2, d1, d2, rfl⟩, rfl⟩
    refine ⟨s * a, s * b, s * d, ?_, ?_, ?_, ?_, ?_, ?_, e a b d⟩ <;> simp only [smul_x, smul_y, smul_z] <;> nlinarith

theorem setFromCore_frame {halfSize center c0 c1 c2 : V3 ℝ} {s : ℝ} (h0 : 0 < s) (hl : V3.dot c0 c0 = s * s)
    (hf : Spec.Frame ((1 / s) • c0) ((1 / s) • c1) ((1 / s) • c2)) :
    OBB.setFromCore halfSize center c0 c1 c2 = ⟨center, s • halfSize, (1 / s) • c0, (1 / s) • c1, (1 / s) • c2⟩ := by
  have hs : Real.sqrt (lenSq c0) = s := by
    show Real.sqrt (V3.dot c0 c0) = s
    rw [hl, Real.sqrt_mul_self h0.le]
  unfold OBB.setFromCore
  simp only [hs]
  set u := (1 / s) • c0
  set v := (1 / s) • c1
  set w := (1 / s) • c2
  have z : ∀ a b : V3 ℝ, V3.dot a b = 0 → a - f3ProjectToNorm a b = a := by
    intro a b h
    unfold f3ProjectToNorm; rw [h]; ext <;> simp
  have hu : f3Normalized u = u := f3Normalized_unit hf.uu
  have hv : f3Normalized v = v := f3Normalized_unit hf.vv
  have hw : f3Normalized w = w := f3Normalized_unit hf.ww
  unfold f3Orthonormalize3
  simp only [hu]
  rw [z v u (by rw [dot_comm]; exact hf.uv), hv, z w u (by rw [dot_comm]; exact hf.uw), z w v (by rw [dot_comm]; exact hf.vw), hw]

theorem setFromCore_spec {P D : V3 ℝ → V3 ℝ} (h : AffPair P D) {s : ℝ} (h0 : 0 < s) (hs : Spec.Scales P s) (b : AABB ℝ)
    (hb : b.Proper) :
    (OBB.setFromCore b.halfSize (P b.centerPoint) (D ⟨1, 0, 0⟩) (D ⟨0, 1, 0⟩) (D ⟨0, 0, 1⟩)).Valid ∧
    (OBB.setFromCore b.halfSize (P b.centerPoint) (D ⟨1, 0, 0⟩) (D ⟨0, 1, 0⟩) (D ⟨0, 0, 1⟩)).points =
      P '' Spec.box b.minPoint b.maxPoint := by
  have hf := h.frame h0 hs (unit_frame (α := ℝ))
  have hl : V3.dot (D ⟨1, 0, 0⟩) (D ⟨1, 0, 0⟩) = s * s := by rw [h.dot hs]; simp [V3.dot]
  rw [setFromCore_frame h0 hl hf]
  obtain ⟨e1, hv⟩ := C66_ofAABB b hb
  constructor
  · refine ⟨hf, ?_, ?_, ?_⟩
    · exact mul_nonneg h0.le hv.rx
    · exact mul_nonneg h0.le hv.ry
    · exact mul_nonneg h0.le hv.rz
  · rw [← e1]; exact h.image_obb h0 _ _ _ _ _

theorem scales_quat {q : Quat ℝ} (hq : Quat.normSq q = 1) : Spec.Scales (Mat3.mulVec (Quat.toFloat3x3 q)) 1 := by
  intro p r
  have hsub : Mat3.mulVec (Quat.toFloat3x3 q) p - Mat3.mulVec (Quat.toFloat3x3 q) r = Quat.transform q (p - r) := by
    show _ = Mat3.mulVec (Quat.toFloat3x3 q) (p - r)
    ext <;> simp [Mat3.mulVec] <;> ring
  show lenSq (Mat3.mulVec (Quat.toFloat3x3 q) p - Mat3.mulVec (Quat.toFloat3x3 q) r) = 1 * 1 * lenSq (p - r)
  rw [hsub, (Quat.C40_isometry q hq (p - r) (p - r)).2.1]; ring

/-- `AABB::Transform` and `OBB::SetFrom(AABB, matrix)`: for a matrix which scales all distances by `s > 0` (rotation or
reflection, translation and uniform scale) the result is a valid oriented box whose points are exactly the images of the
points of the axis aligned box. -/
theorem C66_setFrom (b : AABB ℝ) (hb : b.Proper) (s : ℝ) (h0 : 0 < s) :
    (∀ m : Mat3 ℝ, Spec.Scales (Mat3.mulVec m) s →
      (OBB.setFrom3 b m).Valid ∧ (OBB.setFrom3 b m).points = Mat3.mulVec m '' Spec.box b.minPoint b.maxPoint) ∧
    (∀ m : Mat34 ℝ, Spec.Scales (Mat34.mulPos m) s →
      (OBB.setFrom34 b m).Valid ∧ (OBB.setFrom34 b m).points = Mat34.mulPos m '' Spec.box b.minPoint b.maxPoint) ∧
    (∀ m : Mat4 ℝ, Spec.Scales (Mat4.mulPos m) s →
      (OBB.setFrom4 b m).Valid ∧ (OBB.setFrom4 b m).points = Mat4.mulPos m '' Spec.box b.minPoint b.maxPoint) ∧
    (∀ q : Quat ℝ, Quat.normSq q = 1 →
      (OBB.setFromQuat b q).Valid ∧ (OBB.setFromQuat b q).points = Quat.transform q '' Spec.box b.minPoint b.maxPoint) := by
  have h3 : ∀ (s : ℝ), 0 < s → ∀ m : Mat3 ℝ, Spec.Scales (Mat3.mulVec m) s →
      (OBB.setFrom3 b m).Valid ∧ (OBB.setFrom3 b m).points = Mat3.mulVec m '' Spec.box b.minPoint b.maxPoint := by
    intro s h0 m hm
    have := setFromCore_spec (affPair3 m) h0 hm b hb
    have c0 : Mat3.mulVec m ⟨1, 0, 0⟩ = Mat3.col m 0 := by ext <;> simp [Mat3.mulVec, Mat3.col]
    have c1 : Mat3.mulVec m ⟨0, 1, 0⟩ = Mat3.col m 1 := by ext <;> simp [Mat3.mulVec, Mat3.col]
    have c2 : Mat3.mulVec m ⟨0, 0, 1⟩ = Mat3.col m 2 := by ext <;> simp [Mat3.mulVec, Mat3.col]
    rw [c0, c1, c2] at this
    exact this
  refine ⟨h3 s h0, fun m hm => ?_, fun m hm => ?_, fun q hq => ?_⟩
  · have := setFromCore_spec (affPair34 m) h0 hm b hb
    have c0 : Mat34.mulDir m ⟨1, 0, 0⟩ = ⟨m 0 0, m 1 0, m 2 0⟩ := by ext <;> simp [Mat34.mulDir]
    have c1 : Mat34.mulDir m ⟨0, 1, 0⟩ = ⟨m 0 1, m 1 1, m 2 1⟩ := by ext <;> simp [Mat34.mulDir]
    have c2 : Mat34.mulDir m ⟨0, 0, 1⟩ = ⟨m 0 2, m 1 2, m 2 2⟩ := by ext <;> simp [Mat34.mulDir]
    rw [c0, c1, c2] at this
    exact this
  · have := setFromCore_spec (affPair4 m) h0 hm b hb
    have c0 : Mat4.mulDir m ⟨1, 0, 0⟩ = ⟨m 0 0, m 1 0, m 2 0⟩ := by ext <;> simp [Mat4.mulDir]
    have c1 : Mat4.mulDir m ⟨0, 1, 0⟩ = ⟨m 0 1, m 1 1, m 2 1⟩ := by ext <;> simp [Mat4.mulDir]
    have c2 : Mat4.mulDir m ⟨0, 0, 1⟩ = ⟨m 0 2, m 1 2, m 2 2⟩ := by ext <;> simp [Mat4.mulDir]
    rw [c0, c1, c2] at this
    exact this
  · exact h3 1 one_pos (Quat.toFloat3x3 q) (scales_quat hq)

/-- A rotation by a 3-4-5 angle combined with a scale by two and a translation. -/
example : Spec.Scales (Mat34.mulPos !![6/5, -8/5, 0, 1; 8/5, 6/5, 0, 2; 0, 0, 2, 3]) 2 := by
  intro p q
  simp [distSq_eq, Mat34.mulPos]; ring

theorem transformCore_spec {P D : V3 ℝ → V3 ℝ} (h : AffPair P D) {s : ℝ} (h0 : 0 < s) (hs : Spec.Scales P s) (o : OBB ℝ)
    (ho : o.Valid) (hx : 1 / 1000000 < s * o.r.x) (hy : 1 / 1000000 < s * o.r.y) (hz : 1 / 1000000 < s * o.r.z) :
    (o.transformCore P D).Valid ∧ (o.transformCore P D).points = P '' o.points := by
  have hf := h.frame h0 hs ho.frame
  have key : ∀ (a : V3 ℝ) (r : ℝ), V3.dot a a = 1 → 1 / 1000000 < s * r → f3Normalize (D (r • a)) = ((1 / s) • D a, s * r) := by
    intro a r ha hr
    have hr0 : 0 < r := by
      by_contra hc
      push Not at hc
      have := mul_nonpos_of_nonneg_of_nonpos h0.le hc
      linarith
    have hl : len (D (r • a)) = s * r := by
      unfold len lenSq
      rw [h.dot hs, dot_smul, smul_dot, ha, show s * s * (r * (r * 1)) = (s * r) * (s * r) by ring, Real.sqrt_mul_self (mul_pos h0 hr0).le]
    rw [f3Normalize_pos (by rw [hl]; exact hr), hl, h.smul]
    congr 1
    ext <;> simp <;> field_simp
  have e : o.transformCore P D = ⟨P o.pos, s • o.r, (1 / s) • D o.axis0, (1 / s) • D o.axis1, (1 / s) • D o.axis2⟩ := by
    unfold OBB.transformCore
    rw [key _ _ ho.frame.uu hx, key _ _ ho.frame.vv hy, key _ _ ho.frame.ww hz]
    rfl
  rw [e]
  refine ⟨⟨hf, mul_nonneg h0.le ho.rx, mul_nonneg h0.le ho.ry, mul_nonneg h0.le ho.rz⟩, h.image_obb h0 _ _ _ _ _⟩

/-- `Transform`: for a matrix which scales all distances by `s > 0`, and a box none of whose scaled half sizes is below
the tolerance `1e-6` of `Normalize`, the result is a valid oriented box and its points are exactly the images of the old
points. -/
theorem C66_transform_partial (o : OBB ℝ) (ho : o.Valid) (s : ℝ) (h0 : 0 < s) (hx : 1 / 1000000 < s * o.r.x)
    (hy : 1 / 1000000 < s * o.r.y) (hz : 1 / 1000000 < s * o.r.z) :
    (∀ m : Mat3 ℝ, Spec.Scales (Mat3.mulVec m) s → (o.transform3 m).Valid ∧ (o.transform3 m).points = Mat3.mulVec m '' o.points) ∧
    (∀ m : Mat34 ℝ, Spec.Scales (Mat34.mulPos m) s → (o.transform34 m).Valid ∧ (o.transform34 m).points = Mat34.mulPos m '' o.points) ∧
    (∀ m : Mat4 ℝ, Spec.Scales (Mat4.mulPos m) s → (o.transform4 m).Valid ∧ (o.transform4 m).points = Mat4.mulPos m '' o.points) ∧
    (∀ q : Quat ℝ, Quat.normSq q = 1 → s = 1 → (o.transformQuat q).Valid ∧ (o.transformQuat q).points = Quat.transform q '' o.points) ∧
    (∀ c : V3 ℝ, (o.scale c s).Valid ∧ (o.scale c s).points = (fun p => c + s • (p - c)) '' o.points) := by
  refine ⟨fun m hm => transformCore_spec (affPair3 m) h0 hm o ho hx hy hz, fun m hm => transformCore_spec (affPair34 m) h0 hm o ho hx hy hz,
    fun m hm => transformCore_spec (affPair4 m) h0 hm o ho hx hy hz,
    fun q hq hs => ?_, fun c => ?_⟩
  · exact transformCore_spec (affPair3 (Quat.toFloat3x3 q)) h0 (hs ▸ scales_quat hq) o ho hx hy hz
  have e : ∀ p, Mat34.mulPos (Mat34.scaleAround (f3Scalar s) c) p = c + s • (p - c) := by
    intro p
    ext <;> simp [Mat34.mulPos, Mat34.scaleAround, Mat34.mulTranslate, Mat34.translateScale, Mat34.setTranslatePart, Mat.setAt, f3Scalar] <;> ring
  have hm : Spec.Scales (Mat34.mulPos (Mat34.scaleAround (f3Scalar s) c)) s := by
    intro p q
    rw [e, e]; simp [distSq_eq]; ring
  have := transformCore_spec (affPair34 (Mat34.scaleAround (f3Scalar s) c)) h0 hm o ho hx hy hz
  have ef : Mat34.mulPos (Mat34.scaleAround (f3Scalar s) c) = fun p => c + s • (p - c) := funext e
  rw [← ef]
  exact this

example : (⟨⟨0, 0, 0⟩, ⟨1, 2, 3⟩, ⟨3/5, 4/5, 0⟩, ⟨-4/5, 3/5, 0⟩, ⟨0, 0, 1⟩⟩ : OBB ℝ).Valid ∧ (1 : ℝ) / 1000000 < 2 * 1 := by
  refine ⟨⟨⟨?_, ?_, ?_, ?_, ?_, ?_⟩, ?_, ?_, ?_⟩, ?_⟩ <;> norm_num [dot]

/-- A flat box loses its orientation in `Transform`, even when the matrix is the identity: the axis of zero extent is
replaced by the x axis, the axes are no longer orthogonal, and points of the box are no longer contained. -/
theorem C66_transform_flat_violation : ∃ (o : OBB ℝ) (p : V3 ℝ), o.Valid ∧ p ∈ o.points ∧ o.contains p = true ∧
    (o.transform34 Mat34.identity).contains p = false ∧
    ¬ Spec.Frame (o.transform34 Mat34.identity).axis0 (o.transform34 Mat34.identity).axis1 (o.transform34 Mat34.identity).axis2 := by
  let o : OBB ℝ := ⟨0, ⟨0, 1, 1⟩, ⟨0, 1, 0⟩, ⟨1, 0, 0⟩, ⟨0, 0, 1⟩⟩
  have hv : o.Valid := by
    refine ⟨⟨?_, ?_, ?_, ?_, ?_, ?_⟩, ?_, ?_, ?_⟩ <;> norm_num [dot, o]
  have hid : ∀ v : V3 ℝ, Mat34.mulDir Mat34.identity v = v := by
    intro v; ext <;> simp [Mat34.mulDir, Mat34.identity]
  have hp : (⟨1, 0, 0⟩ : V3 ℝ) ∈ o.points := ⟨0, 1, 0, by simp [o], by simp [o], by simp [o], by simp [o], by simp [o], by simp [o], by ext <;> simp [o]⟩
  have n0 : f3Normalize (Mat34.mulDir Mat34.identity (o.r.x • o.axis0)) = (⟨1, 0, 0⟩, 0) := by
    rw [hid, f3Normalize_neg]
    have : o.r.x • o.axis0 = 0 := by ext <;> simp [o]
    rw [this]; norm_num [len, lenSq, dot]
  have n1 : f3Normalize (Mat34.mulDir Mat34.identity (o.r.y • o.axis1)) = (⟨1, 0, 0⟩, 1) := by
    have e : o.r.y • o.axis1 = ⟨1, 0, 0⟩ := by ext <;> simp [o]
    have l : len (⟨1, 0, 0⟩ : V3 ℝ) = 1 := by simp [len, lenSq, dot]
    rw [hid, e, f3Normalize_pos (by rw [l]; norm_num), l]
    congr 1; ext <;> simp
  refine ⟨o, ⟨1, 0, 0⟩, hv, hp, (C36_contains o hv.frame _).2 hp, ?_, ?_⟩
  · simp only [OBB.contains, OBB.transform34, OBB.transformCore, n0]
    have : ¬ absF (dot ((⟨1, 0, 0⟩ : V3 ℝ) - Mat34.mulPos Mat34.identity o.pos) ⟨1, 0, 0⟩) ≤ 0 := by
      simp [absF_eq, dot, Mat34.mulPos, Mat34.identity, o]
    simp [this]
  · intro hf
    have := hf.uv
    simp only [OBB.transform34, OBB.transformCore, n0, n1] at this
    norm_num [dot] at this

/-- `MinimalEnclosingSphere` contains the box, and no smaller ball does. -/
theorem C66_minimalEnclosingSphere (o : OBB ℝ) (h : o.Valid) :
    o.points ⊆ Spec.ball o.minimalEnclosingSphere.pos o.minimalEnclosingSphere.r ∧ 0 ≤ o.minimalEnclosingSphere.r ∧
    ∀ (c : V3 ℝ) (R : ℝ), 0 ≤ R → o.points ⊆ Spec.ball c R → o.minimalEnclosingSphere.r ≤ R := by
  obtain ⟨hf, hx, hy, hz⟩ := h
  have hr : o.minimalEnclosingSphere.r * o.minimalEnclosingSphere.r = o.r.x * o.r.x + o.r.y * o.r.y + o.r.z * o.r.z := by
    show len o.halfDiagonal * len o.halfDiagonal = _
    rw [len_mul_self, lenSq, hf.dot_eq]
    have := hf.coords 0 o.r.x o.r.y o.r.z
    have e : (0 : V3 ℝ) + o.r.x • o.axis0 + o.r.y • o.axis1 + o.r.z • o.axis2 - 0 = o.halfDiagonal := by
      ext <;> simp [OBB.halfDiagonal]
    rw [e] at this
    rw [this.1, this.2.1, this.2.2]
  refine ⟨?_, len_nonneg _, ?_⟩
  · intro p hp
    rw [OBB.points, hf.mem_obb] at hp
    show lenSq (p - o.pos) ≤ _
    rw [hr, lenSq, hf.dot_eq]
    have q : ∀ a b : ℝ, |a| ≤ b → a * a ≤ b * b := by
      intro a b hab
      have := abs_le.1 hab
      nlinarith [abs_nonneg a]
    linarith [q _ _ hp.1, q _ _ hp.2.1, q _ _ hp.2.2]
  · intro c R hR hsub
    have ha : o.pos + o.halfDiagonal ∈ Spec.ball c R := hsub ⟨_, _, _, by linarith, le_rfl, by linarith, le_rfl, by linarith, le_rfl,
      by ext <;> simp [OBB.halfDiagonal] <;> ring⟩
    have hb : o.pos - o.halfDiagonal ∈ Spec.ball c R := hsub ⟨-o.r.x, -o.r.y, -o.r.z, le_rfl, by linarith, le_rfl, by linarith, le_rfl, by linarith,
      by ext <;> simp [OBB.halfDiagonal] <;> ring⟩
    rw [mem_ball_iff hR] at ha hb
    have t := dist_triangle (o.pos + o.halfDiagonal) c (o.pos - o.halfDiagonal)
    rw [V3.dist_comm c] at t
    have e : V3.dist (o.pos + o.halfDiagonal) (o.pos - o.halfDiagonal) = 2 * len o.halfDiagonal := by
      rw [dist_eq_len]
      have : o.pos + o.halfDiagonal - (o.pos - o.halfDiagonal) = (2 : ℝ) • o.halfDiagonal := by ext <;> simp <;> ring
      rw [this, len_smul]; norm_num
    show len o.halfDiagonal ≤ R
    linarith

example := C66_minimalEnclosingSphere ⟨⟨0, 0, 0⟩, ⟨1, 2, 3⟩, ⟨3/5, 4/5, 0⟩, ⟨-4/5, 3/5, 0⟩, ⟨0, 0, 1⟩⟩
  ⟨⟨by norm_num [dot], by norm_num [dot], by norm_num [dot], by norm_num [dot], by norm_num [dot], by norm_num [dot]⟩,
    by norm_num, by norm_num, by norm_num⟩

/-- `MaximalContainedSphere` is in the box, and no larger ball is. -/
theorem C66_maximalContainedSphere (o : OBB ℝ) (h : o.Valid) :
    Spec.ball o.maximalContainedSphere.pos o.maximalContainedSphere.r ⊆ o.points ∧
    ∀ (c : V3 ℝ) (R : ℝ), 0 ≤ R → Spec.ball c R ⊆ o.points → R ≤ o.maximalContainedSphere.r := by
  obtain ⟨hf, hx, hy, hz⟩ := h
  have e : o.maximalContainedSphere.r = min (min o.r.x o.r.y) o.r.z := by
    simp [OBB.maximalContainedSphere, min3, min2_eq]
  have hm : 0 ≤ min (min o.r.x o.r.y) o.r.z := le_min (le_min hx hy) hz
  rw [e]
  constructor
  · intro p hp
    have hp' : V3.dot (p - o.pos) (p - o.pos) ≤ min (min o.r.x o.r.y) o.r.z * min (min o.r.x o.r.y) o.r.z := hp
    rw [hf.dot_eq] at hp'
    rw [OBB.points, hf.mem_obb]
    set a := dot (p - o.pos) o.axis0
    set b := dot (p - o.pos) o.axis1
    set c := dot (p - o.pos) o.axis2
    have q : ∀ x : ℝ, x * x ≤ min (min o.r.x o.r.y) o.r.z * min (min o.r.x o.r.y) o.r.z → |x| ≤ min (min o.r.x o.r.y) o.r.z :=
      fun x hx => abs_le_of_sq_le_sq (by nlinarith) hm
    exact ⟨(q a (by nlinarith)).trans ((min_le_left _ _).trans (min_le_left _ _)),
      (q b (by nlinarith)).trans ((min_le_left _ _).trans (min_le_right _ _)), (q c (by nlinarith)).trans (min_le_right _ _)⟩
  · intro c R hR hsub
    have key : ∀ (a : V3 ℝ), V3.dot a a = 1 → ∀ r : ℝ, (∀ p ∈ o.points, |dot (p - o.pos) a| ≤ r) → R ≤ r := by
      intro a ha r H
      have m : ∀ t : ℝ, |t| ≤ R → c + t • a ∈ o.points := by
        intro t ht
        apply hsub
        show lenSq (c + t • a - c) ≤ R * R
        have : c + t • a - c = t • a := by ext <;> simp
        rw [this, lenSq, dot_smul, smul_dot, ha]
        have := abs_le.1 ht
        nlinarith
      have h1 := abs_le.1 (H _ (m R (by rw [abs_of_nonneg hR])))
      have h2 := abs_le.1 (H _ (m (-R) (by rw [abs_neg, abs_of_nonneg hR])))
      have g : ∀ t : ℝ, dot (c + t • a - o.pos) a = dot (c - o.pos) a + t := by
        intro t
        have : c + t • a - o.pos = (c - o.pos) + t • a := by ext <;> simp <;> ring
        rw [this, add_dot, smul_dot, ha]; ring
      rw [g] at h1 h2
      linarith [h1.2, h2.1]
    refine le_min (le_min ?_ ?_) ?_
    · exact key _ hf.uu _ fun p hp => ((hf.mem_obb _ _ _).1 hp).1
    · exact key _ hf.vv _ fun p hp => ((hf.mem_obb _ _ _).1 hp).2.1
    · exact key _ hf.ww _ fun p hp => ((hf.mem_obb _ _ _).1 hp).2.2


example := C66_maximalContainedSphere ⟨⟨0, 0, 0⟩, ⟨1, 2, 3⟩, ⟨3/5, 4/5, 0⟩, ⟨-4/5, 3/5, 0⟩, ⟨0, 0, 1⟩⟩
  ⟨⟨by norm_num [dot], by norm_num [dot], by norm_num [dot], by norm_num [dot], by norm_num [dot], by norm_num [dot]⟩,
    by norm_num, by norm_num, by norm_num⟩

/-! ### Extreme points and the enclosing box of a fixed orientation -/

/-- What the state of the loop means after the points `pre`. -/
def ExtInv (dir : V3 ℝ) (pre : List (V3 ℝ)) (st : ℕ × ℕ × ℕ × Ext ℝ × Ext ℝ) : Prop :=
  st.1 = pre.length ∧ (pre = [] → st.2 = (0, 0, ⊤, ⊥)) ∧
  (pre ≠ [] → ∃ lo hi : ℝ, st.2.2.2.1 = Ext.of lo ∧ st.2.2.2.2 = Ext.of hi ∧
    (∃ p, pre[st.2.1]? = some p ∧ dot p dir = lo) ∧ (∃ p, pre[st.2.2.1]? = some p ∧ dot p dir = hi) ∧
    (∀ p ∈ pre, lo ≤ dot p dir ∧ dot p dir ≤ hi) ∧
    (∀ k < st.2.1, ∀ p, pre[k]? = some p → lo < dot p dir) ∧ (∀ k < st.2.2.1, ∀ p, pre[k]? = some p → dot p dir < hi))

theorem extremeStep_inv {dir : V3 ℝ} {pre : List (V3 ℝ)} {st : ℕ × ℕ × ℕ × Ext ℝ × Ext ℝ} (h : ExtInv dir pre st) (p : V3 ℝ) :
    ExtInv dir (pre ++ [p]) (OBB.extremeStep dir st p) := by
  obtain ⟨n, i, j, lo, hi⟩ := st
  obtain ⟨h1, h2, h3⟩ := h
  simp only at h1 h2 h3
  refine ⟨by simp [OBB.extremeStep, h1], by simp, fun _ => ?_⟩
  rcases pre with _ | ⟨q, qs⟩
  · have := h2 rfl
    simp only [Prod.mk.injEq] at this
    obtain ⟨rfl, rfl, rfl, rfl⟩ := this
    have l1 : Ext.of (dot p dir) < ⊤ := by simp [Ext.of]; exact WithBot.coe_lt_coe.2 (WithTop.coe_lt_top _)
    have l2 : (⊥ : Ext ℝ) < Ext.of (dot p dir) := by simp [Ext.of]
    refine ⟨dot p dir, dot p dir, ?_, ?_, ⟨p, ?_, rfl⟩, ⟨p, ?_, rfl⟩, ?_, ?_, ?_⟩
    · simp [OBB.extremeStep, l1]
    · simp [OBB.extremeStep, l2]
    · simp [OBB.extremeStep, l1, h1]
    · simp [OBB.extremeStep, l2, h1]
    · simp
    · simp [OBB.extremeStep, l1, h1]
    · simp [OBB.extremeStep, l2, h1]
  · obtain ⟨lo', hi', rfl, rfl, ⟨a, ha, ha'⟩, ⟨b, hb, hb'⟩, hall, hlo, hhi⟩ := h3 (by simp)
    set pre := q :: qs with hpre
    have ia : i < pre.length := (List.getElem?_eq_some_iff.1 ha).1
    have ib : j < pre.length := (List.getElem?_eq_some_iff.1 hb).1
    have up : ∀ (k : ℕ) (x : V3 ℝ), k < pre.length → ((pre ++ [p])[k]? = some x ↔ pre[k]? = some x) := by
      intro k x hk
      rw [List.getElem?_append_left hk]
    have lt : ∀ a b : ℝ, Ext.of a < Ext.of b ↔ a < b := by
      intro a b
      rw [← not_le, ← not_le, Ext.of_le]
    have last : (pre ++ [p])[pre.length]? = some p := by simp
    refine ⟨if dot p dir < lo' then dot p dir else lo', if hi' < dot p dir then dot p dir else hi', ?_, ?_, ?_, ?_, ?_, ?_, ?_⟩
    · simp only [OBB.extremeStep, lt]; split_ifs <;> rfl
    · simp only [OBB.extremeStep, gt_iff_lt, lt]; split_ifs <;> rfl
    · simp only [OBB.extremeStep, lt, h1]
      split_ifs
      · exact ⟨p, last, rfl⟩
      · exact ⟨a, (up _ _ ia).2 ha, ha'⟩
    · simp only [OBB.extremeStep, gt_iff_lt, lt, h1]
      split_ifs
      · exact ⟨p, last, rfl⟩
      · exact ⟨b, (up _ _ ib).2 hb, hb'⟩
    · intro x hx
      rcases List.mem_append.1 hx with hx | hx
      · have := hall x hx
        constructor <;> split_ifs <;> linarith
      · rw [List.mem_singleton.1 hx]
        constructor <;> split_ifs <;> linarith
    · simp only [OBB.extremeStep, lt, h1]
      intro k hk x hx
      split_ifs at hk ⊢ with hc
      · have := hall x (List.mem_of_getElem? ((up k x hk).1 hx))
        linarith
      · exact hlo k hk x ((up k x (hk.trans ia)).1 hx)
    · simp only [OBB.extremeStep, gt_iff_lt, lt, h1]
      intro k hk x hx
      split_ifs at hk ⊢ with hc
      · have := hall x (List.mem_of_getElem? ((up k x hk).1 hx))
        linarith
      · exact hhi k hk x ((up k x (hk.trans ib)).1 hx)

theorem extreme_inv {dir : V3 ℝ} (ps : List (V3 ℝ)) : ∀ (pre : List (V3 ℝ)) (st : ℕ × ℕ × ℕ × Ext ℝ × Ext ℝ), ExtInv dir pre st →
    ExtInv dir (pre ++ ps) (ps.foldl (OBB.extremeStep dir) st) := by
  induction ps with
  | nil => intro pre st h; simpa using h
  | cons p ps ih =>
    intro pre st h
    have := ih (pre ++ [p]) _ (extremeStep_inv h p)
    simpa using this

/-- `OBB::ExtremePointsAlongDirection`: for a nonempty array the two indices are the first at which the smallest and the
largest projection occur, and the two values are these projections. -/
theorem C66_extremePointsAlongDirection (dir : V3 ℝ) (ps : List (V3 ℝ)) (hne : ps ≠ []) :
    ∃ (i j : ℕ) (lo hi : ℝ) (p q : V3 ℝ), OBB.extremePointsAlongDirection dir ps = (i, j, Ext.of lo, Ext.of hi) ∧
      ps[i]? = some p ∧ dot p dir = lo ∧ ps[j]? = some q ∧ dot q dir = hi ∧ (∀ x ∈ ps, lo ≤ dot x dir ∧ dot x dir ≤ hi) ∧
      (∀ k < i, ∀ x, ps[k]? = some x → lo < dot x dir) ∧ (∀ k < j, ∀ x, ps[k]? = some x → dot x dir < hi) := by
  have h := extreme_inv (dir := dir) ps [] (0, 0, 0, ⊤, ⊥) ⟨rfl, fun _ => rfl, fun h => absurd rfl h⟩
  simp only [List.nil_append] at h
  obtain ⟨lo, hi, e1, e2, ⟨p, hp, hp'⟩, ⟨q, hq, hq'⟩, h3, h4, h5⟩ := h.2.2 hne
  exact ⟨_, _, lo, hi, p, q, by unfold OBB.extremePointsAlongDirection; rw [← e1, ← e2], hp, hp', hq, hq', h3, h4, h5⟩

example := C66_extremePointsAlongDirection ⟨1, 2, 3⟩ [⟨0, 0, 1⟩, ⟨1, 0, 0⟩, ⟨0, 5, 0⟩] (by simp)

/-- `FixedOrientationEnclosingOBB` for two orthonormal directions and a nonempty array of points: a box with these two
axes which contains all the points, and which is the smallest such: every box around the points whose axes are these
three directions contains it. -/
theorem C66_fixedOrientationEnclosing (ps : List (V3 ℝ)) (hne : ps ≠ []) (d0 d1 : V3 ℝ) (h0 : dot d0 d0 = 1) (h1 : dot d1 d1 = 1)
    (h01 : dot d0 d1 = 0) : ∃ o, OBB.fixedOrientationEnclosing ps d0 d1 = some o ∧ o.Valid ∧ o.axis0 = d0 ∧ o.axis1 = d1 ∧
      (∀ p ∈ ps, p ∈ o.points) ∧
      ∀ (c r : V3 ℝ), (∀ p ∈ ps, p ∈ Spec.obb c o.axis0 o.axis1 o.axis2 r) → o.points ⊆ Spec.obb c o.axis0 o.axis1 o.axis2 r := by
  have hc : f3Normalized (cross d0 d1) = cross d0 d1 := by
    apply f3Normalized_unit
    have : lenSq (cross d0 d1) = dot d0 d0 * dot d1 d1 - dot d0 d1 * dot d0 d1 := by simp [lenSq, cross, dot]; ring
    rw [this, h0, h1, h01]; ring
  have hf : Spec.Frame d0 d1 (cross d0 d1) := by
    refine ⟨h0, h1, ?_, h01, ?_, ?_⟩
    · have : dot (cross d0 d1) (cross d0 d1) = dot d0 d0 * dot d1 d1 - dot d0 d1 * dot d0 d1 := by simp [cross, dot]; ring
      rw [this, h0, h1, h01]; ring
    · simp [cross, dot]; ring
    · simp [cross, dot]; ring
  set d2 := cross d0 d1
  obtain ⟨i0, j0, l0, u0, p0, q0, e0, a0, a0', b0, b0', c0, -, -⟩ := C66_extremePointsAlongDirection d0 ps hne
  obtain ⟨i1, j1, l1, u1, p1, q1, e1, a1, a1', b1, b1', c1, -, -⟩ := C66_extremePointsAlongDirection d1 ps hne
  obtain ⟨i2, j2, l2, u2, p2, q2, e2, a2, a2', b2, b2', c2, -, -⟩ := C66_extremePointsAlongDirection d2 ps hne
  have m : ∀ {i : ℕ} {p : V3 ℝ}, ps[i]? = some p → p ∈ ps := fun h => List.mem_of_getElem? h
  set k0 := (u0 - l0) * (1 / 2) with hk0
  set k1 := (u1 - l1) * (1 / 2) with hk1
  set k2 := (u2 - l2) * (1 / 2) with hk2
  let o : OBB ℝ := ⟨(l0 + k0) • d0 + (l1 + k1) • d1 + (l2 + k2) • d2, ⟨k0, k1, k2⟩, d0, d1, d2⟩
  have ho : OBB.fixedOrientationEnclosing ps d0 d1 = some o := by
    unfold OBB.fixedOrientationEnclosing
    have hd : cross d0 d1 = d2 := rfl
    simp only [hd, hc, e0, e1, e2]
    rfl
  have r0 := c0 _ (m a0)
  have r1 := c1 _ (m a1)
  have r2 := c2 _ (m a2)
  have hv : o.Valid := ⟨hf, by show 0 ≤ k0; linarith, by show 0 ≤ k1; linarith, by show 0 ≤ k2; linarith⟩
  have cen : dot o.pos d0 = l0 + k0 ∧ dot o.pos d1 = l1 + k1 ∧ dot o.pos d2 = l2 + k2 := by
    have := hf.coords 0 (l0 + k0) (l1 + k1) (l2 + k2)
    have e : (0 : V3 ℝ) + (l0 + k0) • d0 + (l1 + k1) • d1 + (l2 + k2) • d2 - 0 = o.pos := by
      ext <;> simp [o]
    rw [e] at this
    exact this
  have mem : ∀ (c r : V3 ℝ) (p : V3 ℝ), p ∈ Spec.obb c d0 d1 d2 r ↔
      (|dot p d0 - dot c d0| ≤ r.x ∧ |dot p d1 - dot c d1| ≤ r.y ∧ |dot p d2 - dot c d2| ≤ r.z) := by
    intro c r p
    rw [hf.mem_obb, sub_dot, sub_dot, sub_dot]
  refine ⟨o, ho, hv, rfl, rfl, ?_, ?_⟩
  · intro p hp
    have t0 := c0 p hp
    have t1 := c1 p hp
    have t2 := c2 p hp
    refine (mem o.pos o.r p).2 ?_
    rw [cen.1, cen.2.1, cen.2.2]
    refine ⟨abs_le.2 ⟨?_, ?_⟩, abs_le.2 ⟨?_, ?_⟩, abs_le.2 ⟨?_, ?_⟩⟩ <;> simp only [o] <;> linarith
  · intro c r H p hp
    have hp := (mem o.pos o.r p).1 hp
    rw [cen.1, cen.2.1, cen.2.2] at hp
    have G : ∀ x ∈ ps, _ := fun x hx => (mem c r x).1 (H x hx)
    have g0 := abs_le.1 (G _ (m a0)).1
    have g0' := abs_le.1 (G _ (m b0)).1
    have g1 := abs_le.1 (G _ (m a1)).2.1
    have g1' := abs_le.1 (G _ (m b1)).2.1
    have g2 := abs_le.1 (G _ (m a2)).2.2
    have g2' := abs_le.1 (G _ (m b2)).2.2
    have f0 := abs_le.1 hp.1
    have f1 := abs_le.1 hp.2.1
    have f2 := abs_le.1 hp.2.2
    simp only [o] at f0 f1 f2
    refine (mem c r p).2 ⟨abs_le.2 ⟨?_, ?_⟩, abs_le.2 ⟨?_, ?_⟩, abs_le.2 ⟨?_, ?_⟩⟩ <;> linarith

example : dot (⟨3/5, 4/5, 0⟩ : V3 ℝ) ⟨3/5, 4/5, 0⟩ = 1 ∧ dot (⟨-4/5, 3/5, 0⟩ : V3 ℝ) ⟨-4/5, 3/5, 0⟩ = 1 ∧
    dot (⟨3/5, 4/5, 0⟩ : V3 ℝ) ⟨-4/5, 3/5, 0⟩ = 0 := by norm_num [dot]

end MGL
