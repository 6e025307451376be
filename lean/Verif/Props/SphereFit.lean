import Verif.Proofs.Sphere
import Verif.Props.Mat3

/-! C29: spheres through points. -/

namespace MGL
open V3

theorem fit3_spec (ab ac : V3 ℝ) :
    (Sphere.fit3 ab ac = none ↔ lenSq (cross ab ac) < 5 / 1000) ∧
    ∀ s t, Sphere.fit3 ab ac = some (s, t) →
      2 * dot ab (s • ab + t • ac) = dot ab ab ∧ 2 * dot ac (s • ab + t • ac) = dot ac ac ∧
      s = dot ac ac * (dot ab ab - dot ab ac) * (1 / 2 / lenSq (cross ab ac)) ∧
      t = dot ab ab * (dot ac ac - dot ab ac) * (1 / 2 / lenSq (cross ab ac)) := by
  have hl := lagrange ab ac
  have hden : dot ab ab * dot ac ac - dot ab ac * dot ab ac = lenSq (cross ab ac) := by
    have : lenSq ab * lenSq ac = dot ab ab * dot ac ac := rfl
    linarith
  have hnn := lenSq_nonneg (cross ab ac)
  have E : Sphere.fit3 ab ac = if equalAbs (lenSq (cross ab ac)) 0 (5 / 1000) then none else
      some ((dot ac ac * dot ab ab - dot ab ac * dot ac ac) * (1 / 2 / lenSq (cross ab ac)),
        (dot ac ac * dot ab ab - dot ab ac * dot ab ab) * (1 / 2 / lenSq (cross ab ac))) := by
    unfold Sphere.fit3
    simp only [hden]
  have hE : equalAbs (lenSq (cross ab ac)) 0 (5 / 1000) = true ↔ lenSq (cross ab ac) < 5 / 1000 := by
    unfold equalAbs
    rw [decide_eq_true_iff, sub_zero, absF_eq, abs_of_nonneg hnn]
  constructor
  · rw [E, ← hE]
    split_ifs with h <;> simp [h]
  · intro s t h0
    rw [E] at h0
    split_ifs at h0 with h
    have h0 := Option.some.inj h0
    have hs : _ = s := congrArg Prod.fst h0
    have ht : _ = t := congrArg Prod.snd h0
    dsimp only at hs ht
    have hpos : 0 < lenSq (cross ab ac) := by
      by_contra hc
      exact h (hE.2 (by linarith))
    refine ⟨?_, ?_, ?_, ?_⟩
    · rw [dot_add, dot_smul, dot_smul, ← hs, ← ht]
      field_simp
      rw [← hden]; ring
    · rw [dot_add, dot_smul, dot_smul, dot_comm ac ab, ← hs, ← ht]
      field_simp
      rw [← hden]; ring
    · rw [← hs]; ring
    · rw [← ht]; ring

/-- A point with `2 ab·p = |ab|²` is equally far from `a` and from `b`. -/
theorem equidistant (a b p : V3 ℝ) (h : 2 * dot (b - a) p = dot (b - a) (b - a)) : distSq (a + p) b = lenSq p := by
  have : distSq (a + p) b = lenSq p - 2 * dot (b - a) p + dot (b - a) (b - a) := by
    simp only [distSq_eq, lenSq, dot]; simp; ring
  rw [this, h]; ring

theorem surface_of_center (a p : V3 ℝ) : distSq (a + p) a = lenSq p := by
  show lenSq _ = _; congr 1; ext <;> simp

/-- C29: the sphere through three points, when one is returned, passes through the three points and has its centre in
their plane. It fails exactly when the points are nearly collinear. -/
theorem C29_fit_three (a b c : V3 ℝ) :
    (Sphere.fitThrough3 a b c = none ↔ lenSq (cross (b - a) (c - a)) < 5 / 1000) ∧
    ∀ s, Sphere.fitThrough3 a b c = some s → 0 ≤ s.r ∧
      a ∈ Spec.sphereSurface s.pos s.r ∧ b ∈ Spec.sphereSurface s.pos s.r ∧ c ∈ Spec.sphereSurface s.pos s.r ∧
      dot (cross (b - a) (c - a)) (s.pos - a) = 0 := by
  obtain ⟨h1, h2⟩ := fit3_spec (b - a) (c - a)
  unfold Sphere.fitThrough3
  refine ⟨by rw [Option.map_eq_none_iff, h1], ?_⟩
  intro s hs
  rw [Option.map_eq_some_iff] at hs
  obtain ⟨⟨x, y⟩, hxy, rfl⟩ := hs
  obtain ⟨e1, e2, -, -⟩ := h2 x y hxy
  dsimp only
  have hl := len_mul_self (x • (b - a) + y • (c - a))
  refine ⟨len_nonneg _, ?_, ?_, ?_, ?_⟩
  · show distSq a _ = _
    rw [distSq_comm, surface_of_center, hl]
  · show distSq b _ = _
    rw [distSq_comm, equidistant a b _ e1, hl]
  · show distSq c _ = _
    rw [distSq_comm, equidistant a c _ e2, hl]
  · simp [dot, cross]; ring

theorem gram_det (a b c : V3 ℝ) : Matrix.det (!![dot a a, dot a b, dot a c; dot a b, dot b b, dot b c; dot a c, dot b c, dot c c]
    : Matrix (Fin 3) (Fin 3) ℝ) = dot a (cross b c) * dot a (cross b c) := by
  rw [Matrix.det_fin_three]
  simp [dot, cross]; ring

theorem fit4_spec (ab ac ad : V3 ℝ) :
    (Sphere.fit4 ab ac ad = none ↔ dot ab (cross ac ad) * dot ab (cross ac ad) < 1 / 10000) ∧
    ∀ v, Sphere.fit4 ab ac ad = some v →
      2 * dot ab (v.x • ab + v.y • ac + v.z • ad) = dot ab ab ∧ 2 * dot ac (v.x • ab + v.y • ac + v.z • ad) = dot ac ac ∧
      2 * dot ad (v.x • ab + v.y • ac + v.z • ad) = dot ad ad := by
  set m : Mat3 ℝ := !![dot ab ab, dot ab ac, dot ab ad; dot ab ac, dot ac ac, dot ac ad; dot ab ad, dot ac ad, dot ad ad] with hm
  have hs : Matrix.transpose m = m := by
    rw [hm]; ext i j; fin_cases i <;> fin_cases j <;> rfl
  obtain ⟨h1, h2⟩ := C37_inverseSymmetric m hs
  have hdet : Matrix.det m = dot ab (cross ac ad) * dot ab (cross ac ad) := gram_det ab ac ad
  constructor
  · unfold Sphere.fit4
    dsimp only
    rw [Option.map_eq_none_iff, h1, hdet, abs_of_nonneg (mul_self_nonneg _)]
  · intro v hv
    unfold Sphere.fit4 at hv
    dsimp only at hv
    rw [Option.map_eq_some_iff] at hv
    obtain ⟨i, hi, rfl⟩ := hv
    have h3 := (h2 i hi).2
    have en : ∀ r c : Fin 3, m r 0 * i 0 c + m r 1 * i 1 c + m r 2 * i 2 c = if r = c then 1 else 0 := by
      intro r c
      have := congrFun (congrFun h3 r) c
      fin_cases r <;> fin_cases c <;> simpa [Mat3.mul, Mat3.identity] using this
    have e0 : ∀ r, m r 0 * (Mat3.mulVec i ⟨dot ab ab * (1 / 2), dot ac ac * (1 / 2), dot ad ad * (1 / 2)⟩).x +
        m r 1 * (Mat3.mulVec i ⟨dot ab ab * (1 / 2), dot ac ac * (1 / 2), dot ad ad * (1 / 2)⟩).y +
        m r 2 * (Mat3.mulVec i ⟨dot ab ab * (1 / 2), dot ac ac * (1 / 2), dot ad ad * (1 / 2)⟩).z =
        (if r = 0 then dot ab ab else if r = 1 then dot ac ac else dot ad ad) * (1 / 2) := by
      intro r
      have g0 := en r 0
      have g1 := en r 1
      have g2 := en r 2
      simp only [Mat3.mulVec]
      have : ∀ p q s : ℝ, m r 0 * (i 0 0 * p + i 0 1 * q + i 0 2 * s) + m r 1 * (i 1 0 * p + i 1 1 * q + i 1 2 * s) +
          m r 2 * (i 2 0 * p + i 2 1 * q + i 2 2 * s) =
          (if r = 0 then 1 else 0) * p + (if r = 1 then 1 else 0) * q + (if r = 2 then 1 else 0) * s := by
        intro p q s
        rw [← g0, ← g1, ← g2]; ring
      rw [this]
      fin_cases r <;> simp
    generalize Mat3.mulVec i ⟨dot ab ab * (1 / 2), dot ac ac * (1 / 2), dot ad ad * (1 / 2)⟩ = v at *
    have a0 := e0 0
    have a1 := e0 1
    have a2 := e0 2
    simp [hm] at a0 a1 a2
    simp only [dot_add, dot_smul]
    refine ⟨by linarith, ?_, ?_⟩
    · rw [dot_comm ac ab]; linarith
    · rw [dot_comm ad ab, dot_comm ad ac]; linarith

/-- C29: the sphere through four points, when one is returned, passes through the four points. It fails exactly when the
points are nearly coplanar (the square of six times the volume of the tetrahedron is below 1e-4). -/
theorem C29_fit_four (a b c d : V3 ℝ) :
    (Sphere.fitThrough4 a b c d = none ↔
      dot (b - a) (cross (c - a) (d - a)) * dot (b - a) (cross (c - a) (d - a)) < 1 / 10000) ∧
    ∀ s, Sphere.fitThrough4 a b c d = some s → 0 ≤ s.r ∧
      a ∈ Spec.sphereSurface s.pos s.r ∧ b ∈ Spec.sphereSurface s.pos s.r ∧ c ∈ Spec.sphereSurface s.pos s.r ∧
      d ∈ Spec.sphereSurface s.pos s.r := by
  obtain ⟨h1, h2⟩ := fit4_spec (b - a) (c - a) (d - a)
  unfold Sphere.fitThrough4
  refine ⟨by rw [Option.map_eq_none_iff, h1], ?_⟩
  intro s hs
  rw [Option.map_eq_some_iff] at hs
  obtain ⟨v, hv, rfl⟩ := hs
  obtain ⟨e1, e2, e3⟩ := h2 v hv
  dsimp only
  have hl := len_mul_self (v.x • (b - a) + v.y • (c - a) + v.z • (d - a))
  refine ⟨len_nonneg _, ?_, ?_, ?_, ?_⟩
  · show distSq a _ = _
    rw [distSq_comm, surface_of_center, hl]
  · show distSq b _ = _
    rw [distSq_comm, equidistant a b _ e1, hl]
  · show distSq c _ = _
    rw [distSq_comm, equidistant a c _ e2, hl]
  · show distSq d _ = _
    rw [distSq_comm, equidistant a d _ e3, hl]

/-- The points `0`, `x`, `y`, `z` of the axes are neither collinear nor coplanar. -/
example : ¬ lenSq (cross ((⟨1, 0, 0⟩ : V3 ℝ) - 0) (⟨0, 1, 0⟩ - 0)) < 5 / 1000 ∧
    ¬ dot ((⟨1, 0, 0⟩ : V3 ℝ) - 0) (cross (⟨0, 1, 0⟩ - 0) (⟨0, 0, 1⟩ - 0)) *
      dot ((⟨1, 0, 0⟩ : V3 ℝ) - 0) (cross (⟨0, 1, 0⟩ - 0) (⟨0, 0, 1⟩ - 0)) < 1 / 10000 := by
  constructor <;> norm_num [lenSq, dot, cross]

/-- C29 for two points: the sphere passes through both up to the deliberate enlargement of the radius by 1e-4. -/
theorem C29_fit_two_partial (a b : V3 ℝ) :
    a ∈ Spec.sphereSurface (Sphere.optimal2 a b).pos ((Sphere.optimal2 a b).r - 1 / 10000) ∧
    b ∈ Spec.sphereSurface (Sphere.optimal2 a b).pos ((Sphere.optimal2 a b).r - 1 / 10000) := by
  have e : (Sphere.optimal2 a b).r - 1 / 10000 = V3.len (b - (Sphere.optimal2 a b).pos) := by
    unfold Sphere.optimal2; dsimp only; ring
  rw [e]
  constructor
  · show distSq a _ = _
    rw [len_mul_self]
    unfold Sphere.optimal2
    simp only [distSq_eq, lenSq, dot]; simp; ring
  · show distSq b _ = _
    rw [len_mul_self]; rfl

/-- C29 fails for two points: neither point is on the returned sphere. -/
theorem C29_fit_two_violation (a b : V3 ℝ) :
    a ∉ Spec.sphereSurface (Sphere.optimal2 a b).pos (Sphere.optimal2 a b).r ∧
    b ∉ Spec.sphereSurface (Sphere.optimal2 a b).pos (Sphere.optimal2 a b).r := by
  have h0 : 1 / 10000 ≤ (Sphere.optimal2 a b).r := by
    have := len_nonneg (b - (1 / 2 : ℝ) • (a + b))
    unfold Sphere.optimal2; dsimp only; linarith
  obtain ⟨ha, hb⟩ := C29_fit_two_partial a b
  have ha : distSq a _ = ((Sphere.optimal2 a b).r - 1 / 10000) * ((Sphere.optimal2 a b).r - 1 / 10000) := ha
  have hb : distSq b _ = ((Sphere.optimal2 a b).r - 1 / 10000) * ((Sphere.optimal2 a b).r - 1 / 10000) := hb
  constructor
  · intro h
    have h : distSq a (Sphere.optimal2 a b).pos = (Sphere.optimal2 a b).r * (Sphere.optimal2 a b).r := h
    nlinarith
  · intro h
    have h : distSq b (Sphere.optimal2 a b).pos = (Sphere.optimal2 a b).r * (Sphere.optimal2 a b).r := h
    nlinarith

end MGL
