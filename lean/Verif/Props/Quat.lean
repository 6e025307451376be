import Verif.Proofs.Quat

/-! C40, C41: unit quaternions are rotations; conversion from and to rotation matrices. The reference
notions are Hamilton's quaternions (Mathlib's `Quaternion`) and Mathlib's matrices. -/

namespace MGL
open V3
namespace Quat

section Algebra
variable {α : Type*} [Field α]

/-- C40: `q * r` is Hamilton's product, `q / r` is `q` times the conjugate of `r`, `Conjugate` is the
conjugate, `+`, `-` and scaling are those of quaternions. -/
theorem C40_hamilton (q r : Quat α) (s : α) :
    toH (mul q r) = toH q * toH r ∧ toH (div q r) = toH q * star (toH r) ∧ toH (conjugate q) = star (toH q) ∧
    toH (add q r) = toH q + toH r ∧ toH (sub q r) = toH q - toH r ∧ toH (neg q) = -toH q ∧
    toH (smul q s) = s • toH q ∧ toH (identity : Quat α) = 1 := by
  refine ⟨?_, ?_, ?_, ?_, ?_, ?_, ?_, rfl⟩ <;> ext <;>
    simp [mul, div, conjugate, add, sub, neg, smul] <;> try ring

example : mul (⟨1, 2, 3, 4⟩ : Quat ℚ) ⟨5, 6, 7, 8⟩ = ⟨24, 48, 48, -6⟩ := by norm_num [mul]

/-- C40: `Transform` by a unit quaternion is the conjugation `q v q*`. -/
theorem C40_transform_conjugation (q : Quat α) (v : V3 α) (h : normSq q = 1) :
    pureH (transform q v) = toH q * pureH v * star (toH q) := by
  rw [transform_eq q v h]
  ext <;> simp [rotH] <;> ring

example := C40_transform_conjugation (⟨0, 4/5, 0, 3/5⟩ : Quat ℚ) ⟨1, 2, 3⟩ (by norm_num [normSq])

/-- C40: transforming by a unit quaternion preserves dot products, lengths and orientation. -/
theorem C40_isometry (q : Quat α) (h : normSq q = 1) (a b : V3 α) :
    V3.dot (transform q a) (transform q b) = V3.dot a b ∧
    V3.lenSq (transform q a) = V3.lenSq a ∧
    V3.cross (transform q a) (transform q b) = transform q (V3.cross a b) := by
  rw [transform_eq q a h, transform_eq q b h, transform_eq q _ h]
  have h1 : ∀ a b, V3.dot (rotH q a) (rotH q b) = V3.dot a b := by intro a b; rw [dot_rotH, h]; ring
  refine ⟨h1 a b, h1 a a, ?_⟩
  rw [cross_rotH, h]; ext <;> simp

example := C40_isometry (⟨0, 4/5, 0, 3/5⟩ : Quat ℚ) (by norm_num [normSq]) ⟨1, 2, 3⟩ ⟨4, 5, 6⟩

/-- C40: `ToFloat3x3` of a unit quaternion is a rotation matrix, and multiplying with it is
`Transform`; the world axes are its columns. -/
theorem C40_matrix (q : Quat α) :
    (∀ v, (transform q v).toFun = Matrix.mulVec (toFloat3x3 q) v.toFun) ∧
    (normSq q = 1 → Spec.IsRotation (toFloat3x3 q)) ∧
    (worldX q).toFun = (fun i => toFloat3x3 q i 0) ∧ (worldY q).toFun = (fun i => toFloat3x3 q i 1) ∧
    (worldZ q).toFun = (fun i => toFloat3x3 q i 2) := by
  refine ⟨fun v => Mat3.mulVec_eq _ v, ?_, ?_, ?_, ?_⟩
  · intro h
    have h' : q.x * q.x + q.y * q.y + q.z * q.z + q.w * q.w = 1 := h
    constructor
    · show Matrix.transpose _ * _ = 1
      ext i j
      rw [Matrix.mul_apply, Fin.sum_univ_three]
      fin_cases i <;> fin_cases j <;> simp [toFloat3x3]
      · linear_combination 4 * (q.y * q.y + q.z * q.z) * h'
      · linear_combination (-4) * (q.x * q.y) * h'
      · linear_combination (-4) * (q.x * q.z) * h'
      · linear_combination (-4) * (q.x * q.y) * h'
      · linear_combination 4 * (q.x * q.x + q.z * q.z) * h'
      · linear_combination (-4) * (q.y * q.z) * h'
      · linear_combination (-4) * (q.x * q.z) * h'
      · linear_combination (-4) * (q.y * q.z) * h'
      · linear_combination 4 * (q.x * q.x + q.y * q.y) * h'
    · rw [Matrix.det_fin_three]
      simp [toFloat3x3]
      linear_combination 4 * (q.x * q.x + q.y * q.y + q.z * q.z) * h'
  all_goals
    ext i; fin_cases i <;> simp [worldX, worldY, worldZ, transform, Mat3.mulVec, toFloat3x3, V3.toFun]

example := (C40_matrix (⟨0, 4/5, 0, 3/5⟩ : Quat ℚ)).2.1 (by norm_num [normSq])

/-- C40: the product of unit quaternions is a unit quaternion and composes the rotations, as maps and
as matrices. -/
theorem C40_compose (q r : Quat α) (hq : normSq q = 1) (hr : normSq r = 1) :
    normSq (mul q r) = 1 ∧ (∀ v, transform (mul q r) v = transform q (transform r v)) ∧
    toFloat3x3 (mul q r) = toFloat3x3 q * toFloat3x3 r := by
  have hm : normSq (mul q r) = 1 := by rw [normSq_mul, hq, hr]; ring
  have ht : ∀ v, transform (mul q r) v = transform q (transform r v) := by
    intro v
    rw [transform_eq _ _ hm, transform_eq _ _ hr, transform_eq _ _ hq, rotH_mul]
  refine ⟨hm, ht, ?_⟩
  have key : ∀ f : Fin 3 → α, Matrix.mulVec (toFloat3x3 (mul q r)) f = Matrix.mulVec (toFloat3x3 q * toFloat3x3 r) f := by
    intro f
    obtain ⟨v, rfl⟩ := V3.toFun_surj f
    have := congrArg V3.toFun (ht v)
    simp only [transform, Mat3.mulVec_eq] at this
    rw [this, Matrix.mulVec_mulVec]
  ext i j
  have := congrFun (key (Pi.single j 1)) i
  simpa using this

example := C40_compose (⟨0, 4/5, 0, 3/5⟩ : Quat ℚ) ⟨1/2, 1/2, 1/2, 1/2⟩ (by norm_num [normSq]) (by norm_num [normSq])

/-- C40: `Inverse` undoes a unit quaternion on both sides, `q / r` is `q` composed with the inverse of
`r`, the inverse is unit, and `-q` is the same rotation as `q`. -/
theorem C40_inverse (q r : Quat α) (hq : normSq q = 1) (hr : normSq r = 1) (v : V3 α) :
    mul q (inverse q) = identity ∧ mul (inverse q) q = identity ∧
    transform (inverse q) (transform q v) = v ∧ transform q (transform (inverse q) v) = v ∧
    normSq (inverse q) = 1 ∧ toFloat3x3 (inverse q) = Matrix.transpose (toFloat3x3 q) ∧
    transform (div q r) (transform r v) = transform q v ∧ transform (neg q) v = transform q v := by
  have hq' : q.x * q.x + q.y * q.y + q.z * q.z + q.w * q.w = 1 := hq
  have hi : normSq (inverse q) = 1 := by rw [← hq]; simp only [normSq, inverse, conjugate]; ring
  have hc : inverse (inverse q) = q := by ext <;> simp [inverse, conjugate]
  have e1 : ∀ (q : Quat α), normSq q = 1 → ∀ v, transform (inverse q) (transform q v) = v := by
    intro q hq v
    have hi : normSq (inverse q) = 1 := by rw [← hq]; simp only [normSq, inverse, conjugate]; ring
    rw [transform_eq _ _ hi, transform_eq _ _ hq]
    unfold inverse
    rw [rotH_conj, hq]; ext <;> simp
  have hd : div q r = mul q (inverse r) := by ext <;> simp only [div, mul, inverse, conjugate] <;> ring
  have hir : normSq (inverse r) = 1 := by rw [← hr]; simp only [normSq, inverse, conjugate]; ring
  refine ⟨?_, ?_, e1 q hq v, ?_, hi, ?_, ?_, ?_⟩
  · ext <;> simp only [mul, inverse, conjugate, identity]
    · ring
    · ring
    · ring
    · linear_combination hq'
  · ext <;> simp only [mul, inverse, conjugate, identity]
    · ring
    · ring
    · ring
    · linear_combination hq'
  · have := e1 (inverse q) hi v; rwa [hc] at this
  · ext i j; fin_cases i <;> fin_cases j <;> simp [toFloat3x3, inverse, conjugate, -mul_eq_mul_left_iff] <;> ring
  · rw [hd, (C40_compose q (inverse r) hq hir).2.1, e1 r hr v]
  · simp only [transform, toFloat3x3, neg, Mat3.mulVec]; simp

example : normSq (⟨2 / 3, 1 / 3, 2 / 3, 0⟩ : Quat ℚ) = 1 := by norm_num [normSq]
example : normSq (⟨1 / 2, 1 / 2, 1 / 2, 1 / 2⟩ : Quat ℚ) = 1 ∧
    transform (⟨1 / 2, 1 / 2, 1 / 2, 1 / 2⟩ : Quat ℚ) ⟨1, 2, 3⟩ = ⟨3, 1, 2⟩ := by decide +kernel

end Algebra

/-- C40: `Normalize` of a quaternion not shorter than 1e-4 returns the old length and leaves a unit
quaternion, a positive multiple of the old one; a shorter one is left unchanged and 0 is returned. -/
theorem C40_normalize (q : Quat ℝ) :
    (1 / 10000 ≤ Real.sqrt (normSq q) →
      normSq (normalize q).1 = 1 ∧ (normalize q).2 = Real.sqrt (normSq q) ∧
      smul (normalize q).1 (Real.sqrt (normSq q)) = q) ∧
    (Real.sqrt (normSq q) < 1 / 10000 → normalize q = (q, 0)) := by
  refine ⟨fun h => ?_, fun h => if_pos h⟩
  have e : normalize q = (smul q (1 / length q), length q) := if_neg (not_lt.2 h)
  have h0 : length q ≠ 0 := by
    intro h0; have : Real.sqrt (normSq q) = 0 := h0
    rw [this] at h; norm_num at h
  refine ⟨normSq_normalized q h, by rw [e]; rfl, ?_⟩
  rw [e]
  show smul (smul q (1 / length q)) (length q) = q
  ext <;> simp only [smul] <;> field_simp

example : (1 : ℝ) / 10000 ≤ Real.sqrt (normSq (⟨0, 3, 0, 4⟩ : Quat ℝ)) := by
  have : normSq (⟨0, 3, 0, 4⟩ : Quat ℝ) = 5 ^ 2 := by norm_num [normSq]
  rw [this, Real.sqrt_sq (by norm_num)]; norm_num

/-- C40: the quaternion made from a unit axis and an angle is unit, its matrix is Rodrigues' rotation
matrix about that axis (what `float3x3::RotateAxisAngle` builds), and it fixes the axis. -/
theorem C40_axisAngle (n : V3 ℝ) (θ : ℝ) (hn : V3.lenSq n = 1) :
    normSq (fromAxisAngle n θ) = 1 ∧
    toFloat3x3 (fromAxisAngle n θ) = Mat3.rotateAxisAngle n θ ∧
    transform (fromAxisAngle n θ) n = n ∧
    (∀ v : V3 ℝ, transform (fromAxisAngle n θ) v =
      Real.cos θ • v + Real.sin θ • V3.cross n v + ((1 - Real.cos θ) * V3.dot n v) • n) := by
  have hn' : n.x * n.x + n.y * n.y + n.z * n.z = 1 := hn
  have hsc := Real.sin_sq_add_cos_sq (θ * (1 / 2))
  have hc : Real.cos θ = 1 - 2 * (Real.sin (θ * (1 / 2)) * Real.sin (θ * (1 / 2))) := by
    have := Real.cos_two_mul (θ * (1 / 2))
    rw [show 2 * (θ * (1 / 2)) = θ by ring] at this
    rw [this]; linear_combination 2 * hsc
  have hs : Real.sin θ = 2 * (Real.sin (θ * (1 / 2)) * Real.cos (θ * (1 / 2))) := by
    have := Real.sin_two_mul (θ * (1 / 2))
    rw [show 2 * (θ * (1 / 2)) = θ by ring] at this
    rw [this]; ring
  have hnx : n.y * n.y + n.z * n.z = 1 - n.x * n.x := by linear_combination hn'
  set s := Real.sin (θ * (1 / 2)) with hsd
  set c := Real.cos (θ * (1 / 2)) with hcd
  have hu : normSq (fromAxisAngle n θ) = 1 := by
    simp only [normSq, fromAxisAngle, ← hsd, ← hcd]
    linear_combination s * s * hn' + hsc
  have hm : toFloat3x3 (fromAxisAngle n θ) = Mat3.rotateAxisAngle n θ := by
    ext i j
    fin_cases i <;> fin_cases j <;> simp [toFloat3x3, fromAxisAngle, Mat3.rotateAxisAngle, -one_div, ← hsd, ← hcd]
    · rw [hc]; linear_combination (-2) * s * s * hn'
    · rw [hc, hs]; ring
    · rw [hc, hs]; ring
    · rw [hc, hs]; ring
    · rw [hc]; linear_combination (-2) * s * s * hn'
    · rw [hc, hs]; ring
    · rw [hc, hs]; ring
    · rw [hc, hs]; ring
    · rw [hc]; linear_combination (-2) * s * s * hn'
  have hr : ∀ v : V3 ℝ, transform (fromAxisAngle n θ) v =
      Real.cos θ • v + Real.sin θ • V3.cross n v + ((1 - Real.cos θ) * V3.dot n v) • n := by
    intro v
    unfold transform
    rw [hm]
    ext <;> simp [Mat3.mulVec, Mat3.rotateAxisAngle, V3.cross, V3.dot] <;> ring
  refine ⟨hu, hm, ?_, hr⟩
  rw [hr n]
  ext <;> simp [V3.cross, V3.dot]
  · linear_combination (1 - Real.cos θ) * n.x * hn'
  · linear_combination (1 - Real.cos θ) * n.y * hn'
  · linear_combination (1 - Real.cos θ) * n.z * hn'

example := C40_axisAngle ⟨3/5, 0, 4/5⟩ 1 (by norm_num [V3.lenSq, V3.dot])

/-- C40: rotations about the same unit axis add their angles; the rotations about the coordinate axes
are the matrices `RotateX`, `RotateY`, `RotateZ`; and these are rotation matrices. -/
theorem C40_axis_rotations (n : V3 ℝ) (hn : V3.lenSq n = 1) (a b : ℝ) :
    mul (fromAxisAngle n a) (fromAxisAngle n b) = fromAxisAngle n (a + b) ∧
    toFloat3x3 (rotateX a) = Mat3.rotateX a ∧ toFloat3x3 (rotateY a) = Mat3.rotateY a ∧
    toFloat3x3 (rotateZ a) = Mat3.rotateZ a ∧
    Spec.IsRotation (Mat3.rotateX a) ∧ Spec.IsRotation (Mat3.rotateY a) ∧ Spec.IsRotation (Mat3.rotateZ a) ∧
    Spec.IsRotation (Mat3.rotateAxisAngle n a) := by
  have hn' : n.x * n.x + n.y * n.y + n.z * n.z = 1 := hn
  have ux : V3.lenSq (⟨1, 0, 0⟩ : V3 ℝ) = 1 := by norm_num [V3.lenSq, V3.dot]
  have uy : V3.lenSq (⟨0, 1, 0⟩ : V3 ℝ) = 1 := by norm_num [V3.lenSq, V3.dot]
  have uz : V3.lenSq (⟨0, 0, 1⟩ : V3 ℝ) = 1 := by norm_num [V3.lenSq, V3.dot]
  have ex : toFloat3x3 (rotateX a) = Mat3.rotateX a := by
    show toFloat3x3 (fromAxisAngle _ a) = _
    rw [(C40_axisAngle _ a ux).2.1]
    ext i j; fin_cases i <;> fin_cases j <;> simp [Mat3.rotateAxisAngle, Mat3.rotateX]
  have ey : toFloat3x3 (rotateY a) = Mat3.rotateY a := by
    show toFloat3x3 (fromAxisAngle _ a) = _
    rw [(C40_axisAngle _ a uy).2.1]
    ext i j; fin_cases i <;> fin_cases j <;> simp [Mat3.rotateAxisAngle, Mat3.rotateY]
  have ez : toFloat3x3 (rotateZ a) = Mat3.rotateZ a := by
    show toFloat3x3 (fromAxisAngle _ a) = _
    rw [(C40_axisAngle _ a uz).2.1]
    ext i j; fin_cases i <;> fin_cases j <;> simp [Mat3.rotateAxisAngle, Mat3.rotateZ]
  refine ⟨?_, ex, ey, ez, ?_, ?_, ?_, ?_⟩
  · have e : (a + b) * (1 / 2) = a * (1 / 2) + b * (1 / 2) := by ring
    ext <;> simp only [mul, fromAxisAngle, e, Real.sin_add, Real.cos_add]
    · ring
    · ring
    · ring
    · linear_combination (-Real.sin (a * (1 / 2)) * Real.sin (b * (1 / 2))) * hn'
  · rw [← ex]; exact (C40_matrix _).2.1 (C40_axisAngle _ a ux).1
  · rw [← ey]; exact (C40_matrix _).2.1 (C40_axisAngle _ a uy).1
  · rw [← ez]; exact (C40_matrix _).2.1 (C40_axisAngle _ a uz).1
  · rw [← (C40_axisAngle n a hn).2.1]; exact (C40_matrix _).2.1 (C40_axisAngle n a hn).1

example : V3.lenSq (⟨2 / 3, 1 / 3, -2 / 3⟩ : V3 ℝ) = 1 := by norm_num [V3.lenSq, V3.dot]

/-- C40: `ToAxisAngle` of a unit quaternion other than ±identity gives a unit axis and an angle in
`[0, 2π]` that reproduce the quaternion; `Axis` and `Angle` agree with it. -/
theorem C40_toAxisAngle (q : Quat ℝ) (h : normSq q = 1) (hw : q.w * q.w ≠ 1) :
    V3.lenSq (toAxisAngle q).1 = 1 ∧ 0 ≤ (toAxisAngle q).2 ∧ (toAxisAngle q).2 ≤ 2 * Real.pi ∧
    fromAxisAngle (toAxisAngle q).1 (toAxisAngle q).2 = q ∧
    axis q = (toAxisAngle q).1 ∧ angle q = (toAxisAngle q).2 := by
  have h' : q.x * q.x + q.y * q.y + q.z * q.z + q.w * q.w = 1 := h
  have hlt : 0 < 1 - q.w * q.w := by
    rcases lt_or_eq_of_le (show q.w * q.w ≤ 1 by nlinarith [mul_self_nonneg q.x, mul_self_nonneg q.y, mul_self_nonneg q.z]) with h1 | h1
    · linarith
    · exact absurd h1 hw
  have hs := Real.mul_self_sqrt hlt.le
  have hs0 := Real.sqrt_pos.2 hlt
  have hw1 : -1 ≤ q.w := by nlinarith
  have hw2 : q.w ≤ 1 := by nlinarith
  have e1 : Real.arccos q.w * 2 * (1 / 2) = Real.arccos q.w := by ring
  refine ⟨?_, ?_, ?_, ?_, ?_, rfl⟩
  · simp only [toAxisAngle, V3.lenSq, V3.dot]
    have : q.x * q.x + q.y * q.y + q.z * q.z = 1 - q.w * q.w := by linear_combination h'
    calc _ = (q.x * q.x + q.y * q.y + q.z * q.z) * (1 / Real.sqrt (1 - q.w * q.w)) * (1 / Real.sqrt (1 - q.w * q.w)) := by ring
      _ = 1 := by
        rw [this]
        generalize Real.sqrt (1 - q.w * q.w) = S at hs hs0
        rw [← hs]; field_simp
  · show 0 ≤ Real.arccos q.w * 2
    have := Real.arccos_nonneg q.w; linarith
  · show Real.arccos q.w * 2 ≤ _
    have := Real.arccos_le_pi q.w; linarith
  · have hsin : Real.sin (Real.arccos q.w) = Real.sqrt (1 - q.w * q.w) := by
      rw [Real.sin_arccos, sq]
    ext <;> simp only [fromAxisAngle, toAxisAngle, e1, hsin, Real.cos_arccos hw1 hw2] <;>
      (try (generalize Real.sqrt (1 - q.w * q.w) = S at hs0; field_simp))
  · ext <;> simp [axis, toAxisAngle] <;> ring

example : normSq (⟨0, 3 / 5, 0, 4 / 5⟩ : Quat ℝ) = 1 ∧ (⟨0, 3 / 5, 0, 4 / 5⟩ : Quat ℝ).w * (⟨0, 3 / 5, 0, 4 / 5⟩ : Quat ℝ).w ≠ 1 := by
  constructor <;> norm_num [normSq]

/-- C41: the quaternion of a rotation matrix is unit and its matrix is the given one; all four
branches are covered. Transforming by it is multiplication by the matrix. -/
theorem C41_fromMatrix (m : Mat3 ℝ) (hm : Spec.IsRotation m) :
    normSq (ofMat3 m) = 1 ∧ toFloat3x3 (ofMat3 m) = m ∧
    ∀ v : V3 ℝ, (transform (ofMat3 m) v).toFun = Matrix.mulVec m v.toFun := by
  obtain ⟨h1, h2⟩ := ofMat3Raw_spec m hm
  have e : ofMat3 m = ofMat3Raw m := by unfold ofMat3; rw [normalize_unit _ h1]
  refine ⟨by rw [e]; exact h1, by rw [e]; exact h2, fun v => ?_⟩
  have := (C40_matrix (ofMat3 m)).1 v
  rw [this, e, h2]

/-- C41: two unit quaternions with the same rotation matrix are equal up to sign; hence converting a
unit quaternion to a matrix and back gives it or its negative. -/
theorem C41_roundtrip (q : Quat ℝ) (h : normSq q = 1) :
    ofMat3 (toFloat3x3 q) = q ∨ ofMat3 (toFloat3x3 q) = neg q := by
  obtain ⟨h1, h2, _⟩ := C41_fromMatrix _ ((C40_matrix q).2.1 h)
  generalize ofMat3 (toFloat3x3 q) = r at h1 h2
  -- the inner product is ±1, hence r = ± q
  have e : ∀ i j, toFloat3x3 r i j = toFloat3x3 q i j := fun i j => by rw [h2]
  have e00 := e 0 0; have e01 := e 0 1; have e02 := e 0 2
  have e10 := e 1 0; have e11 := e 1 1; have e12 := e 1 2
  have e20 := e 2 0; have e21 := e 2 1; have e22 := e 2 2
  simp [toFloat3x3, -mul_eq_mul_left_iff] at e00 e01 e02 e10 e11 e12 e20 e21 e22
  unfold normSq at h h1
  have xx : r.x * r.x = q.x * q.x := by linear_combination (1 / 2) * (e11 + e22 - e00)
  have yy : r.y * r.y = q.y * q.y := by linear_combination (1 / 2) * (e00 + e22 - e11)
  have zz : r.z * r.z = q.z * q.z := by linear_combination (1 / 2) * (e00 + e11 - e22)
  have ww : r.w * r.w = q.w * q.w := by linear_combination h1 - h - xx - yy - zz
  have xy : r.x * r.y = q.x * q.y := by linear_combination (1 / 2) * (e01 + e10)
  have xz : r.x * r.z = q.x * q.z := by linear_combination (1 / 2) * (e02 + e20)
  have yz : r.y * r.z = q.y * q.z := by linear_combination (1 / 2) * (e12 + e21)
  have xw : r.x * r.w = q.x * q.w := by linear_combination (1 / 2) * (e21 - e12)
  have yw : r.y * r.w = q.y * q.w := by linear_combination (1 / 2) * (e02 - e20)
  have zw : r.z * r.w = q.z * q.w := by linear_combination (1 / 2) * (e10 - e01)
  set d := r.x * q.x + r.y * q.y + r.z * q.z + r.w * q.w with hd
  have hd2 : d * d = 1 := by
    have : d * d = (q.x * q.x + q.y * q.y + q.z * q.z + q.w * q.w) * (q.x * q.x + q.y * q.y + q.z * q.z + q.w * q.w) := by
      rw [hd]
      linear_combination (q.x * q.x) * xx + (q.y * q.y) * yy + (q.z * q.z) * zz + (q.w * q.w) * ww
        + 2 * (q.x * q.y) * xy + 2 * (q.x * q.z) * xz + 2 * (q.y * q.z) * yz
        + 2 * (q.x * q.w) * xw + 2 * (q.y * q.w) * yw + 2 * (q.z * q.w) * zw
    rw [this, h]; ring
  have hf : (d - 1) * (d + 1) = 0 := by linear_combination hd2
  have sq0 : ∀ a b c e : ℝ, a * a + b * b + c * c + e * e = 0 → a = 0 ∧ b = 0 ∧ c = 0 ∧ e = 0 := by
    intro a b c e h
    have ha := mul_self_nonneg a; have hb := mul_self_nonneg b
    have hc := mul_self_nonneg c; have he := mul_self_nonneg e
    refine ⟨mul_self_eq_zero.1 ?_, mul_self_eq_zero.1 ?_, mul_self_eq_zero.1 ?_, mul_self_eq_zero.1 ?_⟩ <;> linarith
  rcases mul_eq_zero.1 hf with h3 | h3
  · left
    obtain ⟨a, b, c, e⟩ := sq0 (r.x - q.x) (r.y - q.y) (r.z - q.z) (r.w - q.w) (by linear_combination h1 + h - 2 * h3)
    ext <;> linarith
  · right
    obtain ⟨a, b, c, e⟩ := sq0 (r.x + q.x) (r.y + q.y) (r.z + q.z) (r.w + q.w) (by linear_combination h1 + h + 2 * h3)
    ext <;> simp only [neg] <;> linarith

/-- The hypothesis of C41 is met in every branch: identity (trace), and half turns about x, y, z. -/
example : Spec.IsRotation (!![1, 0, 0; 0, -1, 0; 0, 0, -1] : Matrix (Fin 3) (Fin 3) ℝ) ∧
    Spec.IsRotation (!![-1, 0, 0; 0, 1, 0; 0, 0, -1] : Matrix (Fin 3) (Fin 3) ℝ) ∧
    Spec.IsRotation (!![-1, 0, 0; 0, -1, 0; 0, 0, 1] : Matrix (Fin 3) (Fin 3) ℝ) ∧
    Spec.IsRotation (!![2/3, -1/3, 2/3; 2/3, 2/3, -1/3; -1/3, 2/3, 2/3] : Matrix (Fin 3) (Fin 3) ℝ) := by
  have key : ∀ m : Matrix (Fin 3) (Fin 3) ℝ, Matrix.transpose m * m = 1 → m.det = 1 → Spec.IsRotation m := fun m h1 h2 => ⟨h1, h2⟩
  refine ⟨key _ ?_ ?_, key _ ?_ ?_, key _ ?_ ?_, key _ ?_ ?_⟩
  iterate 4
    · ext i j
      rw [Matrix.mul_apply, Fin.sum_univ_three]
      fin_cases i <;> fin_cases j <;> simp <;> norm_num
    · simp [Matrix.det_fin_three]
      try norm_num

end Quat
end MGL
