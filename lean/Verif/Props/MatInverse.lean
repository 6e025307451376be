import Verif.Proofs.MatInverse
import Verif.Props.Mat3
import Verif.Props.Mat34
import Verif.Props.Mat4
import Verif.Props.Plane
import Verif.Props.Quat

/-! C25, C37, C38, C39: matrices for which `Inverse()` succeeds with its fixed tolerance, and what follows for planes. -/

set_option linter.unusedSectionVars false

namespace MGL
open V3
variable {α : Type*} [Field α] [LinearOrder α] [IsStrictOrderedRing α]

theorem sq_le_of_sum3 {e a b c : α} (he : 0 ≤ e) (h : 3 * e ^ 2 ≤ a ^ 2 + b ^ 2 + c ^ 2) : e ≤ |a| ∨ e ≤ |b| ∨ e ≤ |c| := by
  by_contra hn
  push Not at hn
  have := fun x (hx : |x| < e) => (sq_lt_sq' (neg_lt_of_abs_lt hx) (lt_of_abs_lt hx) : x ^ 2 < e ^ 2)
  have h1 := this a hn.1
  have h2 := this b hn.2.1
  have h3 := this c hn.2.2
  linarith

/-- C37. `Inverse(eps)` succeeds on every matrix that shortens no vector by more than the factor `√3 · eps`. -/
theorem C37_inverse_conditioned (m : Mat3 α) (eps : α) (he : 0 < eps)
    (h : ∀ v : V3 α, 3 * eps ^ 2 * lenSq v ≤ lenSq (Mat3.mulVec m v)) : (Mat3.inverse m eps).2 = true := by
  have hs : (MatGen.inverseMatrix m eps).2 = true := by
    refine MatGen.inverseMatrix_success m eps he fun c v hc _ => ?_
    have hm := h ⟨v 0, v 1, v 2⟩
    have h1 : 1 ≤ lenSq (⟨v 0, v 1, v 2⟩ : V3 α) := by
      have h0 := mul_self_nonneg (v 0)
      have h1 := mul_self_nonneg (v 1)
      have h2 := mul_self_nonneg (v 2)
      simp only [lenSq, dot]
      fin_cases c
      · have hc : v 0 = 1 := hc
        rw [hc]; linarith
      · have hc : v 1 = 1 := hc
        rw [hc]; linarith
      · have hc : v 2 = 1 := hc
        rw [hc]; linarith
    have hk : 0 ≤ 3 * eps ^ 2 := by positivity
    have h2 : 3 * eps ^ 2 ≤ lenSq (Mat3.mulVec m ⟨v 0, v 1, v 2⟩) := le_trans (by nlinarith) hm
    rcases sq_le_of_sum3 he.le (a := (Mat3.mulVec m ⟨v 0, v 1, v 2⟩).x) (b := (Mat3.mulVec m ⟨v 0, v 1, v 2⟩).y)
      (c := (Mat3.mulVec m ⟨v 0, v 1, v 2⟩).z) (by rw [lenSq, dot] at h2; linarith) with h | h | h
    · exact ⟨0, by simpa [Matrix.mulVec, dotProduct, Fin.sum_univ_three, Mat3.mulVec] using h⟩
    · exact ⟨1, by simpa [Matrix.mulVec, dotProduct, Fin.sum_univ_three, Mat3.mulVec] using h⟩
    · exact ⟨2, by simpa [Matrix.mulVec, dotProduct, Fin.sum_univ_three, Mat3.mulVec] using h⟩
  simp [Mat3.inverse, hs]

theorem lenSq_similarity {m : Mat3 α} {k : α} (h : Matrix.transpose m * m = k • (1 : Matrix (Fin 3) (Fin 3) α)) (v : V3 α) :
    lenSq (Mat3.mulVec m v) = k * lenSq v := by
  have e := fun i j => congrFun (congrFun h i) j
  have e00 := e 0 0
  have e01 := e 0 1
  have e02 := e 0 2
  have e11 := e 1 1
  have e12 := e 1 2
  have e22 := e 2 2
  simp [Matrix.mul_apply, Fin.sum_univ_three, Matrix.one_apply] at e00 e01 e02 e11 e12 e22
  simp only [lenSq, dot, Mat3.mulVec]
  linear_combination v.x ^ 2 * e00 + v.y ^ 2 * e11 + v.z ^ 2 * e22 + 2 * v.x * v.y * e01 + 2 * v.x * v.z * e02 + 2 * v.y * v.z * e12

/-- C37. In particular on rotations, reflections and their multiples: `Inverse(eps)` succeeds if the columns are orthogonal and of
one length of at least `√3 · eps`. -/
theorem C37_inverse_similarity (m : Mat3 α) (k eps : α) (he : 0 < eps) (hk : 3 * eps ^ 2 ≤ k)
    (h : Matrix.transpose m * m = k • (1 : Matrix (Fin 3) (Fin 3) α)) : (Mat3.inverse m eps).2 = true :=
  C37_inverse_conditioned m eps he fun v => by
    rw [lenSq_similarity h]
    exact mul_le_mul_of_nonneg_right hk (lenSq_nonneg v)

/-- C38. `Inverse(eps)` of an affine transform succeeds if its linear part shortens no vector by more than the factor `√3 · eps`,
however long the translation. -/
theorem C38_inverse_conditioned (m : Mat34 α) (eps : α) (he : 0 < eps) (he1 : eps ≤ 1)
    (h : ∀ v : V3 α, 3 * eps ^ 2 * lenSq v ≤ lenSq (Mat3.mulVec (Mat34.float3x3Part m) v)) : (Mat34.inverse m eps).2 = true := by
  show (MatGen.inverseMatrix (Mat4.ofMat34 m) eps).2 = true
  refine MatGen.inverseMatrix_success _ eps he fun c v hc hz => ?_
  by_cases hc3 : c = 3
  · subst hc3
    refine ⟨3, ?_⟩
    have e : (Mat4.ofMat34 m).mulVec v 3 = 1 := by
      simp [Matrix.mulVec, dotProduct, Fin.sum_univ_four, Mat4.ofMat34, hc]
    rw [e, abs_one]; exact he1
  · have hv3 : v 3 = 0 := hz 3 (by
      refine lt_of_le_of_ne (Fin.le_last c) hc3)
    have hm := h ⟨v 0, v 1, v 2⟩
    have h1 : 1 ≤ lenSq (⟨v 0, v 1, v 2⟩ : V3 α) := by
      have h0 := mul_self_nonneg (v 0)
      have h1 := mul_self_nonneg (v 1)
      have h2 := mul_self_nonneg (v 2)
      simp only [lenSq, dot]
      fin_cases c
      · have hc : v 0 = 1 := hc
        rw [hc]; linarith
      · have hc : v 1 = 1 := hc
        rw [hc]; linarith
      · have hc : v 2 = 1 := hc
        rw [hc]; linarith
      · exact absurd rfl hc3
    have hk : 0 ≤ 3 * eps ^ 2 := by positivity
    have h2 : 3 * eps ^ 2 ≤ lenSq (Mat3.mulVec (Mat34.float3x3Part m) ⟨v 0, v 1, v 2⟩) := le_trans (by nlinarith) hm
    set y := Mat3.mulVec (Mat34.float3x3Part m) ⟨v 0, v 1, v 2⟩ with hy
    have e0 : (Mat4.ofMat34 m).mulVec v 0 = y.x := by
      simp [hy, Matrix.mulVec, dotProduct, Fin.sum_univ_four, Mat4.ofMat34, hv3, Mat3.mulVec, Mat34.float3x3Part]
    have e1 : (Mat4.ofMat34 m).mulVec v 1 = y.y := by
      simp [hy, Matrix.mulVec, dotProduct, Fin.sum_univ_four, Mat4.ofMat34, hv3, Mat3.mulVec, Mat34.float3x3Part]
    have e2 : (Mat4.ofMat34 m).mulVec v 2 = y.z := by
      simp [hy, Matrix.mulVec, dotProduct, Fin.sum_univ_four, Mat4.ofMat34, hv3, Mat3.mulVec, Mat34.float3x3Part]
    rcases sq_le_of_sum3 he.le (a := y.x) (b := y.y) (c := y.z) (by rw [lenSq, dot] at h2; linarith) with h | h | h
    · exact ⟨0, by rw [e0]; exact h⟩
    · exact ⟨1, by rw [e1]; exact h⟩
    · exact ⟨2, by rw [e2]; exact h⟩

/-- C39. `Inverse(eps)` of a 4x4 matrix succeeds if the matrix shortens no vector of four components by more than the factor `2 · eps`. -/
theorem C39_inverse_conditioned (m : Mat4 α) (eps : α) (he : 0 < eps)
    (h : ∀ v : F4 α, 4 * eps ^ 2 * ∑ i, v i ^ 2 ≤ ∑ i, Mat4.mulVec4 m v i ^ 2) : (Mat4.inverse m eps).2 = true := by
  refine MatGen.inverseMatrix_success _ eps he fun c v hc _ => ?_
  have e : ∀ i, Mat4.mulVec4 m v i = m.mulVec v i := by
    intro i; fin_cases i <;> simp [Mat4.mulVec4, Matrix.mulVec, dotProduct, Fin.sum_univ_four]
  have h1 : 1 ≤ ∑ i, v i ^ 2 := by
    have := Finset.single_le_sum (f := fun i => v i ^ 2) (fun i _ => sq_nonneg (v i)) (Finset.mem_univ c)
    simp only [hc, one_pow] at this
    exact this
  have hk : 0 ≤ 4 * eps ^ 2 := by positivity
  have h2 : 4 * eps ^ 2 ≤ ∑ i, m.mulVec v i ^ 2 := by
    have := h v
    simp only [e] at this
    nlinarith
  by_contra hn
  push Not at hn
  have hlt : ∀ i, m.mulVec v i ^ 2 < eps ^ 2 := fun i => sq_lt_sq' (neg_lt_of_abs_lt (hn i)) (lt_of_abs_lt (hn i))
  rw [Fin.sum_univ_four] at h2
  linarith [hlt 0, hlt 1, hlt 2, hlt 3]

/-- C25: `Transform(float3x3)` moves the plane with every matrix whose transpose shortens no vector by more than the factor
`√3 · 10⁻⁶`. -/
theorem C25_transform3_conditioned (p : Plane α) (m : Mat3 α)
    (h : ∀ v : V3 α, 3 * (1 / 1000000) ^ 2 * lenSq v ≤ lenSq (Mat3.mulVec (Mat3.transpose m) v)) (x : V3 α) :
    (p.transform3 m).signedDistance (Mat3.mulVec m x) = p.signedDistance x ∧
    (Mat3.mulVec m x ∈ Spec.plane (p.transform3 m).normal (p.transform3 m).d ↔ x ∈ Spec.plane p.normal p.d) :=
  C25_transform3_partial p m (C37_inverse_conditioned _ _ (by norm_num) h) x

/-- C25: `Transform(float3x4)` moves the plane with every affine transform whose linear part shortens no vector by more than the factor
`√3 · 10⁻⁶`. -/
theorem C25_transform34_conditioned (p : Plane α) (m : Mat34 α)
    (h : ∀ v : V3 α, 3 * (1 / 1000000) ^ 2 * lenSq v ≤ lenSq (Mat3.mulVec (Mat34.float3x3Part m) v)) (x : V3 α) :
    (p.transform34 m).signedDistance (Mat34.mulPos m x) = p.signedDistance x ∧
    (Mat34.mulPos m x ∈ Spec.plane (p.transform34 m).normal (p.transform34 m).d ↔ x ∈ Spec.plane p.normal p.d) :=
  C25_transform34_partial p m (C37_inverse_conditioned _ _ (by norm_num) h) x

/-- C25: `Transform(Quat)` moves the plane with every unit quaternion. -/
theorem C25_transformQuat (p : Plane α) (q : Quat α) (hq : Quat.normSq q = 1) (x : V3 α) :
    (p.transformQuat q).signedDistance (Quat.transform q x) = p.signedDistance x ∧
    (Quat.transform q x ∈ Spec.plane (p.transformQuat q).normal (p.transformQuat q).d ↔ x ∈ Spec.plane p.normal p.d) := by
  have hr : Spec.Orthonormal (Quat.toFloat3x3 q) := ((Quat.C40_matrix q).2.1 hq).1
  have hs : (Mat3.inverse (Mat3.transpose (Quat.toFloat3x3 q))).2 = true := by
    refine C37_inverse_similarity _ 1 _ (by norm_num) (by norm_num) ?_
    rw [Mat3.transpose_eq, Matrix.transpose_transpose, one_smul]
    exact mul_eq_one_comm.1 hr
  have e : Quat.transform q x = Mat3.mulVec (Quat.toFloat3x3 q) x := by
    have h1 := (Quat.C40_matrix q).1 x
    rw [← Mat3.mulVec_eq] at h1
    have := fun i => congrFun h1 i
    ext
    · simpa [V3.toFun] using this 0
    · simpa [V3.toFun] using this 1
    · simpa [V3.toFun] using this 2
  rw [e]
  exact C25_transformQuat_partial p q hs x

/-! Matrices that meet the hypotheses: a rotation about the z axis times 1/100, and with a long translation. -/

theorem exTurn : Matrix.transpose (!![3/500, -4/500, 0; 4/500, 3/500, 0; 0, 0, 1/100] : Mat3 ℚ) * !![3/500, -4/500, 0; 4/500, 3/500, 0; 0, 0, 1/100] =
    (1 / 10000 : ℚ) • (1 : Matrix (Fin 3) (Fin 3) ℚ) := by decide +kernel

example := C37_inverse_similarity (!![3/500, -4/500, 0; 4/500, 3/500, 0; 0, 0, 1/100] : Mat3 ℚ) (1 / 10000) (1 / 1000000) (by norm_num)
  (by norm_num) exTurn

example := C37_inverse_conditioned (!![3/500, -4/500, 0; 4/500, 3/500, 0; 0, 0, 1/100] : Mat3 ℚ) (1 / 1000000) (by norm_num)
  fun v => by rw [lenSq_similarity exTurn]; exact mul_le_mul_of_nonneg_right (by norm_num) (lenSq_nonneg v)

theorem exMove (v : V3 ℚ) : 3 * (1 / 1000000) ^ 2 * lenSq v ≤
    lenSq (Mat3.mulVec (Mat34.float3x3Part (!![3/500, -4/500, 0, 1000000000; 4/500, 3/500, 0, 7; 0, 0, 1/100, -5] : Mat34 ℚ)) v) := by
  have e : Mat34.float3x3Part (!![3/500, -4/500, 0, 1000000000; 4/500, 3/500, 0, 7; 0, 0, 1/100, -5] : Mat34 ℚ) =
      !![3/500, -4/500, 0; 4/500, 3/500, 0; 0, 0, 1/100] := by decide +kernel
  rw [e, lenSq_similarity exTurn]
  exact mul_le_mul_of_nonneg_right (by norm_num) (lenSq_nonneg v)

example := C38_inverse_conditioned (!![3/500, -4/500, 0, 1000000000; 4/500, 3/500, 0, 7; 0, 0, 1/100, -5] : Mat34 ℚ) (1 / 1000000)
  (by norm_num) (by norm_num) exMove

example := C25_transform34_conditioned (⟨⟨3/5, 0, 4/5⟩, 2⟩ : Plane ℚ)
  !![3/500, -4/500, 0, 1000000000; 4/500, 3/500, 0, 7; 0, 0, 1/100, -5] exMove ⟨1, 2, 3⟩

example := C25_transform3_conditioned (⟨⟨3/5, 0, 4/5⟩, 2⟩ : Plane ℚ) (Mat3.transpose !![3/500, -4/500, 0; 4/500, 3/500, 0; 0, 0, 1/100])
  (fun v => by
    rw [Mat3.transpose_eq, Mat3.transpose_eq, Matrix.transpose_transpose, lenSq_similarity exTurn]
    exact mul_le_mul_of_nonneg_right (by norm_num) (lenSq_nonneg v)) ⟨1, 2, 3⟩

example := C39_inverse_conditioned (!![0, 2, 0, 0; -2, 0, 0, 0; 0, 0, 0, 3; 0, 0, 5, 0] : Mat4 ℚ) (1 / 1000000) (by norm_num) fun v => by
  simp only [Fin.sum_univ_four, Mat4.mulVec4]
  simp
  nlinarith [sq_nonneg (v 0), sq_nonneg (v 1), sq_nonneg (v 2), sq_nonneg (v 3)]

example := C25_transformQuat (⟨⟨3/5, 0, 4/5⟩, 2⟩ : Plane ℚ) ⟨0, 4/5, 0, 3/5⟩ (by norm_num [Quat.normSq]) ⟨1, 2, 3⟩

end MGL
