import Verif.Proofs.Mat4
import Verif.Props.Mat34
import Mathlib.LinearAlgebra.Matrix.Adjugate

/-! C39: `float4x4`. -/

namespace MGL
variable {α : Type*}

section Ring
variable [CommRing α]

/-- C39. All products involving a `float4x4` are the corresponding matrix products: with another
`float4x4`, with a `float3x4` or `float3x3` on either side (promoted to 4x4), with a column and with a row. -/
theorem C39_products (a b : Mat4 α) (c : Mat34 α) (d : Mat3 α) (v : F4 α) :
    Mat4.mul a b = (a * b : Matrix (Fin 4) (Fin 4) α) ∧
    Mat4.mulMat34 a c = (a * Spec.affine c : Matrix (Fin 4) (Fin 4) α) ∧
    Mat4.mulMat3 a d = (a * Spec.linear4 d : Matrix (Fin 4) (Fin 4) α) ∧
    Mat4.mat34Mul c a = (Spec.affine c * a : Matrix (Fin 4) (Fin 4) α) ∧
    Mat4.mat3Mul d a = (Spec.linear4 d * a : Matrix (Fin 4) (Fin 4) α) ∧
    Mat4.mulVec4 a v = Matrix.mulVec a v ∧ Mat4.vec4Mul v a = Matrix.vecMul v a :=
  ⟨Mat4.mul_eq a b, Mat4.mulMat34_eq a c, Mat4.mulMat3_eq a d, Mat4.mat34Mul_eq c a, Mat4.mat3Mul_eq d a,
    Mat4.mulVec4_eq a v, Mat4.vec4Mul_eq a v⟩

/-- C39. The product is associative with neutral `identity`, and composes the transforms. -/
theorem C39_mul (a b c : Mat4 α) (v : F4 α) :
    Mat4.mul (Mat4.mul a b) c = Mat4.mul a (Mat4.mul b c) ∧
    Mat4.mul Mat4.identity a = a ∧ Mat4.mul a Mat4.identity = a ∧
    Mat4.mulVec4 (Mat4.mul a b) v = Mat4.mulVec4 a (Mat4.mulVec4 b v) := by
  simp only [Mat4.mul_eq, Mat4.identity_eq, Mat4.mulVec4_eq]
  exact ⟨Matrix.mul_assoc a b c, Matrix.one_mul a, Matrix.mul_one a, (Matrix.mulVec_mulVec v a b).symm⟩

/-- C39. Promoting a `float3x4` or `float3x3` to a `float4x4` changes neither products nor the
transforms of points and directions. -/
theorem C39_embedding (a b : Mat34 α) (c d : Mat3 α) (v : V3 α) :
    Mat4.ofMat34 (Mat34.mul a b) = Mat4.mul (Mat4.ofMat34 a) (Mat4.ofMat34 b) ∧
    Mat4.ofMat3 (Mat3.mul c d) = Mat4.mul (Mat4.ofMat3 c) (Mat4.ofMat3 d) ∧
    Mat4.mulPos (Mat4.ofMat34 a) v = Mat34.mulPos a v ∧
    Mat4.mulDir (Mat4.ofMat34 a) v = Mat34.mulDir a v ∧
    Mat4.mulVec4 (Mat4.ofMat34 a) v.hpos = (Mat34.mulPos a v).hpos ∧
    Mat4.mulVec4 (Mat4.ofMat34 a) v.hdir = (Mat34.mulDir a v).hdir ∧
    Mat4.mulPos (Mat4.ofMat3 c) v = Mat3.mulVec c v ∧
    Mat4.float3x4Part (Mat4.ofMat34 a) = a := by
  refine ⟨?_, ?_, ?_, ?_, ?_, ?_, ?_, ?_⟩
  · rw [Mat4.mul_eq, Mat4.ofMat34_eq, Mat4.ofMat34_eq, Mat4.ofMat34_eq, Mat34.mul_eq]
  · ext i j; fin_cases i <;> fin_cases j <;> simp [Mat4.ofMat3, Mat3.mul, Mat4.mul]
  · ext <;> simp [Mat4.mulPos, Mat4.ofMat34, Mat34.mulPos]
  · ext <;> simp [Mat4.mulDir, Mat4.ofMat34, Mat34.mulDir]
  · rw [Mat4.mulVec4_eq, Mat4.ofMat34_eq, Mat34.mulPos_eq]
  · rw [Mat4.mulVec4_eq, Mat4.ofMat34_eq, Mat34.mulDir_eq]
  · ext <;> simp [Mat4.mulPos, Mat4.ofMat3, Mat3.mulVec]
  · ext i j; fin_cases i <;> fin_cases j <;> simp [Mat4.float3x4Part, Mat4.ofMat34]

/-- C39. `Determinant4` is the determinant and multiplicative; `Minor(i, j)` is the determinant of the
matrix with row `i` and column `j` removed, and that of `SubMatrix(i, j)`; `Determinant3` is the
determinant of the upper left 3x3 part. -/
theorem C39_determinant (a b : Mat4 α) (i j : Fin 4) :
    Mat4.determinant4 a = Matrix.det a ∧
    Mat4.determinant4 (Mat4.mul a b) = Mat4.determinant4 a * Mat4.determinant4 b ∧
    Mat4.minor a i j = Matrix.det (Matrix.submatrix a i.succAbove j.succAbove) ∧
    Mat4.subMatrix a i j = Matrix.submatrix a i.succAbove j.succAbove ∧
    Mat4.determinant3 a = Matrix.det (Matrix.submatrix a Fin.castSucc Fin.castSucc) := by
  refine ⟨Mat4.determinant4_eq a, ?_, Mat4.minor_eq a i j, ?_, ?_⟩
  · rw [Mat4.determinant4_eq, Mat4.determinant4_eq, Mat4.determinant4_eq, Mat4.mul_eq]; exact Matrix.det_mul a b
  · ext r c
    have hr : ∀ (k : Fin 3) (i : Fin 4), Mat4.skipNum k i = i.succAbove k := by decide
    fin_cases r <;> fin_cases c <;> simp [Mat4.subMatrix, hr]
  · rw [Matrix.det_fin_three]; simp [Mat4.determinant3]; ring

/-- C39. `Transpose` and `Transposed` exchange rows and columns, and reverse products. -/
theorem C39_transpose (a b : Mat4 α) :
    (∀ i j, Mat4.transpose a i j = a j i) ∧ (∀ i j, Mat4.transposed a i j = a j i) ∧
    Mat4.transpose (Mat4.mul a b) = Mat4.mul (Mat4.transpose b) (Mat4.transpose a) := by
  refine ⟨fun i j => by rw [Mat4.transpose_eq]; rfl, fun i j => ?_, ?_⟩
  · fin_cases i <;> fin_cases j <;> rfl
  · simp only [Mat4.mul_eq, Mat4.transpose_eq]; exact Matrix.transpose_mul a b

/-- C39 is violated by `Adjugate`: what it returns is the transpose of the adjugate (the matrix of
cofactors). -/
theorem C60_adjugate_partial (a : Mat4 α) :
    Matrix.transpose (Mat4.adjugate a) = Matrix.adjugate a := by
  ext i j
  rw [Matrix.adjugate_fin_succ_eq_det_submatrix]
  simp only [Matrix.transpose_apply, Mat4.adjugate, Mat4.minor_eq]
  rcases Nat.even_or_odd (i.val + j.val) with h | h
  · rw [if_neg (by rw [Nat.even_iff] at h; omega), Even.neg_one_pow (by rwa [add_comm]), one_mul]
  · rw [if_pos (by rw [Nat.odd_iff] at h; omega), Odd.neg_one_pow (by rwa [add_comm]), neg_one_mul]

/-- C39. `InverseOrthonormal` of a rigid transform (last row `(0, 0, 0, 1)`) is its two-sided inverse. -/
theorem C39_inverseOrthonormal (m : Mat34 α)
    (h : Spec.Orthonormal (Matrix.of fun i j : Fin 3 => m i j.castSucc)) :
    Mat4.mul (Mat4.inverseOrthonormal (Mat4.ofMat34 m)) (Mat4.ofMat34 m) = Mat4.identity ∧
    Mat4.mul (Mat4.ofMat34 m) (Mat4.inverseOrthonormal (Mat4.ofMat34 m)) = Mat4.identity := by
  have e : Mat4.inverseOrthonormal (Mat4.ofMat34 m) = Mat4.ofMat34 (Mat34.inverseOrthonormal m) := by
    ext i j
    fin_cases i <;> fin_cases j <;> simp [Mat4.inverseOrthonormal, Mat34.inverseOrthonormal, Mat4.ofMat34,
      Mat4.setTranslatePart, Mat34.setTranslatePart, Mat4.mulDir, Mat34.mulDir, Mat34.transpose3, Mat.swapAt, Mat.setAt]
  obtain ⟨h1, h2, -, -⟩ := C38_inverseOrthonormal m h 0
  have hi : Mat4.ofMat34 (Mat34.identity : Mat34 α) = Mat4.identity := by
    ext i j; fin_cases i <;> fin_cases j <;> simp [Mat4.ofMat34, Mat34.identity, Mat4.identity]
  rw [e, ← (C39_embedding _ m 0 0 0).1, ← (C39_embedding m _ 0 0 0).1, h1, h2, hi]
  exact ⟨rfl, rfl⟩

example := C39_inverseOrthonormal (!![3/5, -4/5, 0, 1; 4/5, 3/5, 0, 2; 0, 0, 1, 3] : Mat34 ℚ) (by unfold Spec.Orthonormal; decide +kernel)

/-- C39. `ComplementaryProjection` of a projection `P` (`P * P = P`) is the projection `1 - P`. -/
theorem C60_complementaryProjection (p : Mat4 α) (h : Mat4.mul p p = p) :
    Mat4.mul (Mat4.complementaryProjection p) (Mat4.complementaryProjection p) = Mat4.complementaryProjection p ∧
    ∀ v, Mat4.mulVec4 p v + Mat4.mulVec4 (Mat4.complementaryProjection p) v = v := by
  rw [Mat4.mul_eq] at h
  have e : Mat4.complementaryProjection p = (1 - p : Matrix (Fin 4) (Fin 4) α) := by
    ext i j; rw [Matrix.sub_apply, ← Mat4.identity_eq]; rfl
  constructor
  · rw [Mat4.mul_eq, e, Matrix.sub_mul, Matrix.mul_sub, Matrix.mul_sub, h]; simp
  · intro v; rw [Mat4.mulVec4_eq, Mat4.mulVec4_eq, e, Matrix.sub_mulVec, Matrix.one_mulVec]; simp

example : Mat4.mul (!![1, 0, 0, 0; 0, 1, 0, 0; 0, 0, 0, 0; 0, 0, 0, 1] : Mat4 ℚ)
    !![1, 0, 0, 0; 0, 1, 0, 0; 0, 0, 0, 0; 0, 0, 0, 1] = !![1, 0, 0, 0; 0, 1, 0, 0; 0, 0, 0, 0; 0, 0, 0, 1] := by
  decide +kernel

/-- C39 is violated by `OrthographicProjection(Plane)`: rows 0 to 2 are right, but row 3 is never
written, so the result depends on the previous contents of the stack. -/
theorem C60_orthographicProjection_partial (n : V3 α) (d : α) (hn : V3.dot n n = 1) (junk : F4 α) (p : V3 α) :
    Mat4.mulPos (Mat4.orthographicProjection n d junk) p = p - (V3.dot n p - d) • n := by
  rw [← (C38_project n d hn p).1]
  ext <;> simp [Mat4.mulPos, Mat4.orthographicProjection, Mat34.mulPos]

example := C60_orthographicProjection_partial (⟨3/5, 0, 4/5⟩ : V3 ℚ) 2 (by norm_num [V3.dot])

end Ring

/-- C39, counterexample: `Adjugate` of a matrix is not the adjugate: `A * Adjugate(A) ≠ det(A) * 1`. -/
theorem C60_adjugate_violation :
    Mat4.mul (!![1, 1, 0, 0; 0, 1, 0, 0; 0, 0, 1, 0; 0, 0, 0, 1] : Mat4 ℚ)
      (Mat4.adjugate !![1, 1, 0, 0; 0, 1, 0, 0; 0, 0, 1, 0; 0, 0, 0, 1]) ≠
    (Matrix.det (!![1, 1, 0, 0; 0, 1, 0, 0; 0, 0, 1, 0; 0, 0, 0, 1] : Mat4 ℚ)) •
      (1 : Matrix (Fin 4) (Fin 4) ℚ) := by
  rw [← Mat4.determinant4_eq]; decide +kernel

/-- C39, counterexample: the matrix `OrthographicProjection` returns for the same plane depends on the
uninitialised memory. -/
theorem C60_orthographicProjection_violation :
    Mat4.orthographicProjection (⟨0, 0, 1⟩ : V3 ℚ) 0 ![0, 0, 0, 1] ≠
    Mat4.orthographicProjection ⟨0, 0, 1⟩ 0 ![0, 0, 0, 7] := by decide +kernel

section Field
variable [Field α] [LinearOrder α] [IsStrictOrderedRing α]

/-- C39. If `Inverse()` returns true, the matrix has become the two-sided inverse of the original, so
`M⁻¹ * (M * v) = v = M * (M⁻¹ * v)`. -/
theorem C39_inverse (m : Mat4 α) (eps : α) (he : 0 < eps) (ht : (Mat4.inverse m eps).2 = true) (v : F4 α) :
    Mat4.mul (Mat4.inverse m eps).1 m = Mat4.identity ∧
    Mat4.mul m (Mat4.inverse m eps).1 = Mat4.identity ∧
    Mat4.mulVec4 (Mat4.inverse m eps).1 (Mat4.mulVec4 m v) = v ∧
    Mat4.mulVec4 m (Mat4.mulVec4 (Mat4.inverse m eps).1 v) = v := by
  have h1 : (Mat4.inverse m eps).1 * m = 1 := MatGen.inverseMatrix_left m eps he ht
  have h2 : m * (Mat4.inverse m eps).1 = 1 := mul_eq_one_comm.1 h1
  simp only [Mat4.mul_eq, Mat4.identity_eq, Mat4.mulVec4_eq, Matrix.mulVec_mulVec, h1, h2, Matrix.one_mulVec]
  exact ⟨trivial, trivial, trivial, trivial⟩

example : (Mat4.inverse (!![0, 2, 0, 1; 1, 0, 3, 2; 0, 1, 4, 3; 1, 1, 1, 0] : Mat4 ℚ)).2 = true := by decide +kernel

/-- C39. `Inverse()` returns false on every singular matrix, and true on every non-singular one once the
tolerance is small enough. -/
theorem C39_inverse_success (m : Mat4 α) :
    (Matrix.det m = 0 → ∀ eps, 0 < eps → (Mat4.inverse m eps).2 = false) ∧
    (Matrix.det m ≠ 0 → ∃ δ > 0, ∀ eps, 0 < eps → eps ≤ δ → (Mat4.inverse m eps).2 = true) := by
  constructor
  · intro hd eps he
    by_contra h
    have h1 : (Mat4.inverse m eps).1 * m = 1 := MatGen.inverseMatrix_left m eps he (by simpa [Mat4.inverse] using h)
    have := congrArg Matrix.det h1
    rw [Matrix.det_mul, hd, mul_zero, Matrix.det_one] at this
    exact zero_ne_one this
  · exact fun hd => MatGen.inverseMatrix_progress m hd

end Field
end MGL
