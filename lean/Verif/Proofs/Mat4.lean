import Verif.Proofs.Mat3

/-! Bridges between the entry-by-entry model of 3x4 and 4x4 matrices and Mathlib's matrix algebra. -/

namespace MGL
variable {α : Type*}

theorem V3.hpos_inj [One α] {u v : V3 α} (h : u.hpos = v.hpos) : u = v := by
  have h0 := congrFun h 0
  have h1 := congrFun h 1
  have h2 := congrFun h 2
  simp [V3.hpos] at h0 h1 h2
  exact V3.ext h0 h1 h2

section
variable [CommRing α]

theorem Spec.affine_inj {a b : Matrix (Fin 3) (Fin 4) α} (h : Spec.affine a = Spec.affine b) : a = b := by
  ext i j
  have := congrFun (congrFun h i.castSucc) j
  simpa [Spec.affine] using this

namespace Mat34

theorem affine_identity : Spec.affine (identity : Mat34 α) = 1 := by
  ext i j; fin_cases i <;> fin_cases j <;> simp [Spec.affine, identity]

theorem mul_eq (a b : Mat34 α) : Spec.affine (mul a b) = Spec.affine a * Spec.affine b := by
  ext i j
  rw [Matrix.mul_apply, Fin.sum_univ_four]
  fin_cases i <;> fin_cases j <;> simp [mul, Spec.affine]

theorem mulPos_eq (m : Mat34 α) (v : V3 α) : (mulPos m v).hpos = Matrix.mulVec (Spec.affine m) v.hpos := by
  ext i
  rw [Matrix.mulVec, dotProduct, Fin.sum_univ_four]
  fin_cases i <;> simp [mulPos, V3.hpos, Spec.affine]

theorem mulDir_eq (m : Mat34 α) (v : V3 α) : (mulDir m v).hdir = Matrix.mulVec (Spec.affine m) v.hdir := by
  ext i
  rw [Matrix.mulVec, dotProduct, Fin.sum_univ_four]
  fin_cases i <;> simp [mulDir, V3.hdir, Spec.affine]

theorem mulVec4_eq (m : Mat34 α) (v : F4 α) : mulVec4 m v = Matrix.mulVec (Spec.affine m) v := by
  ext i
  rw [Matrix.mulVec, dotProduct, Fin.sum_univ_four]
  fin_cases i <;> simp [mulVec4, Spec.affine]

theorem mulMat3_eq (a : Mat34 α) (b : Mat3 α) : Spec.affine (mulMat3 a b) = Spec.affine a * Spec.linear4 b := by
  ext i j
  rw [Matrix.mul_apply, Fin.sum_univ_four]
  fin_cases i <;> fin_cases j <;> simp [mulMat3, Spec.affine, Spec.linear4]

theorem ofMat3_eq (b : Mat3 α) : Spec.affine (ofMat3 b) = Spec.linear4 b := by
  ext i j
  fin_cases i <;> fin_cases j <;> simp [ofMat3, ofParts, Spec.affine, Spec.linear4]

theorem mulPos_mul (a b : Mat34 α) (v : V3 α) : mulPos (mul a b) v = mulPos a (mulPos b v) := by
  apply V3.hpos_inj
  rw [mulPos_eq, mulPos_eq, mulPos_eq, mul_eq, Matrix.mulVec_mulVec]

theorem mulPos_identity (v : V3 α) : mulPos identity v = v := by
  apply V3.hpos_inj; rw [mulPos_eq, affine_identity, Matrix.one_mulVec]

theorem determinant_eq (m : Mat34 α) : determinant m = Matrix.det (float3x3Part m) := by
  rw [Matrix.det_fin_three]; simp [determinant, float3x3Part]; ring

end Mat34

namespace Mat4

theorem identity_eq : (identity : Mat4 α) = 1 := by
  ext i j; fin_cases i <;> fin_cases j <;> rfl

theorem mul_eq (a b : Mat4 α) : mul a b = a * b := by
  ext i j
  rw [Matrix.mul_apply, Fin.sum_univ_four]
  fin_cases i <;> fin_cases j <;> simp [mul]

theorem ofMat34_eq (m : Mat34 α) : ofMat34 m = Spec.affine m := by
  ext i j; fin_cases i <;> fin_cases j <;> simp [ofMat34, Spec.affine]

theorem ofMat3_eq (m : Mat3 α) : ofMat3 m = Spec.linear4 m := by
  ext i j; fin_cases i <;> fin_cases j <;> simp [ofMat3, Spec.linear4]

theorem mulMat3_eq (a : Mat4 α) (b : Mat3 α) : mulMat3 a b = a * Spec.linear4 b := by
  ext i j
  rw [Matrix.mul_apply, Fin.sum_univ_four]
  fin_cases i <;> fin_cases j <;> simp [mulMat3, Spec.linear4]

theorem mulMat34_eq (a : Mat4 α) (b : Mat34 α) : mulMat34 a b = a * Spec.affine b := by
  ext i j
  rw [Matrix.mul_apply, Fin.sum_univ_four]
  fin_cases i <;> fin_cases j <;> simp [mulMat34, Spec.affine]

theorem mat3Mul_eq (a : Mat3 α) (b : Mat4 α) : mat3Mul a b = Spec.linear4 a * b := by
  ext i j
  rw [Matrix.mul_apply, Fin.sum_univ_four]
  fin_cases i <;> fin_cases j <;> simp [mat3Mul, Spec.linear4]

theorem mat34Mul_eq (a : Mat34 α) (b : Mat4 α) : mat34Mul a b = Spec.affine a * b := by
  ext i j
  rw [Matrix.mul_apply, Fin.sum_univ_four]
  fin_cases i <;> fin_cases j <;> simp [mat34Mul, Spec.affine]

theorem mulVec4_eq (m : Mat4 α) (v : F4 α) : mulVec4 m v = Matrix.mulVec m v := by
  ext i
  rw [Matrix.mulVec, dotProduct, Fin.sum_univ_four]
  fin_cases i <;> simp [mulVec4]

theorem vec4Mul_eq (m : Mat4 α) (v : F4 α) : vec4Mul v m = Matrix.vecMul v m := by
  ext i
  rw [Matrix.vecMul, dotProduct, Fin.sum_univ_four]
  fin_cases i <;> simp [vec4Mul]

omit [CommRing α] in
theorem transpose_eq (m : Mat4 α) : transpose m = Matrix.transpose m := by
  ext i j; fin_cases i <;> fin_cases j <;> simp [transpose, Mat.swapAt, Mat.setAt]

theorem minor_eq (m : Mat4 α) (i j : Fin 4) :
    minor m i j = Matrix.det (Matrix.submatrix m i.succAbove j.succAbove) := by
  rw [Matrix.det_fin_three]
  fin_cases i <;> fin_cases j <;> simp [minor, skipNum, Fin.succAbove, Fin.lt_def] <;> ring

theorem determinant4_eq (m : Mat4 α) : determinant4 m = Matrix.det m := by
  rw [Matrix.det_succ_row_zero, Fin.sum_univ_four]
  simp only [determinant4, minor_eq, Fin.succAbove_zero]
  simp only [Fin.isValue, Fin.val_zero, Fin.val_one, Fin.val_two, pow_zero, pow_one]
  have : ((3 : Fin 4) : ℕ) = 3 := rfl
  rw [this]; ring

end Mat4
end
end MGL
