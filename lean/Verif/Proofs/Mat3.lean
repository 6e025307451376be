import Verif.Spec.Mat
import Verif.Model.Mat
import Verif.Model.MatGen
import Verif.Proofs.MatGen
import Verif.Proofs.Vec3
import Mathlib.Tactic.FinCases
import Mathlib.Tactic.LinearCombination
import Mathlib.Tactic.FieldSimp

/-! Bridges between the entry-by-entry model and Mathlib's matrix algebra. -/

namespace MGL
variable {α : Type*}

theorem V3.toFun_inj {u v : V3 α} (h : u.toFun = v.toFun) : u = v := by
  have h0 := congrFun h 0
  have h1 := congrFun h 1
  have h2 := congrFun h 2
  simp [V3.toFun] at h0 h1 h2
  exact V3.ext h0 h1 h2

theorem V3.toFun_surj (f : Fin 3 → α) : ∃ v : V3 α, v.toFun = f :=
  ⟨⟨f 0, f 1, f 2⟩, by ext i; fin_cases i <;> rfl⟩

section
variable [CommRing α]

namespace Mat3

theorem identity_eq : (identity : Mat3 α) = 1 := by
  ext i j; fin_cases i <;> fin_cases j <;> rfl

theorem mul_eq (a b : Mat3 α) : mul a b = a * b := by
  ext i j
  rw [Matrix.mul_apply, Fin.sum_univ_three]
  fin_cases i <;> fin_cases j <;> simp [mul]

theorem mulVec_eq (m : Mat3 α) (v : V3 α) : (mulVec m v).toFun = Matrix.mulVec m v.toFun := by
  ext i
  rw [Matrix.mulVec, dotProduct, Fin.sum_univ_three]
  fin_cases i <;> simp [mulVec, V3.toFun]

theorem transformLeft_eq (m : Mat3 α) (v : V3 α) : (transformLeft m v).toFun = Matrix.vecMul v.toFun m := by
  ext i
  rw [Matrix.vecMul, dotProduct, Fin.sum_univ_three]
  fin_cases i <;> simp [transformLeft, V3.toFun]

theorem determinant_eq (m : Mat3 α) : determinant m = Matrix.det m := by
  rw [Matrix.det_fin_three, determinant]; ring

omit [CommRing α] in
theorem transpose_eq (m : Mat3 α) : transpose m = Matrix.transpose m := by
  ext i j; fin_cases i <;> fin_cases j <;> simp [transpose, Mat.swapAt, Mat.setAt]

theorem mulVec_mul (a b : Mat3 α) (v : V3 α) : mulVec (mul a b) v = mulVec a (mulVec b v) := by
  apply V3.toFun_inj
  rw [mulVec_eq, mulVec_eq, mulVec_eq, mul_eq, Matrix.mulVec_mulVec]

theorem mulVec_identity (v : V3 α) : mulVec identity v = v := by
  apply V3.toFun_inj
  rw [mulVec_eq, identity_eq, Matrix.one_mulVec]

end Mat3
end
end MGL
