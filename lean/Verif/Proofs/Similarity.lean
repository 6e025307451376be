import Verif.Spec.Affine
import Verif.Proofs.Vec3
import Mathlib.LinearAlgebra.Matrix.NonsingularInverse
import Mathlib.Data.Real.Basic

/-! An affine map whose matrix has orthogonal columns of equal length is onto. -/

namespace MGL
open V3

theorem affine_onto (a : Fin 3 → Fin 3 → ℝ) (k : ℝ) (hk : 0 < k)
    (ho : ∀ i j, a 0 i * a 0 j + a 1 i * a 1 j + a 2 i * a 2 j = if i = j then k * k else 0) (t : V3 ℝ) :
    ∃ g : V3 ℝ → V3 ℝ, ∀ y, Spec.affineMap a t (g y) = y := by
  have hkk : k * k ≠ 0 := (mul_pos hk hk).ne'
  have hA : (Matrix.of a).transpose * Matrix.of a = (k * k) • (1 : Matrix (Fin 3) (Fin 3) ℝ) := by
    ext i j
    rw [Matrix.mul_apply, Fin.sum_univ_three]
    simp only [Matrix.transpose_apply, Matrix.of_apply, Matrix.smul_apply, Matrix.one_apply, smul_eq_mul, mul_ite, mul_one, mul_zero]
    exact ho i j
  have hB : Matrix.of a * ((k * k)⁻¹ • (Matrix.of a).transpose) = 1 := by
    rw [mul_eq_one_comm, Matrix.smul_mul, hA, smul_smul, inv_mul_cancel₀ hkk, one_smul]
  have rows : ∀ i j, a i 0 * a j 0 + a i 1 * a j 1 + a i 2 * a j 2 = if i = j then k * k else 0 := by
    intro i j
    have := congrFun (congrFun hB i) j
    rw [Matrix.mul_smul, Matrix.smul_apply, Matrix.mul_apply, Fin.sum_univ_three, Matrix.one_apply] at this
    simp only [Matrix.transpose_apply, Matrix.of_apply, smul_eq_mul] at this
    rw [inv_mul_eq_iff_eq_mul₀ hkk] at this
    rw [this]; split_ifs <;> simp
  refine ⟨fun y =>
      ⟨(a 0 0 * (y.x - t.x) + a 1 0 * (y.y - t.y) + a 2 0 * (y.z - t.z)) / (k * k),
       (a 0 1 * (y.x - t.x) + a 1 1 * (y.y - t.y) + a 2 1 * (y.z - t.z)) / (k * k),
       (a 0 2 * (y.x - t.x) + a 1 2 * (y.y - t.y) + a 2 2 * (y.z - t.z)) / (k * k)⟩, fun y => ?_⟩
  have r00 := rows 0 0
  have r01 := rows 0 1
  have r02 := rows 0 2
  have r11 := rows 1 1
  have r12 := rows 1 2
  have r22 := rows 2 2
  simp at r00 r01 r02 r11 r12 r22
  unfold Spec.affineMap
  ext
  · dsimp only; field_simp
    linear_combination (y.x - t.x) * r00 + (y.y - t.y) * r01 + (y.z - t.z) * r02
  · dsimp only; field_simp
    linear_combination (y.x - t.x) * r01 + (y.y - t.y) * r11 + (y.z - t.z) * r12
  · dsimp only; field_simp
    linear_combination (y.x - t.x) * r02 + (y.y - t.y) * r12 + (y.z - t.z) * r22

end MGL
