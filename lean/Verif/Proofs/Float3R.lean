import Verif.Model.Float3R
import Verif.Proofs.Dist
import Mathlib.Tactic.Ring
import Mathlib.Tactic.FieldSimp
import Mathlib.Tactic.LinearCombination

/-! Helper lemmas about the real-valued `float3` functions. -/

namespace MGL
open V3

theorem f3Length_eq (v : V3 ℝ) : f3Length v = len v := rfl

/-- A vector longer than 1e-6 is normalised by division by its length. -/
theorem f3Normalize_pos {v : V3 ℝ} (h : 1 / 1000000 < len v) : f3Normalize v = ((1 / len v) • v, len v) := by
  unfold f3Normalize; rw [f3Length_eq, if_pos h]

theorem f3Normalize_neg {v : V3 ℝ} (h : ¬ 1 / 1000000 < len v) : f3Normalize v = (⟨1, 0, 0⟩, 0) := by
  unfold f3Normalize; rw [f3Length_eq, if_neg h]

theorem lenSq_smul (t : ℝ) (v : V3 ℝ) : lenSq (t • v) = t * t * lenSq v := by
  simp only [lenSq, dot, smul_x, smul_y, smul_z]; ring

theorem lenSq_normalized (v : V3 ℝ) : lenSq (f3Normalized v) = 1 := by
  unfold f3Normalized
  by_cases h : 1 / 1000000 < len v
  · rw [f3Normalize_pos h]
    have h0 : len v ≠ 0 := by intro h0; rw [h0] at h; norm_num at h
    have hl := len_mul_self v
    show lenSq ((1 / len v) • v) = 1
    rw [lenSq_smul, ← hl]; field_simp
  · rw [f3Normalize_neg h]; simp [lenSq, dot]

theorem f3Normalized_pos {v : V3 ℝ} (h : 1 / 1000000 < len v) : f3Normalized v = (1 / len v) • v := by
  unfold f3Normalized; rw [f3Normalize_pos h]

/-- Unit vectors are left alone. -/
theorem f3Normalized_unit {v : V3 ℝ} (h : lenSq v = 1) : f3Normalized v = v := by
  have hl : len v = 1 := by unfold len; rw [h, Real.sqrt_one]
  rw [f3Normalized_pos (by rw [hl]; norm_num), hl]; ext <;> simp

end MGL
