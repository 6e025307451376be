import Verif.Spec.Dist
import Verif.Proofs.Vec3

/-! Facts about Euclidean length and distance. -/

namespace MGL
namespace V3

theorem len_nonneg (a : V3 ℝ) : 0 ≤ len a := Real.sqrt_nonneg _
theorem dist_nonneg (a b : V3 ℝ) : 0 ≤ dist a b := Real.sqrt_nonneg _
theorem len_mul_self (a : V3 ℝ) : len a * len a = lenSq a := Real.mul_self_sqrt (lenSq_nonneg a)
theorem dist_mul_self (a b : V3 ℝ) : dist a b * dist a b = distSq a b :=
  Real.mul_self_sqrt (distSq_nonneg a b)
theorem dist_eq_len (a b : V3 ℝ) : dist a b = len (a - b) := rfl
theorem dist_comm (a b : V3 ℝ) : dist a b = dist b a := by unfold dist; rw [distSq_comm]
@[simp] theorem dist_self (a : V3 ℝ) : dist a a = 0 := by simp [dist]

theorem dot_le_len (a b : V3 ℝ) : dot a b ≤ len a * len b := by
  have h := cauchy a b
  have h1 := len_nonneg a; have h2 := len_nonneg b
  rw [← len_mul_self a, ← len_mul_self b] at h
  refine (abs_le_of_sq_le_sq' (a := dot a b) ?_ (mul_nonneg h1 h2)).2
  nlinarith

theorem len_add_le (a b : V3 ℝ) : len (a + b) ≤ len a + len b := by
  have h1 := len_nonneg a; have h2 := len_nonneg b; have h3 := len_nonneg (a + b)
  have e : lenSq (a + b) = lenSq a + lenSq b + 2 * dot a b := by
    simp only [lenSq, dot, add_x, add_y, add_z]; ring
  rw [← len_mul_self, ← len_mul_self a, ← len_mul_self b] at e
  have := dot_le_len a b
  nlinarith

theorem dist_triangle (a b c : V3 ℝ) : dist a c ≤ dist a b + dist b c := by
  have e : a - c = (a - b) + (b - c) := by ext <;> simp
  rw [dist_eq_len, dist_eq_len, dist_eq_len, e]
  exact len_add_le _ _

theorem dist_le_dist_iff {a b c d : V3 ℝ} : dist a b ≤ dist c d ↔ distSq a b ≤ distSq c d :=
  Real.sqrt_le_sqrt_iff (distSq_nonneg _ _)

theorem len_smul (t : ℝ) (a : V3 ℝ) : len (t • a) = |t| * len a := by
  unfold len
  have : lenSq (t • a) = t ^ 2 * lenSq a := by simp [lenSq, dot]; ring
  rw [this, Real.sqrt_mul (sq_nonneg t), Real.sqrt_sq_eq_abs]

theorem dist_le_iff {a b : V3 ℝ} {r : ℝ} (hr : 0 ≤ r) : dist a b ≤ r ↔ distSq a b ≤ r * r := by
  unfold dist
  rw [Real.sqrt_le_left hr, sq]

theorem dist_eq_zero {a b : V3 ℝ} : dist a b = 0 ↔ a = b := by
  unfold dist
  rw [Real.sqrt_eq_zero (distSq_nonneg a b), distSq_eq_zero]

theorem len_eq_zero {a : V3 ℝ} : len a = 0 ↔ a = 0 := by
  unfold len
  rw [Real.sqrt_eq_zero (lenSq_nonneg a), lenSq_eq_zero]

theorem len_pos {a : V3 ℝ} (h : a ≠ 0) : 0 < len a :=
  lt_of_le_of_ne (len_nonneg a) (fun e => h (len_eq_zero.1 e.symm))

end V3
end MGL
