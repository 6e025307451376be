import Verif.Spec.Vec3
import Mathlib.Tactic.Linarith
import Mathlib.Tactic.Positivity
import Mathlib.Tactic.LinearCombination

/-! Elementary facts about the vectors of `Spec/Vec3`. -/

namespace MGL
namespace V3
variable {α : Type*}

section Ring
variable [CommRing α]

theorem dot_comm (a b : V3 α) : dot a b = dot b a := by simp only [dot]; ring
theorem dot_add (a b c : V3 α) : dot a (b + c) = dot a b + dot a c := by simp [dot]; ring
theorem add_dot (a b c : V3 α) : dot (a + b) c = dot a c + dot b c := by simp [dot]; ring
theorem dot_sub (a b c : V3 α) : dot a (b - c) = dot a b - dot a c := by simp [dot]; ring
theorem sub_dot (a b c : V3 α) : dot (a - b) c = dot a c - dot b c := by simp [dot]; ring
theorem dot_smul (t : α) (a b : V3 α) : dot a (t • b) = t * dot a b := by simp [dot]; ring
theorem smul_dot (t : α) (a b : V3 α) : dot (t • a) b = t * dot a b := by simp [dot]; ring
theorem dot_neg (a b : V3 α) : dot a (-b) = -dot a b := by simp [dot]; ring
theorem neg_dot (a b : V3 α) : dot (-a) b = -dot a b := by simp [dot]; ring
@[simp] theorem dot_zero (a : V3 α) : dot a 0 = 0 := by simp [dot]
@[simp] theorem zero_dot (a : V3 α) : dot 0 a = 0 := by simp [dot]
theorem lenSq_eq (a : V3 α) : lenSq a = a.x * a.x + a.y * a.y + a.z * a.z := rfl
theorem distSq_eq (a b : V3 α) :
    distSq a b = (a.x - b.x) * (a.x - b.x) + (a.y - b.y) * (a.y - b.y) + (a.z - b.z) * (a.z - b.z) := rfl
theorem distSq_comm (a b : V3 α) : distSq a b = distSq b a := by simp only [distSq_eq]; ring
@[simp] theorem distSq_self (a : V3 α) : distSq a a = 0 := by simp [distSq_eq]
/-- Lagrange's identity. -/
theorem lagrange (a b : V3 α) : dot a b * dot a b + lenSq (cross a b) = lenSq a * lenSq b := by
  simp only [lenSq, dot, cross]; ring
end Ring

section Order
variable [Field α] [LinearOrder α] [IsStrictOrderedRing α]

theorem lenSq_nonneg (a : V3 α) : 0 ≤ lenSq a := by
  simp only [lenSq, dot]
  nlinarith [mul_self_nonneg a.x, mul_self_nonneg a.y, mul_self_nonneg a.z]

theorem distSq_nonneg (a b : V3 α) : 0 ≤ distSq a b := lenSq_nonneg _

theorem lenSq_eq_zero {a : V3 α} : lenSq a = 0 ↔ a = 0 := by
  constructor
  · intro h
    simp only [lenSq, dot] at h
    have hx : a.x * a.x = 0 := by
      nlinarith [mul_self_nonneg a.x, mul_self_nonneg a.y, mul_self_nonneg a.z]
    have hy : a.y * a.y = 0 := by
      nlinarith [mul_self_nonneg a.x, mul_self_nonneg a.y, mul_self_nonneg a.z]
    have hz : a.z * a.z = 0 := by
      nlinarith [mul_self_nonneg a.x, mul_self_nonneg a.y, mul_self_nonneg a.z]
    ext <;> simp only [zero_x, zero_y, zero_z]
    · exact mul_self_eq_zero.1 hx
    · exact mul_self_eq_zero.1 hy
    · exact mul_self_eq_zero.1 hz
  · rintro rfl; simp [lenSq, dot]

theorem lenSq_pos {a : V3 α} (h : a ≠ 0) : 0 < lenSq a :=
  lt_of_le_of_ne (lenSq_nonneg a) (fun e => h (lenSq_eq_zero.1 e.symm))

theorem distSq_eq_zero {a b : V3 α} : distSq a b = 0 ↔ a = b := by
  rw [distSq, lenSq_eq_zero]
  constructor
  · intro h
    have hx := congrArg V3.x h; have hy := congrArg V3.y h; have hz := congrArg V3.z h
    simp only [sub_x, sub_y, sub_z, zero_x, zero_y, zero_z] at hx hy hz
    ext <;> linarith
  · rintro rfl; ext <;> simp

/-- Cauchy–Schwarz. -/
theorem cauchy (a b : V3 α) : dot a b * dot a b ≤ lenSq a * lenSq b := by
  rw [← lagrange]; linarith [lenSq_nonneg (cross a b)]

/-- The variational inequality: `q` is nearest to `p` when every `s` lies behind the plane through
`q` facing `p`. -/
theorem distSq_le_of_dot {p q s : V3 α} (h : dot (p - q) (s - q) ≤ 0) : distSq p q ≤ distSq p s := by
  have e : distSq p s = distSq p q + distSq s q - 2 * dot (p - q) (s - q) := by
    simp only [distSq, lenSq, dot, sub_x, sub_y, sub_z]; ring
  linarith [distSq_nonneg s q]

end Order
end V3
end MGL
