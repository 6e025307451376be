import Verif.Model.Scalar
import Mathlib.Algebra.Order.Ring.Abs

/-! The scalar helpers in Mathlib's terms. -/

namespace MGL
variable {α : Type*}

theorem min2_eq [LinearOrder α] (a b : α) : min2 a b = min a b := (min_def a b).symm

theorem max2_eq [LinearOrder α] (a b : α) : max2 a b = max a b := by
  unfold max2; rw [max_comm, max_def]

theorem absF_eq [Field α] [LinearOrder α] [IsStrictOrderedRing α] (a : α) : absF a = |a| := by
  unfold absF
  split
  · rw [abs_of_nonneg (by assumption)]
  · rename_i h; rw [abs_of_neg (not_le.1 h)]

end MGL
