import Mathlib.Algebra.Order.Field.Rat
import Mathlib.Algebra.Order.Group.Abs
import Mathlib.Algebra.Order.Field.Power
import Mathlib.Data.Rat.Defs

/-! Rounding to binary32: which rationals are single precision numbers, and what a round-to-nearest
operation is (whatever its rule for ties). -/

namespace MGL.Spec

/-- `x` is the value of a finite binary32 number. -/
def IsF32 (x : ℚ) : Prop :=
  ∃ (m e : ℤ), |m| < 2 ^ 24 ∧ -149 ≤ e ∧ e ≤ 104 ∧ x = m * (2 : ℚ) ^ e

/-- The largest finite binary32 number. -/
def maxF32 : ℚ := (2 ^ 24 - 1) * 2 ^ 104

/-- `r` rounds every number of magnitude at most `maxF32` to a nearest binary32 number. -/
def RoundsToNearest (r : ℚ → ℚ) : Prop :=
  ∀ x, |x| ≤ maxF32 → IsF32 (r x) ∧ ∀ y, IsF32 y → |r x - x| ≤ |y - x|

end MGL.Spec
