import Mathlib.Data.Real.Basic
import Mathlib.Order.Interval.Set.Defs
import Mathlib.Order.Monotone.Defs

/-! What an interpolation curve on `[0, 1]` is. Nothing here mentions the model. -/

namespace MGL.Spec

/-- A curve from 0 to 1: it starts at 0, ends at 1 and always rises in between (so it stays in `[0, 1]`). -/
structure Easing (f : ℝ → ℝ) : Prop where
  start : f 0 = 0
  stop : f 1 = 1
  rises : StrictMonoOn f (Set.Icc 0 1)

/-- The curve starts flat: near 0 it rises no faster than a multiple of `t ^ k`. -/
def FlatStart (k : ℕ) (f : ℝ → ℝ) : Prop := ∃ C : ℝ, ∀ t ∈ Set.Icc (0 : ℝ) 1, |f t| ≤ C * t ^ k

/-- The curve ends flat: near 1 it is no farther from 1 than a multiple of `(1 - t) ^ k`. -/
def FlatStop (k : ℕ) (f : ℝ → ℝ) : Prop := ∃ C : ℝ, ∀ t ∈ Set.Icc (0 : ℝ) 1, |1 - f t| ≤ C * (1 - t) ^ k

/-- The second half of the curve is the first one turned by 180 degrees. -/
def Symmetric (f : ℝ → ℝ) : Prop := ∀ t, f (1 - t) = 1 - f t

end MGL.Spec
