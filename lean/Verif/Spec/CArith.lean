import Mathlib.Data.Nat.Choose.Basic
import Mathlib.Data.Nat.Factorial.Basic

/-! Specifications for the integer arithmetic functions: they use Mathlib's factorial `n !`,
binomial coefficient `Nat.choose` and powers directly; the only notion needed here is the range of
a machine integer. -/

namespace MGL.Spec

/-- The largest value of a 32-bit `int`. -/
def intMax : ℕ := 2147483647

end MGL.Spec
