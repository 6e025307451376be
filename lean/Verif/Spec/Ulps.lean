import Verif.Spec.Ieee
import Mathlib.Data.Set.Card

/-! How far apart two floats are, counted in representable values. -/

namespace MGL.Spec

/-- The distinct real values of finite 32-bit floats that are above the smaller and up to the
larger of `p` and `q`. -/
def floatsBetween (p q : ℚ) : Set ℚ :=
  {r | (∃ c : ℕ, c < 2 ^ 32 ∧ FFinite 8 23 c ∧ f32Value c = r) ∧ min p q < r ∧ r ≤ max p q}

end MGL.Spec
