import Mathlib.Analysis.SpecialFunctions.Sqrt
import Mathlib.Tactic.FieldSimp
import Mathlib.Tactic.Linarith

/-! Model of `Polynomial::SolveQuadratic` (exact arithmetic over the reals). -/

namespace MGL

/-- The answer of `SolveQuadratic`: the returned count together with the outputs it has set. -/
inductive QuadRoots
  | zero
  | one (r1 : ℝ)
  | two (r1 r2 : ℝ)

/-- src/Math/Polynomial.cpp:23-41 `Polynomial::SolveQuadratic`; `1e-6f` is taken as `10^-6`. -/
noncomputable def solveQuadratic (a b c : ℝ) : QuadRoots :=
  let radicand := b * b - 4 * a * c
  if radicand < -(1 / 1000000) then .zero
  else
    let denom := 1 / (2 * a)
    if radicand < 1 / 1000000 then .one (-b * denom)
    else .two ((-b + Real.sqrt radicand) * denom) ((-b - Real.sqrt radicand) * denom)

end MGL
