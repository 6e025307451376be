import Verif.Spec.Dist
import Mathlib.Analysis.SpecialFunctions.Trigonometric.Basic

/-! What a viewing frustum is, as a set of points. -/

namespace MGL.Spec
open V3

/-- The points seen from `eye` looking along `front`: at depth `d` between `n` and `f` the cross section is a rectangle of
half width `hw d` (along `right`) and half height `hh d` (along `up`). -/
def frustum (eye front right up : V3 ℝ) (n f : ℝ) (hw hh : ℝ → ℝ) : Set (V3 ℝ) :=
  {p | ∃ d x y : ℝ, n ≤ d ∧ d ≤ f ∧ |x| ≤ hw d ∧ |y| ≤ hh d ∧ p = eye + d • front + x • right + y • up}

/-- Half the extent of the cross section of a perspective frustum with opening angle `fov` at depth `d`. -/
noncomputable def perspHalf (fov : ℝ) (d : ℝ) : ℝ := Real.tan (fov / 2) * d

/-- Half the extent of the cross section of an orthographic frustum: the same at every depth. -/
noncomputable def orthoHalf (w : ℝ) (_ : ℝ) : ℝ := w / 2

end MGL.Spec
