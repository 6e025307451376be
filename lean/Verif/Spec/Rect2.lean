import Verif.Spec.Vec2Alg
import Mathlib.Data.Real.Basic

/-! Rectangles of the plane in any direction. -/

namespace MGL.Spec
open V2

/-- Two perpendicular unit vectors. -/
def IsFrame2 (u v : V2 ℝ) : Prop := dot u u = 1 ∧ dot v v = 1 ∧ dot u v = 0

/-- The rectangle with sides along `u` and `v`: the points whose coordinate along `u` is from `a` to `b`, and along `v` from `c` to `d`. -/
def frameRect (u v : V2 ℝ) (a b c d : ℝ) : Set (V2 ℝ) := {q | a ≤ dot u q ∧ dot u q ≤ b ∧ c ≤ dot v q ∧ dot v q ≤ d}

end MGL.Spec
