import Verif.Spec.Hull2D
import Mathlib.Data.Real.Basic

/-! Discs of the plane. Nothing here mentions the model. -/

namespace MGL.Spec

/-- The points at most `r` away from `c`; none when `r` is negative. -/
def disc2 (c : V2 ℝ) (r : ℝ) : Set (V2 ℝ) := {p | 0 ≤ r ∧ distSq2 c p ≤ r ^ 2}

/-- All points of the list are in the disc2. -/
def Encloses (c : V2 ℝ) (r : ℝ) (S : List (V2 ℝ)) : Prop := ∀ p ∈ S, p ∈ disc2 c r

/-- No disc2 that has all the points has a radius smaller than `r - slack`. -/
def SmallestUpTo (slack r : ℝ) (S : List (V2 ℝ)) : Prop := ∀ c' r', Encloses c' r' S → r ≤ r' + slack

/-- The points of `S` that are corners of its convex hull. -/
def IsCorner (S : List (V2 ℝ)) (v : V2 ℝ) : Prop := v ∈ S ∧ v ∉ hull2 (S.filter (fun w => decide (w ≠ v)))

end MGL.Spec
