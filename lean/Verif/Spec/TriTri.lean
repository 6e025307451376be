import Verif.Spec.Vec3
import Verif.Spec.Dist

/-! How a triangle lies with respect to a plane. Nothing here mentions the model. -/

namespace MGL.Spec
open V3

/-- The triangle `a`, `b`, `c` and the plane through `o` with the normal `N`: either the triangle is farther than `1e-4` from the plane,
on one side of it, or it has vertices strictly on both sides of it and `b` is not in the plane. -/
def ClearSides (N o a b c : V3 ℝ) : Prop :=
  (∀ v ∈ [a, b, c], 1 / 10000 * len N < dot N (v - o)) ∨
  (∀ v ∈ [a, b, c], dot N (v - o) < -(1 / 10000 * len N)) ∨
  ((∃ v ∈ [a, b, c], 0 < dot N (v - o)) ∧ (∃ v ∈ [a, b, c], dot N (v - o) < 0) ∧ dot N (b - o) ≠ 0)

/-- The directed edges of the triangle `a`, `b`, `c`. -/
def triEdges (a b c : V3 ℝ) : List (V3 ℝ × V3 ℝ) := [(a, b), (b, c), (c, a)]

/-- The angle between the two edges is more than `1e-4`. -/
def EdgesAcross (e f : V3 ℝ × V3 ℝ) : Prop :=
  1 / 100000000 * lenSq (e.2 - e.1) * lenSq (f.2 - f.1) < lenSq (cross (e.2 - e.1) (f.2 - f.1))

/-- The two edges are parallel. -/
def EdgesParallel (e f : V3 ℝ × V3 ℝ) : Prop := cross (e.2 - e.1) (f.2 - f.1) = 0

/-- The barycentric coordinates of the point `p` in the triangle `a`, `b`, `c` are not negative, or some is less than `-1e-3`: `p` is in
the triangle, or clearly outside it. -/
def ClearlyInOut (a b c p : V3 ℝ) : Prop :=
  ∀ u v w : ℝ, u + v + w = 1 → u • a + v • b + w • c = p → (0 ≤ u ∧ 0 ≤ v ∧ 0 ≤ w) ∨ u < -(1 / 1000) ∨ v < -(1 / 1000) ∨ w < -(1 / 1000)

end MGL.Spec
