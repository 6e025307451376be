import Verif.Spec.Polygon
import Verif.Spec.ConvexSurface

/-! The normal of a planar polygon of any shape. Nothing here mentions the model. -/

namespace MGL.Spec
open V3

/-- Twice the area that a closed polygon encloses, seen against the unit vector `n`: counterclockwise turns count positive. -/
def area2Seen (n : V3 ℝ) (poly : List (V3 ℝ)) : ℝ := ((closedEdges poly).map fun e => dot n (cross e.1 e.2)).sum

/-- `n` is the outward normal of the planar polygon: the unit vector that is perpendicular to its plane and against which the polygon
is run through counterclockwise. -/
def IsNormalOf (n : V3 ℝ) (poly : List (V3 ℝ)) : Prop :=
  dot n n = 1 ∧ (∀ x ∈ poly, ∀ y ∈ poly, dot n (x - y) = 0) ∧ 0 < area2Seen n poly

end MGL.Spec
