import Verif.Spec.Vec3
import Mathlib.Data.Real.Basic

/-! Edges of polygons, for property C85. -/

namespace MGL.Spec

/-- `a` and `b` are neighbouring vertices of a closed polygon, in this order. -/
def IsEdge (p : List (V3 ℝ)) (a b : V3 ℝ) : Prop := ∃ i, p[i]? = some a ∧ p[(i + 1) % p.length]? = some b

end MGL.Spec
