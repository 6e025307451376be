import Verif.Spec.ConvexSurface
import Verif.Spec.Polygon

/-! Lines that are not nearly parallel to the faces of a polyhedron. Nothing here mentions the model. -/

namespace MGL.Spec
open V3

/-- For every face, the direction `w` has a component above `1e-4` along the unit normal of the face, or is parallel to the face while
`x` is at least `1e-3` away from its plane. -/
def SteepLine (V : List (V3 ℝ)) (fs : List (List ℤ)) (x w : V3 ℝ) : Prop :=
  ∀ f ∈ fs, ∀ n, n = cornerNormal (f.map (corner V)) →
    1 / 10000 * len n < |dot n w| ∨ dot n w = 0 ∧ ∀ a ∈ f, 1 / 1000 * len n ≤ |dot n (x - corner V a)|

end MGL.Spec
