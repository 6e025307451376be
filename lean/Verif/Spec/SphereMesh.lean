import Verif.Spec.BoxMesh
import Mathlib.Data.Real.Basic

/-! Edges of triangle meshes, for property C116. -/

namespace MGL

/-- The directed edges of a triangle of a mesh. -/
def Spec.directedEdges (t : V3 ℝ × V3 ℝ × V3 ℝ) : List (V3 ℝ × V3 ℝ) := [(t.1, t.2.1), (t.2.1, t.2.2), (t.2.2, t.1)]

end MGL
