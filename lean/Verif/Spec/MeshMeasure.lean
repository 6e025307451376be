import Verif.Spec.Polygon
import Verif.Spec.MeshGeom

/-! Volume, centre of mass and surface of a polygon mesh, independently of the code: sums over the tetrahedra that a reference point spans
with the triangles of the faces. -/

namespace MGL.Spec
open V3
variable {α : Type*} [Field α] [LinearOrder α]

/-- Six times the signed volume of the tetrahedron `(o, a, b, c)`; positive if `o` is behind the triangle `(a, b, c)`. -/
def tetra6 (o : V3 α) (t : V3 α × V3 α × V3 α) : α := dot (t.1 - o) (cross (t.2.1 - o) (t.2.2 - o))

/-- The triangles of a polygon: the fan around its first corner. -/
def fanOf {β : Type*} : List β → List (β × β × β)
  | [] => []
  | a :: r => fan a r

/-- The triangles of all faces. -/
def meshTriangles (V : List (V3 α)) (fs : List (List ℤ)) : List (V3 α × V3 α × V3 α) := fs.flatMap fun f => fanOf (f.map (corner V))

/-- The volume that the mesh encloses, as the sum of the signed volumes of the tetrahedra between `o` and the triangles. -/
def signedVolume (o : V3 α) (V : List (V3 α)) (fs : List (List ℤ)) : α := ((meshTriangles V fs).map (tetra6 o)).sum / 6

/-- The first moment of the enclosed volume: every tetrahedron contributes its signed volume times the mean of its four corners. -/
def moment (o : V3 α) (V : List (V3 α)) (fs : List (List ℤ)) : V3 α :=
  ((meshTriangles V fs).map fun t => (tetra6 o t / 6) • ((1 / 4 : α) • (o + t.1 + t.2.1 + t.2.2))).sum

/-- Faces whose plane and area the library can tell: strictly convex, and triangles or not too small. -/
def ProperFace (p : List (V3 ℝ)) : Prop := ∃ n, ConvexPolygon n p ∧ (p.length = 3 ∨ HasTriangle p)

end MGL.Spec
