import Verif.Model.Polyhedron
import Verif.Model.Plane

/-! Model of the functions of class `Polyhedron` that use the planes of the faces (src/Geometry/Polyhedron.cpp), over the real
numbers: merging a point into a convex polyhedron. The convex queries are in `PolyhedronConvex`. Reading a vertex out of range is
`none`. -/

namespace MGL
open V3
namespace Polyhedron

noncomputable section
open Classical

/-- src/Geometry/Polyhedron.cpp:197-208 `FacePlane`, for faces with at least three corners. The other cases of the function
(faces with two corners, one or none) are not modelled: `none`. -/
def facePlane (p : Polyhedron ℝ) (f : List ℤ) : Option (Plane ℝ) :=
  match f with
  | a :: b :: c :: _ => do
    let x ← p.vertex a
    let y ← p.vertex b
    let z ← p.vertex c
    some (Plane.setPoints x y z)
  | _ => none

/-- src/Geometry/Polyhedron.cpp:1486-1491 `MergeConvex`, the edges of a deleted face: `v0` is the previous vertex. -/
def deletedFace (v0 : ℤ) : List ℤ → List (ℤ × ℤ) → List (ℤ × ℤ)
  | [], s => s
  | y :: ys, s => deletedFace y ys (stdSetInsert pairLt (v0, y) s)

/-- src/Geometry/Polyhedron.cpp:1471-1493 `MergeConvex`, the loop over the faces: the faces that stay, in order (they are moved
to the front of the array and the rest is erased), and the set of the edges of the others. -/
def mergeScan (p : Polyhedron ℝ) (point : V3 ℝ) : List (List ℤ) → List (List ℤ) → List (ℤ × ℤ) →
    Option (List (List ℤ) × List (ℤ × ℤ))
  | [], kept, s => some (kept, s)
  | f :: fs, kept, s => do
    let pl ← p.facePlane f
    if pl.signedDistance point ≤ 0 then mergeScan p point fs (kept ++ [f]) s
    else do
      let v0 ← f.getLast?
      mergeScan p point fs kept (deletedFace v0 f s)

/-- src/Geometry/Polyhedron.cpp:1464-1521 `MergeConvex`. -/
def mergeConvex (p : Polyhedron ℝ) (point : V3 ℝ) : Option (Polyhedron ℝ) := do
  let r ← mergeScan p point p.f [] []
  if r.2 = [] then some { p with f := r.1 }
  else
    let v := p.v ++ [point]
    some ⟨v, r.1 ++ (r.2.filter fun e => decide ((e.2, e.1) ∉ r.2)).map fun e => [e.1, e.2, (v.length : ℤ) - 1]⟩

end

end Polyhedron
end MGL
