import Verif.Model.PolyhedronIntersect

/-! Model of the intersection test of class `Polyhedron` with another polyhedron (src/Geometry/Polyhedron.cpp). Exact arithmetic over the reals;
`none` is a read outside an array, which includes `back()` of a face without vertices. -/

namespace MGL
open V3
namespace Polyhedron

noncomputable section
open Classical

/-- src/Geometry/Polyhedron.cpp:1173-1181, 1190-1198: the inner loop, over the edges of one face; `v0`, `l0` are the number and the position of
the vertex before. -/
def edgeLoop (p : Polyhedron ℝ) (test : LineSeg ℝ → Option Bool) (v0 : ℤ) (l0 : V3 ℝ) : List ℤ → Option Bool
  | [] => some false
  | v1 :: r => do
    let l1 ← p.vertex v1
    if v0 < v1 then
      if ← test ⟨l0, l1⟩ then some true else edgeLoop p test v1 l1 r
    else edgeLoop p test v1 l1 r

/-- src/Geometry/Polyhedron.cpp:1168-1182, 1185-1199: whether a test holds for an edge of the polyhedron; of the two directions of an edge only the
one from the lower to the higher number is tested. -/
def anyEdge (p : Polyhedron ℝ) (test : LineSeg ℝ → Option Bool) : List (List ℤ) → Option Bool
  | [] => some false
  | f :: fs => do
    let v0 ← f.getLast?
    let l0 ← p.vertex v0
    if ← p.edgeLoop test v0 l0 f then some true else anyEdge p test fs

/-- src/Geometry/Polyhedron.cpp:1151-1202 `Intersects(Polyhedron)`. -/
def intersectsPolyhedron (a b : Polyhedron ℝ) : Option Bool := do
  let c := a.approximateConvexCentroid
  if ← (do if ← b.contains c then a.contains c else some false) then some true
  else
    let c := b.approximateConvexCentroid
    if ← (do if ← b.contains c then a.contains c else some false) then some true
    else if ← a.anyEdge b.intersectsSeg a.f then some true
    else b.anyEdge a.intersectsSeg b.f

end
end Polyhedron
end MGL
