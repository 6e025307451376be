import Verif.Model.PolyhedronPair

/-! Model of the intersection tests of class `Polyhedron` with boxes and spheres, and of its edges as segments (src/Geometry/Polyhedron.cpp). Exact
arithmetic over the reals; `none` is a read outside an array, which includes `back()` of a face without vertices. -/

namespace MGL
open V3
namespace Polyhedron

section
variable {α : Type}

/-- src/Geometry/Polyhedron.cpp:148-149, the loop of `Edges`. -/
def edgeLines (p : Polyhedron α) : List (ℤ × ℤ) → Option (List (LineSeg α))
  | [] => some []
  | e :: r => do
    let a ← p.vertex e.1
    let b ← p.vertex e.2
    let l ← edgeLines p r
    some (⟨a, b⟩ :: l)

/-- src/Geometry/Polyhedron.cpp:143-152 `Edges`. -/
def edges (p : Polyhedron α) : Option (List (LineSeg α)) := p.edgeLines p.edgeIndices

/-- src/Geometry/Polyhedron.cpp:135-141 `Edge`. -/
def edge (p : Polyhedron α) (i : ℤ) : Option (LineSeg α) := do
  let l ← p.edges
  if 0 ≤ i then l[i.toNat]? else none

end

noncomputable section
open Classical

/-- src/Geometry/Polyhedron.cpp:1213-1215, the loop over the edges of the other object. -/
def anySeg (p : Polyhedron ℝ) : List (LineSeg ℝ) → Option Bool
  | [] => some false
  | l :: r => do if ← p.intersectsSeg l then some true else anySeg p r

/-- src/Geometry/Polyhedron.cpp:1204-1235 `PolyhedronIntersectsAABB_OBB`; the arguments are the centre of the object, its test for points, its
edges and its test for segments. -/
def intersectsBoxLike (p : Polyhedron ℝ) (center : V3 ℝ) (contains : V3 ℝ → Bool) (edges : List (LineSeg ℝ)) (meets : LineSeg ℝ → Bool) :
    Option Bool := do
  if ← p.contains center then some true
  else if contains p.approximateConvexCentroid then some true
  else if ← p.anySeg edges then some true
  else p.anyEdge (fun l => some (meets l)) p.f

/-- src/Geometry/Polyhedron.cpp:1237-1240 `Intersects(AABB)`. -/
def intersectsAABB (p : Polyhedron ℝ) (b : AABB ℝ) : Option Bool :=
  p.intersectsBoxLike b.centerPoint b.containsPoint ((List.finRange 12).map fun i => ⟨(b.edge i).1, (b.edge i).2⟩)
    fun l => (b.intersectsSegment l.a l.b).isSome

/-- src/Geometry/Polyhedron.cpp:1242-1245 `Intersects(OBB)`. -/
def intersectsOBB (p : Polyhedron ℝ) (o : OBB ℝ) : Option Bool :=
  p.intersectsBoxLike o.pos o.contains ((List.finRange 12).map o.edge) fun l => (o.intersectsSeg l).isSome

/-- src/Geometry/Polyhedron.cpp:1262-1266 `Intersects(Sphere)`; the inner `none` of `closestPoint` is NaN, with which the comparison is false. -/
def intersectsSphere (p : Polyhedron ℝ) (s : Sphere ℝ) : Option Bool := do
  match ← p.closestPoint s.pos with
  | none => some false
  | some q => some (decide (distSq q s.pos ≤ s.r * s.r))

end
end Polyhedron
end MGL
