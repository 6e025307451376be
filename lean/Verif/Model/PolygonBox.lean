import Verif.Model.Polygon
import Verif.Model.GJKShapes

/-! Polygons against boxes: src/Geometry/Polygon.cpp. -/

namespace MGL
open V3
noncomputable section
namespace Polygon

/-- The pairs `(l.a, l.b)` of the loop src/Geometry/Polygon.cpp:561-568, for a polygon with the vertices `o :: r`. -/
def edgeLoop (o : V3 ℝ) (r : List (V3 ℝ)) : List (V3 ℝ × V3 ℝ) := (((o :: r).getLastD o) :: o :: r).zip (o :: r)

/-- src/Geometry/Polygon.cpp:558-580 `Convex_Intersects_Polygon` with a box, for a polygon with the vertices `o :: r`; `none` stands for
polygons without a plane. -/
def convexIntersectsAABBEdges (o : V3 ℝ) (r : List (V3 ℝ)) (b : AABB ℝ) : Option Bool :=
  if (edgeLoop o r).any fun e => (b.intersectsSegment e.1 e.2).isSome then some true
  else
    let l := (List.finRange 12).map fun i => intersectsSeg (o :: r) ⟨(b.edge i).1, (b.edge i).2⟩
    if none ∈ l then none else some (l.any fun x => x.getD false)

/-- src/Geometry/Polygon.cpp:582-590 `Intersects(AABB)`, for a polygon with the vertices `o :: r`. -/
def intersectsAABB (o : V3 ℝ) (r : List (V3 ℝ)) (b : AABB ℝ) : Option Bool :=
  (polygonConvexIntersectsAABB o r b).bind fun c => if !c then some false else convexIntersectsAABBEdges o r b

/-- src/Geometry/Polygon.cpp:558-580 `Convex_Intersects_Polygon` with an oriented box, for a polygon with the vertices `o :: r`; `none` stands
for polygons without a plane. -/
def convexIntersectsOBBEdges (o : V3 ℝ) (r : List (V3 ℝ)) (b : OBB ℝ) : Option Bool :=
  if (edgeLoop o r).any fun e => (b.intersectsSeg ⟨e.1, e.2⟩).isSome then some true
  else
    let l := (List.finRange 12).map fun i => intersectsSeg (o :: r) (b.edge i)
    if none ∈ l then none else some (l.any fun x => x.getD false)

/-- src/Geometry/Polygon.cpp:592-600 `Intersects(OBB)`, for a polygon with the vertices `o :: r`. -/
def intersectsOBB (o : V3 ℝ) (r : List (V3 ℝ)) (b : OBB ℝ) : Option Bool :=
  (polygonConvexIntersectsOBB o r b).bind fun c => if !c then some false else convexIntersectsOBBEdges o r b

end Polygon
end
end MGL
