import Verif.Model.Polygon
import Verif.Model.Capsule

/-! Polygons against line segments and capsules: src/Geometry/Polygon.cpp. -/

namespace MGL
open V3
noncomputable section
namespace Polygon

/-- The loop of `ClosestPoint(LineSegment, lineSegmentPt)`, src/Geometry/Polygon.cpp:759-770: the pair with the smallest distance so
far. `none` is NaN; a triangle whose closest pair is NaN fails the comparison. -/
def closestSegLoop (l : LineSeg ℝ) : List (Tri ℝ) → Option (V3 ℝ × V3 ℝ) → ℝ → Option (V3 ℝ × V3 ℝ)
  | [], best, _ => best
  | t :: ts, best, bestD =>
    match t.closestSeg l with
    | none => closestSegLoop l ts best bestD
    | some q => if distSq q.1 q.2 < bestD then closestSegLoop l ts (some q) (distSq q.1 q.2) else closestSegLoop l ts best bestD

/-- src/Geometry/Polygon.cpp:753-774 `ClosestPoint(LineSegment, lineSegmentPt)`, the point of the polygon with the point of the
segment; the outer `none` is a read out of range in `Triangulate`. -/
def closestSeg (p : List (V3 ℝ)) (l : LineSeg ℝ) : Option (Option (V3 ℝ × V3 ℝ)) :=
  (triangulate p).map fun ts => closestSegLoop l ts none Polyhedron.fltMax

/-- src/Geometry/Polygon.cpp:717-726 `Intersects(Capsule)`, through `Triangle::Intersects(Capsule)` which calls
`Capsule::Intersects(Triangle)`; comparisons with NaN are false. -/
def intersectsCapsule (p : List (V3 ℝ)) (c : Capsule ℝ) : Option Bool :=
  (triangulate p).map fun ts => ts.any fun t => (c.intersectsTri t).getD false

end Polygon
end
end MGL
