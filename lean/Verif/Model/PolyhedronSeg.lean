import Verif.Model.PolyhedronContains
import Verif.Model.PolygonSeg

/-! Polyhedra against line segments and capsules: src/Geometry/Polyhedron.cpp. -/

namespace MGL
open V3
namespace Polyhedron
noncomputable section
open Classical

/-- The loop of `ClosestPoint(LineSegment, lineSegmentPt)`, src/Geometry/Polyhedron.cpp:1041-1052; comparisons with NaN are false. -/
def closestSegLoop (p : Polyhedron ℝ) (l : LineSeg ℝ) : List (List ℤ) → Option (V3 ℝ × V3 ℝ) → ℝ → Option (Option (V3 ℝ × V3 ℝ))
  | [], best, _ => some best
  | f :: fs, best, bestD => do
    let poly ← f.mapM p.vertex
    match ← Polygon.closestSeg poly l with
    | none => closestSegLoop p l fs best bestD
    | some q => if distSq q.1 q.2 < bestD then closestSegLoop p l fs (some q) (distSq q.1 q.2) else closestSegLoop p l fs best bestD

/-- src/Geometry/Polyhedron.cpp:1024-1056 `ClosestPoint(LineSegment, lineSegmentPt)`: the point of the polyhedron and the point of the
segment. The outer `none` is a read out of range, the inner one NaN. -/
def closestSeg (p : Polyhedron ℝ) (l : LineSeg ℝ) : Option (Option (V3 ℝ × V3 ℝ)) := do
  if ← p.contains l.a then some (some (l.a, l.a))
  else if ← p.contains l.b then some (some (l.b, l.b))
  else p.closestSegLoop l p.f none fltMax

/-- src/Geometry/Polyhedron.cpp:1268-1273 `Intersects(Capsule)`; the comparison with NaN is false. -/
def intersectsCapsule (p : Polyhedron ℝ) (c : Capsule ℝ) : Option Bool :=
  (p.closestSeg c.l).map fun q => q.any fun q => decide (distSq q.1 q.2 ≤ c.r * c.r)

end
end Polyhedron
end MGL
