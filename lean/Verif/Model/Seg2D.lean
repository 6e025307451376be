import Verif.Model.Line
import Verif.Model.Float2
import Verif.Model.TriTri
import Verif.Spec.Plane2

/-! Model of `LineSegment2D` (src/Geometry/LineSegment2D.cpp), scalar path, the parts that are compiled (most of the file is
inside `#if 0`). The out-parameters `d` and `d2` are returned beside the point. The code divides by squared lengths of
segments: what the model returns for a segment of length zero (where the code returns NaN) is meaningless, and the theorems
exclude it. -/

namespace MGL
open V2

/-- src/Geometry/LineSegment2D.h:26-32 the members of class `LineSegment2D`. -/
@[ext] structure Seg2 (α : Type*) where
  a : V2 α
  b : V2 α

/-- src/Geometry/LineSegment2D.cpp:115-118 `RangesOverlap`. -/
def rangesOverlap {α : Type*} [LinearOrder α] (start1 end1 start2 end2 : α) : Bool :=
  decide (end1 ≥ start2) && decide (end2 ≥ start1)

namespace Seg2
variable {α : Type*} [Field α] [LinearOrder α]

/-- src/Math/float2.cpp:344-349 `DistanceSq`. -/
def distSq' (p q : V2 α) : α := (p.x - q.x) * (p.x - q.x) + (p.y - q.y) * (p.y - q.y)

/-- src/Geometry/LineSegment2D.cpp:135-138 `GetPoint`. -/
def getPoint (l : Seg2 α) (d : α) : V2 α := (1 - d) • l.a + d • l.b

/-- src/Geometry/LineSegment2D.cpp:140-143 `CenterPoint`. -/
def centerPoint (l : Seg2 α) : V2 α := (1 / 2 : α) • (l.a + l.b)

/-- src/Geometry/LineSegment2D.cpp:145-148 `Reverse`. -/
def reverse (l : Seg2 α) : Seg2 α := ⟨l.b, l.a⟩

/-- src/Geometry/LineSegment2D.cpp:155-158 `ExtremePoint(direction)`. -/
def extremePoint (l : Seg2 α) (dir : V2 α) : V2 α := if dot dir (l.b - l.a) ≥ 0 then l.b else l.a

/-- src/Geometry/LineSegment2D.cpp:160-165 `ExtremePoint(direction, projectionDistance)`. -/
def extremePointDist (l : Seg2 α) (dir : V2 α) : V2 α × α := (l.extremePoint dir, dot (l.extremePoint dir) dir)

/-- src/Geometry/LineSegment2D.cpp:167-171 `Translate`. -/
def translate (l : Seg2 α) (o : V2 α) : Seg2 α := ⟨l.a + o, l.b + o⟩

/-- src/Geometry/LineSegment2D.cpp:202-205 `LengthSq`. -/
def lengthSq (l : Seg2 α) : α := distSq' l.a l.b

/-- src/Geometry/LineSegment2D.cpp:227-232 `ClosestPoint(point, d)`. -/
def closestPoint (l : Seg2 α) (p : V2 α) : V2 α × α :=
  let dir := l.b - l.a
  let d := clamp01 (dot (p - l.a) dir / V2.lenSq dir)
  (l.a + d • dir, d)

/-- src/Geometry/LineSegment2D.cpp:212-215 `Contains(point, distanceThreshold)`. -/
def contains (l : Seg2 α) (p : V2 α) (threshold : α) : Bool := decide (distSq' (l.closestPoint p).1 p ≤ threshold)

/-- src/Geometry/LineSegment2D.cpp:217-220 `Contains(LineSegment2D, distanceThreshold)`. -/
def containsSeg (l s : Seg2 α) (e : α) : Bool := l.contains s.a e && l.contains s.b e

/-- src/Geometry/LineSegment2D.cpp:273-290 `Line2DClosestPointLineLine`: the pair `(d, d2)`. -/
def closestPointLineLine (v0 v10 v2 v32 : V2 α) : α × α :=
  let v02 := v0 - v2
  let d0232 := dot v02 v32
  let d3210 := dot v32 v10
  let d3232 := dot v32 v32
  let d0210 := dot v02 v10
  let d1010 := dot v10 v10
  let denom := d1010 * d3232 - d3210 * d3210
  let d := if denom ≠ 0 then (d0232 * d3210 - d0210 * d3232) / denom else 0
  (d, (d0232 + d * d3210) / d3232)

/-- src/Geometry/LineSegment2D.cpp:292-371 `ClosestPoint(LineSegment2D, d, d2)`. -/
def closestSeg (s o : Seg2 α) : V2 α × α × α :=
  let dir := s.b - s.a
  let (d, d2) := closestPointLineLine s.a (s.b - s.a) o.a (o.b - o.a)
  if d ≥ 0 ∧ d ≤ 1 ∧ d2 ≥ 0 ∧ d2 ≤ 1 then (s.a + d • dir, d, d2)
  else if d ≥ 0 ∧ d ≤ 1 then
    let p := if d2 < 0 then o.a else o.b
    let e2 : α := if d2 < 0 then 0 else 1
    let c := s.closestPoint p
    (c.1, c.2, e2)
  else if d2 ≥ 0 ∧ d2 ≤ 1 then
    let p := if d < 0 then s.a else s.b
    let e : α := if d < 0 then 0 else 1
    (p, e, (o.closestPoint p).2)
  else
    let p := if d < 0 then s.a else s.b
    let e : α := if d < 0 then 0 else 1
    let p2 := if d2 < 0 then o.a else o.b
    let e2 : α := if d2 < 0 then 0 else 1
    let c := s.closestPoint p2
    let c2 := o.closestPoint p
    if distSq' c.1 p2 ≤ distSq' c2.1 p then (c.1, c.2, e2) else (p, e, c2.2)

/-- src/Geometry/LineSegment2D.cpp:380-385 `DistanceSq(point)`. -/
def distanceSq (l : Seg2 α) (p : V2 α) : α := distSq' (l.closestPoint p).1 p

/-- src/Geometry/LineSegment2D.cpp:407-412 `DistanceSq(LineSegment2D)`. -/
def distanceSqSeg (l o : Seg2 α) : α :=
  let r := l.closestSeg o
  distSq' (l.getPoint r.2.1) (o.getPoint r.2.2)

/-- src/Geometry/LineSegment2D.cpp:479-485 `ProjectToAxis`. -/
def projectToAxis (l : Seg2 α) (dir : V2 α) : α × α :=
  let lo := dot dir l.a
  let hi := dot dir l.b
  if hi < lo then (hi, lo) else (lo, hi)

/-- src/Geometry/LineSegment2D.cpp:222-225 `Equals`; `float2::Equals` is src/Math/float2.cpp:184-187. -/
def equals (l o : Seg2 α) (e : α) : Bool :=
  let eq (p q : V2 α) : Bool := equalAbs p.x q.x e && equalAbs p.y q.y e
  eq l.a o.a && eq l.b o.b || eq l.a o.b && eq l.b o.a

noncomputable section

/-- src/Geometry/LineSegment2D.cpp:197-200 `Length`. -/
def length (l : Seg2 ℝ) : ℝ := Float2.distance l.a l.b

/-- src/Geometry/LineSegment2D.cpp:373-378 `Distance(point, d)`. -/
def distance (l : Seg2 ℝ) (p : V2 ℝ) : ℝ × ℝ :=
  let c := l.closestPoint p
  (Float2.distance c.1 p, c.2)

/-- src/Geometry/LineSegment2D.cpp:401-405 `Distance(LineSegment2D, d, d2)`. -/
def distanceSeg (l o : Seg2 ℝ) : ℝ × ℝ × ℝ :=
  let r := l.closestSeg o
  (Float2.distance (l.getPoint r.2.1) (o.getPoint r.2.2), r.2)

/-- src/Geometry/LineSegment2D.cpp:459-462 `Intersects(LineSegment2D, epsilon)`. -/
def intersectsSeg (l o : Seg2 ℝ) (epsilon : ℝ) : Bool := @decide ((l.distanceSeg o).1 ≤ epsilon) (Classical.propDecidable _)

end
end Seg2
end MGL
