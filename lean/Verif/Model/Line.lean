import Verif.Model.Float3
import Verif.Model.AABB
import Verif.Spec.Dist

/-! Model of `Line`, `Ray` and `LineSegment` (src/Geometry/Line.cpp, Ray.cpp, LineSegment.cpp), scalar
path. `d` and `d2` out-parameters are returned beside the point. The code assumes unit directions of
lines and rays and divides by squared segment lengths: what the model returns for a zero direction
(where the code returns NaN) is meaningless, and the theorems exclude it. -/

namespace MGL
open V3
variable {α : Type*}

/-- src/Geometry/Line.h:27-37 the members of class `Line`. -/
@[ext] structure Line (α : Type*) where
  pos : V3 α
  dir : V3 α

/-- src/Geometry/Ray.h:27-37 the members of class `Ray`. -/
@[ext] structure Ray (α : Type*) where
  pos : V3 α
  dir : V3 α

/-- src/Geometry/LineSegment.h:27-37 the members of class `LineSegment`. -/
@[ext] structure LineSeg (α : Type*) where
  a : V3 α
  b : V3 α

section Field
variable [Field α] [LinearOrder α]

/-- src/Geometry/Line.cpp:56-73 `Line::ClosestPointLineLine`: the pair `(d, d2)`. -/
def closestPointLineLine (v0 v10 v2 v32 : V3 α) : α × α :=
  let v02 := v0 - v2
  let d0232 := dot v02 v32
  let d3210 := dot v32 v10
  let d3232 := dot v32 v32
  let d0210 := dot v02 v10
  let d1010 := dot v10 v10
  let denom := d1010 * d3232 - d3210 * d3210
  let d := if denom ≠ 0 then (d0232 * d3210 - d0210 * d3232) / denom else 0
  (d, (d0232 + d * d3210) / d3232)

/-- src/Geometry/Line.cpp:97-101 `Line::GetPoint`. -/
def Line.getPoint (l : Line α) (d : α) : V3 α := l.pos + d • l.dir

/-- src/Geometry/Ray.cpp:65-69 `Ray::GetPoint`. -/
def Ray.getPoint (l : Ray α) (d : α) : V3 α := l.pos + d • l.dir

/-- src/Geometry/LineSegment.cpp:64-67 `LineSegment::GetPoint`. -/
def LineSeg.getPoint (l : LineSeg α) (d : α) : V3 α := (1 - d) • l.a + d • l.b

/-- src/Geometry/Line.cpp:251-255 `Line::ClosestPoint(point, d)`. -/
def Line.closestPoint (l : Line α) (p : V3 α) : V3 α × α :=
  let d := dot (p - l.pos) l.dir
  (l.getPoint d, d)

/-- src/Geometry/Ray.cpp:148-152 `Ray::ClosestPoint(point, d)`. -/
def Ray.closestPoint (l : Ray α) (p : V3 α) : V3 α × α :=
  let d := max2 0 (dot (p - l.pos) l.dir)
  (l.getPoint d, d)

/-- src/Geometry/LineSegment.cpp:163-168 `LineSegment::ClosestPoint(point, d)`. -/
def LineSeg.closestPoint (l : LineSeg α) (p : V3 α) : V3 α × α :=
  let dir := l.b - l.a
  let d := clamp01 (dot (p - l.a) dir / lenSq dir)
  (l.a + d • dir, d)

/-- src/Geometry/Line.cpp:257-267 `Line::ClosestPoint(Ray, d, d2)`. -/
def Line.closestRay (l : Line α) (r : Ray α) : V3 α × α × α :=
  let (d, d2) := closestPointLineLine l.pos l.dir r.pos r.dir
  if d2 ≥ 0 then (l.getPoint d, d, d2)
  else
    let c := l.closestPoint r.pos
    (c.1, c.2, 0)

/-- src/Geometry/Line.cpp:269-273 `Line::ClosestPoint(Line, d, d2)`. -/
def Line.closestLine (l m : Line α) : V3 α × α × α :=
  let (d, d2) := closestPointLineLine l.pos l.dir m.pos m.dir
  (l.getPoint d, d, d2)

/-- src/Geometry/Line.cpp:275-290 `Line::ClosestPoint(LineSegment, d, d2)`. -/
def Line.closestSeg (l : Line α) (s : LineSeg α) : V3 α × α × α :=
  let (d, d2) := closestPointLineLine l.pos l.dir s.a (s.b - s.a)
  if d2 < 0 then
    let c := l.closestPoint s.a
    (c.1, c.2, 0)
  else if d2 > 1 then
    let c := l.closestPoint s.b
    (c.1, c.2, 1)
  else (l.getPoint d, d, d2)

/-- src/Geometry/Ray.cpp:154-190 `Ray::ClosestPoint(Ray, d, d2)`. -/
def Ray.closestRay (l r : Ray α) : V3 α × α × α :=
  let (d, d2) := closestPointLineLine l.pos l.dir r.pos r.dir
  if d < 0 ∧ d2 < 0 then
    let c := l.closestPoint r.pos
    let c2 := r.closestPoint l.pos
    if distSq c.1 r.pos ≤ distSq c2.1 l.pos then (c.1, c.2, 0) else (l.pos, 0, c2.2)
  else if d < 0 then (l.pos, 0, max2 0 (r.closestPoint l.pos).2)
  else if d2 < 0 then
    let c := l.closestPoint r.pos
    (c.1, max2 0 c.2, 0)
  else (l.getPoint d, d, d2)

/-- src/Geometry/Ray.cpp:192-203 `Ray::ClosestPoint(Line, d, d2)`. -/
def Ray.closestLine (l : Ray α) (m : Line α) : V3 α × α × α :=
  let (d, d2) := closestPointLineLine l.pos l.dir m.pos m.dir
  if d < 0 then (l.pos, 0, (m.closestPoint l.pos).2) else (l.getPoint d, d, d2)

/-- src/Geometry/Ray.cpp:205-256 `Ray::ClosestPoint(LineSegment, d, d2)`. -/
def Ray.closestSeg (l : Ray α) (s : LineSeg α) : V3 α × α × α :=
  let (d, d2) := closestPointLineLine l.pos l.dir s.a (s.b - s.a)
  if d < 0 then
    if d2 ≥ 0 ∧ d2 ≤ 1 then (l.pos, 0, (s.closestPoint l.pos).2)
    else
      let p := if d2 < 0 then s.a else s.b
      let t2 : α := if d2 < 0 then 0 else 1
      let c := l.closestPoint p
      let c2 := s.closestPoint l.pos
      if distSq c.1 p ≤ distSq c2.1 l.pos then (c.1, c.2, t2) else (l.pos, 0, c2.2)
  else if d2 < 0 then
    let c := l.closestPoint s.a
    (c.1, c.2, 0)
  else if d2 > 1 then
    let c := l.closestPoint s.b
    (c.1, c.2, 1)
  else (l.getPoint d, d, d2)

/-- src/Geometry/LineSegment.cpp:170-174 `LineSegment::ClosestPoint(Ray, d, d2)`. -/
def LineSeg.closestRay (s : LineSeg α) (r : Ray α) : V3 α × α × α :=
  let (_, d2, d) := r.closestSeg s
  (s.getPoint d, d, d2)

/-- src/Geometry/LineSegment.cpp:176-193 `LineSegment::ClosestPoint(Line, d, d2)`. -/
def LineSeg.closestLine (s : LineSeg α) (l : Line α) : V3 α × α × α :=
  let (d2, d) := closestPointLineLine l.pos l.dir s.a (s.b - s.a)
  if d < 0 then (s.a, 0, (l.closestPoint s.a).2)
  else if d > 1 then (s.b, 1, (l.closestPoint s.b).2)
  else (s.getPoint d, d, d2)

/-- src/Geometry/LineSegment.cpp:195-274 `LineSegment::ClosestPoint(LineSegment, d, d2)`. -/
def LineSeg.closestSeg (s o : LineSeg α) : V3 α × α × α :=
  let dir := s.b - s.a
  let (d, d2) := closestPointLineLine s.a (s.b - s.a) o.a (o.b - o.a)
  if d ≥ 0 ∧ d ≤ 1 ∧ d2 ≥ 0 ∧ d2 ≤ 1 then (s.a + d • dir, d, d2)
  else if d ≥ 0 ∧ d ≤ 1 then
    let p := if d2 < 0 then o.a else o.b
    let e2 : α := if d2 < 0 then 0 else 1
    let c := s.closestPoint p
    (c.1, c.2, e2)
  else if d2 ≥ 0 ∧ d2 ≤ 1 then
    let p := if d < 0 then s.a else s.b
    let e : α := if d < 0 then 0 else 1
    (p, e, (o.closestPoint p).2)
  else
    let p := if d < 0 then s.a else s.b
    let e : α := if d < 0 then 0 else 1
    let p2 := if d2 < 0 then o.a else o.b
    let e2 : α := if d2 < 0 then 0 else 1
    let c := s.closestPoint p2
    let c2 := o.closestPoint p
    if distSq c.1 p2 ≤ distSq c2.1 p then (c.1, c.2, e2) else (p, e, c2.2)

/-- src/Geometry/Line.cpp:132-135 `Line::Contains(point, distanceThreshold)`. -/
def Line.contains (l : Line α) (p : V3 α) (threshold : α) : Bool :=
  decide (distSq (l.closestPoint p).1 p ≤ threshold)

/-- src/Geometry/Ray.cpp:100-103 `Ray::Contains(point, distanceThreshold)`. -/
def Ray.contains (l : Ray α) (p : V3 α) (threshold : α) : Bool :=
  decide (distSq (l.closestPoint p).1 p ≤ threshold)

/-- src/Geometry/LineSegment.cpp:141-144 `LineSegment::Contains(point, distanceThreshold)`. -/
def LineSeg.contains (l : LineSeg α) (p : V3 α) (threshold : α) : Bool :=
  decide (distSq (l.closestPoint p).1 p ≤ threshold)

/-- src/Geometry/Line.cpp:142-145, Ray.cpp:105-108, LineSegment.cpp:146-149 `Contains(LineSegment)`. -/
def Line.containsSeg (l : Line α) (s : LineSeg α) (e : α) : Bool := l.contains s.a e && l.contains s.b e
@[inherit_doc Line.containsSeg]
def Ray.containsSeg (l : Ray α) (s : LineSeg α) (e : α) : Bool := l.contains s.a e && l.contains s.b e
@[inherit_doc Line.containsSeg]
def LineSeg.containsSeg (l s : LineSeg α) (e : α) : Bool := l.contains s.a e && l.contains s.b e

/-- src/Geometry/LineSegment.cpp:69-72 `CenterPoint`. -/
def LineSeg.centerPoint (l : LineSeg α) : V3 α := (1 / 2 : α) • (l.a + l.b)

/-- src/Geometry/LineSegment.cpp:74-77 `Reverse`. -/
def LineSeg.reverse (l : LineSeg α) : LineSeg α := ⟨l.b, l.a⟩

/-- src/Geometry/LineSegment.cpp:84-87 `ExtremePoint`. -/
def LineSeg.extremePoint (l : LineSeg α) (dir : V3 α) : V3 α := if dot dir (l.b - l.a) ≥ 0 then l.b else l.a

/-- src/Geometry/LineSegment.cpp:427-433 `ProjectToAxis`. -/
def LineSeg.projectToAxis (l : LineSeg α) (dir : V3 α) : α × α :=
  let lo := dot dir l.a
  let hi := dot dir l.b
  if hi < lo then (hi, lo) else (lo, hi)

/-- src/Geometry/Line.cpp:320-332 `ProjectToAxis`; `IsPerpendicular` is src/Math/float3.cpp:199-203 with
its default tolerance `1e-5f` (float3.h). -/
def Line.projectToAxis (l : Line α) (dir : V3 α) : Ext α × Ext α :=
  let k := dot l.dir dir
  if k * k ≤ (1 / 100000) * lenSq l.dir * lenSq dir then (Ext.of (dot dir l.pos), Ext.of (dot dir l.pos))
  else (⊥, ⊤)

/-- src/Geometry/LineSegment.cpp:345-350 `Intersects(Plane)`; `Plane::SignedDistance` is
src/Geometry/Plane.cpp:222-229. -/
def LineSeg.intersectsPlane (l : LineSeg α) (p : Plane α) : Bool :=
  decide ((dot p.normal l.a - p.d) * (dot p.normal l.b - p.d) ≤ 0)

/-- src/Geometry/LineSegment.cpp:326-333 `Distance(Plane)`. -/
def LineSeg.distancePlane (l : LineSeg α) (p : Plane α) : α :=
  let x := dot p.normal l.a - p.d
  let y := dot p.normal l.b - p.d
  if x * y < 0 then 0 else min2 (absF x) (absF y)

/-- src/Geometry/LineSegment.cpp:131-134 `LengthSq`. -/
def LineSeg.lengthSq (l : LineSeg α) : α := distSq l.a l.b

/-- src/Geometry/LineSegment.cpp:283-289 `DistanceSq(point)`. -/
def LineSeg.distanceSq (l : LineSeg α) (p : V3 α) : α := distSq (l.closestPoint p).1 p

/-- src/Geometry/LineSegment.cpp:319-324 `DistanceSq(LineSegment)`. -/
def LineSeg.distanceSqSeg (l o : LineSeg α) : α :=
  let r := l.closestSeg o
  distSq (l.getPoint r.2.1) (o.getPoint r.2.2)

end Field

section Real

/-- src/Geometry/Line.cpp:156-159 `Line::Distance(point, d)`, Ray.cpp:115-118, LineSegment.cpp:276-281. -/
noncomputable def Line.distance (l : Line ℝ) (p : V3 ℝ) : ℝ := V3.dist (l.closestPoint p).1 p
@[inherit_doc Line.distance]
noncomputable def Ray.distance (l : Ray ℝ) (p : V3 ℝ) : ℝ := V3.dist (l.closestPoint p).1 p
@[inherit_doc Line.distance]
noncomputable def LineSeg.distance (l : LineSeg ℝ) (p : V3 ℝ) : ℝ := V3.dist (l.closestPoint p).1 p

/-- src/Geometry/Line.cpp:161-179 `Line::Distance(Ray / Line / LineSegment, d, d2)`: the distance and
the two parameters. -/
noncomputable def Line.distanceRay (l : Line ℝ) (r : Ray ℝ) : ℝ × ℝ × ℝ :=
  let c := l.closestRay r
  (V3.dist c.1 (r.getPoint c.2.2), c.2)
@[inherit_doc Line.distanceRay]
noncomputable def Line.distanceLine (l m : Line ℝ) : ℝ × ℝ × ℝ :=
  let c := l.closestLine m
  (V3.dist c.1 (m.getPoint c.2.2), c.2)
@[inherit_doc Line.distanceRay]
noncomputable def Line.distanceSeg (l : Line ℝ) (s : LineSeg ℝ) : ℝ × ℝ × ℝ :=
  let c := l.closestSeg s
  (V3.dist c.1 (s.getPoint c.2.2), c.2)

/-- src/Geometry/Ray.cpp:120-136 `Ray::Distance(Ray / Line / LineSegment, d, d2)`. -/
noncomputable def Ray.distanceRay (l r : Ray ℝ) : ℝ × ℝ × ℝ :=
  let c := l.closestRay r
  (V3.dist c.1 (r.getPoint c.2.2), c.2)
@[inherit_doc Ray.distanceRay]
noncomputable def Ray.distanceLine (l : Ray ℝ) (m : Line ℝ) : ℝ × ℝ × ℝ :=
  let c := l.closestLine m
  (V3.dist c.1 (m.getPoint c.2.2), c.2)
@[inherit_doc Ray.distanceRay]
noncomputable def Ray.distanceSeg (l : Ray ℝ) (s : LineSeg ℝ) : ℝ × ℝ × ℝ :=
  let c := l.closestSeg s
  (V3.dist c.1 (s.getPoint c.2.2), c.2)

/-- src/Geometry/LineSegment.cpp:300-304 `LineSegment::Distance(Ray, d, d2)`. -/
noncomputable def LineSeg.distanceRay (s : LineSeg ℝ) (r : Ray ℝ) : ℝ × ℝ × ℝ :=
  let c := s.closestRay r
  (V3.dist (s.getPoint c.2.1) (r.getPoint c.2.2), c.2)

/-- src/Geometry/LineSegment.cpp:306-311 `LineSegment::Distance(Line, d, d2)`: the call passes `d` and
`d2` to the *line's* function, which takes the line's parameter first. -/
noncomputable def LineSeg.distanceLine (s : LineSeg ℝ) (l : Line ℝ) : ℝ × ℝ × ℝ :=
  let (p2, d, d2) := l.closestSeg s
  (V3.dist (s.getPoint d2) p2, d, d2)

/-- src/Geometry/LineSegment.cpp:313-317 `LineSegment::Distance(LineSegment, d, d2)`. -/
noncomputable def LineSeg.distanceSeg (s o : LineSeg ℝ) : ℝ × ℝ × ℝ :=
  let c := s.closestSeg o
  (V3.dist (s.getPoint c.2.1) (o.getPoint c.2.2), c.2)

/-- src/Geometry/LineSegment.cpp:392-395 `Intersects(LineSegment, epsilon)`. -/
noncomputable def LineSeg.intersectsSeg (s o : LineSeg ℝ) (eps : ℝ) : Bool :=
  @decide ((s.distanceSeg o).1 ≤ eps) (Classical.propDecidable _)

/-- src/Geometry/Line.cpp:181-184, Ray.cpp:138-141, LineSegment.cpp:335-338 `Distance(Sphere)`. -/
noncomputable def Line.distanceSphere (l : Line ℝ) (s : Sphere ℝ) : ℝ := max2 0 (l.distance s.pos - s.r)
@[inherit_doc Line.distanceSphere]
noncomputable def Ray.distanceSphere (l : Ray ℝ) (s : Sphere ℝ) : ℝ := max2 0 (l.distance s.pos - s.r)
@[inherit_doc Line.distanceSphere]
noncomputable def LineSeg.distanceSphere (l : LineSeg ℝ) (s : Sphere ℝ) : ℝ := max2 0 (l.distance s.pos - s.r)

/-- src/Geometry/Line.cpp:186-189, Ray.cpp:143-146, LineSegment.cpp:340-343 `Distance(Capsule)`, the
capsule given by its segment and radius. -/
noncomputable def Line.distanceCapsule (l : Line ℝ) (s : LineSeg ℝ) (r : ℝ) : ℝ := max2 0 ((l.distanceSeg s).1 - r)
@[inherit_doc Line.distanceCapsule]
noncomputable def Ray.distanceCapsule (l : Ray ℝ) (s : LineSeg ℝ) (r : ℝ) : ℝ := max2 0 ((l.distanceSeg s).1 - r)
@[inherit_doc Line.distanceCapsule]
noncomputable def LineSeg.distanceCapsule (l s : LineSeg ℝ) (r : ℝ) : ℝ := max2 0 ((l.distanceSeg s).1 - r)

end Real
end MGL
