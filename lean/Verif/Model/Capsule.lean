import Verif.Model.Circle
import Verif.Model.OBB
import Verif.Model.Triangle

/-! Model of class `Capsule` (src/Geometry/Capsule.cpp), scalar path, exact arithmetic. The intersection tests with boxes,
which use GJK, are in Verif/Model/GJKShapes.lean; those with polyhedra are not modelled. -/

namespace MGL
open V3

/-- src/Geometry/Capsule.h `Capsule`: the inner line segment and the radius. -/
structure Capsule (α : Type*) where
  l : LineSeg α
  r : α

noncomputable section

/-- src/Geometry/LineSegment.cpp:102-106 `Transform(float3x3)`. -/
def LineSeg.transform3 (l : LineSeg ℝ) (m : Mat3 ℝ) : LineSeg ℝ := ⟨Mat3.mulVec m l.a, Mat3.mulVec m l.b⟩

/-- src/Geometry/LineSegment.cpp:108-112 `Transform(float3x4)`. -/
def LineSeg.transform34 (l : LineSeg ℝ) (m : Mat34 ℝ) : LineSeg ℝ := ⟨Mat34.mulPos m l.a, Mat34.mulPos m l.b⟩

/-- src/Geometry/LineSegment.cpp:114-118 `Transform(float4x4)`. -/
def LineSeg.transform4 (l : LineSeg ℝ) (m : Mat4 ℝ) : LineSeg ℝ := ⟨Mat4.mulPos m l.a, Mat4.mulPos m l.b⟩

/-- src/Geometry/LineSegment.cpp:120-124 `Transform(Quat)`. -/
def LineSeg.transformQuat (l : LineSeg ℝ) (q : Quat ℝ) : LineSeg ℝ := ⟨Quat.transform q l.a, Quat.transform q l.b⟩

namespace Capsule

/-- src/Geometry/Capsule.cpp:58-62 `SetFrom(Sphere)`. -/
def ofSphere (s : Sphere ℝ) : Capsule ℝ := ⟨⟨s.pos, s.pos⟩, s.r⟩

/-- src/Geometry/Capsule.cpp:69-72 `IsDegenerate`. -/
def isDegenerate (c : Capsule ℝ) : Bool := decide (c.r ≤ 0)

/-- src/Geometry/Capsule.cpp:74-77 `LineLength`. -/
def lineLength (c : Capsule ℝ) : ℝ := c.l.length

/-- src/Geometry/Capsule.cpp:79-82 `Diameter`. -/
def diameter (c : Capsule ℝ) : ℝ := 2 * c.r

/-- src/Geometry/Capsule.cpp:127-132 `UpDirection`. -/
def up (c : Capsule ℝ) : V3 ℝ := f3Normalized (c.l.b - c.l.a)

/-- src/Geometry/Capsule.cpp:84-87 `Bottom`. -/
def bottom (c : Capsule ℝ) : V3 ℝ := c.l.a - c.r • c.up

/-- src/Geometry/Capsule.cpp:122-125 `Top`. -/
def top (c : Capsule ℝ) : V3 ℝ := c.l.b + c.r • c.up

/-- src/Geometry/Capsule.cpp:89-92 `Center`. -/
def center (c : Capsule ℝ) : V3 ℝ := c.l.centerPoint

/-- src/Geometry/Capsule.cpp:94-99 `ExtremePoint(direction)`. -/
def extremePoint (c : Capsule ℝ) (direction : V3 ℝ) : V3 ℝ :=
  (if dot direction (c.l.b - c.l.a) ≥ 0 then c.l.b else c.l.a) + (c.r / V3.len direction) • direction

/-- src/Geometry/Capsule.cpp:101-106 `ExtremePoint(direction, projectionDistance)`. -/
def extremePointD (c : Capsule ℝ) (direction : V3 ℝ) : V3 ℝ × ℝ :=
  let p := c.extremePoint direction
  (p, dot p direction)

/-- src/Geometry/Capsule.cpp:108-120 `ProjectToAxis`. -/
def projectToAxis (c : Capsule ℝ) (direction : V3 ℝ) : ℝ × ℝ :=
  let lo := dot direction c.l.a
  let hi := dot direction c.l.b
  if hi < lo then (hi - c.r, lo + c.r) else (lo - c.r, hi + c.r)

/-- src/Geometry/Capsule.cpp:134-137 `Height`. -/
def height (c : Capsule ℝ) : ℝ := c.lineLength + c.diameter

/-- src/Geometry/Capsule.cpp:149-162 `CrossSection`. -/
def crossSection (c : Capsule ℝ) (yPos : ℝ) : Circle ℝ :=
  let y := yPos * c.height
  let p := c.bottom + y • c.up
  if y < c.r then ⟨p, c.up, Real.sqrt (c.r * c.r - (c.r - y) * (c.r - y))⟩
  else if y < c.l.length + c.r then ⟨p, c.up, c.r⟩
  else
    let d := y - c.r - c.l.length
    ⟨p, c.up, Real.sqrt (c.r * c.r - d * d)⟩

/-- src/Geometry/Capsule.cpp:164-167 `HeightLineSegment`. -/
def heightLineSegment (c : Capsule ℝ) : LineSeg ℝ := ⟨c.bottom, c.top⟩

/-- src/Geometry/Capsule.cpp:174-178 `PointInside`. -/
def pointInside (c : Capsule ℝ) (h angle d : ℝ) : V3 ℝ := (c.crossSection h).getPointD (angle * 2 * Real.pi) d

/-- src/Geometry/Capsule.cpp:185-188 `SphereA`. -/
def sphereA (c : Capsule ℝ) : Sphere ℝ := ⟨c.l.a, c.r⟩

/-- src/Geometry/Capsule.cpp:190-193 `SphereB`. -/
def sphereB (c : Capsule ℝ) : Sphere ℝ := ⟨c.l.b, c.r⟩

/-- src/Geometry/Capsule.cpp:195-200 `MinimalEnclosingAABB`. -/
def minimalEnclosingAABB (c : Capsule ℝ) : AABB ℝ := AABB.ofCapsule c.l.a c.l.b c.r

/-- src/Geometry/Capsule.cpp:202-212 `MinimalEnclosingOBB`. `nz` tells whether a zero `z` of the direction is the negative
zero. -/
def minimalEnclosingOBB (nz : Bool) (c : Capsule ℝ) : OBB ℝ :=
  let b := f3PerpendicularBasis nz c.up
  ⟨c.center, ⟨c.height * (1 / 2), c.r, c.r⟩, c.up, b.1, b.2⟩

/-- src/Geometry/Capsule.cpp:236-245 `Translate`, `Translated`. -/
def translate (c : Capsule ℝ) (o : V3 ℝ) : Capsule ℝ := ⟨⟨c.l.a + o, c.l.b + o⟩, c.r⟩

/-- src/Geometry/Capsule.cpp:247-252 `Scale`. -/
def scale (c : Capsule ℝ) (centerPoint : V3 ℝ) (k : ℝ) : Capsule ℝ :=
  ⟨c.l.transform34 (Mat34.scaleAround (f3Scalar k) centerPoint), c.r * k⟩

/-- src/Geometry/Capsule.cpp:254-260 `Transform(float3x3)`. -/
def transform3 (c : Capsule ℝ) (m : Mat3 ℝ) : Capsule ℝ := ⟨c.l.transform3 m, c.r * V3.len (Mat3.col m 0)⟩

/-- src/Geometry/Capsule.cpp:262-268 `Transform(float3x4)`. -/
def transform34 (c : Capsule ℝ) (m : Mat34 ℝ) : Capsule ℝ := ⟨c.l.transform34 m, c.r * V3.len ⟨m 0 0, m 1 0, m 2 0⟩⟩

/-- src/Geometry/Capsule.cpp:270-276 `Transform(float4x4)`. -/
def transform4 (c : Capsule ℝ) (m : Mat4 ℝ) : Capsule ℝ := ⟨c.l.transform4 m, c.r * V3.len ⟨m 0 0, m 1 0, m 2 0⟩⟩

/-- src/Geometry/Capsule.cpp:278-281 `Transform(Quat)`. -/
def transformQuat (c : Capsule ℝ) (q : Quat ℝ) : Capsule ℝ := ⟨c.l.transformQuat q, c.r⟩

/-- src/Geometry/Capsule.cpp:283-290 `ClosestPoint`. For a segment with `a = b` the division in
`LineSegment::ClosestPoint` is `0/0`, which `Clamp01` turns into 1; the point is `a` as in the model. -/
def closestPoint (c : Capsule ℝ) (p : V3 ℝ) : V3 ℝ :=
  let q := (c.l.closestPoint p).1
  if distSq q p ≤ c.r * c.r then p else q + Sphere.scaledToLength (p - q) c.r

/-- src/Geometry/Capsule.cpp:292-295 `Distance(point)`. -/
def distance (c : Capsule ℝ) (p : V3 ℝ) : ℝ := max2 0 (c.l.distance p - c.r)

/-- src/Geometry/Capsule.cpp:297-300 `Distance(Capsule)`. -/
def distanceCapsule (c o : Capsule ℝ) : ℝ := max2 0 ((c.l.distanceSeg o.l).1 - c.r - o.r)

/-- src/Geometry/Capsule.cpp:302-305 `Distance(Plane)`. -/
def distancePlane (c : Capsule ℝ) (p : Plane ℝ) : ℝ := p.distanceCapsule c.l c.r

/-- src/Geometry/Capsule.cpp:307-310 `Distance(Sphere)`. -/
def distanceSphere (c : Capsule ℝ) (s : Sphere ℝ) : ℝ := max2 0 (c.distance s.pos - s.r)

/-- src/Geometry/Capsule.cpp:312-315 `Distance(Ray)`. -/
def distanceRay (c : Capsule ℝ) (x : Ray ℝ) : ℝ := x.distanceCapsule c.l c.r

/-- src/Geometry/Capsule.cpp:317-320 `Distance(Line)`. -/
def distanceLine (c : Capsule ℝ) (x : Line ℝ) : ℝ := x.distanceCapsule c.l c.r

/-- src/Geometry/Capsule.cpp:322-325 `Distance(LineSegment)`. -/
def distanceSeg (c : Capsule ℝ) (x : LineSeg ℝ) : ℝ := x.distanceCapsule c.l c.r

/-- src/Geometry/Capsule.cpp:327-330 `Contains(point)`. -/
def contains (c : Capsule ℝ) (p : V3 ℝ) : Bool := decide (c.l.distance p ≤ c.r)

/-- src/Geometry/Capsule.cpp:332-335 `Contains(LineSegment)`. -/
def containsSeg (c : Capsule ℝ) (l : LineSeg ℝ) : Bool := c.contains l.a && c.contains l.b

/-- src/Geometry/Capsule.cpp:337-340 `Contains(Triangle)`. -/
def containsTri (c : Capsule ℝ) (t : Tri ℝ) : Bool := c.contains t.a && c.contains t.b && c.contains t.c

/-- src/Geometry/Capsule.cpp:342-348, 368-385: `Contains(Polygon)`, `Contains(Frustum)` and `Contains(Polyhedron)`, given
the list of corner points. -/
def containsVertices (c : Capsule ℝ) (vs : List (V3 ℝ)) : Bool := vs.all c.contains

/-- src/Geometry/Capsule.cpp:350-357 `Contains(AABB)`. -/
def containsAABB (c : Capsule ℝ) (b : AABB ℝ) : Bool := (List.finRange 8).all fun i => c.contains (b.cornerPoint i)

/-- src/Geometry/Capsule.cpp:359-366 `Contains(OBB)`. -/
def containsOBB (c : Capsule ℝ) (b : OBB ℝ) : Bool := (List.finRange 8).all fun i => c.contains (b.cornerPoint i)

/-- src/Geometry/Capsule.cpp:387-390 `Intersects(Ray)`. -/
def intersectsRay (c : Capsule ℝ) (x : Ray ℝ) : Bool := decide ((c.l.distanceRay x).1 ≤ c.r)

/-- src/Geometry/Capsule.cpp:392-395 `Intersects(Line)`. -/
def intersectsLine (c : Capsule ℝ) (x : Line ℝ) : Bool := decide ((c.l.distanceLine x).1 ≤ c.r)

/-- src/Geometry/Capsule.cpp:397-400 `Intersects(LineSegment)`. -/
def intersectsSeg (c : Capsule ℝ) (x : LineSeg ℝ) : Bool := decide ((c.l.distanceSeg x).1 ≤ c.r)

/-- src/Geometry/Capsule.cpp:402-405 `Intersects(Plane)`. -/
def intersectsPlane (c : Capsule ℝ) (p : Plane ℝ) : Bool := decide (c.l.distancePlane p ≤ c.r)

/-- src/Geometry/Capsule.cpp:418-422 `Intersects(Sphere)`. -/
def intersectsSphere (c : Capsule ℝ) (s : Sphere ℝ) : Bool :=
  decide (c.l.distanceSq s.pos ≤ (c.r + s.r) * (c.r + s.r))

/-- src/Geometry/Capsule.cpp:425-429 `Intersects(Capsule)`. -/
def intersectsCapsule (c o : Capsule ℝ) : Bool := decide (c.l.distanceSqSeg o.l ≤ (c.r + o.r) * (c.r + o.r))

/-- src/Geometry/Capsule.cpp:431-436 `Intersects(Triangle)`. `none` when the triangle's `ClosestPoint` divides by zero. -/
def intersectsTri (c : Capsule ℝ) (t : Tri ℝ) : Option Bool :=
  (t.closestSeg c.l).map fun x => decide (distSq x.2 x.1 ≤ c.r * c.r)

end Capsule
end
end MGL
