import Verif.Model.Sphere
import Verif.Model.Quadratic

/-! Model of class `Circle` (src/Geometry/Circle.cpp), scalar path, exact arithmetic. `Circle` itself is declared in
`Verif/Model/Sphere.lean`. -/

namespace MGL
open V3

namespace Circle
noncomputable section

/-- src/Geometry/Circle.cpp:45-48 `BasisU`. -/
def basisU (c : Circle ℝ) : V3 ℝ := f3Perpendicular c.normal

/-- src/Geometry/Circle.cpp:50-53 `BasisV`. -/
def basisV (c : Circle ℝ) : V3 ℝ := f3AnotherPerpendicular c.normal

/-- src/Geometry/Circle.cpp:55-60 `GetPoint(angleRadians)`. -/
def getPoint (c : Circle ℝ) (angle : ℝ) : V3 ℝ :=
  c.pos + c.r • (Real.sin angle • c.basisU + Real.cos angle • c.basisV)

/-- src/Geometry/Circle.cpp:62-67 `GetPoint(angleRadians, d)`. -/
def getPointD (c : Circle ℝ) (angle d : ℝ) : V3 ℝ :=
  c.pos + (c.r * d) • (Real.cos angle • c.basisU + Real.sin angle • c.basisV)

/-- src/Geometry/Circle.cpp:69-76 `ExtremePoint`. -/
def extremePoint (c : Circle ℝ) (direction : V3 ℝ) : V3 ℝ :=
  let d := direction - f3ProjectToNorm direction c.normal
  if f3IsZero d then c.pos else c.pos + Sphere.scaledToLength d c.r

/-- src/Geometry/Circle.cpp:78-81 `ContainingPlane`. -/
def containingPlane (c : Circle ℝ) : Plane ℝ := Plane.setPointNormal c.pos c.normal

/-- src/Geometry/Circle.cpp:83-86 `Translate`. -/
def translate (c : Circle ℝ) (offset : V3 ℝ) : Circle ℝ := { c with pos := c.pos + offset }

/-- src/Geometry/Circle.cpp:88-95 `Transform(float3x3)`. -/
def transform3 (c : Circle ℝ) (m : Mat3 ℝ) : Circle ℝ :=
  ⟨Mat3.mulVec m c.pos, f3Normalized (Mat3.mulVec m c.normal), c.r * V3.len (Mat3.col m 0)⟩

/-- src/Geometry/Circle.cpp:97-104 `Transform(float3x4)`. -/
def transform34 (c : Circle ℝ) (m : Mat34 ℝ) : Circle ℝ :=
  ⟨Mat34.mulPos m c.pos, f3Normalized (Mat34.mulDir m c.normal), c.r * V3.len ⟨m 0 0, m 1 0, m 2 0⟩⟩

/-- src/Geometry/Circle.cpp:106-113 `Transform(float4x4)`. -/
def transform4 (c : Circle ℝ) (m : Mat4 ℝ) : Circle ℝ :=
  ⟨Mat4.mulPos m c.pos, f3Normalized (Mat4.mulDir m c.normal), c.r * V3.len ⟨m 0 0, m 1 0, m 2 0⟩⟩

/-- src/Geometry/Circle.cpp:115-119 `Transform(Quat)`. -/
def transformQuat (c : Circle ℝ) (q : Quat ℝ) : Circle ℝ :=
  ⟨Quat.transform q c.pos, Quat.transform q c.normal, c.r⟩

/-- src/Geometry/Circle.cpp:175-182 `ClosestPointToEdge`. -/
def closestPointToEdge (c : Circle ℝ) (point : V3 ℝ) : V3 ℝ :=
  let diff := c.containingPlane.project point - c.pos
  if f3IsZero diff then c.getPoint 0 else c.pos + Sphere.scaledToLength diff c.r

/-- src/Geometry/Circle.cpp:184-193 `ClosestPointToDisc`. -/
def closestPointToDisc (c : Circle ℝ) (point : V3 ℝ) : V3 ℝ :=
  let diff := c.containingPlane.project point - c.pos
  let dist := lenSq diff
  if dist > c.r * c.r then c.pos + (c.r / Real.sqrt dist) • diff else c.pos + diff

/-- src/Geometry/Circle.cpp:132-135 `DistanceToEdge`. -/
def distanceToEdge (c : Circle ℝ) (point : V3 ℝ) : ℝ := V3.dist (c.closestPointToEdge point) point

/-- src/Geometry/Circle.cpp:170-173 `DistanceToDisc`. -/
def distanceToDisc (c : Circle ℝ) (point : V3 ℝ) : ℝ := V3.dist (c.closestPointToDisc point) point

/-- src/Geometry/Circle.cpp:121-124 `EdgeContains`. -/
def edgeContains (c : Circle ℝ) (point : V3 ℝ) (maxDistance : ℝ := 1 / 1000000) : Bool :=
  decide (c.distanceToEdge point ≤ maxDistance)

/-- src/Geometry/Circle.cpp:205-212 `IntersectsDisc(Line)`. -/
def intersectsDiscLine (c : Circle ℝ) (l : Line ℝ) : Bool :=
  let i := c.containingPlane.intersectsLine l
  if i.1 then false else decide (distSq (l.getPoint i.2) c.pos ≤ c.r * c.r)

/-- src/Geometry/Circle.cpp:214-221 `IntersectsDisc(LineSegment)`, which calls src/Geometry/LineSegment.cpp:357-360. -/
def intersectsDiscSeg (c : Circle ℝ) (l : LineSeg ℝ) : Bool :=
  let i := c.containingPlane.intersectsSeg l
  if i.1 then false else decide (distSq (l.getPoint i.2) c.pos ≤ c.r * c.r)

/-- src/Geometry/Circle.cpp:223-230 `IntersectsDisc(Ray)`. -/
def intersectsDiscRay (c : Circle ℝ) (l : Ray ℝ) : Bool :=
  let i := c.containingPlane.intersectsRay l
  if i.1 then false else decide (distSq (l.getPoint i.2) c.pos ≤ c.r * c.r)

/-- src/Geometry/Plane.cpp:722-742 `Plane::Intersects(Circle, pt1, pt2)` and src/Geometry/Circle.cpp:195-198: the points
that are counted and written, in order. -/
def _root_.MGL.Plane.intersectsCircle (p : Plane ℝ) (c : Circle ℝ) : List (V3 ℝ) :=
  match p.intersectsPlane c.containingPlane with
  | none => []
  | some line =>
    let l : Line ℝ := ⟨line.pos - c.pos, line.dir⟩
    match solveQuadratic 1 (2 * dot l.pos l.dir) (lenSq l.pos - c.r * c.r) with
    | .zero => []
    | .one r1 => [c.pos + l.getPoint r1]
    | .two r1 r2 => [c.pos + l.getPoint r1, c.pos + l.getPoint r2]

end
end Circle
end MGL
