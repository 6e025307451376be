import Verif.Model.Line
import Verif.Model.TriDef
import Verif.Model.Mat
import Verif.Model.MatGen
import Verif.Model.Float3R
import Verif.Model.Quat

/-! Model of class `Plane` (src/Geometry/Plane.cpp), scalar path. The plane is `normal · x = d`. -/

namespace MGL
open V3
variable {α : Type*}

namespace Plane

section Field
variable [Field α] [LinearOrder α]

/-- src/Geometry/Plane.cpp:98-108 `Set(point, normal)`. -/
def setPointNormal (point n : V3 α) : Plane α := ⟨n, dot point n⟩

/-- src/Geometry/Plane.cpp:110-114 `ReverseNormal`. -/
def reverseNormal (p : Plane α) : Plane α := ⟨-p.normal, -p.d⟩

/-- src/Geometry/Plane.cpp:116-123 `PointOnPlane`. -/
def pointOnPlane (p : Plane α) : V3 α := p.d • p.normal

/-- src/Geometry/Plane.cpp:139-142 `Translate`. -/
def translate (p : Plane α) (offset : V3 α) : Plane α := ⟨p.normal, p.d - dot p.normal offset⟩

/-- src/Geometry/Plane.cpp:144-148 `Transform(float3x3)`; `InverseTransposed` is
src/Math/float3x3.cpp:1067-1073: a copy is transposed, then `Inverse()`d, the flag being ignored. -/
def transform3 (p : Plane α) (m : Mat3 α) : Plane α :=
  ⟨Mat3.mulVec (Mat3.inverse (Mat3.transpose m)).1 p.normal, p.d⟩

/-- src/Geometry/Plane.cpp:151-160 `Transform(float3x4)`. -/
def transform34 (p : Plane α) (m : Mat34 α) : Plane α :=
  let r := (Mat3.inverse (Mat34.float3x3Part m)).1
  ⟨Mat3.transformLeft r p.normal, p.d + dot p.normal (Mat3.mulVec r (Mat34.translatePart m))⟩

/-- src/Geometry/Plane.cpp:162-166 `Transform(float4x4)`. -/
def transform4 (p : Plane α) (m : Mat4 α) : Plane α := transform34 p (Mat4.float3x4Part m)

/-- src/Geometry/Plane.cpp:168-172 `Transform(Quat)`. -/
def transformQuat (p : Plane α) (q : Quat α) : Plane α := transform3 p (Quat.toFloat3x3 q)

/-- src/Geometry/Plane.cpp:222-229 `SignedDistance(point)`. -/
def signedDistance (p : Plane α) (x : V3 α) : α := dot p.normal x - p.d

/-- src/Geometry/Plane.cpp:174-177 `IsInPositiveDirection`. -/
def isInPositiveDirection (p : Plane α) (v : V3 α) : Bool := decide (dot p.normal v ≥ 0)

/-- src/Geometry/Plane.cpp:179-182 `IsOnPositiveSide`. -/
def isOnPositiveSide (p : Plane α) (x : V3 α) : Bool := decide (p.signedDistance x ≥ 0)

/-- src/Geometry/Plane.cpp:184-195 `ExamineSide(Triangle)`; the local `epsilon` is `1e-4f`. -/
def examineSide (p : Plane α) (t : Tri α) : ℤ :=
  let a := p.signedDistance t.a
  let b := p.signedDistance t.b
  let c := p.signedDistance t.c
  let e : α := 1 / 10000
  if a ≥ -e ∧ b ≥ -e ∧ c ≥ -e then 1
  else if a ≤ e ∧ b ≤ e ∧ c ≤ e then -1
  else 0

/-- src/Geometry/Plane.cpp:197-200 `AreOnSameSide`. -/
def areOnSameSide (p : Plane α) (x y : V3 α) : Bool := decide (p.signedDistance x * p.signedDistance y ≥ 0)

/-- src/Geometry/Plane.cpp:202-205 `Distance(point)`. -/
def distance (p : Plane α) (x : V3 α) : α := absF (p.signedDistance x)

/-- src/Geometry/Plane.cpp:212-215 `Distance(Sphere)`. -/
def distanceSphere (p : Plane α) (s : Sphere α) : α := max2 0 (p.distance s.pos - s.r)

/-- src/Geometry/Plane.cpp:217-220 `Distance(Capsule)`, the capsule given by its segment and radius. -/
def distanceCapsule (p : Plane α) (l : LineSeg α) (r : α) : α := max2 0 (l.distancePlane p - r)

/-- src/Geometry/Plane.cpp:231-242 `Plane_SignedDistance`, given the projection of the object on the
plane normal. -/
def signedDistanceProj (p : Plane α) (proj : α × α) : α :=
  let pMin := proj.1 - p.d
  let pMax := proj.2 - p.d
  if pMin * pMax ≤ 0 then 0 else if absF pMin < absF pMax then pMin else pMax

/-- src/Geometry/Plane.cpp:244 `SignedDistance(AABB)`. -/
def signedDistanceAABB (p : Plane α) (b : AABB α) : α := p.signedDistanceProj (b.projectToAxis p.normal)
/-- src/Geometry/Plane.cpp:250 `SignedDistance(LineSegment)`. -/
def signedDistanceSeg (p : Plane α) (l : LineSeg α) : α := p.signedDistanceProj (l.projectToAxis p.normal)
/-- src/Geometry/Plane.cpp:256 `SignedDistance(Triangle)`. -/
def signedDistanceTri (p : Plane α) (t : Tri α) : α := p.signedDistanceProj (t.projectToAxis p.normal)
/-- src/Geometry/Plane.cpp:255 `SignedDistance(Sphere)`; `Sphere::ProjectToAxis` is
src/Geometry/Sphere.cpp:154-159. -/
def signedDistanceSphere (p : Plane α) (s : Sphere α) : α :=
  p.signedDistanceProj (dot p.normal s.pos - s.r, dot p.normal s.pos + s.r)

/-- src/Geometry/Plane.cpp:281-291 `Mirror`. -/
def mirror (p : Plane α) (x : V3 α) : V3 α := x - (2 * (dot x p.normal - p.d)) • p.normal

/-- src/Geometry/Plane.cpp:276-279 `MirrorMatrix`. -/
def mirrorMatrix (p : Plane α) : Mat34 α := Mat34.mirror p.normal p.d

/-- src/Geometry/Plane.cpp:258-261 `OrthoProjection`. -/
def orthoProjection (p : Plane α) : Mat34 α := Mat34.project p.normal p.d

/-- src/Geometry/Plane.cpp:298-302 `Project(point)`. -/
def project (p : Plane α) (x : V3 α) : V3 α := x - (dot p.normal x - p.d) • p.normal

/-- src/Geometry/Plane.cpp:304-307 `ProjectToNegativeHalf`. -/
def projectToNegativeHalf (p : Plane α) (x : V3 α) : V3 α := x - max2 0 (dot p.normal x - p.d) • p.normal

/-- src/Geometry/Plane.cpp:309-312 `ProjectToPositiveHalf`. -/
def projectToPositiveHalf (p : Plane α) (x : V3 α) : V3 α := x - min2 0 (dot p.normal x - p.d) • p.normal

/-- src/Geometry/Plane.cpp:314-317 `Project(LineSegment)`. -/
def projectSeg (p : Plane α) (l : LineSeg α) : LineSeg α := ⟨p.project l.a, p.project l.b⟩

/-- src/Geometry/Plane.cpp:341-348 `Project(Triangle)`. -/
def projectTri (p : Plane α) (t : Tri α) : Tri α := ⟨p.project t.a, p.project t.b, p.project t.c⟩

/-- src/Geometry/Plane.cpp:359-376 `ClosestPoint(Ray)`. -/
def closestPointRay (p : Plane α) (r : Ray α) : V3 α :=
  let denom := dot p.normal r.dir
  if denom = 0 then p.project r.pos
  else
    let t := (p.d - dot p.normal r.pos) / denom
    if t ≥ 0 ∧ t < 1000000 then r.getPoint t else p.project r.pos

/-- src/Geometry/Plane.cpp:378-412 `ClosestPoint(LineSegment)`. -/
def closestPointSeg (p : Plane α) (l : LineSeg α) : V3 α :=
  let aDist := dot p.normal l.a
  let bDist := dot p.normal l.b
  let denom := bDist - aDist
  if equalAbs denom 0 then p.project (if absF aDist < absF bDist then l.a else l.b)
  else
    let t := clamp01 ((p.d - dot p.normal l.a) / (bDist - aDist))
    p.project (l.getPoint t)

/-- src/Geometry/Plane.cpp:427-430 `Contains(point, distanceThreshold)`; default `1e-3f` (Plane.h). -/
def contains (p : Plane α) (x : V3 α) (threshold : α := 1 / 1000) : Bool := decide (p.distance x ≤ threshold)

/-- src/Geometry/Plane.cpp:442-445 `Contains(LineSegment, epsilon)`. -/
def containsSeg (p : Plane α) (l : LineSeg α) (e : α := 1 / 1000) : Bool := p.contains l.a e && p.contains l.b e

/-- src/Geometry/Plane.cpp:447-450 `Contains(Triangle, epsilon)`. -/
def containsTri (p : Plane α) (t : Tri α) (e : α := 1 / 1000) : Bool :=
  p.contains t.a e && p.contains t.b e && p.contains t.c e

/-- src/Geometry/Plane.cpp:596-634 `IntersectLinePlane`: the flag and `t`. -/
def intersectLinePlane (n : V3 α) (d : α) (pos dir : V3 α) : Bool × α :=
  let denom := dot n dir
  if absF denom > 1 / 10000 then (true, (d - dot n pos) / denom)
  else if denom ≠ 0 ∧ absF ((d - dot n pos) / denom) < 10000 then (true, (d - dot n pos) / denom)
  else (equalAbs (dot n pos) d (1 / 1000), 0)

/-- src/Geometry/Plane.cpp:637-644 `Intersects(Ray, dist)`: the flag and the distance. -/
def intersectsRay (p : Plane α) (r : Ray α) : Bool × α :=
  let c := intersectLinePlane p.normal p.d r.pos r.dir
  (c.1 && decide (c.2 ≥ 0), c.2)

/-- src/Geometry/Plane.cpp:646-653 `Intersects(Line, dist)`. -/
def intersectsLine (p : Plane α) (l : Line α) : Bool × α := intersectLinePlane p.normal p.d l.pos l.dir

/-- src/Geometry/Plane.cpp:665-668 `Intersects(Sphere)`. -/
def intersectsSphere (p : Plane α) (s : Sphere α) : Bool := decide (p.distance s.pos ≤ s.r)

/-- src/Geometry/Plane.cpp:676-687 `Intersects(AABB)`. -/
def intersectsAABB (p : Plane α) (b : AABB α) : Bool :=
  let c := b.centerPoint
  let e := b.halfSize
  let r := e.x * absF p.normal.x + e.y * absF p.normal.y + e.z * absF p.normal.z
  let s := dot p.normal c - p.d
  decide (absF s ≤ r)

/-- src/Geometry/Plane.cpp:694-700 `Intersects(Triangle)`. -/
def intersectsTri (p : Plane α) (t : Tri α) : Bool :=
  let a := p.signedDistance t.a
  let b := p.signedDistance t.b
  let c := p.signedDistance t.c
  decide (a * b ≤ 0) || decide (a * c ≤ 0)

/-- src/Geometry/Plane.cpp:711-720 `Intersects(Polyhedron)`, given the vertex list; 702-709
`Intersects(Frustum)` is the same loop over the eight corners. -/
def intersectsVertices (p : Plane α) : List (V3 α) → Bool
  | [] => false
  | v :: vs => vs.any (fun w => p.isOnPositiveSide v != p.isOnPositiveSide w)

/-- src/Geometry/Plane.cpp:749-768 `Clip(a, b)`: `none` when it returns false, else the new end points. -/
def clip (p : Plane α) (a b : V3 α) : Option (V3 α × V3 α) :=
  let c := intersectLinePlane p.normal p.d a (b - a)
  if c.1 = false ∨ c.2 ≤ 0 ∨ c.2 ≥ 1 then
    if p.signedDistance a ≤ 0 then none else some (a, b)
  else
    let pt := a + c.2 • (b - a)
    if p.isOnPositiveSide a then some (a, pt) else some (pt, b)

/-- The three results of `Clip(Line, outRay)`: the return values 0, 2 and 1. -/
inductive LineClip (α : Type*) where
  | nothing
  | whole
  | ray (r : Ray α)

/-- src/Geometry/Plane.cpp:775-794 `Clip(Line, outRay)`. -/
def clipLine (p : Plane α) (l : Line α) : LineClip α :=
  let c := intersectLinePlane p.normal p.d l.pos l.dir
  if c.1 = false then
    if p.signedDistance l.pos ≤ 0 then .nothing else .whole
  else .ray ⟨l.pos + c.2 • l.dir, if dot l.dir p.normal ≥ 0 then l.dir else -l.dir⟩

/-- src/Geometry/Plane.cpp:867-870 `IsParallel`; `Equals` is src/Math/float3.cpp:840-845 and the default
epsilon is `1e-3f` (Plane.h). -/
def isParallel (p q : Plane α) (e : α := 1 / 1000) : Bool :=
  decide (absF (p.normal.x - q.normal.x) < e) && decide (absF (p.normal.y - q.normal.y) < e) &&
    decide (absF (p.normal.z - q.normal.z) < e)

/-- src/Geometry/Plane.cpp:475-478 `Equals`. -/
def equals (p q : Plane α) (e : α := 1 / 1000) : Bool := p.isParallel q e && equalAbs p.d q.d e

/-- src/Geometry/Plane.cpp:469-473 `SetEquals`; `normal.Equals` is called with its default `1e-3f`
(float3.h). -/
def setEquals (p q : Plane α) (e : α := 1 / 1000) : Bool :=
  (p.isParallel q && equalAbs p.d q.d e) || (p.isParallel q.reverseNormal && equalAbs (-p.d) q.d e)

/-- src/Geometry/Plane.cpp:872-875 `PassesThroughOrigin`; default epsilon `1e-3f`. -/
def passesThroughOrigin (p : Plane α) (e : α := 1 / 1000) : Bool := decide (absF p.d ≤ e)

/-- src/Geometry/Plane.cpp:877-880 `DihedralAngle`. -/
def dihedralAngle (p q : Plane α) : α := dot p.normal q.normal

end Field

noncomputable section Real
open Classical

/-- src/Geometry/Plane.cpp:88-96 `Set(v1, v2, v3)`. -/
def setPoints (v1 v2 v3 : V3 ℝ) : Plane ℝ :=
  let c := cross (v2 - v1) (v3 - v1)
  let n := (1 / f3Length c) • c
  ⟨n, dot n v1⟩

/-- src/Geometry/Plane.cpp:65-69 `Plane(Ray, normal)` and 71-75 `Plane(Line, normal)`. -/
def ofRay (pos dir normal : V3 ℝ) : Plane ℝ :=
  setPointNormal pos (f3Normalized (normal - f3ProjectToNorm normal dir))

/-- src/Geometry/Plane.cpp:77-81 `Plane(LineSegment, normal)`. -/
def ofSeg (l : LineSeg ℝ) (normal : V3 ℝ) : Plane ℝ :=
  setPointNormal l.a (f3Normalized (normal - f3ProjectTo normal (l.b - l.a)))

/-- src/Geometry/Plane.cpp:125-130 `Point(u, v)`. -/
def point (negZero : Bool) (p : Plane ℝ) (u v : ℝ) : V3 ℝ :=
  let b := f3PerpendicularBasis negZero p.normal
  p.pointOnPlane + u • b.1 + v • b.2

/-- src/Geometry/Plane.cpp:132-137 `Point(u, v, referenceOrigin)`. -/
def pointRef (negZero : Bool) (p : Plane ℝ) (u v : ℝ) (o : V3 ℝ) : V3 ℝ :=
  let b := f3PerpendicularBasis negZero p.normal
  p.project o + u • b.1 + v • b.2

/-- src/Geometry/Plane.cpp:432-440 `Contains(Line / Ray, epsilon)`; default epsilon `1e-3f` (Plane.h). -/
def containsLine (p : Plane ℝ) (pos dir : V3 ℝ) (e : ℝ := 1 / 1000) : Bool :=
  p.contains pos && f3IsPerpendicular dir p.normal e

/-- src/Geometry/LineSegment.cpp:79-82 `LineSegment::Dir`. -/
def _root_.MGL.LineSeg.dir (l : LineSeg ℝ) : V3 ℝ := f3Normalized (l.b - l.a)

/-- src/Geometry/LineSegment.cpp:131-134 `LineSegment::Length`. -/
def _root_.MGL.LineSeg.length (l : LineSeg ℝ) : ℝ := V3.dist l.a l.b

/-- src/Geometry/Plane.cpp:655-663 `Intersects(LineSegment, dist)`: the flag and `dist`. -/
def intersectsSeg (p : Plane ℝ) (l : LineSeg ℝ) : Bool × ℝ :=
  let c := intersectLinePlane p.normal p.d l.a l.dir
  (c.1 && decide (c.2 ≥ 0) && decide (c.2 ≤ l.length), c.2 / l.length)

/-- src/Geometry/Plane.cpp:828-834: the crossings of the edges from `a`. -/
def edgeCrossing (p : Plane ℝ) (a b : V3 ℝ) : V3 ℝ := a + (p.intersectsSeg ⟨a, b⟩).2 • (b - a)

/-- src/Geometry/Plane.cpp:796-865 `Clip(Triangle, t1, t2)`: the list of the output triangles. -/
def clipTri (p : Plane ℝ) (t : Tri ℝ) : List (Tri ℝ) :=
  let s0 := p.isOnPositiveSide t.a
  let s1 := p.isOnPositiveSide t.b
  let s2 := p.isOnPositiveSide t.c
  let nPos := s0.toNat + s1.toNat + s2.toNat
  if nPos = 0 then []
  else if nPos = 3 then [t]
  else if nPos = 1 then
    let t1 : Tri ℝ := if s1 then ⟨t.b, t.c, t.a⟩ else if s2 then ⟨t.c, t.a, t.b⟩ else t
    [⟨t1.a, p.edgeCrossing t1.a t1.b, p.edgeCrossing t1.a t1.c⟩]
  else
    let t1 : Tri ℝ := if !s1 then ⟨t.b, t.c, t.a⟩ else if !s2 then ⟨t.c, t.a, t.b⟩ else t
    let ab := p.edgeCrossing t1.a t1.b
    let ac := p.edgeCrossing t1.a t1.c
    [⟨ab, t1.b, t1.c⟩, ⟨t1.c, ac, ab⟩]

/-- src/Geometry/Plane.cpp:480-505 `Intersects(Plane, outLine)`: `none` for false, else the line. -/
def intersectsPlane (p q : Plane ℝ) : Option (Line ℝ) :=
  let perp := f3Perpendicular p.normal q.normal
  let m : Mat3 ℝ := Mat3.ofRows p.normal q.normal perp
  match Mat3.solveAxb m ⟨p.d, q.d, 0⟩ with
  | none =>
    let nd := dot p.normal q.normal
    if (nd > 0 ∧ equalAbs p.d q.d = true) ∨ (nd < 0 ∧ equalAbs p.d (-q.d) = true) then
      some ⟨p.d • p.normal, f3Perpendicular q.normal⟩
    else none
  | some x => some ⟨x, f3Normalized perp⟩

/-- src/Geometry/Plane.cpp:507-551 `Intersects(Plane, Plane, outLine, outPoint)`: the returned flag and
`outPoint`, which is written when the function returns true. -/
def intersectsPlanes (p q r : Plane ℝ) : Option (V3 ℝ) :=
  if p.isParallel q = true ∨ p.isParallel r = true then
    if equalAbs p.d q.d = true ∨ equalAbs p.d r.d = true then (q.intersectsPlane r).map (fun l => l.getPoint 0)
    else none
  else if q.isParallel r = true then
    if equalAbs q.d r.d then (p.intersectsPlane q).map (fun l => l.getPoint 0) else none
  else Mat3.solveAxb (Mat3.ofRows p.normal q.normal r.normal) ⟨p.d, q.d, r.d⟩

end Real
end Plane
end MGL
