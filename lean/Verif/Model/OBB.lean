import Verif.Model.Sphere
import Verif.Model.Triangle

/-! Model of class `OBB` (src/Geometry/OBB.cpp), scalar path, exact arithmetic. -/

namespace MGL
open V3
variable {α : Type*}

/-- src/Geometry/OBB.h:29-48 the members `pos`, `r` and `axis[3]` of class `OBB`. -/
@[ext] structure OBB (α : Type*) where
  pos : V3 α
  r : V3 α
  axis0 : V3 α
  axis1 : V3 α
  axis2 : V3 α

namespace OBB

section Field
variable [Field α] [LinearOrder α]

/-- src/Geometry/OBB.h:49 `axis[i]`. -/
def axis (o : OBB α) (i : Fin 3) : V3 α :=
  match i with
  | 0 => o.axis0
  | 1 => o.axis1
  | 2 => o.axis2

/-- src/Geometry/OBB.h:40 `r[i]`. -/
def half (o : OBB α) (i : Fin 3) : α :=
  match i with
  | 0 => o.r.x
  | 1 => o.r.y
  | 2 => o.r.z

/-- src/Geometry/OBB.cpp:101-108 `SetFrom(AABB)`, 87-90 the constructor. -/
def ofAABB (b : AABB α) : OBB α := ⟨b.centerPoint, b.halfSize, ⟨1, 0, 0⟩, ⟨0, 1, 0⟩, ⟨0, 0, 1⟩⟩

/-- src/Geometry/OBB.cpp:158-165 `SetFrom(Sphere)`. -/
def ofSphere (s : Sphere α) : OBB α := ⟨s.pos, f3Scalar s.r, ⟨1, 0, 0⟩, ⟨0, 1, 0⟩, ⟨0, 0, 1⟩⟩

/-- src/Geometry/OBB.cpp:224-229 `MinimalEnclosingAABB`, through src/Geometry/AABB.cpp:81-85. -/
def minimalEnclosingAABB (o : OBB α) : AABB α := AABB.ofOBB o.pos o.axis0 o.axis1 o.axis2 o.r

/-- src/Geometry/OBB.cpp:266-269 `IsDegenerate`. -/
def isDegenerate (o : OBB α) : Bool := !(decide (o.r.x > 0) && decide (o.r.y > 0) && decide (o.r.z > 0))

/-- src/Geometry/OBB.cpp:276-285 `PointInside`. -/
def pointInside (o : OBB α) (x y z : α) : V3 α :=
  o.pos + (2 * o.r.x * x - o.r.x) • o.axis0 + (2 * o.r.y * y - o.r.y) • o.axis1 + (2 * o.r.z * z - o.r.z) • o.axis2

/-- src/Geometry/OBB.cpp:308-323 `CornerPoint`. -/
def cornerPoint (o : OBB α) (i : Fin 8) : V3 α :=
  match i with
  | 0 => o.pos - o.r.x • o.axis0 - o.r.y • o.axis1 - o.r.z • o.axis2
  | 1 => o.pos - o.r.x • o.axis0 - o.r.y • o.axis1 + o.r.z • o.axis2
  | 2 => o.pos - o.r.x • o.axis0 + o.r.y • o.axis1 - o.r.z • o.axis2
  | 3 => o.pos - o.r.x • o.axis0 + o.r.y • o.axis1 + o.r.z • o.axis2
  | 4 => o.pos + o.r.x • o.axis0 - o.r.y • o.axis1 - o.r.z • o.axis2
  | 5 => o.pos + o.r.x • o.axis0 - o.r.y • o.axis1 + o.r.z • o.axis2
  | 6 => o.pos + o.r.x • o.axis0 + o.r.y • o.axis1 - o.r.z • o.axis2
  | 7 => o.pos + o.r.x • o.axis0 + o.r.y • o.axis1 + o.r.z • o.axis2

/-- src/Geometry/OBB.cpp:287-306 `Edge`. -/
def edge (o : OBB α) (i : Fin 12) : LineSeg α :=
  match i with
  | 0 => ⟨o.cornerPoint 0, o.cornerPoint 1⟩
  | 1 => ⟨o.cornerPoint 0, o.cornerPoint 2⟩
  | 2 => ⟨o.cornerPoint 0, o.cornerPoint 4⟩
  | 3 => ⟨o.cornerPoint 1, o.cornerPoint 3⟩
  | 4 => ⟨o.cornerPoint 1, o.cornerPoint 5⟩
  | 5 => ⟨o.cornerPoint 2, o.cornerPoint 3⟩
  | 6 => ⟨o.cornerPoint 2, o.cornerPoint 6⟩
  | 7 => ⟨o.cornerPoint 3, o.cornerPoint 7⟩
  | 8 => ⟨o.cornerPoint 4, o.cornerPoint 5⟩
  | 9 => ⟨o.cornerPoint 4, o.cornerPoint 6⟩
  | 10 => ⟨o.cornerPoint 5, o.cornerPoint 7⟩
  | 11 => ⟨o.cornerPoint 6, o.cornerPoint 7⟩

/-- src/Geometry/OBB.cpp:325-332 `ExtremePoint`. -/
def extremePoint (o : OBB α) (d : V3 α) : V3 α :=
  o.pos + (if dot d o.axis0 ≥ 0 then o.r.x else -o.r.x) • o.axis0
    + (if dot d o.axis1 ≥ 0 then o.r.y else -o.r.y) • o.axis1
    + (if dot d o.axis2 ≥ 0 then o.r.z else -o.r.z) • o.axis2

/-- src/Geometry/OBB.cpp:341-349 `ProjectToAxis`: `(outMin, outMax)`. -/
def projectToAxis (o : OBB α) (d : V3 α) : α × α :=
  let x := absF (dot d o.axis0 * o.r.x)
  let y := absF (dot d o.axis1 * o.r.y)
  let z := absF (dot d o.axis2 * o.r.z)
  let pt := dot d o.pos
  (pt - x - y - z, pt + x + y + z)

/-- src/Geometry/OBB.cpp:351-357 `UniqueFaceNormals`, 359-365 `UniqueEdgeDirections`. -/
def uniqueFaceNormals (o : OBB α) : List (V3 α) := [o.axis0, o.axis1, o.axis2]

/-- src/Geometry/OBB.cpp:367-392 `PointOnEdge`. -/
def pointOnEdge (o : OBB α) (i : Fin 12) (u : α) : V3 α :=
  let d0 := ((2 * u - 1) * o.r.x) • o.axis0
  let d1 := ((2 * u - 1) * o.r.y) • o.axis1
  let d2 := ((2 * u - 1) * o.r.z) • o.axis2
  match i with
  | 0 => o.pos - o.r.y • o.axis1 - o.r.z • o.axis2 + d0
  | 1 => o.pos - o.r.y • o.axis1 + o.r.z • o.axis2 + d0
  | 2 => o.pos + o.r.y • o.axis1 - o.r.z • o.axis2 + d0
  | 3 => o.pos + o.r.y • o.axis1 + o.r.z • o.axis2 + d0
  | 4 => o.pos - o.r.x • o.axis0 - o.r.z • o.axis2 + d1
  | 5 => o.pos - o.r.x • o.axis0 + o.r.z • o.axis2 + d1
  | 6 => o.pos + o.r.x • o.axis0 - o.r.z • o.axis2 + d1
  | 7 => o.pos + o.r.x • o.axis0 + o.r.z • o.axis2 + d1
  | 8 => o.pos - o.r.x • o.axis0 - o.r.y • o.axis1 + d2
  | 9 => o.pos - o.r.x • o.axis0 + o.r.y • o.axis1 + d2
  | 10 => o.pos + o.r.x • o.axis0 - o.r.y • o.axis1 + d2
  | 11 => o.pos + o.r.x • o.axis0 + o.r.y • o.axis1 + d2

/-- src/Geometry/OBB.cpp:394-408 `FaceCenterPoint`. -/
def faceCenterPoint (o : OBB α) (i : Fin 6) : V3 α :=
  match i with
  | 0 => o.pos - o.r.x • o.axis0
  | 1 => o.pos + o.r.x • o.axis0
  | 2 => o.pos - o.r.y • o.axis1
  | 3 => o.pos + o.r.y • o.axis1
  | 4 => o.pos - o.r.z • o.axis2
  | 5 => o.pos + o.r.z • o.axis2

/-- src/Geometry/OBB.cpp:410-430 `FacePoint`; `uIdx = faceIndex/2` and `vIdx = (faceIndex/2 + 1) % 3` are
0,1 for faces 0 and 1, 1,2 for faces 2 and 3, 2,0 for faces 4 and 5. -/
def facePoint (o : OBB α) (i : Fin 6) (u v : α) : V3 α :=
  match i with
  | 0 => o.pos - o.r.z • o.axis2 + ((2 * u - 1) * o.r.x) • o.axis0 + ((2 * v - 1) * o.r.y) • o.axis1
  | 1 => o.pos + o.r.z • o.axis2 + ((2 * u - 1) * o.r.x) • o.axis0 + ((2 * v - 1) * o.r.y) • o.axis1
  | 2 => o.pos - o.r.x • o.axis0 + ((2 * u - 1) * o.r.y) • o.axis1 + ((2 * v - 1) * o.r.z) • o.axis2
  | 3 => o.pos + o.r.x • o.axis0 + ((2 * u - 1) * o.r.y) • o.axis1 + ((2 * v - 1) * o.r.z) • o.axis2
  | 4 => o.pos - o.r.y • o.axis1 + ((2 * u - 1) * o.r.z) • o.axis2 + ((2 * v - 1) * o.r.x) • o.axis0
  | 5 => o.pos + o.r.y • o.axis1 + ((2 * u - 1) * o.r.z) • o.axis2 + ((2 * v - 1) * o.r.x) • o.axis0

/-- src/Geometry/OBB.cpp:432-445 `FacePlane`. -/
def facePlane (o : OBB α) (i : Fin 6) : Plane α :=
  match i with
  | 0 => Plane.setPointNormal (o.faceCenterPoint 0) (-o.axis0)
  | 1 => Plane.setPointNormal (o.faceCenterPoint 1) o.axis0
  | 2 => Plane.setPointNormal (o.faceCenterPoint 2) (-o.axis1)
  | 3 => Plane.setPointNormal (o.faceCenterPoint 3) o.axis1
  | 4 => Plane.setPointNormal (o.faceCenterPoint 4) (-o.axis2)
  | 5 => Plane.setPointNormal (o.faceCenterPoint 5) o.axis2

/-- One pass of the loop of src/Geometry/OBB.cpp:472-484: the state is
`(i, idxSmallest, idxLargest, smallestD, largestD)`. -/
def extremeStep (dir : V3 α) (s : ℕ × ℕ × ℕ × Ext α × Ext α) (p : V3 α) : ℕ × ℕ × ℕ × Ext α × Ext α :=
  let d := Ext.of (dot p dir)
  (s.1 + 1,
   if d < s.2.2.2.1 then s.1 else s.2.1,
   if d > s.2.2.2.2 then s.1 else s.2.2.1,
   if d < s.2.2.2.1 then d else s.2.2.2.1,
   if d > s.2.2.2.2 then d else s.2.2.2.2)

/-- src/Geometry/OBB.cpp:462-484 `ExtremePointsAlongDirection`:
`(idxSmallest, idxLargest, smallestD, largestD)`. -/
def extremePointsAlongDirection (dir : V3 α) (ps : List (V3 α)) : ℕ × ℕ × Ext α × Ext α :=
  (ps.foldl (extremeStep dir) (0, 0, 0, ⊤, ⊥)).2

/-- src/Geometry/OBB.cpp:2204-2207 `Size`. -/
def size (o : OBB α) : V3 α := (2 : α) • o.r

/-- src/Geometry/OBB.cpp:2219-2222 `HalfDiagonal`. -/
def halfDiagonal (o : OBB α) : V3 α := o.r.x • o.axis0 + o.r.y • o.axis1 + o.r.z • o.axis2

/-- src/Geometry/OBB.cpp:2214-2217 `Diagonal`. -/
def diagonal (o : OBB α) : V3 α := (2 : α) • o.halfDiagonal

/-- src/Geometry/OBB.cpp:2231-2262 `LocalToWorld`. -/
def localToWorld (o : OBB α) : Mat34 α :=
  let p := o.pos - o.r.x • o.axis0 - o.r.y • o.axis1 - o.r.z • o.axis2
  !![o.axis0.x, o.axis1.x, o.axis2.x, p.x; o.axis0.y, o.axis1.y, o.axis2.y, p.y; o.axis0.z, o.axis1.z, o.axis2.z, p.z]

/-- src/Geometry/OBB.cpp:2224-2229 `WorldToLocal`. -/
def worldToLocal (o : OBB α) : Mat34 α := Mat34.inverseOrthonormal o.localToWorld

/-- src/Geometry/OBB.cpp:2265-2287 `ClosestPoint` (2279-2285). -/
def closestPoint (o : OBB α) (p : V3 α) : V3 α :=
  let d := p - o.pos
  o.pos + clamp (dot d o.axis0) (-o.r.x) o.r.x • o.axis0 + clamp (dot d o.axis1) (-o.r.y) o.r.y • o.axis1
    + clamp (dot d o.axis2) (-o.r.z) o.r.z • o.axis2

/-- src/Geometry/OBB.cpp:2289-2293 `Volume`. -/
def volume (o : OBB α) : α := o.size.x * o.size.y * o.size.z

/-- src/Geometry/OBB.cpp:2295-2299 `SurfaceArea`. -/
def surfaceArea (o : OBB α) : α := 2 * (o.size.x * o.size.y + o.size.x * o.size.z + o.size.y * o.size.z)

/-- src/Geometry/OBB.cpp:2329-2332 `Translate`. -/
def translate (o : OBB α) (offset : V3 α) : OBB α := { o with pos := o.pos + offset }

/-- src/Geometry/OBB.cpp:2394-2419 `Contains(point)` (2413-2417). -/
def contains (o : OBB α) (p : V3 α) : Bool :=
  let pt := p - o.pos
  decide (absF (dot pt o.axis0) ≤ o.r.x) && decide (absF (dot pt o.axis1) ≤ o.r.y) && decide (absF (dot pt o.axis2) ≤ o.r.z)

/-- src/Geometry/OBB.cpp:2421-2424 `Contains(LineSegment)`. -/
def containsSeg (o : OBB α) (l : LineSeg α) : Bool := o.contains l.a && o.contains l.b

/-- src/Geometry/OBB.cpp:2426-2435 `Contains(AABB)`. -/
def containsAABB (o : OBB α) (b : AABB α) : Bool := (List.finRange 8).all fun i => o.contains (b.cornerPoint i)

/-- src/Geometry/OBB.cpp:2437-2444 `Contains(OBB)`. -/
def containsOBB (o b : OBB α) : Bool := (List.finRange 8).all fun i => o.contains (b.cornerPoint i)

/-- src/Geometry/OBB.cpp:2446-2449 `Contains(Triangle)`. -/
def containsTri (o : OBB α) (t : Tri α) : Bool := o.contains t.a && o.contains t.b && o.contains t.c

/-- src/Geometry/OBB.cpp:2451-2457, 2468-2476 `Contains(Polygon)` and `Contains(Polyhedron)`, given the list of
vertices. -/
def containsVertices (o : OBB α) (vs : List (V3 α)) : Bool := vs.all o.contains

/-- One pass of the loop of src/Geometry/OBB.cpp:2486-2503, on one axis: the new half size and centre.
`p` is `point - pos` for the current `pos` (2485 and the recomputation 2499). -/
def encloseStep (point : V3 α) (a : V3 α) (ri : α) (pos : V3 α) : α × V3 α :=
  let dist := dot (point - pos) a
  let distanceFromOBB := absF dist - ri
  if distanceFromOBB > 0 then
    (ri + distanceFromOBB * (1 / 2),
     if dist > 0 then pos + (distanceFromOBB * (1 / 2)) • a else pos - (distanceFromOBB * (1 / 2)) • a)
  else (ri, pos)

/-- src/Geometry/OBB.cpp:2483-2506 `Enclose(point)`. -/
def enclose (o : OBB α) (point : V3 α) : OBB α :=
  let s0 := encloseStep point o.axis0 o.r.x o.pos
  let s1 := encloseStep point o.axis1 o.r.y s0.2
  let s2 := encloseStep point o.axis2 o.r.z s1.2
  ⟨s2.2, ⟨s0.1, s1.1, s2.1⟩, o.axis0, o.axis1, o.axis2⟩

/-- src/Geometry/OBB.cpp:2618-2708, the scalar path of `Intersects(OBB, epsilon)`, 2531-2710. -/
def intersectsOBB (a b : OBB α) (epsilon : α := 1 / 1000) : Bool :=
  let R : Fin 3 → Fin 3 → α := fun i j => dot (a.axis i) (b.axis j)
  let t0 := b.pos - a.pos
  let t : V3 α := ⟨dot t0 a.axis0, dot t0 a.axis1, dot t0 a.axis2⟩
  let AbsR : Fin 3 → Fin 3 → α := fun i j => absF (R i j) + epsilon
  if absF t.x > a.r.x + (b.r.x * AbsR 0 0 + b.r.y * AbsR 0 1 + b.r.z * AbsR 0 2) then false
  else if absF t.y > a.r.y + (b.r.x * AbsR 1 0 + b.r.y * AbsR 1 1 + b.r.z * AbsR 1 2) then false
  else if absF t.z > a.r.z + (b.r.x * AbsR 2 0 + b.r.y * AbsR 2 1 + b.r.z * AbsR 2 2) then false
  else if absF (t.x * R 0 0 + t.y * R 1 0 + t.z * R 2 0) > a.r.x * AbsR 0 0 + a.r.y * AbsR 1 0 + a.r.z * AbsR 2 0 + b.r.x then false
  else if absF (t.x * R 0 1 + t.y * R 1 1 + t.z * R 2 1) > a.r.x * AbsR 0 1 + a.r.y * AbsR 1 1 + a.r.z * AbsR 2 1 + b.r.y then false
  else if absF (t.x * R 0 2 + t.y * R 1 2 + t.z * R 2 2) > a.r.x * AbsR 0 2 + a.r.y * AbsR 1 2 + a.r.z * AbsR 2 2 + b.r.z then false
  else if absF (t.z * R 1 0 - t.y * R 2 0) > (a.r.y * AbsR 2 0 + a.r.z * AbsR 1 0) + (b.r.y * AbsR 0 2 + b.r.z * AbsR 0 1) then false
  else if absF (t.z * R 1 1 - t.y * R 2 1) > (a.r.y * AbsR 2 1 + a.r.z * AbsR 1 1) + (b.r.x * AbsR 0 2 + b.r.z * AbsR 0 0) then false
  else if absF (t.z * R 1 2 - t.y * R 2 2) > (a.r.y * AbsR 2 2 + a.r.z * AbsR 1 2) + (b.r.x * AbsR 0 1 + b.r.y * AbsR 0 0) then false
  else if absF (t.x * R 2 0 - t.z * R 0 0) > (a.r.x * AbsR 2 0 + a.r.z * AbsR 0 0) + (b.r.y * AbsR 1 2 + b.r.z * AbsR 1 1) then false
  else if absF (t.x * R 2 1 - t.z * R 0 1) > (a.r.x * AbsR 2 1 + a.r.z * AbsR 0 1) + (b.r.x * AbsR 1 2 + b.r.z * AbsR 1 0) then false
  else if absF (t.x * R 2 2 - t.z * R 0 2) > (a.r.x * AbsR 2 2 + a.r.z * AbsR 0 2) + (b.r.x * AbsR 1 1 + b.r.y * AbsR 1 0) then false
  else if absF (t.y * R 0 0 - t.x * R 1 0) > (a.r.x * AbsR 1 0 + a.r.y * AbsR 0 0) + (b.r.y * AbsR 2 2 + b.r.z * AbsR 2 1) then false
  else if absF (t.y * R 0 1 - t.x * R 1 1) > (a.r.x * AbsR 1 1 + a.r.y * AbsR 0 1) + (b.r.x * AbsR 2 2 + b.r.z * AbsR 2 0) then false
  else if absF (t.y * R 0 2 - t.x * R 1 2) > (a.r.x * AbsR 1 2 + a.r.y * AbsR 0 2) + (b.r.x * AbsR 2 1 + b.r.y * AbsR 2 0) then false
  else true

/-- src/Geometry/OBB.cpp:2478-2481 `Intersects(AABB)`; src/Geometry/AABB.cpp:971-974 is the same call. -/
def intersectsAABB (o : OBB α) (b : AABB α) : Bool := o.intersectsOBB (ofAABB b)

/-- src/Geometry/OBB.cpp:2713-2722 `Intersects(Plane)`. -/
def intersectsPlane (o : OBB α) (p : Plane α) : Bool :=
  let t := o.r.x * absF (dot p.normal o.axis0) + o.r.y * absF (dot p.normal o.axis1) + o.r.z * absF (dot p.normal o.axis2)
  let s := dot p.normal o.pos - p.d
  decide (absF s ≤ t)

/-- The box `AABB(0, Size())` of src/Geometry/OBB.cpp:2726, 2733, 2740, 2747, 2754, 2761, 2786. -/
def localBox (o : OBB α) : AABB α := ⟨0, o.size⟩

/-- src/Geometry/OBB.cpp:2738-2750 `Intersects(Line)`, `Intersects(Line, dNear, dFar)`; the transformed line is
that of src/Geometry/Line.cpp:344-347. -/
def intersectsLine (o : OBB α) (l : Line α) : Option (Ext α × Ext α) :=
  o.localBox.intersectsLine (Mat34.mulPos o.worldToLocal l.pos) (Mat34.mulDir o.worldToLocal l.dir)

/-- src/Geometry/OBB.cpp:2767-2777 `Intersects(Sphere, closestPointOnOBB)`. -/
def intersectsSphere (o : OBB α) (s : Sphere α) : Bool := decide (distSq (o.closestPoint s.pos) s.pos ≤ s.r * s.r)

/-- src/Geometry/OBB.cpp:2784-2789 `Intersects(Triangle)`; the transformed triangle is that of
src/Geometry/Triangle.cpp:69-72. -/
def intersectsTri (o : OBB α) (t : Tri α) : Bool :=
  Tri.intersectsAABB ⟨Mat34.mulPos o.worldToLocal t.a, Mat34.mulPos o.worldToLocal t.b, Mat34.mulPos o.worldToLocal t.c⟩ o.localBox

end Field

noncomputable section

/-- src/Geometry/OBB.cpp:245-251 `MinimalEnclosingSphere`. -/
def minimalEnclosingSphere (o : OBB ℝ) : Sphere ℝ := ⟨o.pos, f3Length o.halfDiagonal⟩

/-- src/Geometry/OBB.cpp:253-259 `MaximalContainedSphere`. -/
def maximalContainedSphere (o : OBB ℝ) : Sphere ℝ := ⟨o.pos, min3 o.r.x o.r.y o.r.z⟩

/-- src/Geometry/OBB.cpp:110-134 `OBBSetFrom`, given the image of the centre and the columns of the matrix. -/
def setFromCore (halfSize center c0 c1 c2 : V3 ℝ) : OBB ℝ :=
  let scale := Real.sqrt (lenSq c0)
  let ax := f3Orthonormalize3 ((1 / scale) • c0) ((1 / scale) • c1) ((1 / scale) • c2)
  ⟨center, scale • halfSize, ax.1, ax.2.1, ax.2.2⟩

/-- src/Geometry/OBB.cpp:136-140 `SetFrom(AABB, float3x3)`, src/Geometry/AABB.cpp:540-545 `Transform`. -/
def setFrom3 (b : AABB ℝ) (m : Mat3 ℝ) : OBB ℝ :=
  setFromCore b.halfSize (Mat3.mulVec m b.centerPoint) (Mat3.col m 0) (Mat3.col m 1) (Mat3.col m 2)

/-- src/Geometry/OBB.cpp:142-145 `SetFrom(AABB, float3x4)`, and 147-151 for float4x4 with `Float3x4Part`;
src/Geometry/AABB.cpp:547-559 `Transform`. -/
def setFrom34 (b : AABB ℝ) (m : Mat34 ℝ) : OBB ℝ :=
  setFromCore b.halfSize (Mat34.mulPos m b.centerPoint) ⟨m 0 0, m 1 0, m 2 0⟩ ⟨m 0 1, m 1 1, m 2 1⟩ ⟨m 0 2, m 1 2, m 2 2⟩

/-- src/Geometry/OBB.cpp:147-151 `SetFrom(AABB, float4x4)`. -/
def setFrom4 (b : AABB ℝ) (m : Mat4 ℝ) : OBB ℝ := setFrom34 b (Mat4.float3x4Part m)

/-- src/Geometry/OBB.cpp:153-156 `SetFrom(AABB, Quat)`, src/Geometry/AABB.cpp:561-566 `Transform`. -/
def setFromQuat (b : AABB ℝ) (q : Quat ℝ) : OBB ℝ := setFrom3 b (Quat.toFloat3x3 q)

/-- src/Geometry/OBB.cpp:2346-2356 `OBBTransform`, for the two ways of applying the matrix. -/
def transformCore (o : OBB ℝ) (mulPos mulDir : V3 ℝ → V3 ℝ) : OBB ℝ :=
  let n0 := f3Normalize (mulDir (o.r.x • o.axis0))
  let n1 := f3Normalize (mulDir (o.r.y • o.axis1))
  let n2 := f3Normalize (mulDir (o.r.z • o.axis2))
  ⟨mulPos o.pos, ⟨n0.2, n1.2, n2.2⟩, n0.1, n1.1, n2.1⟩

/-- src/Geometry/OBB.cpp:2358-2362 `Transform(float3x3)`. -/
def transform3 (o : OBB ℝ) (m : Mat3 ℝ) : OBB ℝ := o.transformCore (Mat3.mulVec m) (Mat3.mulVec m)

/-- src/Geometry/OBB.cpp:2364-2368 `Transform(float3x4)`. -/
def transform34 (o : OBB ℝ) (m : Mat34 ℝ) : OBB ℝ := o.transformCore (Mat34.mulPos m) (Mat34.mulDir m)

/-- src/Geometry/OBB.cpp:2370-2374 `Transform(float4x4)`. -/
def transform4 (o : OBB ℝ) (m : Mat4 ℝ) : OBB ℝ := o.transformCore (Mat4.mulPos m) (Mat4.mulDir m)

/-- src/Geometry/OBB.cpp:2376-2379 `Transform(Quat)`. -/
def transformQuat (o : OBB ℝ) (q : Quat ℝ) : OBB ℝ := o.transform3 (Quat.toFloat3x3 q)

/-- src/Geometry/OBB.cpp:2339-2344 `Scale(centerPoint, scaleFactor)`. -/
def scaleVec (o : OBB ℝ) (c s : V3 ℝ) : OBB ℝ := o.transform34 (Mat34.scaleAround s c)

/-- src/Geometry/OBB.cpp:2334-2337 `Scale(centerPoint, float)`. -/
def scale (o : OBB ℝ) (c : V3 ℝ) (s : ℝ) : OBB ℝ := o.scaleVec c (f3Scalar s)

/-- src/Geometry/OBB.cpp:2381-2387 `Distance(point)`. -/
def distance (o : OBB ℝ) (p : V3 ℝ) : ℝ := f3Distance p (o.closestPoint p)

/-- src/Geometry/OBB.cpp:2389-2392 `Distance(Sphere)`. -/
def distanceSphere (o : OBB ℝ) (s : Sphere ℝ) : ℝ := max2 0 (o.distance s.pos - s.r)

/-- src/Geometry/OBB.cpp:1970-1996 `FixedOrientationEnclosingOBB`; `none` when the extremes are infinite (no
points), where the code computes NaN. -/
def fixedOrientationEnclosing (ps : List (V3 ℝ)) (dir0 dir1 : V3 ℝ) : Option (OBB ℝ) :=
  let edgeC := f3Normalized (cross dir0 dir1)
  let e0 := (extremePointsAlongDirection dir0 ps).2.2
  let e1 := (extremePointsAlongDirection dir1 ps).2.2
  let e2 := (extremePointsAlongDirection edgeC ps).2.2
  match e0, e1, e2 with
  | (some (some mind0), some (some maxd0)), (some (some mind1), some (some maxd1)), (some (some mind2), some (some maxd2)) =>
    let rd0 := (maxd0 - mind0) * (1 / 2)
    let rd1 := (maxd1 - mind1) * (1 / 2)
    let rd2 := (maxd2 - mind2) * (1 / 2)
    some ⟨(mind0 + rd0) • dir0 + (mind1 + rd1) • dir1 + (mind2 + rd2) • edgeC, ⟨rd0, rd1, rd2⟩, dir0, dir1, edgeC⟩
  | _, _, _ => none

/-- src/Geometry/OBB.cpp:2724-2736 `Intersects(Ray)`, `Intersects(Ray, dNear, dFar)`; the transformed ray is that
of src/Geometry/Ray.cpp:424-428. -/
def intersectsRay (o : OBB ℝ) (l : Ray ℝ) : Option (Ext ℝ × Ext ℝ) :=
  o.localBox.intersectsRay (Mat34.mulPos o.worldToLocal l.pos) (f3Normalized (Mat34.mulDir o.worldToLocal l.dir))

/-- src/Geometry/OBB.cpp:2752-2764 `Intersects(LineSegment)`, `Intersects(LineSegment, dNear, dFar)`; the
transformed segment is that of src/Geometry/LineSegment.cpp:440-443. -/
def intersectsSeg (o : OBB ℝ) (l : LineSeg ℝ) : Option (Ext ℝ × Ext ℝ) :=
  o.localBox.intersectsSegment (Mat34.mulPos o.worldToLocal l.a) (Mat34.mulPos o.worldToLocal l.b)

end

end OBB
end MGL
