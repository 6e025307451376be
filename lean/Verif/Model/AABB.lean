import Verif.Model.Float3
import Mathlib.Order.WithBot
import Mathlib.Analysis.SpecialFunctions.Sqrt

/-! Model of `AABB` (src/Geometry/AABB.h, AABB.cpp), scalar path. -/

namespace MGL
open V3
variable {α : Type*}

/-- src/Geometry/AABB.h:44-52 the members of class `AABB`. -/
@[ext] structure AABB (α : Type*) where
  minPoint : V3 α
  maxPoint : V3 α

/-- src/Geometry/Plane.h:27-42 the members of class `Plane`: the points with `normal · x = d`. -/
@[ext] structure Plane (α : Type*) where
  normal : V3 α
  d : α

/-- src/Geometry/Sphere.h:26-33 the members of class `Sphere`. -/
@[ext] structure Sphere (α : Type*) where
  pos : V3 α
  r : α

/-- A coordinate which may also be `±FLOAT_INF` (src/Math/MathConstants.h:39). -/
abbrev Ext (α : Type*) := WithBot (WithTop α)

/-- A finite number as such a coordinate (no source line: the embedding of finite floats; `FLOAT_INF` is src/Math/MathConstants.h:39). -/
abbrev Ext.of (a : α) : Ext α := ((a : WithTop α) : WithBot (WithTop α))

/-- A finite point with such coordinates (no source line: the same embedding for `vec`, src/Math/float3.h). -/
def V3.toExt (p : V3 α) : V3 (Ext α) := ⟨Ext.of p.x, Ext.of p.y, Ext.of p.z⟩

namespace AABB

section Order
variable [LinearOrder α]

/-- src/Geometry/AABB.cpp:590-620 `Contains(point)`. -/
def containsPoint (b : AABB α) (p : V3 α) : Bool :=
  decide (b.minPoint.x ≤ p.x) && decide (p.x ≤ b.maxPoint.x) &&
  decide (b.minPoint.y ≤ p.y) && decide (p.y ≤ b.maxPoint.y) &&
  decide (b.minPoint.z ≤ p.z) && decide (p.z ≤ b.maxPoint.z)

/-- src/Geometry/AABB.cpp:627-639 `Contains(aabbMinPoint, aabbMaxPoint)`; `Contains(AABB)` calls it
with the corners (AABB.h:387). -/
def containsMinMax (b : AABB α) (mn mx : V3 α) : Bool :=
  decide (b.minPoint.x ≤ mn.x) && decide (b.maxPoint.x ≥ mx.x) &&
  decide (b.minPoint.y ≤ mn.y) && decide (b.maxPoint.y ≥ mx.y) &&
  decide (b.minPoint.z ≤ mn.z) && decide (b.maxPoint.z ≥ mx.z)

/-- src/Geometry/AABB.cpp:622-625 `Contains(LineSegment)`. -/
def containsSegment (b : AABB α) (p q : V3 α) : Bool :=
  b.containsMinMax (f3Min p q) (f3Max p q)

/-- src/Geometry/Triangle.cpp:296-302 `BoundingAABB`. -/
def ofTriangle (p q r : V3 α) : AABB α := ⟨f3Min3 p q r, f3Max3 p q r⟩

/-- src/Geometry/AABB.cpp:656-659 `Contains(Triangle)`. -/
def containsTriangle (b : AABB α) (p q r : V3 α) : Bool :=
  b.containsMinMax (ofTriangle p q r).minPoint (ofTriangle p q r).maxPoint

/-- src/Geometry/AABB.cpp:942-969 `Intersects(AABB)`. -/
def intersectsAABB (a b : AABB α) : Bool :=
  decide (a.minPoint.x < b.maxPoint.x) && decide (a.minPoint.y < b.maxPoint.y) &&
  decide (a.minPoint.z < b.maxPoint.z) && decide (b.minPoint.x < a.maxPoint.x) &&
  decide (b.minPoint.y < a.maxPoint.y) && decide (b.minPoint.z < a.maxPoint.z)

/-- src/Geometry/AABB.cpp:1254-1257 `Intersection`. -/
def intersection (a b : AABB α) : AABB α :=
  ⟨f3Max a.minPoint b.minPoint, f3Min a.maxPoint b.maxPoint⟩

/-- src/Geometry/AABB.cpp:171-181 `IsDegenerate` (the branch without NaN checks). -/
def isDegenerate (b : AABB α) : Bool :=
  !(decide (b.minPoint.x < b.maxPoint.x) && decide (b.minPoint.y < b.maxPoint.y) &&
    decide (b.minPoint.z < b.maxPoint.z))

/-- src/Geometry/AABB.cpp:1047-1051 `Enclose(point)`. -/
def enclosePoint (b : AABB α) (p : V3 α) : AABB α := ⟨f3Min b.minPoint p, f3Max b.maxPoint p⟩

/-- src/Geometry/AABB.cpp:1058-1062 `Enclose(aabbMinPoint, aabbMaxPoint)`. -/
def encloseMinMax (b : AABB α) (mn mx : V3 α) : AABB α :=
  ⟨f3Min b.minPoint mn, f3Max b.maxPoint mx⟩

/-- src/Geometry/AABB.cpp:1053-1056 `Enclose(LineSegment)`. -/
def encloseSegment (b : AABB α) (p q : V3 α) : AABB α := b.encloseMinMax (f3Min p q) (f3Max p q)

/-- src/Geometry/AABB.cpp:1079-1082 `Enclose(Triangle)`. -/
def encloseTriangle (b : AABB α) (p q r : V3 α) : AABB α :=
  b.encloseMinMax (f3Min3 p q r) (f3Max3 p q r)

/-- src/Geometry/AABB.cpp:1106-1113 `Enclose(pointArray, numPoints)`. -/
def enclosePoints (b : AABB α) (ps : List (V3 α)) : AABB α := ps.foldl enclosePoint b

/-- src/Geometry/AABB.cpp:68-72 `SetNegativeInfinity`. -/
def negInf : AABB (Ext α) := ⟨⟨⊤, ⊤, ⊤⟩, ⟨⊥, ⊥, ⊥⟩⟩

/-- src/Geometry/AABB.cpp:94-102 `SetFrom(pointArray, numPoints)`, also `MinimalEnclosingAABB`
(362-367). -/
def ofPoints (ps : List (V3 (Ext α))) : AABB (Ext α) := ps.foldl enclosePoint negInf

/-- src/Geometry/AABB.cpp:234-249 `CornerPoint`. -/
def cornerPoint (b : AABB α) (i : Fin 8) : V3 α :=
  let mn := b.minPoint
  let mx := b.maxPoint
  match i with
  | 0 => mn
  | 1 => ⟨mn.x, mn.y, mx.z⟩
  | 2 => ⟨mn.x, mx.y, mn.z⟩
  | 3 => ⟨mn.x, mx.y, mx.z⟩
  | 4 => ⟨mx.x, mn.y, mn.z⟩
  | 5 => ⟨mx.x, mn.y, mx.z⟩
  | 6 => ⟨mx.x, mx.y, mn.z⟩
  | 7 => mx

/-- src/Geometry/AABB.cpp:198-232 `Edge`: the two end points. -/
def edge (b : AABB α) (i : Fin 12) : V3 α × V3 α :=
  let mn := b.minPoint
  let mx := b.maxPoint
  match i with
  | 0 => (mn, ⟨mn.x, mn.y, mx.z⟩)
  | 1 => (mn, ⟨mn.x, mx.y, mn.z⟩)
  | 2 => (mn, ⟨mx.x, mn.y, mn.z⟩)
  | 3 => (⟨mn.x, mn.y, mx.z⟩, ⟨mn.x, mx.y, mx.z⟩)
  | 4 => (⟨mn.x, mn.y, mx.z⟩, ⟨mx.x, mn.y, mx.z⟩)
  | 5 => (⟨mn.x, mx.y, mn.z⟩, ⟨mn.x, mx.y, mx.z⟩)
  | 6 => (⟨mn.x, mx.y, mn.z⟩, ⟨mx.x, mx.y, mn.z⟩)
  | 7 => (⟨mn.x, mx.y, mx.z⟩, mx)
  | 8 => (⟨mx.x, mn.y, mn.z⟩, ⟨mx.x, mn.y, mx.z⟩)
  | 9 => (⟨mx.x, mn.y, mn.z⟩, ⟨mx.x, mx.y, mn.z⟩)
  | 10 => (⟨mx.x, mn.y, mx.z⟩, mx)
  | 11 => (⟨mx.x, mx.y, mn.z⟩, mx)

/-- The loop of src/Geometry/AABB.cpp:369-384 `ExtremePointsAlongAABB`, one of its six outputs: the index of the
point for which `key` is least, the first one on ties (`maxx` is the same loop for the reversed
order). `ps` is the non-empty point array. -/
def extremeIndex {β : Type*} [LinearOrder β] (key : V3 α → β) (ps : List (V3 α)) : ℕ :=
  match ps with
  | [] => 0
  | p :: rest =>
    (rest.foldl (fun (s : ℕ × (ℕ × V3 α)) q =>
      (s.1 + 1, if key q < key s.2.2 then (s.1, q) else s.2)) (1, (0, p))).2.1

end Order

section Field
variable [Field α] [LinearOrder α]

/-- src/Geometry/AABB.cpp:74-79 `SetFromCenterAndSize`, 386-390 `FromCenterAndSize`. -/
def ofCenterAndSize (c size : V3 α) : AABB α :=
  let halfSize := (1 / 2 : α) • size
  ⟨c - halfSize, c + halfSize⟩

/-- src/Geometry/AABB.cpp:87-92 `SetFrom(Sphere)`. -/
def ofSphere (s : Sphere α) : AABB α := ⟨s.pos - f3Scalar s.r, s.pos + f3Scalar s.r⟩

/-- src/Geometry/Capsule.cpp:195-200 `Capsule::MinimalEnclosingAABB`. -/
def ofCapsule (p q : V3 α) (r : α) : AABB α :=
  ⟨f3Min p q - f3Scalar r, f3Max p q + f3Scalar r⟩

/-- src/Geometry/AABB.cpp:81-85 `SetFrom(OBB)`: centre `c`, axes `u v w`, half sizes `r`. -/
def ofOBB (c u v w r : V3 α) : AABB α :=
  let halfSize := f3Abs (r.x • u) + f3Abs (r.y • v) + f3Abs (r.z • w)
  ofCenterAndSize c ((2 : α) • halfSize)

/-- src/Geometry/AABB.cpp:1064-1071 `Enclose(OBB)`: the box `obb.pos ± d` that is enclosed. -/
def obbExtent (c u v w r : V3 α) : AABB α :=
  let d := r.x • f3Abs u + r.y • f3Abs v + r.z • f3Abs w
  ⟨c - d, c + d⟩

/-- src/Geometry/AABB.cpp:183-186 `CenterPoint`. -/
def centerPoint (b : AABB α) : V3 α := (1 / 2 : α) • (b.minPoint + b.maxPoint)

/-- src/Geometry/AABB.cpp:188-196 `PointInside`. -/
def pointInside (b : AABB α) (x y z : α) : V3 α :=
  b.minPoint + f3Mul (b.maxPoint - b.minPoint) ⟨x, y, z⟩

/-- src/Geometry/AABB.cpp:392-395 `Size`. -/
def size (b : AABB α) : V3 α := b.maxPoint - b.minPoint

/-- src/Geometry/AABB.cpp:397-400 `HalfSize`. -/
def halfSize (b : AABB α) : V3 α := (1 / 2 : α) • b.size

/-- src/Geometry/AABB.cpp:402-406 `Volume`. -/
def volume (b : AABB α) : α := b.size.x * b.size.y * b.size.z

/-- src/Geometry/AABB.cpp:408-412 `SurfaceArea`. -/
def surfaceArea (b : AABB α) : α :=
  2 * (b.size.x * b.size.y + b.size.x * b.size.z + b.size.y * b.size.z)

/-- src/Geometry/AABB.cpp:251-256 `ExtremePoint`. -/
def extremePoint (b : AABB α) (d : V3 α) : V3 α :=
  ⟨if d.x ≥ 0 then b.maxPoint.x else b.minPoint.x,
   if d.y ≥ 0 then b.maxPoint.y else b.minPoint.y,
   if d.z ≥ 0 then b.maxPoint.z else b.minPoint.z⟩

/-- src/Geometry/AABB.cpp:265-289 `PointOnEdge`. -/
def pointOnEdge (b : AABB α) (i : Fin 12) (u : α) : V3 α :=
  let mn := b.minPoint
  let mx := b.maxPoint
  let d := mx - mn
  match i with
  | 0 => ⟨mn.x, mn.y, mn.z + u * d.z⟩
  | 1 => ⟨mn.x, mx.y, mn.z + u * d.z⟩
  | 2 => ⟨mx.x, mn.y, mn.z + u * d.z⟩
  | 3 => ⟨mx.x, mx.y, mn.z + u * d.z⟩
  | 4 => ⟨mn.x, mn.y + u * d.y, mn.z⟩
  | 5 => ⟨mx.x, mn.y + u * d.y, mn.z⟩
  | 6 => ⟨mn.x, mn.y + u * d.y, mx.z⟩
  | 7 => ⟨mx.x, mn.y + u * d.y, mx.z⟩
  | 8 => ⟨mn.x + u * d.x, mn.y, mn.z⟩
  | 9 => ⟨mn.x + u * d.x, mn.y, mx.z⟩
  | 10 => ⟨mn.x + u * d.x, mx.y, mn.z⟩
  | 11 => ⟨mn.x + u * d.x, mx.y, mx.z⟩

/-- src/Geometry/AABB.cpp:291-306 `FaceCenterPoint`. -/
def faceCenterPoint (b : AABB α) (i : Fin 6) : V3 α :=
  let center := b.centerPoint
  match i with
  | 0 => ⟨b.minPoint.x, center.y, center.z⟩
  | 1 => ⟨b.maxPoint.x, center.y, center.z⟩
  | 2 => ⟨center.x, b.minPoint.y, center.z⟩
  | 3 => ⟨center.x, b.maxPoint.y, center.z⟩
  | 4 => ⟨center.x, center.y, b.minPoint.z⟩
  | 5 => ⟨center.x, center.y, b.maxPoint.z⟩

/-- src/Geometry/AABB.cpp:308-325 `FacePoint`. -/
def facePoint (b : AABB α) (i : Fin 6) (u v : α) : V3 α :=
  let mn := b.minPoint
  let mx := b.maxPoint
  let d := mx - mn
  match i with
  | 0 => ⟨mn.x, mn.y + u * d.y, mn.z + v * d.z⟩
  | 1 => ⟨mx.x, mn.y + u * d.y, mn.z + v * d.z⟩
  | 2 => ⟨mn.x + u * d.x, mn.y, mn.z + v * d.z⟩
  | 3 => ⟨mn.x + u * d.x, mx.y, mn.z + v * d.z⟩
  | 4 => ⟨mn.x + u * d.x, mn.y + v * d.y, mn.z⟩
  | 5 => ⟨mn.x + u * d.x, mn.y + v * d.y, mx.z⟩

/-- src/Geometry/AABB.cpp:327-340 `FaceNormal`. -/
def faceNormal (i : Fin 6) : V3 α :=
  match i with
  | 0 => ⟨-1, 0, 0⟩
  | 1 => ⟨1, 0, 0⟩
  | 2 => ⟨0, -1, 0⟩
  | 3 => ⟨0, 1, 0⟩
  | 4 => ⟨0, 0, -1⟩
  | 5 => ⟨0, 0, 1⟩

/-- src/Geometry/AABB.cpp:342-346 `FacePlane`, with src/Geometry/Plane.cpp:98-103 `Plane::Set`. -/
def facePlane (b : AABB α) (i : Fin 6) : Plane α :=
  ⟨faceNormal i, dot (b.faceCenterPoint i) (faceNormal i)⟩

/-- src/Geometry/AABB.cpp:442-451 `Translate`, `Translated`. -/
def translate (b : AABB α) (o : V3 α) : AABB α := ⟨b.minPoint + o, b.maxPoint + o⟩

/-- src/Geometry/AABB.cpp:453-457 `Scale(centerPoint, float)`. -/
def scale (b : AABB α) (c : V3 α) (s : α) : AABB α :=
  ⟨s • (b.minPoint - c) + c, s • (b.maxPoint - c) + c⟩

/-- src/Geometry/AABB.cpp:568-576 `ClosestPoint`. -/
def closestPoint (b : AABB α) (p : V3 α) : V3 α := f3Clamp p b.minPoint b.maxPoint

/-- src/Geometry/AABB.cpp:646-649 `Contains(Sphere)`. -/
def containsSphere (b : AABB α) (s : Sphere α) : Bool :=
  b.containsMinMax (s.pos - f3Scalar s.r) (s.pos + f3Scalar s.r)

/-- src/Geometry/AABB.cpp:651-654 `Contains(Capsule)`. -/
def containsCapsule (b : AABB α) (p q : V3 α) (r : α) : Bool :=
  b.containsMinMax (ofCapsule p q r).minPoint (ofCapsule p q r).maxPoint

/-- src/Geometry/AABB.cpp:976-986 `Intersects(Sphere)`. -/
def intersectsSphere (b : AABB α) (s : Sphere α) : Bool :=
  decide (distSq (b.closestPoint s.pos) s.pos ≤ s.r * s.r)

/-- src/Geometry/AABB.cpp:1013-1029 `ProjectToAxis`: `(dMin, dMax)`. -/
def projectToAxis (b : AABB α) (axis : V3 α) : α × α :=
  let c := (1 / 2 : α) • (b.minPoint + b.maxPoint)
  let e := b.maxPoint - c
  let r := absF (e.x * absF axis.x + e.y * absF axis.y + e.z * absF axis.z)
  let s := dot axis c
  (s - r, s + r)

/-- One of the three axis blocks of src/Geometry/AABB.cpp:742-790 (742-759, 761-776, 778-790):
`none` is `return false`. The early return `tNear > tFar` of the first two blocks is also done after
the third here; there the function returns `tNear <= tFar` (792), which is the same test. -/
def slab (pos dir mn mx : α) (tNear tFar : Ext α) : Option (Ext α × Ext α) :=
  if !(equalAbs dir 0) then
    let recipDir := 1 / dir
    let t1 := Ext.of ((mn - pos) * recipDir)
    let t2 := Ext.of ((mx - pos) * recipDir)
    let n := if t1 < t2 then max2 t1 tNear else max2 t2 tNear
    let f := if t1 < t2 then min2 t2 tFar else min2 t1 tFar
    if n > f then none else some (n, f)
  else if pos < mn || pos > mx then none
  else some (tNear, tFar)

/-- src/Geometry/AABB.cpp:725-793 `IntersectLineAABB_CPP`: `none` when it returns false, otherwise
the resulting `(tNear, tFar)`. `tNear`, `tFar` may be infinite on entry. -/
def intersectLine (b : AABB α) (pos dir : V3 α) (tNear tFar : Ext α) : Option (Ext α × Ext α) := do
  let (n, f) ← slab pos.x dir.x b.minPoint.x b.maxPoint.x tNear tFar
  let (n, f) ← slab pos.y dir.y b.minPoint.y b.maxPoint.y n f
  let (n, f) ← slab pos.z dir.z b.minPoint.z b.maxPoint.z n f
  if n ≤ f then some (n, f) else none

/-- src/Geometry/AABB.cpp:910-915 `Intersects(Line, dNear, dFar)`, and 684-694. -/
def intersectsLine (b : AABB α) (pos dir : V3 α) : Option (Ext α × Ext α) :=
  b.intersectLine pos dir ⊥ ⊤

/-- src/Geometry/AABB.cpp:903-908 `Intersects(Ray, dNear, dFar)`, and 696-706. -/
def intersectsRay (b : AABB α) (pos dir : V3 α) : Option (Ext α × Ext α) :=
  b.intersectLine pos dir (Ext.of 0) ⊤

end Field

/-- src/Geometry/AABB.cpp:578-583 `Distance(point)`. -/
noncomputable def distance (b : AABB ℝ) (p : V3 ℝ) : ℝ := Real.sqrt (distSq (b.closestPoint p) p)

/-- src/Geometry/AABB.cpp:585-588 `Distance(Sphere)`. -/
noncomputable def distanceSphere (b : AABB ℝ) (s : Sphere ℝ) : ℝ :=
  max2 0 (b.distance s.pos - s.r)

/-- src/Geometry/AABB.cpp:155-158 `MinimalEnclosingSphere`. -/
noncomputable def minimalEnclosingSphere (b : AABB ℝ) : Sphere ℝ :=
  ⟨b.centerPoint, Real.sqrt (lenSq b.size) * (1 / 2)⟩

/-- src/Geometry/AABB.cpp:160-164 `MaximalContainedSphere`. -/
noncomputable def maximalContainedSphere (b : AABB ℝ) : Sphere ℝ :=
  ⟨b.centerPoint, min3 b.halfSize.x b.halfSize.y b.halfSize.z⟩

/-- src/Geometry/AABB.cpp:917-935 `Intersects(LineSegment, dNear, dFar)`, and 708-723: `none` is
false. Only finite values come back, multiplied by `invLen`. -/
noncomputable def intersectsSegment (b : AABB ℝ) (p q : V3 ℝ) : Option (Ext ℝ × Ext ℝ) :=
  let dir := q - p
  let len := Real.sqrt (lenSq dir)
  if len ≤ 1 / 10000 then
    (if b.containsPoint p then some (Ext.of 0, Ext.of 1) else none)
  else
    let invLen := 1 / len
    match b.intersectLine p (invLen • dir) (Ext.of 0) (Ext.of len) with
    | none => none
    | some (n, f) => some (n.map (WithTop.map (· * invLen)), f.map (WithTop.map (· * invLen)))

end AABB
end MGL
