import Verif.Model.GJK
import Verif.Model.Frustum
import Verif.Model.Capsule

/-! The intersection tests of the classes that call GJK (src/Algorithm/GJK.h), and what it calls on each class. -/

namespace MGL
open V3 GJK

section Field
variable {α : Type*} [Field α] [LinearOrder α]

/-- src/Geometry/AABB.h:166 `AnyPointFast`, src/Geometry/AABB.cpp:258-263 `ExtremePoint(direction, projectionDistance)`. -/
def AABB.support (b : AABB α) : Support α := ⟨b.minPoint, fun d => some (b.extremePoint d, dot (b.extremePoint d) d)⟩

/-- src/Geometry/OBB.h:215 `AnyPointFast`, src/Geometry/OBB.cpp:334-339 `ExtremePoint(direction, projectionDistance)`. -/
def OBB.support (o : OBB α) : Support α := ⟨o.pos, fun d => some (o.extremePoint d, dot (o.extremePoint d) d)⟩

/-- src/Geometry/LineSegment.h:84 `AnyPointFast`, src/Geometry/LineSegment.cpp:89-94
`ExtremePoint(direction, projectionDistance)`. -/
def LineSeg.support (l : LineSeg α) : Support α := ⟨l.a, fun d => some (l.extremePoint d, dot (l.extremePoint d) d)⟩

/-- src/Geometry/Triangle.h:188 `AnyPointFast`, src/Geometry/Triangle.cpp:275-280
`ExtremePoint(direction, projectionDistance)`. -/
def Tri.support (t : Tri α) : Support α := ⟨t.a, fun d => some (t.extremePointDist d)⟩

/-- src/Geometry/Polygon.cpp:802-811, the loop of `ExtremePoint`; `none` is the state before the first pass, with the
distance `-FLOAT_INF`. -/
def polygonExtremeLoop (direction : V3 α) : Option (V3 α × α) → List (V3 α) → Option (V3 α × α)
  | s, [] => s
  | none, c :: cs => polygonExtremeLoop direction (some (c, dot direction c)) cs
  | some (m, pd), c :: cs =>
    polygonExtremeLoop direction (if dot direction c > pd then some (c, dot direction c) else some (m, pd)) cs

/-- src/Geometry/Polygon.h:65 `AnyPointFast` and src/Geometry/Polygon.cpp:798-813 `ExtremePoint(direction,
projectionDistance)`, for a polygon with the vertices `p :: ps`. -/
def polygonSupport (p : V3 α) (ps : List (V3 α)) : Support α := ⟨p, fun d => polygonExtremeLoop d none (p :: ps)⟩

/-- src/Geometry/Polygon.cpp:543-546 `ConvexIntersects(AABB)`, for a polygon with the vertices `p :: ps`. -/
def polygonConvexIntersectsAABB (p : V3 α) (ps : List (V3 α)) (b : AABB α) : Option Bool := intersect (polygonSupport p ps) b.support

/-- src/Geometry/Polygon.cpp:548-551 `ConvexIntersects(OBB)`, for a polygon with the vertices `p :: ps`. -/
def polygonConvexIntersectsOBB (p : V3 α) (ps : List (V3 α)) (o : OBB α) : Option Bool := intersect (polygonSupport p ps) o.support

end Field

noncomputable section

/-- src/Geometry/Sphere.h:108 `AnyPointFast`, src/Geometry/Sphere.cpp:147-152 `ExtremePoint(direction, projectionDistance)`;
with the direction zero it divides by zero. -/
def Sphere.support (s : Sphere ℝ) : Support ℝ :=
  ⟨s.pos, fun d => if d = 0 then none else some (s.extremePoint d, dot (s.extremePoint d) d)⟩

namespace Capsule

/-- src/Geometry/Capsule.h:98 `AnyPointFast`, src/Geometry/Capsule.cpp:101-106 `ExtremePoint(direction,
projectionDistance)`; with the direction zero it divides by zero. -/
def support (c : Capsule ℝ) : Support ℝ := ⟨c.l.a, fun d => if d = 0 then none else some (c.extremePointD d)⟩

/-- src/Geometry/Capsule.cpp:412-415 `Intersects(OBB)`. -/
def intersectsOBB (c : Capsule ℝ) (o : OBB ℝ) : Option Bool := intersect c.support o.support

/-- src/Geometry/Capsule.cpp:407-410 `Intersects(AABB)`, with src/Algorithm/GJK.h:69-77
`FloatingPointOffsetedGJKIntersect`, which moves both objects near the origin first. -/
def intersectsAABB (c : Capsule ℝ) (b : AABB ℝ) : Option Bool :=
  let ab := c.minimalEnclosingAABB
  let offset := (1 / 2 : ℝ) • (f3Min ab.minPoint b.minPoint + f3Max ab.maxPoint b.maxPoint)
  intersect (c.translate (-offset)).support (b.translate (-offset)).support

end Capsule

namespace Frustum

/-- src/Geometry/Frustum.h:367 `AnyPointFast`, src/Geometry/Frustum.cpp:883-899 `ExtremePoint(direction,
projectionDistance)`. -/
def support (f : Frustum) : Support ℝ := ⟨f.cornerPoint 0, f.extremePoint⟩

/-- src/Geometry/Frustum.cpp:1054-1057 `Intersects(LineSegment)`. -/
def intersectsSeg (f : Frustum) (l : LineSeg ℝ) : Option Bool := intersect f.support l.support

/-- src/Geometry/Frustum.cpp:1059-1062 `Intersects(AABB)`. -/
def intersectsAABB (f : Frustum) (b : AABB ℝ) : Option Bool := intersect f.support b.support

/-- src/Geometry/Frustum.cpp:1064-1067 `Intersects(OBB)`. -/
def intersectsOBB (f : Frustum) (o : OBB ℝ) : Option Bool := intersect f.support o.support

/-- src/Geometry/Frustum.cpp:1074-1077 `Intersects(Triangle)`. -/
def intersectsTri (f : Frustum) (t : Tri ℝ) : Option Bool := intersect f.support t.support

/-- src/Geometry/Frustum.cpp:1084-1087 `Intersects(Sphere)`. -/
def intersectsSphere (f : Frustum) (s : Sphere ℝ) : Option Bool := intersect f.support s.support

/-- src/Geometry/Frustum.cpp:1089-1092 `Intersects(Capsule)`. -/
def intersectsCapsule (f : Frustum) (c : Capsule ℝ) : Option Bool := intersect f.support c.support

/-- src/Geometry/Frustum.cpp:1094-1097 `Intersects(Frustum)`. -/
def intersectsFrustum (f g : Frustum) : Option Bool := intersect f.support g.support

/-- src/Geometry/Polygon.cpp:553-556 `Polygon::ConvexIntersects(Frustum)`, for a polygon with the vertices `p :: ps`. -/
def polygonConvexIntersects (p : V3 ℝ) (ps : List (V3 ℝ)) (f : Frustum) : Option Bool := intersect (polygonSupport p ps) f.support

end Frustum
end
end MGL
