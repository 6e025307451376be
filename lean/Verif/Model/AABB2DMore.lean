import Verif.Model.AABB2D
import Verif.Model.AABB
import Verif.Model.Mat
import Verif.Spec.Plane2

/-! Model of the rest of class `AABB2D` (src/Geometry/AABB2D.h), scalar path. -/

namespace MGL.Rect
open V2

section Order
variable {α : Type*} [LinearOrder α]

/-- src/Geometry/AABB2D.h:65-69 `Enclose(point)`; `Min` and `Max` of vectors are src/Math/float2.cpp:314-327. -/
def enclose (r : Rect α) (p : V2 α) : Rect α :=
  ⟨⟨min2 r.minPoint.x p.x, min2 r.minPoint.y p.y⟩, ⟨max2 r.maxPoint.x p.x, max2 r.maxPoint.y p.y⟩⟩

/-- src/Geometry/AABB2D.h:59-63 `SetNegativeInfinity`. -/
def negInf : Rect (Ext α) := ⟨⟨⊤, ⊤⟩, ⟨⊥, ⊥⟩⟩

/-- A point with finite coordinates. -/
def toExt (p : V2 α) : V2 (Ext α) := ⟨Ext.of p.x, Ext.of p.y⟩

/-- src/Geometry/AABB2D.h:85-89 `Contains(vec2d)`. -/
def containsPoint (r : Rect α) (p : V2 α) : Bool :=
  decide (p.x ≥ r.minPoint.x) && decide (p.y ≥ r.minPoint.y) && decide (p.x ≤ r.maxPoint.x) && decide (p.y ≤ r.maxPoint.y)

/-- src/Geometry/AABB2D.h:197-203 the function `Contains(AABB2D, float3)`. -/
def containsPoint3 (r : Rect α) (p : V3 α) : Bool :=
  decide (r.minPoint.x ≤ p.x) && decide (r.minPoint.y ≤ p.y) && decide (p.x ≤ r.maxPoint.x) && decide (p.y ≤ r.maxPoint.y)

/-- src/Geometry/AABB2D.h:97-100 `IsDegenerate`. -/
def isDegenerate (r : Rect α) : Bool := decide (r.minPoint.x ≥ r.maxPoint.x) || decide (r.minPoint.y ≥ r.maxPoint.y)

/-- src/Geometry/AABB2D.h:102-105 `HasNegativeVolume`. -/
def hasNegativeVolume (r : Rect α) : Bool := decide (r.maxPoint.x < r.minPoint.x) || decide (r.maxPoint.y < r.minPoint.y)

/-- src/Geometry/AABB2D.h:127-138 `CornerPoint`; an index out of range is treated as 0. -/
def cornerPoint (r : Rect α) (i : ℤ) : V2 α :=
  if i = 1 then ⟨r.minPoint.x, r.maxPoint.y⟩
  else if i = 2 then ⟨r.maxPoint.x, r.minPoint.y⟩
  else if i = 3 then r.maxPoint
  else r.minPoint

end Order

section Field
variable {α : Type*} [Field α] [LinearOrder α]

/-- src/Geometry/AABB2D.h:91-95 `Contains(int, int)`; the integers are converted to `float`, here exactly. -/
def containsInt (r : Rect α) (x y : ℤ) : Bool :=
  decide ((x : α) ≥ r.minPoint.x) && decide ((y : α) ≥ r.minPoint.y) && decide ((x : α) ≤ r.maxPoint.x) && decide ((y : α) ≤ r.maxPoint.y)

/-- src/Geometry/AABB2D.h:50-51 `Width`, `Height`. -/
def width (r : Rect α) : α := r.maxPoint.x - r.minPoint.x
@[inherit_doc width]
def height (r : Rect α) : α := r.maxPoint.y - r.minPoint.y

/-- src/Math/float2.cpp:329-332 `Clamp(floor, ceil)`. -/
def clampPoint (r : Rect α) (p : V2 α) : V2 α :=
  ⟨clamp p.x r.minPoint.x r.maxPoint.x, clamp p.y r.minPoint.y r.maxPoint.y⟩

/-- src/Geometry/AABB2D.h:53-57 `DistanceSq(point)`; `float2::DistanceSq` is src/Math/float2.cpp:344-349. -/
def distanceSq (r : Rect α) (p : V2 α) : α :=
  let cp := r.clampPoint p
  let dx := cp.x - p.x
  let dy := cp.y - p.y
  dx * dx + dy * dy

/-- src/Geometry/AABB2D.h:112-115 `PosInside`. -/
def posInside (r : Rect α) (p : V2 α) : V2 α :=
  ⟨r.minPoint.x + p.x * (r.maxPoint.x - r.minPoint.x), r.minPoint.y + p.y * (r.maxPoint.y - r.minPoint.y)⟩

/-- src/Geometry/AABB2D.h:117-120 `ToNormalizedLocalSpace`. -/
def toNormalizedLocalSpace (r : Rect α) (p : V2 α) : V2 α :=
  ⟨(p.x - r.minPoint.x) / (r.maxPoint.x - r.minPoint.x), (p.y - r.minPoint.y) / (r.maxPoint.y - r.minPoint.y)⟩

/-- src/Geometry/AABB2D.h:171-177 `operator +`. -/
def translate (r : Rect α) (o : V2 α) : Rect α := ⟨r.minPoint + o, r.maxPoint + o⟩

/-- src/Geometry/AABB2D.h:179-185 `operator -`. -/
def translateNeg (r : Rect α) (o : V2 α) : Rect α := ⟨r.minPoint - o, r.maxPoint - o⟩

/-- src/Geometry/AABB2D.h:208-225 `AABB2DTransformAsAABB2D`, for a matrix given by what `m[i][j]` reads. -/
def transformWith (r : Rect α) (m : Fin 2 → Fin 4 → α) : Rect α :=
  let ax := m 0 0 * r.minPoint.x
  let bx := m 0 0 * r.maxPoint.x
  let ay := m 0 1 * r.minPoint.y
  let byy := m 0 1 * r.maxPoint.y
  let ax2 := m 1 0 * r.minPoint.x
  let bx2 := m 1 0 * r.maxPoint.x
  let ay2 := m 1 1 * r.minPoint.y
  let by2 := m 1 1 * r.maxPoint.y
  ⟨⟨min2 ax bx + min2 ay byy + m 0 3, min2 ax2 bx2 + min2 ay2 by2 + m 1 3⟩,
   ⟨max2 ax bx + max2 ay byy + m 0 3, max2 ax2 bx2 + max2 ay2 by2 + m 1 3⟩⟩

/-- src/Geometry/AABB2D.h:153-156 `TransformAsAABB(float3x4)`. -/
def transform34 (r : Rect α) (m : Mat34 α) : Rect α := r.transformWith fun i j => m (i.castLE (by decide)) j

/-- src/Geometry/AABB2D.h:158-161 `TransformAsAABB(float4x4)`. -/
def transform4 (r : Rect α) (m : Mat4 α) : Rect α := r.transformWith fun i j => m (i.castLE (by decide)) j

/-- src/Geometry/AABB2D.h:148-151 `TransformAsAABB(float3x3)`. `m[i][3]` is one past the end of row `i` of a matrix with three columns;
the rows are stored one after the other (src/Math/float3x3.h:303-313, MatrixProxy.h:57-63), so the memory there is the first number
of the next row. -/
def transform3 (r : Rect α) (m : Mat3 α) : Rect α :=
  let memory (k : ℕ) : α := m ⟨k / 3 % 3, by omega⟩ ⟨k % 3, by omega⟩
  r.transformWith fun i j => memory (3 * i.val + j.val)

end Field
end MGL.Rect
