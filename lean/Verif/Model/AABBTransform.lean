import Verif.Model.AABB
import Verif.Model.Mat
import Verif.Model.Quat

/-! Model of the transformation functions of `AABB` (src/Geometry/AABB.cpp:453-538). -/

namespace MGL
namespace AABB
open V3
variable {α : Type*} [Field α] [LinearOrder α]

/-- src/Geometry/AABB.cpp:469-482 the template `AABBTransformAsAABB`: `center` is `m.MulPos(centerPoint)`
and `e i j` is `m[i][j]`. -/
def transformCore (b : AABB α) (mulPos : V3 α → V3 α) (e : Fin 3 → Fin 3 → α) : AABB α :=
  let c := (1 / 2 : α) • (b.minPoint + b.maxPoint)
  let h := c - b.minPoint
  let nc := mulPos c
  let nd : V3 α := ⟨absF (e 0 0 * h.x) + absF (e 0 1 * h.y) + absF (e 0 2 * h.z),
    absF (e 1 0 * h.x) + absF (e 1 1 * h.y) + absF (e 1 2 * h.z),
    absF (e 2 0 * h.x) + absF (e 2 1 * h.y) + absF (e 2 2 * h.z)⟩
  ⟨nc - nd, nc + nd⟩

/-- src/Geometry/AABB.cpp:503-509 `TransformAsAABB(float3x3)`; `float3x3::MulPos` is `operator *`
(float3x3.h). -/
def transform3 (b : AABB α) (m : Mat3 α) : AABB α := transformCore b (Mat3.mulVec m) m

/-- src/Geometry/AABB.cpp:511-517 `TransformAsAABB(float3x4)`. -/
def transform34 (b : AABB α) (m : Mat34 α) : AABB α :=
  transformCore b (Mat34.mulPos m) (fun i j => m i (Fin.castSucc j))

/-- src/Geometry/AABB.cpp:519-530 `TransformAsAABB(float4x4)`, the scalar path. -/
def transform4 (b : AABB α) (m : Mat4 α) : AABB α :=
  transformCore b (Mat4.mulPos m) (fun i j => m (Fin.castSucc i) (Fin.castSucc j))

/-- src/Geometry/AABB.cpp:532-538 `TransformAsAABB(Quat)`. -/
def transformQuat (b : AABB α) (q : Quat α) : AABB α :=
  let nc := Quat.transform q b.centerPoint
  let nd := f3Abs ((1 / 2 : α) • Quat.transform q b.size)
  ⟨nc - nd, nc + nd⟩

/-- src/Geometry/AABB.cpp:459-464 `Scale(centerPoint, scaleFactor)` with a vector factor; the matrix is
src/Math/float3x4.cpp:340-343 `float3x4::Scale(scale, scaleCenter)`. -/
def scaleVec (b : AABB α) (c s : V3 α) : AABB α :=
  let m : Mat34 α := Mat34.scaleAround s c
  ⟨Mat34.mulPos m b.minPoint, Mat34.mulPos m b.maxPoint⟩

end AABB
end MGL
