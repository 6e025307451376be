import Verif.Model.Mat

/-! Model of the functions that transform arrays of vectors in place. Memory is a function from places (counted in floats) to numbers. Strides are
given in bytes in the code, here in floats. -/

namespace MGL
variable {α : Type*}

namespace Batch

/-- Reading a `float3` or `float4` (`k` numbers) at place `p`, as in `*vtx` at src/Math/float3x3.cpp:1167-1168. -/
def read (k : ℕ) (mem : ℕ → α) (p : ℕ) : Fin k → α := fun j => mem (p + j)

/-- Writing a `float3` or `float4` at place `p`, as in `*vtx = ` at src/Math/float3x3.cpp:1168. -/
def write (k : ℕ) (mem : ℕ → α) (p : ℕ) (v : Fin k → α) : ℕ → α := fun q => if h : p ≤ q ∧ q - p < k then v ⟨q - p, h.2⟩ else mem q

/-- The loops at src/Math/float3x3.cpp:1156-1157, 1164-1168, 1175-1176 and 1183-1187 and src/Math/float3x4.cpp:1175-1176, 1184-1188, 1194-1195,
1203-1207, 1213-1214 and 1222-1226: element `i` is at `stride * i`. -/
def loop (k : ℕ) (f : (Fin k → α) → Fin k → α) (stride n : ℕ) (mem : ℕ → α) : ℕ → α :=
  (List.range n).foldl (fun mem i => write k mem (stride * i) (f (read k mem (stride * i)))) mem

/-- The loops at src/Math/float4x4.cpp:1610-1615, 1631-1636 and 1652-1657: the pointer `data` moves along. -/
def loopPtr (k : ℕ) (f : (Fin k → α) → Fin k → α) (stride : ℕ) : ℕ → (ℕ → α) → ℕ → ℕ → α
  | 0, mem, _ => mem
  | n + 1, mem, data => loopPtr k f stride n (write k mem data (f (read k mem data))) (data + stride)

variable [Field α]

/-- A function of a `float3` as a function of three numbers. -/
def on3 (f : V3 α → V3 α) (v : Fin 3 → α) : Fin 3 → α :=
  let r := f ⟨v 0, v 1, v 2⟩
  ![r.x, r.y, r.z]

/-- src/Math/float3x3.cpp:1145-1151 `Transform(float4)`. -/
def mulVec4 (m : Mat3 α) (v : F4 α) : F4 α :=
  ![m 0 0 * v 0 + m 0 1 * v 1 + m 0 2 * v 2, m 1 0 * v 0 + m 1 1 * v 1 + m 1 2 * v 2, m 2 0 * v 0 + m 2 1 * v 1 + m 2 2 * v 2, v 3]

/-- src/Math/float3x3.cpp:1153-1170 `BatchTransform(float3 *, numPoints[, stride])`; without a stride, `stride = 3`. -/
def mat3 (m : Mat3 α) (stride n : ℕ) (mem : ℕ → α) : ℕ → α := loop 3 (on3 (Mat3.mulVec m)) stride n mem

/-- src/Math/float3x3.cpp:1172-1189 `BatchTransform(float4 *, numVectors[, stride])`; without a stride, `stride = 4`. -/
def mat3Vec4 (m : Mat3 α) (stride n : ℕ) (mem : ℕ → α) : ℕ → α := loop 4 (mulVec4 m) stride n mem

/-- src/Math/float3x4.cpp:1172-1189 `BatchTransformPos`; without a stride, `stride = 3`. -/
def mat34Pos (m : Mat34 α) (stride n : ℕ) (mem : ℕ → α) : ℕ → α := loop 3 (on3 (Mat34.mulPos m)) stride n mem

/-- src/Math/float3x4.cpp:1191-1196 `BatchTransformDir(float3 *, numVectors)`: the code calls `MulPos`. -/
def mat34DirPacked (m : Mat34 α) (n : ℕ) (mem : ℕ → α) : ℕ → α := loop 3 (on3 (Mat34.mulPos m)) 3 n mem

/-- src/Math/float3x4.cpp:1198-1208 `BatchTransformDir(float3 *, numVectors, stride)`. -/
def mat34Dir (m : Mat34 α) (stride n : ℕ) (mem : ℕ → α) : ℕ → α := loop 3 (on3 (Mat34.mulDir m)) stride n mem

/-- src/Math/float3x4.cpp:1210-1227 `BatchTransform(float4 *, numVectors[, stride])`; without a stride, `stride = 4`. -/
def mat34Vec4 (m : Mat34 α) (stride n : ℕ) (mem : ℕ → α) : ℕ → α := loop 4 (Mat34.mulVec4 m) stride n mem

/-- src/Math/float4x4.cpp:1597-1603 `TransformPos(float3 *, numPoints)`. -/
def mat4PosPacked (m : Mat4 α) (n : ℕ) (mem : ℕ → α) : ℕ → α := loop 3 (on3 (Mat4.mulPos m)) 3 n mem

/-- src/Math/float4x4.cpp:1605-1616 `TransformPos(float3 *, numPoints, strideBytes)`. -/
def mat4Pos (m : Mat4 α) (stride n : ℕ) (mem : ℕ → α) : ℕ → α := loopPtr 3 (on3 (Mat4.mulPos m)) stride n mem 0

/-- src/Math/float4x4.cpp:1618-1624 `TransformDir(float3 *, numVectors)`. -/
def mat4DirPacked (m : Mat4 α) (n : ℕ) (mem : ℕ → α) : ℕ → α := loop 3 (on3 (Mat4.mulDir m)) 3 n mem

/-- src/Math/float4x4.cpp:1626-1637 `TransformDir(float3 *, numVectors, strideBytes)`. -/
def mat4Dir (m : Mat4 α) (stride n : ℕ) (mem : ℕ → α) : ℕ → α := loopPtr 3 (on3 (Mat4.mulDir m)) stride n mem 0

/-- src/Math/float4x4.cpp:1639-1645 `Transform(float4 *, numVectors)`. -/
def mat4Vec4Packed (m : Mat4 α) (n : ℕ) (mem : ℕ → α) : ℕ → α := loop 4 (Mat4.mulVec4 m) 4 n mem

/-- src/Math/float4x4.cpp:1647-1658 `Transform(float4 *, numVectors, strideBytes)`. -/
def mat4Vec4 (m : Mat4 α) (stride n : ℕ) (mem : ℕ → α) : ℕ → α := loopPtr 4 (Mat4.mulVec4 m) stride n mem 0

end Batch
end MGL
