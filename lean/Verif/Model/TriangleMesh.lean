import Verif.Model.Triangle

/-! Model of class `TriangleMesh` (src/Geometry/TriangleMesh.cpp). Arrays of floats are functions of their index. -/

namespace MGL
open V3
variable {α : Type*} [Field α] [LinearOrder α]

/-- src/Geometry/TriangleMesh.h:75-77, the members of `TriangleMesh`; `vertexSize` is `vertexSizeBytes / 4`. -/
structure TriangleMesh (α : Type*) where
  data : ℕ → α
  numTriangles : ℕ
  vertexSize : ℕ

/-- src/Geometry/TriangleMesh.cpp:40-51 `SIMDCapability`; the values without effect (`SIMD_SSE`) are left out. -/
inductive Simd
  | none | sse | avx
deriving DecidableEq

namespace TriangleMesh

/-- src/Geometry/TriangleMesh.cpp:168-175, the default constructor. `data` is a null pointer in the code and never read. -/
def empty : TriangleMesh α := ⟨fun _ => 0, 0, 0⟩

/-- src/Geometry/TriangleMesh.cpp:302-310 `SetAoS`. The numbers beyond those copied are not part of the buffer. -/
def setAoS (_m : TriangleMesh α) (vertexData : ℕ → α) (numTris vtxSize : ℕ) : TriangleMesh α := ⟨vertexData, numTris, vtxSize⟩

/-- src/Geometry/TriangleMesh.cpp:327-344 and 372-395: what the first loop of `SetSoA4` (`w = 4`) and `SetSoA8` (`w = 8`) writes to place `p` of
the buffer. Each block has `9 * w` numbers, `w` for each coordinate `k` of each vertex `j`. `vertexData` moves by `w` triangles for each block. -/
def soaFirst (w : ℕ) (vertexData : ℕ → α) (vertexSizeFloats : ℕ) (p : ℕ) : α :=
  let triangleSizeFloats := vertexSizeFloats * 3
  let block := p / (9 * w)
  let j := p % (9 * w) / (3 * w)
  let k := p % (3 * w) / w
  let lane := p % w
  vertexData (block * (3 * vertexSizeFloats + (w - 1) * triangleSizeFloats) + j * vertexSizeFloats + k + lane * triangleSizeFloats)

/-- src/Geometry/TriangleMesh.cpp:347-357 and 397-407: the second loop replaces the second and third vertices by the edges from the
first. -/
def soaEdges (w : ℕ) (o : ℕ → α) (p : ℕ) : α :=
  let j := p % (9 * w)
  if j < 3 * w then o p else if j < 6 * w then o p - o (p - 3 * w) else o p - o (p - 6 * w)

/-- src/Geometry/TriangleMesh.cpp:312-408 `SetSoA4` (`w = 4`) and `SetSoA8` (`w = 8`). When `numTris` is not a multiple of `w`, the code leaves
the rest of the buffer unwritten; the queries do not read it. -/
def setSoA (w : ℕ) (_m : TriangleMesh α) (vertexData : ℕ → α) (numTris vtxSize : ℕ) : TriangleMesh α :=
  ⟨soaEdges w (soaFirst w vertexData vtxSize), numTris, 3⟩

/-- src/Geometry/TriangleMesh.cpp:221-231 `Set`. The SIMD branches pass the members `numTriangles` and `vertexSizeBytes` instead of the
arguments. -/
def set (s : Simd) (m : TriangleMesh α) (triangleMesh : ℕ → α) (numTris vtxSize : ℕ) : TriangleMesh α :=
  match s with
  | .avx => m.setSoA 8 triangleMesh m.numTriangles m.vertexSize
  | .sse => m.setSoA 4 triangleMesh m.numTriangles m.vertexSize
  | .none => m.setAoS triangleMesh numTris vtxSize

/-- src/Geometry/TriangleMesh.cpp:420-431: the three vertices `tris` points to in round `i`; `tris` moves by the size of a `Triangle`, nine numbers,
whatever `vertexSizeBytes` is. -/
def triAt (m : TriangleMesh α) (i : ℕ) : Tri α :=
  let p := 9 * i
  ⟨⟨m.data p, m.data (p + 1), m.data (p + 2)⟩, ⟨m.data (p + 3), m.data (p + 4), m.data (p + 5)⟩, ⟨m.data (p + 6), m.data (p + 7), m.data (p + 8)⟩⟩

/-- src/Geometry/TriangleMesh.cpp:421-431, the body of the loop; `best` is `(nearestD, outTriangleIndex, outU, outV)`, `none` for
`nearestD = FLOAT_INF`. -/
def cppStep (m : TriangleMesh α) (pos dir : V3 α) (best : Option (α × ℕ × α × α)) (i : ℕ) : Option (α × ℕ × α × α) :=
  let tri := m.triAt i
  match Tri.intersectLineTri pos dir tri.a tri.b tri.c with
  | none => best
  | some (d, u, v) => if d ≥ 0 ∧ best.elim true (fun b => decide (d < b.1)) then some (d, i, u, v) else best

/-- src/Geometry/TriangleMesh.cpp:410-436 `IntersectRay_TriangleIndex_UV_CPP`. -/
def intersectRayCpp (m : TriangleMesh α) (pos dir : V3 α) : Option (α × ℕ × α × α) := (List.range m.numTriangles).foldl (m.cppStep pos dir) none

/-- src/Geometry/TriangleMesh_IntersectRay_SSE.inl:107-157 and src/Geometry/TriangleMesh_IntersectRay_AVX.inl:100-153: one lane of a round up to the comparison
with `nearestD`; `none` when `out` is set. The approximate reciprocal `rcp` is the exact one here. -/
def laneHit (avx : Bool) (l d v0 e1 e2 : V3 α) : Option (α × α × α) :=
  let epsilon : α := 1 / 10000
  let p := cross d e2
  let det := e1.x * p.x + e1.y * p.y + e1.z * p.z
  let recipDet := 1 / det
  let absdet := absF det
  let out := if avx then decide (absdet < epsilon) else decide (absdet ≤ epsilon)
  let t := l - v0
  let u := (t.x * p.x + t.y * p.y + t.z * p.z) * recipDet
  let out := out || decide (u < 0)
  let out := out || decide (u > 1)
  let q := cross t e1
  let v := (d.x * q.x + d.y * q.y + d.z * q.z) * recipDet
  let out := out || decide (v < 0)
  let uv := u + v
  let out := out || decide (uv > 1)
  let t := (e2.x * q.x + e2.y * q.y + e2.z * q.z) * recipDet
  let out := out || decide (t < 0)
  if out then none else some (t, u, v)

/-- src/Geometry/TriangleMesh_IntersectRay_SSE.inl:72-83: three numbers of one lane, `w` apart. -/
def laneVec (m : TriangleMesh α) (w p : ℕ) : V3 α := ⟨m.data p, m.data (p + w), m.data (p + 2 * w)⟩

/-- src/Geometry/TriangleMesh_IntersectRay_SSE.inl:70-206, one round for one lane: `block` is `i / w`; the index stored is `i`. -/
def laneStep (avx : Bool) (w : ℕ) (m : TriangleMesh α) (pos dir : V3 α) (lane : ℕ) (best : Option (α × ℕ × α × α)) (block : ℕ) : Option (α × ℕ × α × α) :=
  let tris := block * (9 * w)
  match laneHit avx pos dir (m.laneVec w (tris + lane)) (m.laneVec w (tris + 3 * w + lane)) (m.laneVec w (tris + 6 * w + lane)) with
  | none => best
  | some (t, u, v) => if best.elim false (fun b => decide (t ≥ b.1)) then best else some (t, block * w, u, v)

/-- src/Geometry/TriangleMesh_IntersectRay_SSE.inl:70-207, the loop for one lane; it makes `numTriangles / w` rounds. -/
def lane (avx : Bool) (w : ℕ) (m : TriangleMesh α) (pos dir : V3 α) (l : ℕ) : Option (α × ℕ × α × α) :=
  (List.range (m.numTriangles / w)).foldl (m.laneStep avx w pos dir l) none

/-- src/Geometry/TriangleMesh_IntersectRay_SSE.inl:218-230: one step of the loop over the lanes. -/
def mergeStep (best : Option (α × ℕ × α × α)) (r : Option (α × ℕ × α × α) × ℕ) : Option (α × ℕ × α × α) :=
  match r.1 with
  | none => best
  | some (d, idx, u, v) => if best.elim true (fun b => decide (d < b.1)) then some (d, idx + r.2, u, v) else best

/-- src/Geometry/TriangleMesh_IntersectRay_SSE.inl:20-247 (`w = 4`) and src/Geometry/TriangleMesh_IntersectRay_AVX.inl:20-221 (`w = 8`, `avx`):
`IntersectRay_TriangleIndex_UV_SSE2`, `_SSE41` and `_AVX`. -/
def intersectRaySimd (avx : Bool) (w : ℕ) (m : TriangleMesh α) (pos dir : V3 α) : Option (α × ℕ × α × α) :=
  ((List.range w).map fun l => (m.lane avx w pos dir l, l)).foldl mergeStep none

/-- src/Geometry/TriangleMesh.cpp:272-289 `IntersectRay_TriangleIndex_UV`; `IntersectRay` (233-250) and `IntersectRay_TriangleIndex` (252-270) return
parts of it. -/
def intersectRay (s : Simd) (m : TriangleMesh α) (pos dir : V3 α) : Option (α × ℕ × α × α) :=
  match s with
  | .avx => m.intersectRaySimd true 8 pos dir
  | .sse => m.intersectRaySimd false 4 pos dir
  | .none => m.intersectRayCpp pos dir

end TriangleMesh
end MGL
