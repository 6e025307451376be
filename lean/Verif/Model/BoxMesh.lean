import Verif.Model.AABB
import Verif.Model.OBB
import Verif.Model.Mat

/-! Triangle and edge lists of axis-aligned and oriented boxes. -/

namespace MGL
open V3
variable {α : Type*} [Field α] [LinearOrder α]

namespace AABB

/-- src/Geometry/AABB.cpp:1151-1187, the two inner loops for one face and one of the output arrays; `f u v` is the entry written
for the parameters `u`, `v`: a `FacePoint`, the pair of parameters or the face normal. The output is the list of the entries
in the order of the array. The swap of lines 1162-1163 is the choice between `p` and `q`. -/
def gridVertices {β : Type*} (f : α → α → β) (nu nv : ℕ) (flip : Bool) : List β :=
  (List.range nu).flatMap fun x : ℕ => (List.range nv).flatMap fun y : ℕ =>
    let u : α := (x : α) / nu
    let v : α := (y : α) / nv
    let u2 : α := ((x : α) + 1) / nu
    let v2 : α := ((y : α) + 1) / nv
    let p := if flip then f u2 v else f u v2
    let q := if flip then f u v2 else f u2 v
    [f u v, p, q, q, p, f u2 v2]

/-- src/Geometry/AABB.cpp:1136-1150, the numbers of quads along the two parameters of a face. -/
def gridSize (nx ny nz : ℕ) (face : Fin 6) : ℕ × ℕ :=
  match face with
  | 0 | 1 => (ny, nz)
  | 2 | 3 => (nx, nz)
  | 4 | 5 => (nx, ny)

/-- src/Geometry/AABB.cpp:1133-1135 `flip`. -/
def gridFlip (ccw : Bool) (face : Fin 6) : Bool :=
  let flip := decide (face = 1 ∨ face = 2 ∨ face = 5)
  if ccw then !flip else flip

/-- src/Geometry/AABB.cpp:1115-1188 `Triangulate`, one output array. -/
def triangulateWith {β : Type*} (f : Fin 6 → α → α → β) (nx ny nz : ℕ) (ccw : Bool) : List β :=
  (List.finRange 6).flatMap fun face =>
    gridVertices (f face) (gridSize nx ny nz face).1 (gridSize nx ny nz face).2 (gridFlip ccw face)

/-- src/Geometry/AABB.cpp:1159-1167, the array `outPos`. -/
def triangulatePos (b : AABB α) (nx ny nz : ℕ) (ccw : Bool) : List (V3 α) := triangulateWith b.facePoint nx ny nz ccw

/-- src/Geometry/AABB.cpp:1180-1182, the array `outNormal`. -/
def triangulateNormal (nx ny nz : ℕ) (ccw : Bool) : List (V3 α) := triangulateWith (α := α) (fun i _ _ => faceNormal i) nx ny nz ccw

/-- src/Geometry/AABB.cpp:1169-1178, the array `outUV`. -/
def triangulateUV (nx ny nz : ℕ) (ccw : Bool) : List (α × α) := triangulateWith (fun _ u v => (u, v)) nx ny nz ccw

/-- src/Geometry/AABB.h:477-480 `NumVerticesInTriangulation` (also src/Geometry/OBB.h:482-485). -/
def numVerticesInTriangulation (nx ny nz : ℕ) : ℕ := (nx * ny + nx * nz + ny * nz) * 2 * 6

/-- src/Geometry/AABB.cpp:1190-1201 `ToEdgeList`. -/
def toEdgeList (b : AABB α) : List (V3 α) := (List.finRange 12).flatMap fun i => [(b.edge i).1, (b.edge i).2]

end AABB

namespace OBB

/-- src/Geometry/OBB.cpp:2508-2516 `Triangulate`: `outPos` and `outNormal`. `wantNormals` is false when the caller passes a
null pointer for `outNormal`; `BatchTransformDir` then writes through the null pointer unless there is no vertex: `none`. -/
def triangulate (o : OBB α) (nx ny nz : ℕ) (ccw wantNormals : Bool) : Option (List (V3 α) × Option (List (V3 α))) :=
  let aabb : AABB α := ⟨⟨0, 0, 0⟩, (2 : α) • o.r⟩
  let pos := (aabb.triangulatePos nx ny nz ccw).map (Mat34.mulPos o.localToWorld)
  if wantNormals then
    some (pos, some ((AABB.triangulateNormal nx ny nz ccw).map (Mat34.mulDir o.localToWorld)))
  else if AABB.numVerticesInTriangulation nx ny nz = 0 then some (pos, none)
  else none

/-- src/Geometry/OBB.cpp:2518-2529 `ToEdgeList`. -/
def toEdgeList (o : OBB α) : List (V3 α) := (List.finRange 12).flatMap fun i => [(o.edge i).a, (o.edge i).b]

end OBB
end MGL
