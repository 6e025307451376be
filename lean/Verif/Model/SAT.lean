import Verif.Model.OBB

/-! Model of `SATIntersect` (src/Algorithm/SAT.h). -/

namespace MGL
open V3
variable {α : Type*} [Field α] [LinearOrder α]

/-- The three member functions that `SATIntersect` (src/Algorithm/SAT.h:30-68) calls on its arguments. -/
structure SatObj (α : Type*) where
  faceNormals : List (V3 α)
  edgeDirections : List (V3 α)
  project : V3 α → α × α

/-- src/Algorithm/SAT.h:38-42, 48-52, 60-65: the test of one axis. -/
def SatObj.separated (a b : SatObj α) (n : V3 α) : Bool :=
  let pa := a.project n
  let pb := b.project n
  decide (pa.2 < pb.1) || decide (pb.2 < pa.1)

/-- src/Algorithm/SAT.h:30-68 `SATIntersect`. The arrays of 16 vectors and the assertions on their size (33, 35, 45, 54)
are not modelled. -/
def satIntersect (a b : SatObj α) : Bool :=
  a.faceNormals.all (fun n => !a.separated b n) && b.faceNormals.all (fun n => !a.separated b n) &&
  a.edgeDirections.all (fun e => b.edgeDirections.all (fun f => !a.separated b (cross e f)))

/-- src/Geometry/AABB.cpp:1031-1045 `UniqueFaceNormals`, `UniqueEdgeDirections`, 1013-1029 `ProjectToAxis`. -/
def AABB.sat (b : AABB α) : SatObj α :=
  ⟨[⟨1, 0, 0⟩, ⟨0, 1, 0⟩, ⟨0, 0, 1⟩], [⟨1, 0, 0⟩, ⟨0, 1, 0⟩, ⟨0, 0, 1⟩], b.projectToAxis⟩

/-- src/Geometry/OBB.cpp:351-365 `UniqueFaceNormals`, `UniqueEdgeDirections`, 341-349 `ProjectToAxis`. -/
def OBB.sat (o : OBB α) : SatObj α := ⟨o.uniqueFaceNormals, o.uniqueFaceNormals, o.projectToAxis⟩

/-- src/Geometry/Triangle.cpp:871-892 `UniqueFaceNormals`, `UniqueEdgeDirections`, 857-869 `ProjectToAxis`. -/
def Tri.sat (t : Tri α) : SatObj α := ⟨t.uniqueFaceNormals, t.uniqueEdgeDirections, t.projectToAxis⟩

end MGL
