import Verif.Model.PBVolume
import Verif.Model.OBB

/-! Model of the conversions of boxes to `PBVolume<6>`. -/

namespace MGL

/-- src/Geometry/AABB.cpp:104-111 `ToPBVolume`. -/
def AABB.toPBVolume {α : Type} [Field α] [LinearOrder α] (b : AABB α) : PBVolume α := ⟨(List.finRange 6).map b.facePlane⟩

/-- src/Geometry/OBB.cpp:215-222 `ToPBVolume`. -/
def OBB.toPBVolume {α : Type} [Field α] [LinearOrder α] (o : OBB α) : PBVolume α := ⟨(List.finRange 6).map o.facePlane⟩

end MGL
