import Verif.Spec.Vec3
import Verif.Model.Scalar

/-! The data of class `Triangle` and its projection; shared by the plane and triangle models. -/

namespace MGL
open V3
variable {α : Type*}

/-- src/Geometry/Triangle.h:29-41 the members of class `Triangle`. -/
@[ext] structure Tri (α : Type*) where
  a : V3 α
  b : V3 α
  c : V3 α

variable [Field α] [LinearOrder α]

/-- src/Geometry/Triangle.cpp:860-869 `ProjectToAxis`. -/
def Tri.projectToAxis (t : Tri α) (axis : V3 α) : α × α :=
  let lo := dot axis t.a
  let hi := dot axis t.a
  let s := dot axis t.b
  let lo := min2 s lo
  let hi := max2 s hi
  let s := dot axis t.c
  (min2 s lo, max2 s hi)

end MGL
