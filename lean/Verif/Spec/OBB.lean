import Verif.Spec.Vec3

/-! Frame triples. -/

namespace MGL.Spec
open V3
variable {α : Type*} [Field α] [LinearOrder α]

/-- `u`, `v`, `w` have length one and are pairwise perpendicular. -/
structure Frame (u v w : V3 α) : Prop where
  uu : dot u u = 1
  vv : dot v v = 1
  ww : dot w w = 1
  uv : dot u v = 0
  uw : dot u w = 0
  vw : dot v w = 0

end MGL.Spec
