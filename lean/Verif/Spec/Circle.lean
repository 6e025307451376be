import Verif.Spec.Vec3

/-! Circles and discs in space. -/

namespace MGL.Spec
open V3
variable {α : Type*} [Field α] [LinearOrder α]

/-- The circle line around `c` with radius `r`, in the plane perpendicular to `n`. -/
def circle (c n : V3 α) (r : α) : Set (V3 α) := {x | dot n (x - c) = 0 ∧ distSq x c = r * r}

/-- The filled circle. -/
def disc (c n : V3 α) (r : α) : Set (V3 α) := {x | dot n (x - c) = 0 ∧ distSq x c ≤ r * r}

end MGL.Spec
