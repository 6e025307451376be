import Verif.Spec.Vec3

/-! Affine maps of space, written out in coordinates. -/

namespace MGL.Spec
variable {α : Type*} [Field α]

/-- The affine map `p ↦ A p + t`, coordinate by coordinate. -/
def affineMap (a : Fin 3 → Fin 3 → α) (t : V3 α) (p : V3 α) : V3 α :=
  ⟨a 0 0 * p.x + a 0 1 * p.y + a 0 2 * p.z + t.x,
   a 1 0 * p.x + a 1 1 * p.y + a 1 2 * p.z + t.y,
   a 2 0 * p.x + a 2 1 * p.y + a 2 2 * p.z + t.z⟩

end MGL.Spec
