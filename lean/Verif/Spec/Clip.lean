import Verif.Spec.Mat
import Mathlib.Algebra.Order.Field.Basic
import Mathlib.Algebra.Order.Group.Abs

/-! Specification vocabulary for projection matrices. -/

namespace MGL.Spec
variable {α : Type*} [Field α] [LinearOrder α]

/-- Inside the Direct3D clip volume after the homogeneous divide: `x/w, y/w ∈ [-1, 1]`, `z/w ∈ [0, 1]`,
in front of the camera (`w > 0`). -/
def InD3DClip (q : Fin 4 → α) : Prop :=
  0 < q 3 ∧ |q 0 / q 3| ≤ 1 ∧ |q 1 / q 3| ≤ 1 ∧ 0 ≤ q 2 / q 3 ∧ q 2 / q 3 ≤ 1

/-- Inside the OpenGL clip volume: `x/w, y/w, z/w ∈ [-1, 1]`, `w > 0`. -/
def InGLClip (q : Fin 4 → α) : Prop :=
  0 < q 3 ∧ |q 0 / q 3| ≤ 1 ∧ |q 1 / q 3| ≤ 1 ∧ |q 2 / q 3| ≤ 1

/-- The orthographic view volume: depth between `n` and `f`, width `h`, height `v`. `depth` is the
distance in front of the camera. -/
def InOrthoVolume (n f h v x y depth : α) : Prop :=
  n ≤ depth ∧ depth ≤ f ∧ |x| ≤ h / 2 ∧ |y| ≤ v / 2

/-- The perspective view volume: depth between `n` and `f`; the cross section at depth `n` is `h` wide
and `v` high and grows in proportion to the depth. -/
def InPerspVolume (n f h v x y depth : α) : Prop :=
  n ≤ depth ∧ depth ≤ f ∧ |x| ≤ h / 2 * (depth / n) ∧ |y| ≤ v / 2 * (depth / n)

end MGL.Spec
