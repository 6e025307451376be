import Verif.Spec.Vec3
import Mathlib.Algebra.Quaternion
import Mathlib.Data.Real.Basic

/-! Specification vocabulary for quaternions. The reference is Mathlib's quaternion algebra. -/

namespace MGL

/-- A quaternion stored as `(x, y, z, w)`, `w` the scalar part. -/
@[ext] structure Quat (α : Type*) where
  x : α
  y : α
  z : α
  w : α
deriving DecidableEq

namespace Quat
variable {α : Type*} [CommRing α]

/-- The quaternion as an element of Hamilton's quaternions: `w + x i + y j + z k`. -/
def toH (q : Quat α) : Quaternion α := ⟨q.w, q.x, q.y, q.z⟩

/-- A vector as a pure quaternion. -/
def pureH (v : V3 α) : Quaternion α := ⟨0, v.x, v.y, v.z⟩

/-- Squared norm. -/
def normSq (q : Quat α) : α := q.x * q.x + q.y * q.y + q.z * q.z + q.w * q.w

/-- Inner product of the coefficient vectors. -/
def inner (q r : Quat α) : α := q.x * r.x + q.y * r.y + q.z * r.z + q.w * r.w

/-- The representative of the first rotation on the same side as the second: `q` or `-q`, whichever
has non-negative inner product with `r`. -/
noncomputable def near (q r : Quat ℝ) : Quat ℝ := if 0 ≤ inner q r then q else ⟨-q.x, -q.y, -q.z, -q.w⟩

end Quat
end MGL
