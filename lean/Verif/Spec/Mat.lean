import Verif.Spec.Vec3
import Mathlib.LinearAlgebra.Matrix.Notation
import Mathlib.LinearAlgebra.Matrix.Determinant.Basic

/-! Specification vocabulary for matrices. The reference notions are Mathlib's: `A * B`,
`A.mulVec v`, `A.transpose`, `A.det`, `1`. -/

namespace MGL
variable {α : Type*}

/-- The column of components of a 3-vector. -/
def V3.toFun (v : V3 α) : Fin 3 → α := ![v.x, v.y, v.z]

/-- The homogeneous point `(x, y, z, 1)`. -/
def V3.hpos [One α] (v : V3 α) : Fin 4 → α := ![v.x, v.y, v.z, 1]

/-- The homogeneous direction `(x, y, z, 0)`. -/
def V3.hdir [Zero α] (v : V3 α) : Fin 4 → α := ![v.x, v.y, v.z, 0]

namespace Spec

/-- The columns are pairwise orthogonal unit vectors. -/
def Orthonormal [CommRing α] {n : ℕ} (m : Matrix (Fin n) (Fin n) α) : Prop := m.transpose * m = 1

/-- A rotation: orthonormal with determinant 1. -/
def IsRotation [CommRing α] (m : Matrix (Fin 3) (Fin 3) α) : Prop := Orthonormal m ∧ m.det = 1

/-- The columns are pairwise orthogonal. -/
def ColOrthogonal [CommRing α] (m : Matrix (Fin 3) (Fin 3) α) : Prop :=
  ∀ i j, i ≠ j → m 0 i * m 0 j + m 1 i * m 1 j + m 2 i * m 2 j = 0

/-- The 4x4 matrix of an affine map given by its 3x4 part: last row `(0, 0, 0, 1)`. -/
def affine [Zero α] [One α] (m : Matrix (Fin 3) (Fin 4) α) : Matrix (Fin 4) (Fin 4) α :=
  fun i j => if h : i.val < 3 then m ⟨i.val, h⟩ j else if j = 3 then 1 else 0

/-- The 4x4 matrix of a linear map given by its 3x3 part. -/
def linear4 [Zero α] [One α] (m : Matrix (Fin 3) (Fin 3) α) : Matrix (Fin 4) (Fin 4) α :=
  fun i j => if h : i.val < 3 ∧ j.val < 3 then m ⟨i.val, h.1⟩ ⟨j.val, h.2⟩ else if i = j then 1 else 0

end Spec
end MGL
