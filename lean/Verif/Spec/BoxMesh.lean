import Verif.Spec.Vec3
import Mathlib.Data.Fin.VecNotation

/-! Faces of a box, and the triangles of a triangle list. -/

namespace MGL.Spec
open V3
variable {α : Type*}

/-- A face of the box: the points of the box whose x (faces 0, 1), y (2, 3) or z coordinate (4, 5) is the least (even faces) or
the greatest (odd faces) one. -/
def boxFace [LE α] (mn mx : V3 α) (face : Fin 6) : Set (V3 α) :=
  {p | p ∈ box mn mx ∧ ![p.x = mn.x, p.x = mx.x, p.y = mn.y, p.y = mx.y, p.z = mn.z, p.z = mx.z] face}

/-- The outward direction of a face. -/
def outward [Zero α] [One α] [Neg α] (face : Fin 6) : V3 α :=
  ![⟨-1, 0, 0⟩, ⟨1, 0, 0⟩, ⟨0, -1, 0⟩, ⟨0, 1, 0⟩, ⟨0, 0, -1⟩, ⟨0, 0, 1⟩] face

/-- The triangles of a triangle list: every three entries of the array form one. -/
def triples {β : Type*} : List β → List (β × β × β)
  | a :: b :: c :: r => (a, b, c) :: triples r
  | _ => []

/-- A face of the oriented box with centre `c` and half sizes `r` along `u`, `v`, `w`. -/
def obbFace [Field α] [LinearOrder α] (c u v w r : V3 α) (face : Fin 6) : Set (V3 α) :=
  {p | ∃ s t k : α, -r.x ≤ s ∧ s ≤ r.x ∧ -r.y ≤ t ∧ t ≤ r.y ∧ -r.z ≤ k ∧ k ≤ r.z ∧
    ![s = -r.x, s = r.x, t = -r.y, t = r.y, k = -r.z, k = r.z] face ∧ p = c + s • u + t • v + k • w}

/-- The outward direction of a face of that box. -/
def obbOutward [Neg (V3 α)] (u v w : V3 α) (face : Fin 6) : V3 α := ![-u, u, -v, v, -w, w] face

end MGL.Spec
