import Verif.Spec.Vec3
import Verif.Spec.Mesh

/-! Specification of the orientation of the faces of a convex solid. Nothing here mentions the model. -/

namespace MGL.Spec
open V3
variable {α : Type*} [CommRing α] [LinearOrder α]

/-- The corner list `poly` is a plane face with its counterclockwise normal pointing away from all points of `P`: the first
three corners span a plane, all corners lie on it, and no point of `P` lies on the side to which the normal points. -/
def FaceOutward (P poly : List (V3 α)) : Prop := ∃ a b c rest, poly = a :: b :: c :: rest ∧ cross (b - a) (c - a) ≠ 0 ∧
  (∀ x ∈ P, dot (cross (b - a) (c - a)) (x - a) ≤ 0) ∧ ∀ x ∈ poly, dot (cross (b - a) (c - a)) (x - a) = 0

/-- The same with the normal pointing towards the points of `P`. -/
def FaceInward (P poly : List (V3 α)) : Prop := ∃ a b c rest, poly = a :: b :: c :: rest ∧ cross (b - a) (c - a) ≠ 0 ∧
  (∀ x ∈ P, 0 ≤ dot (cross (b - a) (c - a)) (x - a)) ∧ ∀ x ∈ poly, dot (cross (b - a) (c - a)) (x - a) = 0

/-- All sides of the polygon have the squared length `L`. -/
def EqualSides (L : α) (poly : List (V3 α)) : Prop := ∀ e ∈ poly.zip (poly.rotate 1), lenSq (e.1 - e.2) = L

/-- Vertex number `i`. -/
def corner (V : List (V3 α)) (i : ℤ) : V3 α := V.getD i.toNat ⟨0, 0, 0⟩

/-- The vertices `V` and faces `fs` bound a convex solid and all faces look outwards: the faces are proper polygons, every edge
joins two faces that run through it in opposite directions, Euler's formula `V + F = E + 2` holds (the face lengths add up to
`2 E`), and all vertices lie behind the plane of every face. -/
structure OutwardSolid (V : List (V3 α)) (fs : List (List ℤ)) : Prop where
  valid : ValidFaces V.length fs
  closed : ClosedMesh fs
  euler : 2 * (V.length + fs.length) = (fs.map List.length).sum + 4
  outward : ∀ f ∈ fs, FaceOutward V (f.map (corner V))

/-- The same solid with all faces turned inwards. -/
structure InwardSolid (V : List (V3 α)) (fs : List (List ℤ)) : Prop where
  valid : ValidFaces V.length fs
  closed : ClosedMesh fs
  euler : 2 * (V.length + fs.length) = (fs.map List.length).sum + 4
  inward : ∀ f ∈ fs, FaceInward V (f.map (corner V))

/-- A regular solid around `c`: all sides of all faces have the squared length `L`, all faces have `k` corners, and all vertices have
the squared distance `R` from `c`. -/
structure EqualFaces (V : List (V3 α)) (fs : List (List ℤ)) (c : V3 α) (k : ℕ) (L R : α) : Prop where
  corners : ∀ f ∈ fs, f.length = k
  sides : ∀ f ∈ fs, EqualSides L (f.map (corner V))
  radius : ∀ v ∈ V, lenSq (v - c) = R

end MGL.Spec
