import Verif.Spec.MeshGeom

/-! Specification of convex polyhedral surfaces and of the part of them that a point outside sees. Nothing here mentions the
model. -/

namespace MGL.Spec
open V3
variable {α : Type*} [CommRing α] [LinearOrder α]

/-- The normal of a polygon as spanned by its first three corners. -/
def cornerNormal : List (V3 α) → V3 α
  | a :: b :: c :: _ => cross (b - a) (c - a)
  | _ => ⟨0, 0, 0⟩

/-- The polygon is convex and run through counterclockwise, seen against its normal: all corners lie to the left of each of
its edges or on it, and at least one of them strictly. -/
def LeftTurning (poly : List (V3 α)) : Prop :=
  ∀ e ∈ poly.zip (poly.rotate 1), (∀ x ∈ poly, 0 ≤ dot (cornerNormal poly) (cross (e.2 - e.1) (x - e.1))) ∧
    ∃ x ∈ poly, 0 < dot (cornerNormal poly) (cross (e.2 - e.1) (x - e.1))

/-- The point `x` lies strictly in front of the polygon. -/
def InFront (x : V3 α) : List (V3 α) → Prop
  | a :: b :: c :: _ => 0 < dot (cross (b - a) (c - a)) (x - a)
  | _ => False

/-- A closed surface of convex faces that look away from all vertices `V`, no face plane of which contains all vertices. The
last two conditions say that the surface does not run over the same place twice: corners with different numbers are at
different places, and different edges that leave the same corner point in different directions. -/
structure ConvexSurface (V : List (V3 α)) (fs : List (List ℤ)) : Prop where
  valid : ValidFaces V.length fs
  closed : ClosedMesh fs
  outward : ∀ f ∈ fs, FaceOutward V (f.map (corner V))
  turning : ∀ f ∈ fs, LeftTurning (f.map (corner V))
  solid : ∀ f ∈ fs, ∃ x ∈ V, ∃ a ∈ f, dot (cornerNormal (f.map (corner V))) (x - corner V a) < 0
  distinct : ∀ f ∈ fs, ∀ g ∈ fs, ∀ a ∈ f, ∀ b ∈ g, a ≠ b → corner V a ≠ corner V b
  directions : ∀ a b c, (a, b) ∈ meshEdges fs → (a, c) ∈ meshEdges fs → b ≠ c →
    ∀ s : α, 0 < s → corner V c - corner V a ≠ s • (corner V b - corner V a)

/-- The edge from `a` to `b` belongs to the silhouette seen from `x`: the face to its left is seen, the one to its right is
not. -/
def Silhouette (V : List (V3 α)) (fs : List (List ℤ)) (x : V3 α) (a b : ℤ) : Prop :=
  (∃ f ∈ fs, (a, b) ∈ faceEdges f ∧ InFront x (f.map (corner V))) ∧
    ∃ g ∈ fs, (b, a) ∈ faceEdges g ∧ ¬ InFront x (g.map (corner V))

/-- Every vertex belongs to a face, and no vertex is superfluous: some plane has that vertex strictly on the other side than all
others. -/
def ProperVertices (V : List (V3 α)) (fs : List (List ℤ)) : Prop := ∀ i : ℤ, 0 ≤ i → i < V.length →
  (∃ f ∈ fs, i ∈ f) ∧ ∃ g : V3 α, ∀ j : ℤ, 0 ≤ j → j < V.length → j ≠ i → 0 < dot g (corner V j - corner V i)

end MGL.Spec
