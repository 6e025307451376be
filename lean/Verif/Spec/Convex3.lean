import Verif.Spec.Vec3

/-! Convex sets in space and differences of sets, independently of the code. -/

namespace MGL.Spec
open V3
variable {α : Type*} [Field α] [LinearOrder α]

/-- A set that contains the segment between any two of its points. -/
def Convex3 (K : Set (V3 α)) : Prop := ∀ p ∈ K, ∀ q ∈ K, ∀ s t : α, 0 ≤ s → 0 ≤ t → s + t = 1 → s • p + t • q ∈ K

/-- The convex hull of a list of points: the points that are in every convex set containing the list. -/
def hull3 (S : List (V3 α)) : Set (V3 α) := {q | ∀ K, Convex3 K → (∀ s ∈ S, s ∈ K) → q ∈ K}

end MGL.Spec
