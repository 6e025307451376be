import Verif.Spec.Vec3

/-! Intersections of half spaces. Nothing here mentions the code. -/

namespace MGL
namespace Spec
open V3
variable {α : Type*} [Field α] [LinearOrder α]

/-- The points on the inner side of all the planes `n · x = d` of the list (the normals point outwards). -/
def halfSpaces (L : List (V3 α × α)) : Set (V3 α) := {p | ∀ h ∈ L, dot h.1 p ≤ h.2}

/-- The points strictly on the inner side of all the planes. -/
def openHalfSpaces (L : List (V3 α × α)) : Set (V3 α) := {p | ∀ h ∈ L, dot h.1 p < h.2}

/-- The set lies on the outer side of one of the planes (or on this plane). -/
def SeparatedBy (L : List (V3 α × α)) (S : Set (V3 α)) : Prop := ∃ h ∈ L, ∀ p ∈ S, h.2 ≤ dot h.1 p

end Spec
end MGL
