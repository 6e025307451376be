import Verif.Spec.ConvexSurface

/-! Surfaces that are bent at every edge. Nothing here mentions the model. -/

namespace MGL.Spec
open V3
variable {α : Type*} [CommRing α] [LinearOrder α]

/-- No two faces that share an edge lie in one plane: the face on the other side of an edge has a corner off the plane of the face. -/
def SharpEdges (V : List (V3 α)) (fs : List (List ℤ)) : Prop :=
  ∀ f ∈ fs, ∀ g ∈ fs, ∀ a b, (a, b) ∈ faceEdges f → (b, a) ∈ faceEdges g →
    ∃ c ∈ g, dot (cornerNormal (f.map (corner V))) (corner V c - corner V a) ≠ 0

end MGL.Spec
