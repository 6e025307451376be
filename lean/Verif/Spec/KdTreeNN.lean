import Verif.Spec.Dist

/-! What a user of the nearest object query of the kd-tree relies on. -/

namespace MGL.Spec

/-- What a priority queue promises: of a list of elements that is not empty, it shows one with the least key. `pick n l` is the
position of the element it shows. -/
def PicksLeast {E : Type*} (key : E → ℝ) (pick : ℕ → List E → ℕ) : Prop :=
  ∀ n l, l ≠ [] → ∃ x, l[pick n l]? = some x ∧ ∀ y ∈ l, key x ≤ key y

end MGL.Spec
