import Verif.Spec.Vec2Alg

/-! Segments, triangles and nearest points of the plane. Nothing here mentions the model. -/

namespace MGL.Spec
variable {α : Type*} [Field α] [LinearOrder α]

/-- The closed segment from `a` to `b`. -/
def seg2 (a b : V2 α) : Set (V2 α) := {p | ∃ t : α, 0 ≤ t ∧ t ≤ 1 ∧ p = a + t • (b - a)}

/-- The filled triangle with the given vertices. -/
def tri2 (a b c : V2 α) : Set (V2 α) :=
  {p | ∃ u v w : α, 0 ≤ u ∧ 0 ≤ v ∧ 0 ≤ w ∧ u + v + w = 1 ∧ p = u • a + v • b + w • c}

/-- `q` is a point of `S` and no point of `S` is nearer to `p`. -/
def IsClosestPoint2 (S : Set (V2 α)) (p q : V2 α) : Prop := q ∈ S ∧ ∀ s ∈ S, distSq2 p q ≤ distSq2 p s

/-- `q ∈ S`, `r ∈ T` and no other pair of points of the two sets is nearer to each other. -/
def IsClosestPair2 (S T : Set (V2 α)) (q r : V2 α) : Prop :=
  q ∈ S ∧ r ∈ T ∧ ∀ s ∈ S, ∀ t ∈ T, distSq2 q r ≤ distSq2 s t

/-- The interval is exactly the range of the products of `d` with the points of `S`. -/
def IsShadow2 (S : Set (V2 α)) (d : V2 α) (lo hi : α) : Prop :=
  (∀ s ∈ S, lo ≤ V2.dot d s ∧ V2.dot d s ≤ hi) ∧ (∃ s ∈ S, V2.dot d s = lo) ∧ ∃ s ∈ S, V2.dot d s = hi

/-- The smallest rectangle with sides parallel to the axes that has all the points of `S`. -/
def TightRect (S : Set (V2 α)) (r : Rect α) : Prop :=
  S ⊆ rect r ∧ ∀ r' : Rect α, S ⊆ rect r' → rect r ⊆ rect r'

end MGL.Spec
