import Mathlib.Algebra.Order.Field.Basic

/-! Points and rectangles in the plane. -/

namespace MGL

/-- A point of the plane. -/
@[ext] structure V2 (α : Type*) where
  x : α
  y : α
deriving DecidableEq

/-- A rectangle with sides parallel to the axes. -/
@[ext] structure Rect (α : Type*) where
  minPoint : V2 α
  maxPoint : V2 α
deriving DecidableEq

namespace Spec
variable {α : Type*} [LE α]

/-- The points of the rectangle. -/
def rect (r : Rect α) : Set (V2 α) := {p | r.minPoint.x ≤ p.x ∧ p.x ≤ r.maxPoint.x ∧ r.minPoint.y ≤ p.y ∧ p.y ≤ r.maxPoint.y}

/-- The squared distance of two points of the plane. -/
def distSq2 {β : Type*} [Ring β] (p q : V2 β) : β := (p.x - q.x) ^ 2 + (p.y - q.y) ^ 2

end Spec
end MGL
