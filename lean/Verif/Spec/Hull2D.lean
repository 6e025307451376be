import Verif.Spec.Vec2
import Mathlib.Data.List.Triplewise
import Mathlib.Algebra.Order.Field.Basic

/-! Planar convex hulls, independently of the code. -/

namespace MGL.Spec

variable {α : Type*} [Field α] [LinearOrder α] [IsStrictOrderedRing α]

/-- Twice the signed area of the triangle `a b c`: positive when `a → b → c` turns to the left (counter-clockwise), zero when
the three points are collinear. -/
def area2 (a b c : V2 α) : α := (b.x - a.x) * (c.y - a.y) - (b.y - a.y) * (c.x - a.x)

/-- A set of points of the plane that contains the segment between any two of its points. -/
def Convex2 (K : Set (V2 α)) : Prop :=
  ∀ p ∈ K, ∀ q ∈ K, ∀ s t : α, 0 ≤ s → 0 ≤ t → s + t = 1 → (⟨s * p.x + t * q.x, s * p.y + t * q.y⟩ : V2 α) ∈ K

/-- The convex hull of a list of points: the points that are in every convex set containing the list. -/
def hull2 (S : List (V2 α)) : Set (V2 α) := {q | ∀ K, Convex2 K → (∀ s ∈ S, s ∈ K) → q ∈ K}

/-- The vertices are pairwise different, in strictly convex position and listed counter-clockwise: any three of them, in
the order of the list, make a left turn. -/
def StrictCCW (l : List (V2 α)) : Prop := l.Nodup ∧ l.Triplewise fun a b c => 0 < area2 a b c

/-- The directed edges of a closed polygon: every vertex with the one before it. -/
def edges2 (l : List (V2 α)) : List (V2 α × V2 α) :=
  match l.getLast? with
  | none => []
  | some z => (z :: l).zip l

end MGL.Spec
