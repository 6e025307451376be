import Verif.Spec.Vec2
import Mathlib.Tactic.Ring

/-! Vector algebra of the plane. -/

namespace MGL.V2
variable {α : Type*} [CommRing α]

instance : Zero (V2 α) := ⟨⟨0, 0⟩⟩
instance : Add (V2 α) := ⟨fun a b => ⟨a.x + b.x, a.y + b.y⟩⟩
instance : Sub (V2 α) := ⟨fun a b => ⟨a.x - b.x, a.y - b.y⟩⟩
instance : Neg (V2 α) := ⟨fun a => ⟨-a.x, -a.y⟩⟩
instance : SMul α (V2 α) := ⟨fun t a => ⟨t * a.x, t * a.y⟩⟩

@[simp] theorem zero_x : (0 : V2 α).x = 0 := rfl
@[simp] theorem zero_y : (0 : V2 α).y = 0 := rfl
@[simp] theorem add_x (a b : V2 α) : (a + b).x = a.x + b.x := rfl
@[simp] theorem add_y (a b : V2 α) : (a + b).y = a.y + b.y := rfl
@[simp] theorem sub_x (a b : V2 α) : (a - b).x = a.x - b.x := rfl
@[simp] theorem sub_y (a b : V2 α) : (a - b).y = a.y - b.y := rfl
@[simp] theorem neg_x (a : V2 α) : (-a).x = -a.x := rfl
@[simp] theorem neg_y (a : V2 α) : (-a).y = -a.y := rfl
@[simp] theorem smul_x (t : α) (a : V2 α) : (t • a).x = t * a.x := rfl
@[simp] theorem smul_y (t : α) (a : V2 α) : (t • a).y = t * a.y := rfl

/-- Scalar product. -/
def dot (a b : V2 α) : α := a.x * b.x + a.y * b.y

/-- Squared length. -/
def lenSq (a : V2 α) : α := dot a a

/-- The vector turned by 90 degrees counter-clockwise. -/
def perp (a : V2 α) : V2 α := ⟨-a.y, a.x⟩

end MGL.V2

namespace MGL.Spec
variable {α : Type*} [Field α] [LinearOrder α]

/-- `q` is a point of `S` farthest in direction `d`. -/
def IsExtreme2 (S : Set (V2 α)) (d q : V2 α) : Prop := q ∈ S ∧ ∀ s ∈ S, V2.dot d s ≤ V2.dot d q

/-- The rectangle with the given centre and half axes. -/
def rect2 (c u v : V2 α) : Set (V2 α) := {p | ∃ s t : α, -1 ≤ s ∧ s ≤ 1 ∧ -1 ≤ t ∧ t ≤ 1 ∧ p = c + s • u + t • v}

end MGL.Spec
