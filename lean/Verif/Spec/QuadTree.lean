import Verif.Spec.Vec2
import Mathlib.Data.Multiset.AddSub

/-! What a user of the quad tree knows: the calls made so far and the objects that should be in the tree. -/

namespace MGL

/-- The calls that change a quad tree. -/
inductive TreeOp (T α : Type*) where
  | clear (minXY maxXY : V2 α)
  | add (object : T)
  | remove (object : T)

namespace Spec
variable {T α : Type*} [DecidableEq T]

/-- The objects in the tree after one more call. -/
def effect (m : Multiset T) : TreeOp T α → Multiset T
  | .clear _ _ => 0
  | .add o => o ::ₘ m
  | .remove o => m.erase o

/-- The objects in the tree after the calls. -/
def content (ops : List (TreeOp T α)) : Multiset T := ops.foldl effect 0

/-- The calls keep to the rules, when `m` are the objects in the tree now and `lost` those that a `Clear` dropped and that
were not added again since:
the tree is cleared with a rectangle that has an interior before objects are added, no object is added while it is in the
tree, and no lost object is removed. -/
def Valid [LT α] : Bool → Multiset T → (T → Prop) → List (TreeOp T α) → Prop
  | _, _, _, [] => True
  | _, m, lost, .clear a b :: r => a.x < b.x ∧ a.y < b.y ∧ Valid true 0 (fun x => lost x ∨ x ∈ m) r
  | started, m, lost, .add o :: r => started = true ∧ o ∉ m ∧ Valid started (o ::ₘ m) (fun x => lost x ∧ x ≠ o) r
  | started, m, lost, .remove o :: r => ¬lost o ∧ Valid started (m.erase o) lost r

/-- The `j`-th quarter of a rectangle, in the order top-left, top-right, bottom-left, bottom-right; `y` grows downwards. -/
def quarter [Field α] (r : Rect α) (j : ℕ) : Rect α :=
  let cx := (r.minPoint.x + r.maxPoint.x) / 2
  let cy := (r.minPoint.y + r.maxPoint.y) / 2
  match j with
  | 0 => ⟨r.minPoint, ⟨cx, cy⟩⟩
  | 1 => ⟨⟨cx, r.minPoint.y⟩, ⟨r.maxPoint.x, cy⟩⟩
  | 2 => ⟨⟨r.minPoint.x, cy⟩, ⟨cx, r.maxPoint.y⟩⟩
  | _ => ⟨⟨cx, cy⟩, r.maxPoint⟩

/-- The first rectangle lies in the second. -/
def RectLe [LE α] (a b : Rect α) : Prop :=
  b.minPoint.x ≤ a.minPoint.x ∧ b.minPoint.y ≤ a.minPoint.y ∧ a.maxPoint.x ≤ b.maxPoint.x ∧ a.maxPoint.y ≤ b.maxPoint.y

end Spec
end MGL
