import Verif.Spec.Vec3

/-! What a user of the kd-tree knows: the calls made so far, the objects that should be in the tree, and what a tree of
half-space splits is. -/

namespace MGL

/-- The calls that change a kd-tree. -/
inductive KdOp (T : Type*) where
  | addObjects (objects : List T)
  | build
  | clear

/-- A tree of axis-aligned splits. A leaf has a name and lists the indices of the objects stored in it. -/
inductive KdT (α : Type*) where
  | leaf (name : ℕ) (objects : List ℕ)
  | node (axis : Fin 3) (pos : α) (left right : KdT α)

/-- One step of the way from the root to a leaf: the axis and position of the split and whether the way goes right. -/
structure KdStep (α : Type*) where
  axis : Fin 3
  pos : α
  right : Bool

namespace KdT
variable {α : Type*}

/-- The leaf with the given name and objects is reached from the root by the given steps. -/
inductive LeafAt : KdT α → List (KdStep α) → ℕ → List ℕ → Prop
  | leaf (i : ℕ) (os : List ℕ) : LeafAt (.leaf i os) [] i os
  | left (ax : Fin 3) (p : α) (l r : KdT α) (w : List (KdStep α)) (i : ℕ) (os : List ℕ) :
      LeafAt l w i os → LeafAt (.node ax p l r) (⟨ax, p, false⟩ :: w) i os
  | right (ax : Fin 3) (p : α) (l r : KdT α) (w : List (KdStep α)) (i : ℕ) (os : List ℕ) :
      LeafAt r w i os → LeafAt (.node ax p l r) (⟨ax, p, true⟩ :: w) i os

/-- The names of the leaves, from left to right. -/
def names : KdT α → List ℕ
  | .leaf i _ => [i]
  | .node _ _ l r => l.names ++ r.names

/-- The number of nodes on the longest way from the root to a leaf. -/
def height : KdT α → ℕ
  | .leaf _ _ => 1
  | .node _ _ l r => 1 + max l.height r.height

/-- The number of leaves. -/
def leaves : KdT α → ℕ
  | .leaf _ _ => 1
  | .node _ _ l r => l.leaves + r.leaves

/-- The number of splits. -/
def inner : KdT α → ℕ
  | .leaf _ _ => 0
  | .node _ _ l r => 1 + l.inner + r.inner

/-- The splits of the tree. -/
def splits : KdT α → List (Fin 3 × α)
  | .leaf _ _ => []
  | .node ax p l r => (ax, p) :: (l.splits ++ r.splits)

end KdT

namespace Spec
variable {T α : Type*}

/-- The objects in the tree after one more call. -/
def kdEffect (l : List T) : KdOp T → List T
  | .addObjects os => l ++ os
  | .build => l
  | .clear => []

/-- The objects in the tree after the calls. -/
def kdContent (ops : List (KdOp T)) : List T := ops.foldl kdEffect []

/-- Whether the tree has been built since the last `Clear`. -/
def kdBuilt (ops : List (KdOp T)) : Bool :=
  ops.foldl (fun b op => match op with | .addObjects _ => b | .build => true | .clear => false) false

/-- The intervals follow each other without a gap from `te` on, and the last one has no end. `none` is the end of an interval
without end. -/
def Consecutive [LE α] : List (α × Option α) → α → Prop
  | [], _ => False
  | [c], te => c.1 = te ∧ c.2 = none
  | c :: cs, te => c.1 = te ∧ ∃ m, c.2 = some m ∧ te ≤ m ∧ Consecutive cs m

/-- `t` is in the interval. -/
def InInterval [LE α] (c : α × Option α) (t : α) : Prop := c.1 ≤ t ∧ ∀ e, c.2 = some e → t ≤ e

/-- Where the ray crosses one of the planes, it is not in front of another one by less than 1/10000. -/
def CrossingsClear [Field α] [LT α] (pos dir : V3 α) (S : List (Fin 3 × α)) : Prop :=
  ∀ a ∈ S, ∀ b ∈ S, ∀ t : α, (pos + t • dir).get a.1 = a.2 →
    ¬(b.2 < (pos + t • dir).get b.1 ∧ (pos + t • dir).get b.1 < b.2 + 1 / 10000)

end Spec
end MGL
