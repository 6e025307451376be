import Mathlib.Order.Defs.LinearOrder
import Mathlib.Data.Multiset.AddSub
import Mathlib.Data.List.Sort

/-! The contract of `MaxHeap`.

`MaxHeap` (`Container/MaxHeap.h`) belongs to another library that is not part of the repository. The nearest neighbour searches use
it with the order reversed: `BeginInsert`/`FinishInsert` add an item with a key, `Front`/`PopFront` give an item with the smallest
key, any of them if there are several. The theorems hold for every implementation of this contract. -/

namespace MGL

/-- A queue that gives out an item with the smallest key: the contract of the `MaxHeap` used at src/Geometry/QuadTree.inl:406-596. -/
structure PQueue (α X : Type*) [LinearOrder α] where
  Q : Type
  empty : Q
  insert : α → X → Q → Q
  pop : Q → Option ((α × X) × Q)
  items : Q → Multiset (α × X)
  items_empty : items empty = 0
  items_insert : ∀ a x q, items (insert a x q) = (a, x) ::ₘ items q
  pop_none : ∀ q, pop q = none → items q = 0
  pop_some : ∀ q x q', pop q = some (x, q') → items q = x ::ₘ items q' ∧ ∀ y ∈ items q, x.1 ≤ y.1

namespace PQueue
variable {α X : Type} [LinearOrder α]

/-- Insert into a sorted list. -/
def ins (a : α) (x : X) : List (α × X) → List (α × X)
  | [] => [(a, x)]
  | y :: l => if a ≤ y.1 then (a, x) :: y :: l else y :: ins a x l

theorem ins_perm (a : α) (x : X) : ∀ l : List (α × X), (ins a x l).Perm ((a, x) :: l)
  | [] => .refl _
  | y :: l => by
    unfold ins
    split_ifs
    · exact .refl _
    · exact ((ins_perm a x l).cons y).trans (.swap _ _ _)

theorem ins_sorted (a : α) (x : X) : ∀ l : List (α × X), l.Pairwise (fun y z => y.1 ≤ z.1) → (ins a x l).Pairwise (fun y z => y.1 ≤ z.1)
  | [], _ => by simp [ins]
  | y :: l, h => by
    unfold ins
    obtain ⟨h1, h2⟩ := List.pairwise_cons.1 h
    split_ifs with hc
    · refine List.pairwise_cons.2 ⟨?_, h⟩
      intro z hz
      rcases List.mem_cons.1 hz with rfl | hz
      · exact hc
      · exact hc.trans (h1 z hz)
    · refine List.pairwise_cons.2 ⟨?_, ins_sorted a x l h2⟩
      intro z hz
      rcases List.mem_cons.1 ((ins_perm a x l).mem_iff.1 hz) with rfl | hz
      · exact (not_le.1 hc).le
      · exact h1 z hz

/-- The contract can be met: a sorted list. -/
def sorted (α X : Type) [LinearOrder α] : PQueue α X where
  Q := { l : List (α × X) // l.Pairwise (fun y z => y.1 ≤ z.1) }
  empty := ⟨[], by simp⟩
  insert a x q := ⟨ins a x q.1, ins_sorted a x q.1 q.2⟩
  pop q := match q with
    | ⟨[], _⟩ => none
    | ⟨y :: l, h⟩ => some (y, ⟨l, (List.pairwise_cons.1 h).2⟩)
  items q := (q.1 : Multiset (α × X))
  items_empty := rfl
  items_insert a x q := Multiset.coe_eq_coe.2 (ins_perm a x q.1)
  pop_none := by
    rintro ⟨l, h⟩ hp
    cases l with
    | nil => rfl
    | cons y l => simp at hp
  pop_some := by
    rintro ⟨l, h⟩ x q' hp
    cases l with
    | nil => simp at hp
    | cons y l =>
      simp only [Option.some.injEq, Prod.mk.injEq] at hp
      obtain ⟨rfl, rfl⟩ := hp
      refine ⟨rfl, fun z hz => ?_⟩
      rcases List.mem_cons.1 (Multiset.mem_coe.1 hz) with rfl | hz
      · exact le_rfl
      · exact (List.pairwise_cons.1 h).1 z hz

end PQueue
end MGL
