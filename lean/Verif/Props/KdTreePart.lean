import Verif.Model.KdTreePart
import Verif.Props.KdTree
import Mathlib.Logic.Relation

/-! C47: which nodes are part of a kd-tree. -/

set_option linter.unusedSectionVars false

namespace MGL
namespace KdTree
variable {T α : Type*} [Field α] [LinearOrder α] [IsStrictOrderedRing α]

/-- The node `b` is one of the two children of the node `a`. -/
def ChildOf (s : KdTree T α) (a b : ℕ) : Prop := ∃ ax p c, s.nodes a = .inner ax p c ∧ (b = c ∨ b = c + 1)

/-- The nodes of the subtree below `i`, down to a depth. -/
def below (s : KdTree T α) : ℕ → ℕ → List ℕ
  | 0, _ => []
  | f + 1, i => i :: match s.nodes i with | .leaf _ => [] | .inner _ _ c => s.below f c ++ s.below f (c + 1)

theorem names_ne (t : KdT α) : ∃ n, n ∈ t.names := by
  induction t with
  | leaf n os => exact ⟨n, by simp [KdT.names]⟩
  | node ax p l r ihl _ => obtain ⟨n, hn⟩ := ihl; exact ⟨n, by simp [KdT.names, hn]⟩

theorem below_spec {s : KdTree T α} {P Q : ℕ → Prop} {i : ℕ} {t : KdT α} (h : Rep s P Q i t) : ∀ f, t.height ≤ f →
    (∀ n, s.isPartAt f i n = some (decide (n ∈ s.below f i))) ∧ (s.below f i).length = t.leaves + t.inner ∧
    (∀ n ∈ s.below f i, P n ∧ ∃ t', Rep s P Q n t' ∧ t'.height ≤ t.height ∧ t'.names ⊆ t.names) ∧
    ∀ n, n ∈ s.below f i ↔ Relation.ReflTransGen s.ChildOf i n := by
  induction h with
  | leaf i b h1 h2 h3 =>
    intro f hf
    cases f with
    | zero => simp [KdT.height] at hf
    | succ f =>
      simp only [below, h2]
      refine ⟨?_, rfl, ?_, ?_⟩
      · intro n
        rw [isPartAt, h2]
        by_cases e : i = n
        · simp [e]
        · simp [e, Ne.symm e]
      · intro n hn
        rw [List.mem_singleton] at hn
        subst hn
        exact ⟨h1, _, .leaf n b h1 h2 h3, le_rfl, List.Subset.refl _⟩
      · intro n
        rw [List.mem_singleton]
        constructor
        · rintro rfl; exact .refl
        · intro hr
          rcases Relation.ReflTransGen.cases_head hr with e | ⟨c, ⟨ax, p, c', e, -⟩, -⟩
          · exact e.symm
          · rw [h2] at e; cases e
  | node i ax p c l r h1 h2 hl hr ihl ihr =>
    intro f hf
    simp only [KdT.height] at hf
    cases f with
    | zero => omega
    | succ f =>
      obtain ⟨a1, a2, a3, a4⟩ := ihl f (by omega)
      obtain ⟨b1, b2, b3, b4⟩ := ihr f (by omega)
      simp only [below, h2]
      refine ⟨?_, ?_, ?_, ?_⟩
      · intro n
        rw [isPartAt, h2]
        by_cases e : i = n
        · simp [e]
        · simp only [e, if_false, a1, b1, Option.bind_some, List.mem_cons, List.mem_append, Ne.symm e, false_or]
          by_cases k : n ∈ s.below f c <;> simp [k]
      · simp only [List.length_cons, List.length_append, a2, b2, KdT.leaves, KdT.inner]; omega
      · intro n hn
        rw [List.mem_cons, List.mem_append] at hn
        rcases hn with rfl | hn | hn
        · exact ⟨h1, _, .node n ax p c l r h1 h2 hl hr, le_rfl, List.Subset.refl _⟩
        · obtain ⟨k1, t', k2, k3, k4⟩ := a3 n hn
          exact ⟨k1, t', k2, by simp only [KdT.height]; omega, fun x hx => by simp [KdT.names, k4 hx]⟩
        · obtain ⟨k1, t', k2, k3, k4⟩ := b3 n hn
          exact ⟨k1, t', k2, by simp only [KdT.height]; omega, fun x hx => by simp [KdT.names, k4 hx]⟩
      · intro n
        rw [List.mem_cons, List.mem_append, a4, b4]
        constructor
        · rintro (rfl | hn | hn)
          · exact .refl
          · exact .head ⟨ax, p, c, h2, Or.inl rfl⟩ hn
          · exact .head ⟨ax, p, c, h2, Or.inr rfl⟩ hn
        · intro hr
          rcases Relation.ReflTransGen.cases_head hr with e | ⟨d, ⟨ax', p', c', e, hd⟩, hn⟩
          · exact Or.inl e.symm
          · rw [h2] at e
            cases e
            rcases hd with rfl | rfl
            · exact Or.inr (Or.inl hn)
            · exact Or.inr (Or.inr hn)

theorem below_nodup {s : KdTree T α} (hs : s.size ≤ 2 ^ 30) {i : ℕ} {t : KdT α}
    (h : Rep s (fun j => 1 ≤ j ∧ j < s.size) (fun k => 1 ≤ k ∧ k < s.numBuckets) i t) :
    ∀ f, t.height ≤ f → t.names.Nodup → (s.below f i).Nodup := by
  have same : ∀ {n : ℕ} {t t' : KdT α}, Rep s (fun j => 1 ≤ j ∧ j < s.size) (fun k => 1 ≤ k ∧ k < s.numBuckets) n t →
      Rep s (fun j => 1 ≤ j ∧ j < s.size) (fun k => 1 ≤ k ∧ k < s.numBuckets) n t' → t = t' :=
    fun h h' => shows_unique _ _ _ (shows_of_rep hs h) (shows_of_rep hs h')
  induction h with
  | leaf i b h1 h2 h3 =>
    intro f _ _
    cases f with
    | zero => simp [below]
    | succ f => simp [below, h2]
  | node i ax p c l r h1 h2 hl hr ihl ihr =>
    intro f hf hn
    simp only [KdT.height] at hf
    cases f with
    | zero => omega
    | succ f =>
      rw [KdT.names, List.nodup_append] at hn
      have L := below_spec hl f (by omega)
      have R := below_spec hr f (by omega)
      have hme := Rep.node i ax p c l r h1 h2 hl hr
      simp only [below, h2]
      rw [List.nodup_cons, List.mem_append, List.nodup_append]
      refine ⟨?_, ihl f (by omega) hn.1, ihr f (by omega) hn.2.1, ?_⟩
      · rintro (k | k)
        · obtain ⟨-, t', k2, k3, -⟩ := L.2.2.1 i k
          have := same hme k2
          subst this
          simp only [KdT.height] at k3
          omega
        · obtain ⟨-, t', k2, k3, -⟩ := R.2.2.1 i k
          have := same hme k2
          subst this
          simp only [KdT.height] at k3
          omega
      · intro a ha b hb e
        subst e
        obtain ⟨-, t1, k2, -, k4⟩ := L.2.2.1 a ha
        obtain ⟨-, t2, m2, -, m4⟩ := R.2.2.1 a hb
        have := same k2 m2
        subst this
        obtain ⟨x, hx⟩ := names_ne t1
        exact hn.2.2 x (k4 hx) x (m4 hx) rfl

/-- C47: after any history that ends with `Build`, `IsPartOfThisTree` ends with a recursion of at most 30 calls deep. It is true
exactly for the nodes that can be reached from the root, and these are all nodes of the vector except the first, which is not used.
It is false for the null pointer. -/
theorem C47_isPartOfThisTree (box : T → AABB α) (hbox : ∀ t ax, (box t).minPoint.get ax ≤ (box t).maxPoint.get ax)
    (g : Option (AABB α)) (ops : List (KdOp T)) (s : KdTree T α) (hs : run box g (ops ++ [.build]) = s) (f : ℕ) (hf : 30 ≤ f) :
    s.isPartOfThisTree f none = some false ∧ ∀ n, ∃ a, s.isPartOfThisTree f (some n) = some a ∧
      (a = true ↔ Relation.ReflTransGen s.ChildOf 1 n) ∧ (a = true ↔ 1 ≤ n ∧ n < s.size) := by
  subst hs
  obtain ⟨-, t, h⟩ := run_build g hbox ops
  generalize run box g (ops ++ [.build]) = s at *
  obtain ⟨b1, b2, b3, b4⟩ := below_spec h.rep f (h.height.trans hf)
  have nd := below_nodup h.size_bound h.rep f (h.height.trans hf) h.nodup
  have hr : s.root = some 1 := by rw [root, if_pos h.one_lt]
  refine ⟨by simp [isPartOfThisTree, hr], fun n => ⟨decide (n ∈ s.below f 1), by simp [isPartOfThisTree, hr, b1], ?_, ?_⟩⟩
  · rw [decide_eq_true_iff, b4]
  · rw [decide_eq_true_iff]
    refine ⟨fun hn => (b3 n hn).1, fun hn => ?_⟩
    have sub : (s.below f 1).toFinset ⊆ Finset.Ico 1 s.size := by
      intro x hx
      rw [List.mem_toFinset] at hx
      rw [Finset.mem_Ico]
      exact (b3 x hx).1
    have card : (Finset.Ico 1 s.size).card ≤ (s.below f 1).toFinset.card := by
      rw [List.toFinset_card_of_nodup nd, b2, Nat.card_Ico]
      have := h.count
      omega
    have := Finset.eq_of_subset_of_card_le sub card
    rw [← List.mem_toFinset, this, Finset.mem_Ico]
    exact hn

/-- C47: as long as the tree is not built, no node is part of it. -/
theorem C47_isPartOfThisTree_unbuilt (box : T → AABB α) (hbox : ∀ t ax, (box t).minPoint.get ax ≤ (box t).maxPoint.get ax)
    (g : Option (AABB α)) (ops : List (KdOp T)) (h : Spec.kdBuilt ops = false) (f : ℕ) (n : Option ℕ) :
    (run box g ops).isPartOfThisTree f n = some false := by
  have hr : (run box g ops).root = none := by
    have := (C47_unbuilt box hbox g ops _ rfl).2.1
    rw [h] at this
    cases hq : (run box g ops).root with
    | none => rfl
    | some x => rw [hq] at this; simp at this
  rw [isPartOfThisTree, hr]

example : (run exBox none (exOps ++ [.build])).isPartOfThisTree 30 (some 7) = some true ∧
    (run exBox none (exOps ++ [.build])).isPartOfThisTree 30 (some 8) = some false ∧ Spec.kdBuilt exOps = false := by decide +kernel

end KdTree
end MGL
