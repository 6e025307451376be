import Mathlib.Data.Set.Card
import Verif.Model.QuadTreeCount
import Verif.Props.QuadTreeQuery

/-! C113: the numbers of nodes and leaves and the height that a quadtree reports. -/

namespace MGL
namespace QuadTree
variable {T α : Type*} [DecidableEq T] [Field α] [LinearOrder α] [IsStrictOrderedRing α]

/-- There is a path of `k` steps from the node to a child, a child of that, and so on. -/
inductive Descends (s : QuadTree T α) : ℕ → ℕ → Prop
  | zero (n : ℕ) : Descends s n 0
  | step {n c j k : ℕ} : s.child n = some c → j < 4 → Descends s (c + j) k → Descends s n (k + 1)

theorem count_range (P : ℕ → Bool) (Q : ℕ → Prop) [DecidablePred Q] (n : ℕ) (h : ∀ i < n, P i = true ↔ Q i) :
    (List.range n).countP P = ((Finset.range n).filter Q).card := by
  have e : (List.range n).countP P = (List.range n).countP fun i => decide (Q i) := by
    apply List.countP_congr
    intro i hi
    rw [decide_eq_true_iff]
    exact h i (List.mem_range.1 hi)
  rw [e, List.countP_eq_length_filter, ← Multiset.coe_card]
  rfl

theorem usedB {s : QuadTree T α} {i : ℕ} (hi : i < s.size) : (decide (i ≤ s.root) || decide (i ≥ s.root + 4)) = true ↔ s.Used i := by
  simp only [Bool.or_eq_true, decide_eq_true_iff, Used]
  constructor
  · intro h; exact ⟨hi, by omega⟩
  · rintro ⟨-, h⟩; omega

theorem ncard_used {s : QuadTree T α} {P : ℕ → Prop} [DecidablePred fun i => s.Used i ∧ P i] :
    Set.ncard {i | s.Used i ∧ P i} = ((Finset.range s.size).filter fun i => s.Used i ∧ P i).card := by
  rw [← Set.ncard_coe_finset]
  congr 1
  ext i
  simp only [Finset.coe_filter, Finset.mem_range, Set.mem_ofPred_eq]
  exact ⟨fun h => ⟨h.1.1, h⟩, fun h => h.2⟩

theorem leaves_eq {s : QuadTree T α} : s.numLeaves = Set.ncard {i | s.Used i ∧ s.child i = none} := by
  classical
  rw [ncard_used, numLeaves]
  refine count_range _ _ _ fun i hi => ?_
  rw [Bool.and_eq_true, usedB hi, Option.isNone_iff_eq_none]

theorem inner_eq {s : QuadTree T α} : s.numInnerNodes = Set.ncard {i | s.Used i ∧ s.child i ≠ none} := by
  classical
  rw [ncard_used, numInnerNodes]
  refine count_range _ _ _ fun i hi => ?_
  rw [Bool.and_eq_true, usedB hi, Bool.not_eq_true', ← Bool.not_eq_true, Option.isNone_iff_eq_none]

theorem nodes_eq {s : QuadTree T α} {dep : ℕ → ℕ} (hw : Wf s dep) : s.numNodes = Set.ncard {i | s.Used i} := by
  have h := hw.root_le
  have e : {i | s.Used i} = ((Finset.range s.size \ Finset.Ioo s.root (s.root + 4) : Finset ℕ) : Set ℕ) := by
    ext i
    simp only [Set.mem_ofPred_eq, Used, Finset.coe_sdiff, Finset.coe_range, Finset.coe_Ioo, Set.mem_diff, Set.mem_Iio, Set.mem_Ioo]
  have hs : Finset.Ioo s.root (s.root + 4) ⊆ Finset.range s.size := by
    intro i hi
    rw [Finset.mem_Ioo] at hi
    rw [Finset.mem_range]; omega
  rw [e, Set.ncard_coe_finset, Finset.card_sdiff_of_subset hs, Finset.card_range, Nat.card_Ioo, numNodes]
  omega

theorem finite_used (s : QuadTree T α) (P : ℕ → Prop) : {i | s.Used i ∧ P i}.Finite :=
  (Set.finite_lt_nat s.size).subset fun _ h => h.1.1

theorem nodes_split {s : QuadTree T α} {dep : ℕ → ℕ} (hw : Wf s dep) : s.numNodes = s.numLeaves + s.numInnerNodes := by
  rw [nodes_eq hw, leaves_eq, inner_eq, ← Set.ncard_union_eq _ (finite_used s _) (finite_used s _)]
  · congr 1
    ext i
    simp only [Set.mem_ofPred_eq, Set.mem_union]
    tauto
  · rw [Set.disjoint_left]
    rintro i ⟨-, h1⟩ ⟨-, h2⟩
    exact h2 h1

/-- Every node but the root is one of the four children of exactly one node. -/
theorem children_count {s : QuadTree T α} {dep : ℕ → ℕ} (hw : Wf s dep) : s.numNodes = 4 * s.numInnerNodes + 1 := by
  have hroot : s.Used s.root := ⟨by have := hw.root_le; omega, by omega⟩
  have h1 : {i | s.Used i} = insert s.root {i | s.Used i ∧ i ≠ s.root} := by
    ext i
    simp only [Set.mem_ofPred_eq, Set.mem_insert_iff]
    constructor
    · intro h; by_cases e : i = s.root
      · exact Or.inl e
      · exact Or.inr ⟨h, e⟩
    · rintro (rfl | h)
      · exact hroot
      · exact h.1
  have h2 : {i | s.Used i ∧ i ≠ s.root} = (fun x : ℕ × ℕ => (s.child x.1).getD 0 + x.2) '' ({i | s.Used i ∧ s.child i ≠ none} ×ˢ {j | j < 4}) := by
    ext i
    simp only [Set.mem_ofPred_eq, Set.mem_image, Set.mem_prod, Prod.exists]
    constructor
    · rintro ⟨hu, hne⟩
      obtain ⟨p, c, j, hp, hj, hc, e⟩ := hw.tree i hu hne
      exact ⟨p, j, ⟨⟨hp, by rw [hc]; simp⟩, hj⟩, by rw [hc, e]; rfl⟩
    · rintro ⟨p, j, ⟨⟨hp, hc⟩, hj⟩, e⟩
      obtain ⟨c, hc⟩ := Option.ne_none_iff_exists'.1 hc
      rw [hc] at e
      obtain ⟨k1, k2, -⟩ := hw.kids p hp c hc j hj
      have e : c + j = i := e
      rw [← e]
      exact ⟨k1, k2⟩
  have hinj : Set.InjOn (fun x : ℕ × ℕ => (s.child x.1).getD 0 + x.2) ({i | s.Used i ∧ s.child i ≠ none} ×ˢ {j | j < 4}) := by
    rintro ⟨p, j⟩ ⟨⟨hp, hc⟩, hj⟩ ⟨q, l⟩ ⟨⟨hq, hd⟩, hl⟩ e
    obtain ⟨c, hc⟩ := Option.ne_none_iff_exists'.1 hc
    obtain ⟨d, hd⟩ := Option.ne_none_iff_exists'.1 hd
    simp only at hp hq hc hd hj hl e
    have a1 := (hw.kids p hp c hc j hj).2.2.1
    have a2 := (hw.kids q hq d hd l hl).2.2.1
    rw [hc, hd] at e
    simp only [Option.getD_some] at e
    rw [e, a2] at a1
    obtain rfl : q = p := Option.some.inj a1
    obtain rfl : c = d := by rw [hc] at hd; exact Option.some.inj hd
    obtain rfl : j = l := by omega
    rfl
  rw [nodes_eq hw, h1, Set.ncard_insert_of_notMem (by simp) (finite_used s _), h2, Set.ncard_image_of_injOn hinj, Set.ncard_prod, inner_eq]
  have h4 : Set.ncard {j : ℕ | j < 4} = 4 := by
    have : {j : ℕ | j < 4} = ((Finset.range 4 : Finset ℕ) : Set ℕ) := by ext; simp
    rw [this, Set.ncard_coe_finset, Finset.card_range]
  rw [h4, mul_comm]

theorem height_spec {s : QuadTree T α} {dep : ℕ → ℕ} {D : ℕ} (hw : Wf s dep) (hD : s.Deep D dep) : ∀ (k n : ℕ), s.Used n → D ≤ dep n + k →
    ∃ h, (∀ f ≥ k + 1, s.nodeHeight f n = some h) ∧ IsGreatest {m | ∃ l, s.Descends n l ∧ m = l + 1} h := by
  have leaf : ∀ n, s.child n = none → ∀ k, ∃ h, (∀ f ≥ k + 1, s.nodeHeight f n = some h) ∧ IsGreatest {m | ∃ l, s.Descends n l ∧ m = l + 1} h := by
    intro n hn k
    refine ⟨1, ?_, ⟨0, .zero n, rfl⟩, ?_⟩
    · intro f hf
      obtain ⟨g, rfl⟩ : ∃ g, f = g + 1 := ⟨f - 1, by omega⟩
      rw [nodeHeight, hn]
    · rintro m ⟨l, hl, rfl⟩
      cases hl with
      | zero => exact le_rfl
      | step hc => rw [hn] at hc; cases hc
  intro k
  induction k with
  | zero =>
    intro n hu hd
    refine leaf n ?_ 0
    by_contra hne
    have := hD.1 n hu hne
    omega
  | succ k ih =>
    intro n hu hd
    cases hc : s.child n with
    | none => exact leaf n hc _
    | some c =>
      have K : ∀ j < 4, ∃ h, (∀ f ≥ k + 1, s.nodeHeight f (c + j) = some h) ∧ IsGreatest {m | ∃ l, s.Descends (c + j) l ∧ m = l + 1} h := by
        intro j hj
        obtain ⟨k1, -, -, k4, -⟩ := hw.kids n hu c hc j hj
        exact ih (c + j) k1 (by omega)
      obtain ⟨h0, a0, b0⟩ := K 0 (by omega)
      obtain ⟨h1, a1, b1⟩ := K 1 (by omega)
      obtain ⟨h2, a2, b2⟩ := K 2 (by omega)
      obtain ⟨h3, a3, b3⟩ := K 3 (by omega)
      refine ⟨1 + max (max h0 h1) (max h2 h3), ?_, ?_, ?_⟩
      · intro f hf
        obtain ⟨g, rfl⟩ : ∃ g, f = g + 1 := ⟨f - 1, by omega⟩
        have hg : g ≥ k + 1 := by omega
        have a0 := a0 g hg
        rw [Nat.add_zero] at a0
        rw [nodeHeight, hc]
        simp only [a0, a1 g hg, a2 g hg, a3 g hg, Option.bind_eq_bind, Option.bind_some]
      · have up : ∀ j < 4, ∀ h, IsGreatest {m | ∃ l, s.Descends (c + j) l ∧ m = l + 1} h → h + 1 ∈ {m | ∃ l, s.Descends n l ∧ m = l + 1} := by
          rintro j hj h ⟨⟨l, hl, e⟩, -⟩
          exact ⟨l + 1, .step hc hj hl, by rw [e]⟩
        rw [Nat.add_comm]
        rcases max_choice (max h0 h1) (max h2 h3) with e | e <;> rw [e]
        · rcases max_choice h0 h1 with e | e <;> rw [e]
          · exact up 0 (by omega) _ b0
          · exact up 1 (by omega) _ b1
        · rcases max_choice h2 h3 with e | e <;> rw [e]
          · exact up 2 (by omega) _ b2
          · exact up 3 (by omega) _ b3
      · rintro m ⟨l, hl, rfl⟩
        cases hl with
        | zero => omega
        | step hc' hj hl =>
          rename_i c' j l
          obtain rfl : c = c' := by rw [hc] at hc'; exact Option.some.inj hc'
          have : l + 1 ≤ max (max h0 h1) (max h2 h3) := by
            interval_cases j
            · exact (b0.2 ⟨l, hl, rfl⟩).trans (by simp)
            · exact (b1.2 ⟨l, hl, rfl⟩).trans (by simp)
            · exact (b2.2 ⟨l, hl, rfl⟩).trans (by simp)
            · exact (b3.2 ⟨l, hl, rfl⟩).trans (by simp)
          omega

/-- C113: after any valid history that clears the tree at least once, `NumNodes`, `NumLeaves` and `NumInnerNodes` are the numbers of all
nodes, of those without and of those with children that can be reached from the root. -/
theorem C113_counts [Archimedean α] (cap : ℕ∞) (box : T → Rect α) (f : ℕ) (ops : List (TreeOp T α)) (s s' : QuadTree T α) (hs : s.Fresh)
    (hv : Spec.Valid false 0 (fun _ => False) ops) (hc : ∃ op ∈ ops, ∃ a b, op = .clear a b) (hr : run cap box f ops s = some s') :
    s'.numNodes = Set.ncard {i | s'.InTree i} ∧ s'.numLeaves = Set.ncard {i | s'.InTree i ∧ s'.child i = none} ∧
      s'.numInnerNodes = Set.ncard {i | s'.InTree i ∧ s'.child i ≠ none} ∧
      s'.numNodes = s'.numLeaves + s'.numInnerNodes ∧ s'.numLeaves = 3 * s'.numInnerNodes + 1 := by
  obtain ⟨⟨lost, hi⟩, -, -⟩ := run_inv_cleared hs hv hc hr
  obtain ⟨dep, D, hw, hD⟩ := hi.wf
  have h1 := nodes_split hw
  have h2 := children_count hw
  refine ⟨?_, ?_, ?_, h1, by omega⟩
  · rw [nodes_eq hw]; simp only [hw.inTree]
  · rw [leaves_eq]; simp only [hw.inTree]
  · rw [inner_eq]; simp only [hw.inTree]

/-- C113: `TreeHeight` ends and is the number of nodes on the longest path from the root downwards. -/
theorem C113_height [Archimedean α] (cap : ℕ∞) (box : T → Rect α) (f : ℕ) (ops : List (TreeOp T α)) (s s' : QuadTree T α) (hs : s.Fresh)
    (hv : Spec.Valid false 0 (fun _ => False) ops) (hc : ∃ op ∈ ops, ∃ a b, op = .clear a b) (hr : run cap box f ops s = some s') :
    ∃ h F, (∀ g ≥ F, s'.treeHeight g = some h) ∧ IsGreatest {m | ∃ l, s'.Descends s'.root l ∧ m = l + 1} h := by
  obtain ⟨⟨lost, hi⟩, -, -⟩ := run_inv_cleared hs hv hc hr
  obtain ⟨dep, D, hw, hD⟩ := hi.wf
  have hroot : s'.Used s'.root := ⟨by have := hw.root_le; omega, by omega⟩
  obtain ⟨h, h1, h2⟩ := height_spec hw hD D s'.root hroot (by omega)
  refine ⟨h, D + 1, fun g hg => ?_, h2⟩
  rw [treeHeight, if_neg (by have := hw.root_le; omega)]
  exact h1 g hg

/-- C113: a tree that was never cleared has no nodes. -/
theorem C113_empty (s : QuadTree T α) (hs : s.Fresh) (f : ℕ) : s.numNodes = 0 ∧ s.numLeaves = 0 ∧ s.numInnerNodes = 0 ∧ s.treeHeight f = some 0 := by
  have h := hs.1
  simp [numNodes, numLeaves, numInnerNodes, treeHeight, h]

example : exTree.numNodes = 0 := (C113_empty exTree exTree_fresh 0).1

/-- The tree of the example of C43 has grown once: the old root, now a leaf, is one of four quarters. -/
example : ∃ s', run 200000 exBox 5 exOps exTree = some s' ∧ s'.numNodes = 9 ∧ s'.numInnerNodes = 2 ∧ s'.numLeaves = 3 * s'.numInnerNodes + 1 ∧
    s'.treeHeight 5 = some 3 := by
  have h : (run 200000 exBox 5 exOps exTree).map (fun s => (s.numNodes, s.numInnerNodes, s.treeHeight 5)) = some (9, 2, some 3) := by decide +kernel
  obtain ⟨s', h1, h2⟩ := Option.map_eq_some_iff.1 h
  have e := C113_counts _ _ _ _ _ _ exTree_fresh exOps_valid ⟨_, List.mem_cons_self, _, _, rfl⟩ h1
  exact ⟨s', h1, by simpa using congrArg Prod.fst h2, by simpa using congrArg (·.2.1) h2, e.2.2.2.2, by simpa using congrArg (·.2.2) h2⟩

example : ∃ s', run 200000 exBox 5 exOps exTree = some s' ∧ ∃ h F, (∀ g ≥ F, s'.treeHeight g = some h) ∧
    IsGreatest {m | ∃ l, s'.Descends s'.root l ∧ m = l + 1} h := by
  have h : (run 200000 exBox 5 exOps exTree).isSome = true := by decide +kernel
  obtain ⟨s', h1⟩ := Option.isSome_iff_exists.1 h
  exact ⟨s', h1, C113_height _ _ _ _ _ _ exTree_fresh exOps_valid ⟨_, List.mem_cons_self, _, _, rfl⟩ h1⟩

end QuadTree
end MGL
