import Verif.Proofs.QuadTreeTotal
import Verif.Spec.QuadTree
import Mathlib.Data.Rat.Defs
import Mathlib.Algebra.Order.Ring.Unbundled.Rat
import Mathlib.Algebra.Order.Field.Rat
import Mathlib.Algebra.Order.Archimedean.Real.Basic

/-! C43: the quad tree stores what was added and not removed, in a well-formed tree. -/

set_option linter.unusedSectionVars false

namespace MGL
namespace QuadTree
variable {T α : Type*} [DecidableEq T] [Field α] [LinearOrder α]

/-- The calls, one after the other: src/Geometry/QuadTree.inl:24-126. `f` is the step budget of each `Add`. -/
def call (cap : ℕ∞) (box : T → Rect α) (f : ℕ) (s : QuadTree T α) : TreeOp T α → Option (QuadTree T α)
  | .clear a b => clear cap s a b
  | .add o => add cap box f f s o
  | .remove o => remove s o

/-- The tree after a history of calls. -/
def run (cap : ℕ∞) (box : T → Rect α) (f : ℕ) : List (TreeOp T α) → QuadTree T α → Option (QuadTree T α)
  | [], s => some s
  | op :: r, s => (call cap box f s op).bind (run cap box f r)

/-- A new tree, and objects that are in no tree: src/Geometry/QuadTree.h:121-130. -/
def Fresh (s : QuadTree T α) : Prop := s.size = 0 ∧ ∀ x, s.assoc x = none

/-- The nodes that can be reached from the root. -/
inductive InTree (s : QuadTree T α) : ℕ → Prop
  | root : InTree s s.root
  | child {i c j : ℕ} : InTree s i → s.child i = some c → j < 4 → InTree s (c + j)

/-- All objects in all nodes. -/
def stored (s : QuadTree T α) : Multiset T := ((List.range s.size).flatMap s.objects : List T)

theorem all_eq_stored (s : QuadTree T α) : s.all = s.stored := by
  unfold all stored
  induction s.size with
  | zero => simp
  | succ n ih => rw [Finset.sum_range_succ, ih, List.range_succ, List.flatMap_append, ← Multiset.coe_add]; simp

theorem numObjects_eq (s : QuadTree T α) : s.numObjects = s.stored.card := by
  unfold numObjects stored
  rw [Multiset.coe_card, List.length_flatMap]

variable [IsStrictOrderedRing α]

theorem Wf.inTree {s : QuadTree T α} {dep : ℕ → ℕ} (h : Wf s dep) {i : ℕ} : s.InTree i ↔ s.Used i := by
  constructor
  · intro hi
    induction hi with
    | root => exact h.used_root
    | child _ hc hj ih => exact (h.kids _ ih _ hc _ hj).1
  · suffices H : ∀ d i, dep i = d → s.Used i → s.InTree i from fun hu => H _ i rfl hu
    intro d
    induction d with
    | zero =>
      intro i hd hu
      by_cases e : i = s.root
      · rw [e]; exact .root
      · obtain ⟨p, c, j, hp, hj, hc, rfl⟩ := h.tree i hu e
        have := (h.kids p hp c hc j hj).2.2.2.1
        omega
    | succ d ih =>
      intro i hd hu
      by_cases e : i = s.root
      · rw [e]; exact .root
      · obtain ⟨p, c, j, hp, hj, hc, rfl⟩ := h.tree i hu e
        have := (h.kids p hp c hc j hj).2.2.2.1
        exact .child (ih p (by omega) hp) hc hj

/-- The invariant after a valid history. -/
theorem run_inv [Archimedean α] {cap : ℕ∞} {box : T → Rect α} {f : ℕ} : ∀ (ops : List (TreeOp T α)) (started : Bool) (m : Multiset T)
    (lost : T → Prop) (s s' : QuadTree T α), (started = true → Inv box s lost) → (started = false → s.size = 0) →
    (∀ x, ¬lost x → s.assoc x ≠ none → x ∈ m) → s.all = m → m.Nodup → Spec.Valid started m lost ops → run cap box f ops s = some s' →
    s'.all = ops.foldl Spec.effect m ∧ s'.all.Nodup ∧ ((started = true ∨ ∃ op ∈ ops, ∃ a b, op = .clear a b) → ∃ lost', Inv box s' lost')
  | [], started, m, lost, s, s', hi, h0, ha, hm, hn, hv, hr => by
    rw [← Option.some.inj hr]
    exact ⟨hm, hm ▸ hn, fun h => ⟨lost, hi (by simpa using h)⟩⟩
  | .clear a b :: r, started, m, lost, s, s', hi, h0, ha, hm, hn, hv, hr => by
    obtain ⟨s1, h1, h2⟩ := Option.bind_eq_some_iff.1 hr
    obtain ⟨v1, v2, v3⟩ := hv
    obtain ⟨i1, a1, -⟩ := clear_spec (box := box) v1 v2 (lost := fun x => lost x ∨ x ∈ m) (fun x hx => by
      by_cases hl : lost x
      · exact Or.inl hl
      · exact Or.inr (ha x hl hx)) h1
    obtain ⟨e1, e2, e3⟩ := run_inv r true 0 _ s1 s' (fun _ => i1) (by simp)
      (fun x hx hax => by
        obtain ⟨j, hj, -, hm2⟩ := i1.assoc x hx hax
        rw [← a1]; exact mem_all.2 ⟨j, hj.1, hm2⟩) a1 (by simp) v3 h2
    exact ⟨e1, e2, fun _ => e3 (Or.inl rfl)⟩
  | .add o :: r, started, m, lost, s, s', hi, h0, ha, hm, hn, hv, hr => by
    obtain ⟨s1, h1, h2⟩ := Option.bind_eq_some_iff.1 hr
    obtain ⟨v1, v2, v3⟩ := hv
    obtain ⟨i1, a1⟩ := add_spec f (hi v1) h1
    rw [hm] at a1
    obtain ⟨e1, e2, e3⟩ := run_inv r started (o ::ₘ m) _ s1 s' (fun _ => i1) (by simp [v1])
      (fun x hx hax => by
        obtain ⟨j, hj, -, hm2⟩ := i1.assoc x hx hax
        rw [← a1]; exact mem_all.2 ⟨j, hj.1, hm2⟩) a1 (Multiset.nodup_cons.2 ⟨v2, hn⟩) v3 h2
    exact ⟨e1, e2, fun _ => e3 (Or.inl v1)⟩
  | .remove o :: r, started, m, lost, s, s', hi, h0, ha, hm, hn, hv, hr => by
    obtain ⟨s1, h1, h2⟩ := Option.bind_eq_some_iff.1 hr
    obtain ⟨v1, v2⟩ := hv
    cases started with
    | true =>
      obtain ⟨i1, a1⟩ := remove_spec (hi rfl) (hm ▸ hn) v1 h1
      rw [hm] at a1
      obtain ⟨e1, e2, e3⟩ := run_inv r true (m.erase o) _ s1 s' (fun _ => i1) (by simp)
        (fun x hx hax => by
          obtain ⟨j, hj, -, hm2⟩ := i1.assoc x hx hax
          rw [← a1]; exact mem_all.2 ⟨j, hj.1, hm2⟩) a1 (hn.erase o) v2 h2
      exact ⟨e1, e2, fun _ => e3 (Or.inl rfl)⟩
    | false =>
      have hz := h0 rfl
      have hm0 : m = 0 := by rw [← hm]; unfold all; rw [hz]; simp
      have : s.assoc o = none := by
        by_contra hne
        have := ha o v1 hne
        rw [hm0] at this; simp at this
      have h1' : remove s o = some s1 := h1
      unfold remove at h1'
      rw [this] at h1'
      have e := Option.some.inj h1'
      subst e
      have hme : m.erase o = m := by rw [hm0]; rfl
      rw [hme] at v2
      obtain ⟨e1, e2, e3⟩ := run_inv r false m _ s s' hi h0 ha hm hn v2 h2
      refine ⟨?_, e2, fun hh => e3 ?_⟩
      · rw [e1, List.foldl_cons]; show _ = List.foldl _ (m.erase o) _; rw [hme]
      · rcases hh with hh | ⟨op, hop, a, b, rfl⟩
        · exact Or.inl hh
        · rcases List.mem_cons.1 hop with k | k
          · simp at k
          · exact Or.inr ⟨_, k, a, b, rfl⟩

/-- The links and rectangles of a tree. -/
structure GoodTree (box : T → Rect α) (s : QuadTree T α) : Prop where
  /-- The root has no parent and covers the bounding rectangle. -/
  root : s.parent s.root = none ∧ s.nodeRect s.root = s.bounding
  /-- The children exist, know their parent, are not the root and cover the quarters of their parent. -/
  children : ∀ i, s.InTree i → ∀ c, s.child i = some c → ∀ j < 4,
    c + j < s.size ∧ s.parent (c + j) = some i ∧ c + j ≠ s.root ∧ s.nodeRect (c + j) = Spec.quarter (s.nodeRect i) j
  /-- Each object is in a node of the tree whose rectangle contains it, and knows that node. -/
  objects : ∀ i < s.size, ∀ o ∈ s.objects i, s.InTree i ∧ Spec.RectLe (box o) (s.nodeRect i) ∧ s.assoc o = some i

theorem Inv.good {box : T → Rect α} {s : QuadTree T α} {lost : T → Prop} (h : Inv box s lost) (hn : s.all.Nodup) : GoodTree box s := by
  obtain ⟨⟨dep, D, hw, -⟩, hf, h1, h2⟩ := h
  have hin : ∀ i < s.size, ∀ o ∈ s.objects i, s.Used i := fun i hi o ho => ⟨hi, fun hd => by
    rw [(hw.dummy i hd.1 hd.2).2] at ho; simp at ho⟩
  refine ⟨⟨hw.root_parent, hw.rect_root⟩, ?_, ?_⟩
  · intro i hi c hc j hj
    obtain ⟨k1, k2, k3, k4, k5, k6⟩ := hw.kids i (hw.inTree.1 hi) c hc j hj
    refine ⟨k1.1, k3, k2, ?_⟩
    unfold nodeRect
    rw [k5, k6]
    interval_cases j <;> simp only [Spec.quarter, quadCenter, half] <;> ext <;> simp <;> ring
  · intro i hi o ho
    have hu := hin i hi o ho
    refine ⟨hw.inTree.2 hu, (contains_iff _ _).1 (hf i hu o ho), ?_⟩
    obtain ⟨k, k1, k2, k3⟩ := h1 o (mem_all.2 ⟨i, hi, ho⟩)
    by_cases e : k = i
    · rw [← e]; exact k2
    · exfalso
      have c1 : 1 < Multiset.count o s.all := by
        unfold all
        rw [Multiset.count_sum']
        have s1 : ({i, k} : Finset ℕ) ⊆ Finset.range s.size := by
          intro x hx
          simp only [Finset.mem_insert, Finset.mem_singleton] at hx
          rw [Finset.mem_range]
          rcases hx with rfl | rfl
          · exact hi
          · exact k1.1
        have s2 := Finset.sum_le_sum_of_subset (f := fun x => Multiset.count o (s.objects x : Multiset T)) s1
        rw [Finset.sum_pair (Ne.symm e)] at s2
        have p1 : 1 ≤ Multiset.count o (s.objects i : Multiset T) := Multiset.one_le_count_iff_mem.2 (by simpa using ho)
        have p2 : 1 ≤ Multiset.count o (s.objects k : Multiset T) := Multiset.one_le_count_iff_mem.2 (by simpa using k3)
        omega
      have := Multiset.nodup_iff_count_le_one.1 hn o
      omega

/-- C43: after any valid history of `Clear`, `Add` and `Remove` the multiset of stored objects is the one of the objects added and
not removed, and `NumObjects` is its size. -/
theorem C43_content [Archimedean α] (cap : ℕ∞) (box : T → Rect α) (f : ℕ) (ops : List (TreeOp T α)) (s s' : QuadTree T α) (hs : s.Fresh)
    (hv : Spec.Valid false 0 (fun _ => False) ops) (hr : run cap box f ops s = some s') :
    s'.stored = Spec.content ops ∧ s'.numObjects = (Spec.content ops).card := by
  have h := run_inv ops false 0 (fun _ => False) s s' (by simp) (fun _ => hs.1) (fun x _ hx => absurd (hs.2 x) hx)
    (by unfold all; rw [hs.1]; simp) (by simp) hv hr
  have e : s'.stored = Spec.content ops := by rw [← all_eq_stored]; exact h.1
  exact ⟨e, by rw [numObjects_eq, e]⟩

/-- C43: after any valid history that clears the tree at least once, the links between the nodes are consistent, the nodes are nested
quarters, and each object is in a node whose rectangle contains it. -/
theorem C43_tree [Archimedean α] (cap : ℕ∞) (box : T → Rect α) (f : ℕ) (ops : List (TreeOp T α)) (s s' : QuadTree T α) (hs : s.Fresh)
    (hv : Spec.Valid false 0 (fun _ => False) ops) (hc : ∃ op ∈ ops, ∃ a b, op = .clear a b) (hr : run cap box f ops s = some s') :
    GoodTree box s' := by
  obtain ⟨-, h1, h2⟩ := run_inv ops false 0 (fun _ => False) s s' (by simp) (fun _ => hs.1) (fun x _ hx => absurd (hs.2 x) hx)
    (by unfold all; rw [hs.1]; simp) (by simp) hv hr
  obtain ⟨lost, hi⟩ := h2 (Or.inr hc)
  exact hi.good h1

theorem run_mono {cap cap' : ℕ∞} {box : T → Rect α} {f f' : ℕ} (hf : f ≤ f') (hc : cap ≤ cap') : ∀ (ops : List (TreeOp T α)) (s s' : QuadTree T α),
    run cap box f ops s = some s' → run cap' box f' ops s = some s'
  | [], s, s', h => h
  | op :: r, s, s', h => by
    obtain ⟨s1, h1, h2⟩ := Option.bind_eq_some_iff.1 h
    have h3 : call cap' box f' s op = some s1 := by
      cases op with
      | clear a b =>
        have h1 : clear cap s a b = some s1 := h1
        show clear cap' s a b = some s1
        unfold clear at h1 ⊢
        obtain ⟨t, h4, h5⟩ := Option.map_eq_some_iff.1 h1
        rw [(alloc_mono h4).2 (Or.inr hc), Option.map_some, h5]
      | add o => exact (add_mono hf f f' s s1 hf h1).2 (Or.inr hc)
      | remove o => exact h1
    show (call cap' box f' s op).bind _ = _
    rw [h3, Option.bind_some]
    exact run_mono hf hc r s1 s' h2

theorem run_append (cap : ℕ∞) (box : T → Rect α) (f : ℕ) : ∀ (a b : List (TreeOp T α)) (s : QuadTree T α),
    run cap box f (a ++ b) s = (run cap box f a s).bind (run cap box f b)
  | [], _, _ => rfl
  | op :: r, b, s => by
    show (call cap box f s op).bind _ = ((call cap box f s op).bind _).bind _
    cases call cap box f s op with
    | none => rfl
    | some s1 => exact run_append cap box f r b s1

/-- C43: as long as the node array is large enough every call returns, and the tree it leaves does not depend on the step budget. -/
theorem C43_terminates [Archimedean α] (box : T → Rect α) (ops : List (TreeOp T α)) (s : QuadTree T α) (hs : s.Fresh)
    (hv : Spec.Valid false 0 (fun _ => False) ops) : ∃ F s', ∀ f ≥ F, run ⊤ box f ops s = some s' := by
  suffices H : ∀ (ops : List (TreeOp T α)) (started : Bool) (m : Multiset T)
      (lost : T → Prop) (s : QuadTree T α), (started = true → Inv box s lost) → (started = false → s.size = 0) →
      (∀ x, ¬lost x → s.assoc x ≠ none → x ∈ m) → s.all = m → m.Nodup → Spec.Valid started m lost ops →
      ∃ F s', run ⊤ box F ops s = some s' by
    obtain ⟨F, s', h⟩ := H ops false 0 (fun _ => False) s (by simp) (fun _ => hs.1) (fun x _ hx => absurd (hs.2 x) hx)
      (by unfold all; rw [hs.1]; simp) (by simp) hv
    exact ⟨F, s', fun f hf => run_mono hf le_rfl ops s s' h⟩
  intro ops
  induction ops with
  | nil => intro started m lost s _ _ _ _ _ _; exact ⟨0, s, rfl⟩
  | cons op r ih =>
    intro started m lost s hi h0 ha hm hn hv
    have fin : ∀ (f : ℕ) (s1 : QuadTree T α), call ⊤ box f s op = some s1 → (∃ F s', run ⊤ box F r s1 = some s') →
        ∃ F s', run ⊤ box F (op :: r) s = some s' := by
      rintro f s1 h1 ⟨F, s', h2⟩
      refine ⟨max f F, s', ?_⟩
      show (call ⊤ box (max f F) s op).bind _ = _
      have h3 : run ⊤ box f [op] s = some s1 := by show (call ⊤ box f s op).bind _ = _; rw [h1]; rfl
      have h4 := run_mono (le_max_left f F) le_rfl [op] s s1 h3
      have h5 : call ⊤ box (max f F) s op = some s1 := by
        obtain ⟨t, h6, h7⟩ := Option.bind_eq_some_iff.1 h4
        rw [h6]; exact h7
      rw [h5, Option.bind_some]
      exact run_mono (le_max_right f F) le_rfl r s1 s' h2
    cases op with
    | clear a b =>
      obtain ⟨v1, v2, v3⟩ := hv
      obtain ⟨s1, h1⟩ : ∃ s1, clear ⊤ s a b = some s1 := by
        obtain ⟨t, ht⟩ := alloc_top ({ s with size := 0, bounding := ⟨a, b⟩ } : QuadTree T α) none
        unfold clear; rw [ht]; exact ⟨_, rfl⟩
      obtain ⟨i1, a1, -⟩ := clear_spec (box := box) v1 v2 (lost := fun x => lost x ∨ x ∈ m) (fun x hx => by
        by_cases hl : lost x
        · exact Or.inl hl
        · exact Or.inr (ha x hl hx)) h1
      exact fin 0 s1 h1 (ih true 0 _ s1 (fun _ => i1) (by simp) (fun x hx hax => by
        obtain ⟨j, hj, -, hm2⟩ := i1.assoc x hx hax
        rw [← a1]; exact mem_all.2 ⟨j, hj.1, hm2⟩) a1 (by simp) v3)
    | add o =>
      obtain ⟨v1, v2, v3⟩ := hv
      obtain ⟨f, g, s1, h1⟩ := add_total (hi v1) o
      have h1' : add ⊤ box (max f g) (max f g) s o = some s1 :=
        (add_mono (le_max_left f g) g (max f g) s s1 (le_max_right f g) h1).2 (Or.inr le_rfl)
      obtain ⟨i1, a1⟩ := add_spec _ (hi v1) h1'
      rw [hm] at a1
      exact fin _ s1 h1' (ih started (o ::ₘ m) _ s1 (fun _ => i1) (by simp [v1]) (fun x hx hax => by
        obtain ⟨j, hj, -, hm2⟩ := i1.assoc x hx hax
        rw [← a1]; exact mem_all.2 ⟨j, hj.1, hm2⟩) a1 (Multiset.nodup_cons.2 ⟨v2, hn⟩) v3)
    | remove o =>
      obtain ⟨v1, v2⟩ := hv
      have hok : s.assoc o ≠ none → started = true ∧ s.Ok o := fun hne => by
        cases started with
        | true => exact ⟨rfl, (hi rfl).assoc o v1 hne⟩
        | false =>
          have := ha o v1 hne
          rw [← hm] at this
          obtain ⟨j, hj, -⟩ := mem_all.1 this
          rw [h0 rfl] at hj; omega
      cases hao : s.assoc o with
      | none =>
        have h1 : call ⊤ box 0 s (.remove o) = some s := by show remove s o = some s; unfold remove; rw [hao]
        have hme : m.erase o = m := by
          rw [← hm]
          refine Multiset.erase_of_notMem fun hmem => ?_
          cases started with
          | true =>
            obtain ⟨j, -, h2, -⟩ := (hi rfl).stored o hmem
            rw [hao] at h2; simp at h2
          | false =>
            obtain ⟨j, hj, -⟩ := mem_all.1 hmem
            rw [h0 rfl] at hj; omega
        rw [hme] at v2
        exact fin 0 s h1 (ih started m lost s hi h0 ha hm hn v2)
      | some n =>
        obtain ⟨hst, hk⟩ := hok (by simp [hao])
        obtain ⟨j, hj, h2, -⟩ := hk
        rw [hao, Option.some.injEq] at h2
        subst h2
        have h1 : call ⊤ box 0 s (.remove o) = some (s.nodeRemove o n) := by
          show remove s o = _; unfold remove; rw [hao]; simp [hj.1]
        obtain ⟨i1, a1⟩ := remove_spec (hi hst) (hm ▸ hn) v1 h1
        rw [hm] at a1
        exact fin 0 _ h1 (ih started (m.erase o) _ _ (fun _ => i1) (by simp [hst]) (fun x hx hax => by
          obtain ⟨j, hj, -, hm2⟩ := i1.assoc x hx hax
          rw [← a1]; exact mem_all.2 ⟨j, hj.1, hm2⟩) a1 (hn.erase o) v2)

/-- C43: the fixed capacity of the node array does not matter for an `Add` that ends within it. -/
theorem C43_capacity (cap : ℕ∞) (box : T → Rect α) (f g : ℕ) (s s' : QuadTree T α) (o : T) (h : add ⊤ box f g s o = some s')
    (hc : (s'.size : ℕ∞) ≤ cap) : add cap box f g s o = some s' :=
  (add_mono le_rfl g g s s' le_rfl h).2 (Or.inl hc)

/-! ### Examples -/

/-- A new tree. -/
def exTree : QuadTree ℕ ℚ :=
  { size := 0, parent := fun _ => none, child := fun _ => none, objects := fun _ => [], center := fun _ => ⟨0, 0⟩, radius := fun _ => ⟨0, 0⟩,
    root := 0, bounding := ⟨⟨0, 0⟩, ⟨1, 1⟩⟩, assoc := fun _ => none }

/-- Small squares along a diagonal line, the later ones outside of the first root. -/
def exBox (i : ℕ) : Rect ℚ := ⟨⟨i / 16 - 1 / 2, i / 32 - 1 / 2⟩, ⟨i / 16 - 2 / 5, i / 32 - 2 / 5⟩⟩

/-- Splitting leaves, growing the root and removing. -/
def exOps : List (TreeOp ℕ ℚ) := .clear ⟨-1, -1⟩ ⟨1, 1⟩ :: (List.range 30).map .add ++ [.remove 3, .remove 29, .remove 40]

theorem exTree_fresh : exTree.Fresh := ⟨rfl, fun _ => rfl⟩

/-- The rules as a computable check, with the lost objects listed. -/
def validB : Bool → List ℕ → List ℕ → List (TreeOp ℕ ℚ) → Bool
  | _, _, _, [] => true
  | _, m, lost, .clear a b :: r => decide (a.x < b.x) && decide (a.y < b.y) && validB true [] (lost ++ m) r
  | started, m, lost, .add o :: r => started && !m.contains o && validB started (o :: m) (lost.filter (· ≠ o)) r
  | started, m, lost, .remove o :: r => !lost.contains o && validB started (m.erase o) lost r

theorem valid_of_validB : ∀ (ops : List (TreeOp ℕ ℚ)) (b : Bool) (m l : List ℕ) (lost : ℕ → Prop), (∀ x, lost x ↔ x ∈ l) →
    validB b m l ops = true → Spec.Valid b (m : Multiset ℕ) lost ops
  | [], _, _, _, _, _, _ => trivial
  | .clear a b :: r, st, m, l, lost, hl, h => by
    simp only [validB, Bool.and_eq_true, decide_eq_true_eq] at h
    exact ⟨h.1.1, h.1.2, valid_of_validB r true [] _ _ (fun x => by simp [hl]) h.2⟩
  | .add o :: r, st, m, l, lost, hl, h => by
    simp only [validB, Bool.and_eq_true, Bool.not_eq_true', List.contains_eq_mem, decide_eq_false_iff_not] at h
    exact ⟨h.1.1, by simpa using h.1.2, valid_of_validB r st (o :: m) _ _ (fun x => by simp [hl]) h.2⟩
  | .remove o :: r, st, m, l, lost, hl, h => by
    simp only [validB, Bool.and_eq_true, Bool.not_eq_true', List.contains_eq_mem, decide_eq_false_iff_not] at h
    exact ⟨fun hlo => h.1 ((hl o).1 hlo), valid_of_validB r st (m.erase o) l lost hl h.2⟩

theorem exOps_valid : Spec.Valid false 0 (fun _ => False) exOps :=
  valid_of_validB exOps false [] [] _ (by simp) (by decide +kernel)

example : ∃ s', run 200000 exBox 5 exOps exTree = some s' ∧ s'.size = 12 ∧ s'.root = 8 ∧ s'.stored = Spec.content exOps ∧
    s'.numObjects = 28 ∧ GoodTree exBox s' := by
  have h : (run 200000 exBox 5 exOps exTree).map (fun s => (s.size, s.root)) = some (12, 8) := by decide +kernel
  obtain ⟨s', h1, h2⟩ := Option.map_eq_some_iff.1 h
  obtain ⟨e1, e2⟩ := C43_content _ _ _ _ _ _ exTree_fresh exOps_valid h1
  have e3 : (Spec.content exOps).card = 28 := by decide +kernel
  exact ⟨s', h1, by simpa using congrArg Prod.fst h2, by simpa using congrArg Prod.snd h2, e1, e2.trans e3,
    C43_tree _ _ _ _ _ _ exTree_fresh exOps_valid ⟨_, List.mem_cons_self, _, _, rfl⟩ h1⟩

/-- The capacity the code reserves is enough for one more object in a new tree. -/
example : ∃ s s', clear ⊤ exTree ⟨-1, -1⟩ ⟨1, 1⟩ = some s ∧ add ⊤ exBox 5 5 s 3 = some s' ∧ (s'.size : ℕ∞) ≤ 200000 := by
  have h : ((clear ⊤ exTree ⟨-1, -1⟩ ⟨1, 1⟩).bind fun s => add ⊤ exBox 5 5 s 3).map (fun s => s.size) = some 4 := by decide +kernel
  obtain ⟨s', h1, h2⟩ := Option.map_eq_some_iff.1 h
  obtain ⟨s, h3, h4⟩ := Option.bind_eq_some_iff.1 h1
  exact ⟨s, s', h3, h4, by rw [h2]; decide⟩

/-- C43, the rule about lost objects is needed: `Clear` leaves the objects of the old tree associated with nodes that no longer
exist, and `Remove` of such an object follows the dangling pointer. -/
theorem C43_remove_after_clear_violation : ∃ ops : List (TreeOp ℕ ℚ),
    (∃ s, run 200000 exBox 5 ops exTree = some s ∧ s.stored = 0) ∧ ∀ f, run 200000 exBox f (ops ++ [.remove 16]) exTree = none := by
  refine ⟨.clear ⟨-1, -1⟩ ⟨1, 1⟩ :: (List.range 17).map .add ++ [.clear ⟨-1, -1⟩ ⟨1, 1⟩], ?_, ?_⟩
  · have h : (run 200000 exBox 5 (.clear ⟨-1, -1⟩ ⟨1, 1⟩ :: (List.range 17).map .add ++ [.clear ⟨-1, -1⟩ ⟨1, 1⟩]) exTree).map
        (fun s => (List.range s.size).flatMap s.objects) = some [] := by decide +kernel
    obtain ⟨s, h1, h2⟩ := Option.map_eq_some_iff.1 h
    exact ⟨s, h1, by unfold stored; rw [h2]; rfl⟩
  · intro f
    by_contra hne
    obtain ⟨s, hs⟩ := Option.ne_none_iff_exists'.1 hne
    have h1 := run_mono (le_max_left f 5) le_rfl _ _ _ hs
    have h2 : run 200000 exBox 5 (.clear ⟨-1, -1⟩ ⟨1, 1⟩ :: (List.range 17).map .add ++ [.clear ⟨-1, -1⟩ ⟨1, 1⟩]) exTree ≠ none := by
      intro h0
      have : (run 200000 exBox 5 (.clear ⟨-1, -1⟩ ⟨1, 1⟩ :: (List.range 17).map .add ++ [.clear ⟨-1, -1⟩ ⟨1, 1⟩]) exTree).isSome = true := by
        decide +kernel
      rw [h0] at this; simp at this
    obtain ⟨t, ht⟩ := Option.ne_none_iff_exists'.1 h2
    have h3 := run_mono (le_max_right f 5) le_rfl _ _ _ ht
    have h4 : (run 200000 exBox 5 (.clear ⟨-1, -1⟩ ⟨1, 1⟩ :: (List.range 17).map .add ++ [.clear ⟨-1, -1⟩ ⟨1, 1⟩]) exTree).bind
        (fun s => s.remove 16) = none := by
      have : ((run 200000 exBox 5 (.clear ⟨-1, -1⟩ ⟨1, 1⟩ :: (List.range 17).map .add ++ [.clear ⟨-1, -1⟩ ⟨1, 1⟩]) exTree).bind
        (fun s => s.remove 16)).isSome = false := by decide +kernel
      simpa using this
    rw [ht, Option.bind_some] at h4
    rw [run_append, h3, Option.bind_some] at h1
    have h5 : (t.remove 16).bind (run 200000 exBox (max f 5) []) = some s := h1
    rw [h4] at h5; simp at h5

end QuadTree
end MGL
