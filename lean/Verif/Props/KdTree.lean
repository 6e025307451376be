import Verif.Proofs.KdTreeQuery
import Mathlib.Algebra.Order.Field.Rat
import Mathlib.Tactic.NormNum

/-! C47 and C48: building the kd-tree and querying it with a box. -/

set_option linter.unusedSectionVars false

namespace MGL
namespace KdTree
variable {T α : Type*} [Field α] [LinearOrder α] [IsStrictOrderedRing α]

/-- The node `i` is the root of the tree `t`. All the nodes and buckets of the tree are inside the vectors, the indices of
the child nodes fit in the 30 bits of the field `childIndex`, and no leaf uses the bucket 0. The name of a leaf is the index of
its node. -/
def Shows (s : KdTree T α) : ℕ → KdT α → Prop
  | i, .leaf n os => n = i ∧ 0 < i ∧ i < s.size ∧ ∃ b, s.nodes i = .leaf b ∧ 0 < b ∧ b < s.numBuckets ∧ s.buckets b = os
  | i, .node ax p l r => 0 < i ∧ i < s.size ∧ ∃ c, s.nodes i = .inner ax p c ∧ c + 1 < 2 ^ 30 ∧ s.Shows c l ∧ s.Shows (c + 1) r

theorem rep_index {s : KdTree T α} {P Q : ℕ → Prop} {i : ℕ} {t : KdT α} (h : Rep s P Q i t) : P i := by
  cases h <;> assumption

theorem shows_of_rep {s : KdTree T α} (hs : s.size ≤ 2 ^ 30) {i : ℕ} {t : KdT α}
    (h : Rep s (fun j => 1 ≤ j ∧ j < s.size) (fun k => 1 ≤ k ∧ k < s.numBuckets) i t) : s.Shows i t := by
  induction h with
  | leaf i b h1 h2 h3 => exact ⟨rfl, h1.1, h1.2, b, h2, h3.1, h3.2, rfl⟩
  | node i ax p c l r h1 h2 hl hr ihl ihr =>
    have := (rep_index hr).2
    exact ⟨h1.1, h1.2, c, h2, by omega, ihl, ihr⟩

theorem shows_leaf {s : KdTree T α} {t : KdT α} {w : List (KdStep α)} {n : ℕ} {os : List ℕ} (hl : t.LeafAt w n os) :
    ∀ i, s.Shows i t → s.leafObjects n = os := by
  induction hl with
  | leaf j os =>
    rintro i ⟨rfl, _, _, b, h1, _, _, h2⟩
    rw [leafObjects, h1]; exact h2
  | left ax p l r w j os _ ih =>
    rintro i ⟨_, _, c, _, _, h1, _⟩
    exact ih c h1
  | right ax p l r w j os _ ih =>
    rintro i ⟨_, _, c, _, _, _, h1⟩
    exact ih _ h1

theorem height_of_rep {s : KdTree T α} {P Q : ℕ → Prop} {i : ℕ} {t : KdT α} (h : Rep s P Q i t) :
    ∀ f, t.height ≤ f → s.treeHeightAt f i = some t.height := by
  induction h with
  | leaf i b h1 h2 h3 =>
    intro f hf
    cases f with
    | zero => simp [KdT.height] at hf
    | succ f => rw [treeHeightAt, h2]; rfl
  | node i ax p c l r h1 h2 hl hr ihl ihr =>
    intro f hf
    simp only [KdT.height] at hf
    cases f with
    | zero => omega
    | succ f =>
      rw [treeHeightAt, h2]
      dsimp only
      rw [ihl f (by omega), ihr f (by omega)]; rfl

/-- C47: after any history of `AddObjects`, `Build` and `Clear` that ends with `Build`, the tree holds the objects added since the
last `Clear`, in order. Its nodes form a tree inside the vectors, of height at most 30 and with at most `2 ^ 30` nodes, so that the
child indices fit in their 30 bits. Distinct leaves are distinct nodes. Every object is in at least one leaf, and every index
stored in a leaf is an object. `NumNodes`, `NumLeaves`, `NumInnerNodes`, `NumObjects` and `TreeHeight` report the tree. -/
theorem C47_build (box : T → AABB α) (hbox : ∀ t ax, (box t).minPoint.get ax ≤ (box t).maxPoint.get ax)
    (g : Option (AABB α)) (ops : List (KdOp T)) (s : KdTree T α) (hs : run box g (ops ++ [.build]) = s) :
    s.objects = Spec.kdContent ops ∧ s.numObjects = (Spec.kdContent ops).length ∧
    ∃ t : KdT α, s.Shows 1 t ∧ t.height ≤ 30 ∧ s.size ≤ 2 ^ 30 ∧ t.names.Nodup ∧
      (∀ o < (Spec.kdContent ops).length, ∃ w n os, t.LeafAt w n os ∧ o ∈ os) ∧
      (∀ w n os, t.LeafAt w n os → ∀ o ∈ os, o < (Spec.kdContent ops).length) ∧
      s.numNodes = t.leaves + t.inner ∧ s.numLeaves = t.leaves ∧ s.numInnerNodes = t.inner ∧
      ∀ f ≥ 30, s.treeHeight f = some t.height := by
  subst hs
  obtain ⟨ho, t, h⟩ := run_build g hbox ops
  refine ⟨ho, by rw [numObjects, ho], t, shows_of_rep h.size_bound h.rep, h.height, h.size_bound, h.nodup, ?_, ?_, ?_, ?_, ?_, ?_⟩
  · intro o hlt
    exact h.good.mem o (List.mem_range.2 (by rw [ho]; exact hlt))
  · intro w n os hl o hos
    have := h.good.sub w n os hl hos
    rw [List.mem_range, ho] at this; exact this
  · have := h.count; rw [numNodes]; push_cast [this]; ring
  · exact h.leafCount
  · have h1 := h.leafCount
    have h2 := h.count
    generalize run box g (ops ++ [.build]) = s at *
    unfold numInnerNodes
    unfold cnt at h1
    have h3 : ∀ (l : List ℕ) (p : ℕ → Bool), (l.filter p).length + (l.filter fun i => !p i).length = l.length := by
      intro l p
      induction l with
      | nil => rfl
      | cons x l ih => cases hx : p x <;> simp [hx] <;> omega
    have h4 := h3 (List.range' 1 (s.size - 1)) fun i => s.isLeaf i
    rw [List.length_range'] at h4
    omega
  · intro f hf
    exact height_of_rep h.rep f (h.height.trans hf)

theorem shows_unique {s : KdTree T α} : ∀ (t t' : KdT α) (i : ℕ), s.Shows i t → s.Shows i t' → t = t' := by
  intro t
  induction t with
  | leaf n os =>
    rintro t' i ⟨rfl, _, _, b, h1, _, _, h2⟩ h'
    cases t' with
    | leaf n' os' =>
      obtain ⟨rfl, _, _, b', h1', _, _, h2'⟩ := h'
      rw [h1] at h1'; cases h1'
      rw [← h2, ← h2']
    | node ax p l r =>
      obtain ⟨_, _, c, h1', _⟩ := h'
      rw [h1] at h1'; cases h1'
  | node ax p l r ihl ihr =>
    rintro t' i ⟨_, _, c, h1, _, h2, h3⟩ h'
    cases t' with
    | leaf n' os' =>
      obtain ⟨rfl, _, _, b', h1', _, _, h2'⟩ := h'
      rw [h1] at h1'; cases h1'
    | node ax' p' l' r' =>
      obtain ⟨_, _, c', h1', _, h2', h3'⟩ := h'
      rw [h1] at h1'; cases h1'
      rw [ihl l' _ h2 h2', ihr r' _ h3 h3']

theorem run_size (box : T → AABB α) (hbox : ∀ t ax, (box t).minPoint.get ax ≤ (box t).maxPoint.get ax)
    (g : Option (AABB α)) (ops : List (KdOp T)) :
    (Spec.kdBuilt ops = true → 1 < (run box g ops).size) ∧ (Spec.kdBuilt ops = false → (run box g ops).size = 0) := by
  unfold run Spec.kdBuilt
  have : ∀ (s : KdTree T α) (b : Bool), (b = true → 1 < s.size) ∧ (b = false → s.size = 0) →
      (ops.foldl (fun b op => match op with | .addObjects _ => b | .build => true | .clear => false) b = true →
        1 < (ops.foldl (step box) s).size) ∧
      (ops.foldl (fun b op => match op with | .addObjects _ => b | .build => true | .clear => false) b = false →
        (ops.foldl (step box) s).size = 0) := by
    induction ops with
    | nil => intro s b h; exact h
    | cons op ops ih =>
      intro s b h
      refine ih _ _ ?_
      cases op with
      | addObjects os => exact h
      | build =>
        obtain ⟨_, t, ht⟩ := build_spec (box := box) s (fun t _ => hbox t)
        exact ⟨fun _ => ht.one_lt, by simp⟩
      | clear => exact ⟨by simp, fun _ => rfl⟩
  exact this _ _ ⟨by simp, fun _ => rfl⟩

/-- C47: after any history of calls, `NumObjects` is the number of objects added since the last `Clear`. There is a root
node exactly if the tree has been built since then; otherwise there are neither leaves nor inner nodes. -/
theorem C47_unbuilt (box : T → AABB α) (hbox : ∀ t ax, (box t).minPoint.get ax ≤ (box t).maxPoint.get ax)
    (g : Option (AABB α)) (ops : List (KdOp T)) (s : KdTree T α) (hs : run box g ops = s) :
    s.numObjects = (Spec.kdContent ops).length ∧ (s.root.isSome = true ↔ Spec.kdBuilt ops = true) ∧
    (Spec.kdBuilt ops = false → s.numLeaves = 0 ∧ s.numInnerNodes = 0) := by
  subst hs
  obtain ⟨h1, h2⟩ := run_size box hbox g ops
  refine ⟨by rw [numObjects, run_objects g hbox], ?_, fun h => ?_⟩
  · unfold root
    cases hb : Spec.kdBuilt ops with
    | true => rw [if_pos (h1 hb)]; simp
    | false => rw [if_neg (by have := h2 hb; omega)]; simp
  · have := h2 h
    simp [numLeaves, numInnerNodes, this]

/-- C47 fails for `NumNodes` of a tree that has not been built, or not since the last `Clear`: it is -1. -/
theorem C47_numNodes_violation (box : T → AABB α) (hbox : ∀ t ax, (box t).minPoint.get ax ≤ (box t).maxPoint.get ax)
    (g : Option (AABB α)) (ops : List (KdOp T)) (h : Spec.kdBuilt ops = false) : (run box g ops).numNodes = -1 := by
  rw [numNodes, (run_size box hbox g ops).2 h]; rfl

/-- C47: a leaf with more than 16 objects is at the largest depth, 29 steps below the root, or cannot be split: with the box around
its objects cut in half across its longest side, every object of the leaf goes into the left half or every object goes into the
right half. -/
theorem C47_leaf_capacity (box : T → AABB α) (hbox : ∀ t ax, (box t).minPoint.get ax ≤ (box t).maxPoint.get ax)
    (g : Option (AABB α)) (ops : List (KdOp T)) (s : KdTree T α) (hs : run box g (ops ++ [.build]) = s) (t : KdT α)
    (ht : s.Shows 1 t) (w : List (KdStep α)) (n : ℕ) (os : List ℕ) (hl : t.LeafAt w n os) (hlen : 16 < os.length) :
    w.length = 29 ∨ ∃ a, boundingAABB box (Spec.kdContent ops) os = some a ∧
      ((leftBucket box (Spec.kdContent ops) a os).length = os.length ∨
       (rightBucket box (Spec.kdContent ops) a os).length = os.length) := by
  subst hs
  obtain ⟨ho, t', h⟩ := run_build g hbox ops
  have e := shows_unique t t' 1 ht (shows_of_rep h.size_bound h.rep)
  subst e
  have := h.cap w n os hl
  rw [ho] at this
  rcases this with h | h | h
  · omega
  · exact Or.inl h
  · exact Or.inr h

/-- C47, C48: after any history that ends with `Build`, a box query stays inside its stack of 60 entries and ends, for every
query box and every callback: it returns a list of calls. -/
theorem C47_query_in_bounds (box : T → AABB α) (hbox : ∀ t ax, (box t).minPoint.get ax ≤ (box t).maxPoint.get ax)
    (g : Option (AABB α)) (ops : List (KdOp T)) (s : KdTree T α) (hs : run box g (ops ++ [.build]) = s)
    (q : AABB α) (stop : ℕ → Bool) (f : ℕ) (hf : s.size ≤ f) : ∃ calls, s.aabbQuery q stop f = some calls := by
  subst hs
  obtain ⟨ho, t, h⟩ := run_build g hbox ops
  exact ⟨_, aabbQuery_stop h q stop f _ (aabbQuery_spec h q f hf)⟩

/-- C48: after any history that ends with `Build`, `AABBQuery` with a proper box calls the callback on a list of leaves, up to and
including the first one for which the callback asks to stop, and on all of them if it never does. Each leaf comes once. The leaves
in the list together hold every object whose box has a point inside the query box. -/
theorem C48_aabbQuery_objects (box : T → AABB α) (hbox : ∀ t ax, (box t).minPoint.get ax ≤ (box t).maxPoint.get ax)
    (g : Option (AABB α)) (ops : List (KdOp T)) (s : KdTree T α) (hs : run box g (ops ++ [.build]) = s)
    (q : AABB α) (hq : ∀ ax, q.minPoint.get ax ≤ q.maxPoint.get ax) :
    ∃ calls, (∀ f ≥ s.size, ∀ stop, s.aabbQuery q stop f = some (Spec.upTo stop calls)) ∧ calls.Nodup ∧
      ∀ o x, (Spec.kdContent ops)[o]? = some x →
        (Spec.openBox q.minPoint q.maxPoint ∩ Spec.box (box x).minPoint (box x).maxPoint).Nonempty →
        ∃ n ∈ calls, o ∈ s.leafObjects n := by
  subst hs
  obtain ⟨ho, t, h⟩ := run_build g hbox ops
  have hok : BoxesOk box (run box g (ops ++ [.build])).objects := fun t _ => hbox t
  refine ⟨_, fun f hf stop => aabbQuery_stop h q stop f _ (aabbQuery_spec h q f hf), ?_, ?_⟩
  · split_ifs
    · exact seen_nodup q t h.nodup
    · exact List.nodup_nil
  · intro o x hx hne
    rw [← ho] at hx
    have hlt : o < (run box g (ops ++ [.build])).objects.length := by
      rw [List.getElem?_eq_some_iff] at hx; exact hx.1
    have hb : objectBox box (run box g (ops ++ [.build])).objects o = some (box x) := by simp [objectBox, hx]
    have hi : q.intersectsAABB (box x) = true := by
      obtain ⟨p, ⟨p1, p2, p3, p4, p5, p6⟩, r1, r2, r3, r4, r5, r6⟩ := hne
      rw [inter_iff, forall_fin3]
      simp only [V3.get_zero, V3.get_one, V3.get_two]
      refine ⟨⟨?_, ?_⟩, ⟨?_, ?_⟩, ?_, ?_⟩ <;> linarith
    rw [if_pos (meets_root h hok hlt hb hi)]
    obtain ⟨w, n, l, a1, a2, a3⟩ := seen_object h.good hq o (List.mem_range.2 hlt) _ hb hi
    refine ⟨n, (mem_seen q t n).2 ⟨w, l, a1, a3⟩, ?_⟩
    rw [shows_leaf a1 1 (shows_of_rep h.size_bound h.rep)]; exact a2

/-- C48: the leaves called when the query box overlaps the box around all objects are exactly those to which every step from the
root is open: a step to the left of a split needs a query box that starts at or before the split, a step to the right one that
ends at or behind it. -/
theorem C48_aabbQuery_leaves (box : T → AABB α) (hbox : ∀ t ax, (box t).minPoint.get ax ≤ (box t).maxPoint.get ax)
    (g : Option (AABB α)) (ops : List (KdOp T)) (s : KdTree T α) (hs : run box g (ops ++ [.build]) = s) (q : AABB α) :
    ∃ (t : KdT α) (calls : List ℕ), s.Shows 1 t ∧ (∀ f ≥ s.size, s.aabbQuery q (fun _ => false) f = some calls) ∧
      (¬(∃ a, s.rootAABB = some a ∧ q.intersectsAABB a = true) → calls = []) ∧
      ((∃ a, s.rootAABB = some a ∧ q.intersectsAABB a = true) → ∀ n, n ∈ calls ↔ ∃ w os, t.LeafAt w n os ∧
        ∀ st ∈ w, (st.right = false → q.minPoint.get st.axis ≤ st.pos) ∧ (st.right = true → st.pos ≤ q.maxPoint.get st.axis)) := by
  subst hs
  obtain ⟨ho, t, h⟩ := run_build g hbox ops
  generalize run box g (ops ++ [.build]) = s at *
  have hm : meets q s.rootAABB = true ↔ ∃ a, s.rootAABB = some a ∧ q.intersectsAABB a = true := by
    cases s.rootAABB <;> simp [meets]
  refine ⟨t, _, shows_of_rep h.size_bound h.rep, fun f hf => aabbQuery_spec h q f hf, fun hn => ?_, fun hy n => ?_⟩
  · rw [if_neg (by rw [hm]; exact hn)]
  · rw [if_pos (hm.2 hy), mem_seen]
    have : ∀ st : KdStep α, StepOk q st ↔ ((st.right = false → q.minPoint.get st.axis ≤ st.pos) ∧ (st.right = true → st.pos ≤ q.maxPoint.get st.axis)) := by
      intro st
      unfold StepOk
      cases st.right <;> simp
    simp only [this]

/-- C48 does not hold after `Clear`: `Clear` keeps the box around the former objects and drops the root node. A query with a box
that overlaps one of the former objects then reads through a null pointer. -/
theorem C48_query_after_clear_violation (box : T → AABB α)
    (hbox : ∀ t ax, (box t).minPoint.get ax ≤ (box t).maxPoint.get ax) (g : Option (AABB α)) (ops : List (KdOp T)) (x : T)
    (hx : x ∈ Spec.kdContent ops) (q : AABB α) (hq : q.intersectsAABB (box x) = true) (stop : ℕ → Bool) (f : ℕ) :
    (run box g (ops ++ [.build, .clear])).aabbQuery q stop f = none := by
  have e : run box g (ops ++ [.build, .clear]) = (run box g (ops ++ [.build])).clear := by simp [run, step]
  rw [e]
  obtain ⟨ho, t, h⟩ := run_build g hbox ops
  have hok : BoxesOk box (run box g (ops ++ [.build])).objects := fun t _ => hbox t
  rw [← ho] at hx
  obtain ⟨o, hlt, he⟩ := List.getElem_of_mem hx
  have hb : objectBox box (run box g (ops ++ [.build])).objects o = some (box x) := by
    simp [objectBox, List.getElem?_eq_getElem hlt, he]
  have := meets_root h hok hlt hb hq
  unfold aabbQuery
  have e2 : (run box g (ops ++ [.build])).clear.rootAABB = (run box g (ops ++ [.build])).rootAABB := rfl
  rw [e2, this]
  simp [root, clear]

/-! A tree of 40 boxes in a row, split three times. -/

/-- Unit boxes along the x axis. -/
def exBox (i : ℕ) : AABB ℚ := ⟨⟨2 * i, 0, 0⟩, ⟨2 * i + 1, 1, 1⟩⟩

example : ∀ t ax, (exBox t).minPoint.get ax ≤ (exBox t).maxPoint.get ax := by
  intro t ax
  fin_cases ax <;> simp [exBox]

/-- A history with a first set of objects that is cleared again. -/
def exOps : List (KdOp ℕ) :=
  [.addObjects [100, 50], .build, .clear, .addObjects (List.range 10), .addObjects (List.range' 10 30)]

example : Spec.kdBuilt (exOps ++ [.build]) = true ∧ Spec.kdBuilt exOps = false ∧ Spec.kdContent exOps ≠ [] := by decide

example : (run exBox none (exOps ++ [.build])).numLeaves = 4 ∧ (run exBox none (exOps ++ [.build])).numInnerNodes = 3 ∧
    (run exBox none (exOps ++ [.build])).treeHeight 30 = some 3 := by decide +kernel

example : (run exBox none (exOps ++ [.build])).aabbQuery ⟨⟨3, 0, 0⟩, ⟨5, 1, 1⟩⟩ (fun _ => false) 8 = some [4] ∧
    2 ∈ (run exBox none (exOps ++ [.build])).leafObjects 4 := by decide +kernel

example : (AABB.mk (⟨3, 0, 0⟩ : V3 ℚ) ⟨5, 1, 1⟩).intersectsAABB (exBox 2) = true ∧
    2 ∈ Spec.kdContent exOps := by decide +kernel

/-- Seventeen times the same box, which cannot be split: a leaf with 17 objects. -/
example : (run exBox none ([.addObjects (List.replicate 17 3)] ++ [.build])).Shows 1 (.leaf 1 (List.range 17)) :=
  ⟨rfl, by decide, by decide +kernel, 1, by decide +kernel, by decide, by decide +kernel, by decide +kernel⟩

end KdTree
end MGL
