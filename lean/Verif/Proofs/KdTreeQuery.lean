import Verif.Proofs.KdTree
import Verif.Spec.Query
import Mathlib.Data.List.Nodup
import Mathlib.Data.List.Forall2

/-! Lemmas for the box query of the kd-tree. -/

set_option linter.unusedSectionVars false

namespace MGL.KdTree
variable {T α : Type*} [Field α] [LinearOrder α] [IsStrictOrderedRing α]

/-- The name of a tree that is a leaf. -/
def leafName : KdT α → List ℕ
  | .leaf i _ => [i]
  | .node _ _ _ _ => []

/-- The leaves below a split for which the query calls the callback, in the order of the calls. -/
def seen (q : AABB α) : KdT α → List ℕ
  | .leaf _ _ => []
  | .node ax p l r =>
    (if q.minPoint.get ax ≤ p then leafName l else []) ++ ((if q.maxPoint.get ax ≥ p then leafName r else []) ++
    ((if q.maxPoint.get ax ≥ p then seen q r else []) ++ (if q.minPoint.get ax ≤ p then seen q l else [])))

/-- The step does not lead away from the box. -/
def StepOk (q : AABB α) (st : KdStep α) : Prop :=
  if st.right then st.pos ≤ q.maxPoint.get st.axis else q.minPoint.get st.axis ≤ st.pos

theorem mem_seen (q : AABB α) (t : KdT α) (n : ℕ) :
    n ∈ leafName t ++ seen q t ↔ ∃ w os, t.LeafAt w n os ∧ ∀ st ∈ w, StepOk q st := by
  induction t generalizing n with
  | leaf i os =>
    simp only [leafName, seen, List.append_nil, List.mem_singleton]
    constructor
    · rintro rfl; exact ⟨[], os, .leaf _ _, by simp⟩
    · rintro ⟨w, os', h, _⟩; cases h; rfl
  | node ax p l r ihl ihr =>
    have h : n ∈ leafName (.node ax p l r) ++ seen q (.node ax p l r) ↔
        (q.minPoint.get ax ≤ p ∧ n ∈ leafName l ++ seen q l) ∨ (p ≤ q.maxPoint.get ax ∧ n ∈ leafName r ++ seen q r) := by
      simp only [leafName, seen, List.nil_append, List.mem_append, List.mem_ite_nil_right, ge_iff_le]
      tauto
    rw [h, ihl, ihr]
    constructor
    · rintro (⟨h1, w, os, h2, h3⟩ | ⟨h1, w, os, h2, h3⟩)
      · refine ⟨_, os, .left _ _ _ _ _ _ _ h2, fun st hst => ?_⟩
        rcases List.mem_cons.1 hst with rfl | hst
        · simpa [StepOk] using h1
        · exact h3 st hst
      · refine ⟨_, os, .right _ _ _ _ _ _ _ h2, fun st hst => ?_⟩
        rcases List.mem_cons.1 hst with rfl | hst
        · simpa [StepOk] using h1
        · exact h3 st hst
    · rintro ⟨w, os, h1, h2⟩
      cases h1 with
      | left _ _ _ _ w _ _ h =>
        have := h2 _ (List.mem_cons_self ..)
        exact Or.inl ⟨by simpa [StepOk] using this, w, os, h, fun st hst => h2 st (by simp [hst])⟩
      | right _ _ _ _ w _ _ h =>
        have := h2 _ (List.mem_cons_self ..)
        exact Or.inr ⟨by simpa [StepOk] using this, w, os, h, fun st hst => h2 st (by simp [hst])⟩

theorem leafAt_name {t : KdT α} {w : List (KdStep α)} {n : ℕ} {os : List ℕ} (h : t.LeafAt w n os) : n ∈ t.names := by
  induction h with
  | leaf => simp [KdT.names]
  | left _ _ _ _ _ _ _ _ ih => simp [KdT.names, ih]
  | right _ _ _ _ _ _ _ _ ih => simp [KdT.names, ih]

theorem seen_names (q : AABB α) (t : KdT α) {n : ℕ} (h : n ∈ leafName t ++ seen q t) : n ∈ t.names := by
  obtain ⟨w, os, h1, _⟩ := (mem_seen q t n).1 h
  exact leafAt_name h1

theorem seen_nodup (q : AABB α) (t : KdT α) (h : t.names.Nodup) : (leafName t ++ seen q t).Nodup := by
  induction t with
  | leaf i os => simp [leafName, seen]
  | node ax p l r ihl ihr =>
    rw [KdT.names, List.nodup_append] at h
    obtain ⟨h1, h2, h3⟩ := h
    have il := ihl h1
    have ir := ihr h2
    rw [List.nodup_append] at il ir
    have ml : ∀ n, n ∈ leafName l → n ∈ l.names := fun n hn => seen_names q l (by simp [hn])
    have ml' : ∀ n, n ∈ seen q l → n ∈ l.names := fun n hn => seen_names q l (by simp [hn])
    have mr : ∀ n, n ∈ leafName r → n ∈ r.names := fun n hn => seen_names q r (by simp [hn])
    have mr' : ∀ n, n ∈ seen q r → n ∈ r.names := fun n hn => seen_names q r (by simp [hn])
    simp only [leafName, seen, List.nil_append, List.nodup_append, List.mem_append, List.mem_ite_nil_right]
    have n1 : ∀ (c : Prop) [Decidable c] (m : List ℕ), m.Nodup → (if c then m else []).Nodup := by
      intro c _ m hm; split_ifs; exacts [hm, List.nodup_nil]
    refine ⟨n1 _ _ il.1, ⟨n1 _ _ ir.1, ⟨n1 _ _ ir.2.1, n1 _ _ il.2.1, ?_⟩, ?_⟩, ?_⟩
    · rintro a ⟨_, ha⟩ b ⟨_, hb⟩ rfl
      exact h3 a (ml' a hb) a (mr' a ha) rfl
    · rintro a ⟨_, ha⟩ b (⟨_, hb⟩ | ⟨_, hb⟩)
      · exact ir.2.2 a ha b hb
      · rintro rfl; exact h3 a (ml' a hb) a (mr a ha) rfl
    · rintro a ⟨_, ha⟩ b (⟨_, hb⟩ | ⟨_, hb⟩ | ⟨_, hb⟩)
      · exact h3 a (ml a ha) b (mr b hb)
      · exact h3 a (ml a ha) b (mr' b hb)
      · exact il.2.2 a ha b hb

/-- The trees on the stack leave room for their descendants. -/
def Room : List (KdT α) → Prop
  | [] => True
  | t :: ts => ts.length + 1 + t.height ≤ 31 ∧ Room ts

/-- The tree is a split. -/
def IsNode : KdT α → Prop
  | .leaf _ _ => False
  | .node _ _ _ _ => True

variable {s : KdTree T α} {P Q : ℕ → Prop}

theorem rep_isLeaf {i : ℕ} {t : KdT α} (h : Rep s P Q i t) : (s.isLeaf i = true ∧ leafName t = [i] ∧ ¬ IsNode t) ∨
    (s.isLeaf i = false ∧ leafName t = [] ∧ IsNode t) := by
  cases h with
  | leaf i b h1 h2 h3 => left; simp [isLeaf, h2, leafName, IsNode]
  | node i ax p c l r h1 h2 _ _ => right; simp [isLeaf, h2, leafName, IsNode]

/-- The stack of trees after a child was looked at. -/
def pushT (t : KdT α) (ts : List (KdT α)) : List (KdT α) :=
  match t with
  | .leaf _ _ => ts
  | .node _ _ _ _ => t :: ts

/-- The nodes on the stack are the splits `ts`. -/
def Stack (s : KdTree T α) (P Q : ℕ → Prop) (is : List ℕ) (ts : List (KdT α)) : Prop :=
  List.Forall₂ (fun i t => Rep s P Q i t ∧ IsNode t) is ts

theorem Stack.length_eq {is : List ℕ} {ts : List (KdT α)} (h : Stack s P Q is ts) : is.length = ts.length :=
  List.Forall₂.length_eq h

theorem queryChild_spec {c : ℕ} {t : KdT α} {is : List ℕ} {ts : List (KdT α)} (h : Rep s P Q c t)
    (hs : Stack s P Q is ts) (hlen : ts.length < 60) :
    ∃ is', s.queryChild (fun _ => false) c is = some (false, leafName t, is') ∧ Stack s P Q is' (pushT t ts) := by
  rcases rep_isLeaf h with ⟨h1, h2, h3⟩ | ⟨h1, h2, h3⟩
  · refine ⟨is, by simp [queryChild, h1, h2], ?_⟩
    cases t with
    | leaf => exact hs
    | node => exact absurd trivial h3
  · refine ⟨c :: is, ?_, ?_⟩
    · simp [queryChild, h1, h2, maxTreeDepth, hs.length_eq, hlen]
    · cases t with
      | leaf => exact absurd h3 (by simp [IsNode])
      | node => exact List.Forall₂.cons ⟨h, h3⟩ hs

theorem room_push {t : KdT α} {ts : List (KdT α)} (h : Room ts) (ht : ts.length + 1 + t.height ≤ 31) :
    Room (pushT t ts) := by
  cases t with
  | leaf => exact h
  | node => exact ⟨ht, h⟩

theorem len_push (t : KdT α) (ts : List (KdT α)) : (pushT t ts).length ≤ ts.length + 1 := by
  cases t <;> simp [pushT]

theorem seen_push (q : AABB α) (t : KdT α) (ts : List (KdT α)) :
    (pushT t ts).flatMap (seen q) = seen q t ++ ts.flatMap (seen q) := by
  cases t <;> simp [pushT, seen]

theorem inner_push (t : KdT α) (ts : List (KdT α)) :
    ((pushT t ts).map KdT.inner).sum = t.inner + (ts.map KdT.inner).sum := by
  cases t <;> simp [pushT, KdT.inner]

theorem height_pos (t : KdT α) : 1 ≤ t.height := by cases t <;> simp [KdT.height]

theorem queryLoop_spec (q : AABB α) (f : ℕ) : ∀ (is : List ℕ) (ts : List (KdT α)), Stack s P Q is ts → Room ts →
    (ts.map KdT.inner).sum ≤ f → s.queryLoop q (fun _ => false) f is = some (ts.flatMap (seen q)) := by
  induction f with
  | zero =>
    intro is ts hs hr hf
    cases hs with
    | nil => rfl
    | cons h hs =>
      rename_i i t is ts
      obtain ⟨_, h⟩ := h
      cases t with
      | leaf => exact absurd h (by simp [IsNode])
      | node => simp [KdT.inner] at hf
  | succ f ih =>
    intro is ts hs hr hf
    cases hs with
    | nil => rfl
    | cons h hs =>
      rename_i i t is ts
      obtain ⟨hrep, hnode⟩ := h
      cases hrep with
      | leaf => exact absurd hnode (by simp [IsNode])
      | node _ ax p c l r h1 h2 hl hrr =>
        obtain ⟨hlen, hr⟩ := hr
        simp only [KdT.height] at hlen
        simp only [List.map_cons, List.sum_cons, KdT.inner] at hf
        have hs : Stack s P Q is ts := hs
        have pl := height_pos l
        have pr := height_pos r
        rw [queryLoop, h2]
        dsimp only
        -- the left child
        have left : ∃ is1 ts1, (if q.minPoint.get ax ≤ p then s.queryChild (fun _ => false) c is else some (false, [], is)) =
            some (false, (if q.minPoint.get ax ≤ p then leafName l else []), is1) ∧ Stack s P Q is1 ts1 ∧ Room ts1 ∧
            ts1.length ≤ ts.length + 1 ∧ (ts1.map KdT.inner).sum ≤ l.inner + (ts.map KdT.inner).sum ∧
            ts1.flatMap (seen q) = (if q.minPoint.get ax ≤ p then seen q l else []) ++ ts.flatMap (seen q) := by
          split_ifs with hc
          · obtain ⟨is1, e1, e2⟩ := queryChild_spec hl hs (by omega)
            exact ⟨is1, _, e1, e2, room_push hr (by omega), len_push _ _, (inner_push _ _).le, seen_push _ _ _⟩
          · exact ⟨is, ts, rfl, hs, hr, by omega, by omega, rfl⟩
        obtain ⟨is1, ts1, e1, hs1, hr1, hl1, hi1, hc1⟩ := left
        rw [e1]
        simp only [Option.bind_some, Bool.false_eq_true, if_false]
        have right : ∃ is2 ts2, (if q.maxPoint.get ax ≥ p then s.queryChild (fun _ => false) (c + 1) is1 else some (false, [], is1)) =
            some (false, (if q.maxPoint.get ax ≥ p then leafName r else []), is2) ∧ Stack s P Q is2 ts2 ∧ Room ts2 ∧
            (ts2.map KdT.inner).sum ≤ r.inner + (ts1.map KdT.inner).sum ∧
            ts2.flatMap (seen q) = (if q.maxPoint.get ax ≥ p then seen q r else []) ++ ts1.flatMap (seen q) := by
          split_ifs with hc
          · obtain ⟨is1, e1, e2⟩ := queryChild_spec hrr hs1 (by omega)
            exact ⟨is1, _, e1, e2, room_push hr1 (by omega), (inner_push _ _).le, seen_push _ _ _⟩
          · exact ⟨is1, ts1, rfl, hs1, hr1, by omega, rfl⟩
        obtain ⟨is2, ts2, e2, hs2, hr2, hi2, hc2⟩ := right
        rw [e2]
        simp only [Option.bind_some, Bool.false_eq_true, if_false]
        rw [ih is2 ts2 hs2 hr2 (by omega), hc2, hc1]
        simp only [Option.map_some, List.flatMap_cons, seen, List.append_assoc]

theorem upTo_app {X : Type*} (p : X → Bool) (l m : List X) :
    Spec.upTo p (l ++ m) = if l.any p then Spec.upTo p l else l ++ Spec.upTo p m := by
  induction l with
  | nil => simp
  | cons x l ih =>
    simp only [List.cons_append, Spec.upTo, List.any_cons]
    by_cases hx : p x = true
    · simp [hx]
    · simp only [hx, Bool.false_eq_true, if_false, Bool.false_or, ih]
      split_ifs <;> simp

/-- What a child does when the callback can stop. -/
theorem queryChild_stop (stop : ℕ → Bool) (c : ℕ) (is : List ℕ) {l st : List ℕ}
    (h : s.queryChild (fun _ => false) c is = some (false, l, st)) :
    s.queryChild stop c is = some (l.any stop, l, st) ∧ Spec.upTo stop l = l := by
  unfold queryChild at *
  split_ifs at h ⊢ with h1 h2
  · simp only [Option.some.injEq, Prod.mk.injEq, true_and] at h
    obtain ⟨rfl, rfl⟩ := h
    simp [Spec.upTo]
  · simp only [Option.some.injEq, Prod.mk.injEq, true_and] at h
    obtain ⟨rfl, rfl⟩ := h
    simp [Spec.upTo]

theorem queryChild_flag (c : ℕ) (is : List ℕ) {r : Bool × List ℕ × List ℕ}
    (h : s.queryChild (fun _ => false) c is = some r) : r.1 = false := by
  unfold queryChild at h
  split_ifs at h <;> simp only [Option.some.injEq] at h <;> rw [← h]

theorem queryLoop_stop (q : AABB α) (stop : ℕ → Bool) (f : ℕ) : ∀ (is calls : List ℕ),
    s.queryLoop q (fun _ => false) f is = some calls → s.queryLoop q stop f is = some (Spec.upTo stop calls) := by
  induction f with
  | zero =>
    intro is calls h
    cases is with
    | nil => simp only [queryLoop, Option.some.injEq] at h ⊢; rw [← h]; rfl
    | cons => simp [queryLoop] at h
  | succ f ih =>
    intro is calls h
    cases is with
    | nil => simp only [queryLoop, Option.some.injEq] at h ⊢; rw [← h]; rfl
    | cons i is =>
      rw [queryLoop] at h ⊢
      rcases hn : s.nodes i with b | ⟨ax, p, c⟩
      · rw [hn] at h; simp at h
      rw [hn] at h
      dsimp only at h ⊢
      -- one child
      have child : ∀ (cond : Prop) [Decidable cond] (c : ℕ) (is : List ℕ) (r : Bool × List ℕ × List ℕ),
          (if cond then s.queryChild (fun _ => false) c is else some (false, [], is)) = some r →
          r.1 = false ∧ (if cond then s.queryChild stop c is else some (false, [], is)) = some (r.2.1.any stop, r.2) ∧
          Spec.upTo stop r.2.1 = r.2.1 := by
        intro cond _ c is r hr
        split_ifs at hr ⊢ with hc
        · have hf := queryChild_flag c is hr
          obtain ⟨a, l, st⟩ := r
          simp only at hf
          subst hf
          exact ⟨rfl, queryChild_stop stop c is hr⟩
        · cases hr; simp [Spec.upTo]
      rw [Option.bind_eq_some_iff] at h
      obtain ⟨r1, hr1, h⟩ := h
      obtain ⟨f1, c1, u1⟩ := child _ _ _ _ hr1
      rw [f1] at h
      simp only [Bool.false_eq_true, if_false] at h
      rw [Option.bind_eq_some_iff] at h
      obtain ⟨r2, hr2, h⟩ := h
      obtain ⟨f2, c2, u2⟩ := child _ _ _ _ hr2
      rw [f2] at h
      simp only [Bool.false_eq_true, if_false, Option.map_eq_some_iff] at h
      obtain ⟨rest, hrest, rfl⟩ := h
      rw [c1, Option.bind_some]
      dsimp only
      rw [upTo_app, upTo_app, u1, u2]
      by_cases g1 : r1.2.1.any stop = true
      · rw [if_pos g1, if_pos g1]
      rw [if_neg g1, if_neg g1, c2, Option.bind_some]
      dsimp only
      by_cases g2 : r2.2.1.any stop = true
      · rw [if_pos g2, if_pos g2]
      rw [if_neg g2, if_neg g2]
      rw [ih _ _ hrest]; rfl

/-- The box around the objects is a box around each of them. -/
theorem meets_root {box : T → AABB α} {t : KdT α} (h : Built box s t) (hok : BoxesOk box s.objects) {o : ℕ}
    (ho : o < s.objects.length) {b q : AABB α} (hb : objectBox box s.objects o = some b) (hq : q.intersectsAABB b = true) :
    meets q s.rootAABB = true := by
  obtain ⟨c, hc, _, hin⟩ := bounding_spec (box := box) hok (bucket := List.range s.objects.length)
    (fun o ho => List.mem_range.1 ho) (by intro e; rw [List.range_eq_nil] at e; omega)
  rw [h.bounding, hc]
  rw [meets, inter_iff]
  rw [inter_iff] at hq
  intro ax
  have h1 := hin o (List.mem_range.2 ho) b hb ax
  exact ⟨lt_of_lt_of_le (hq ax).1 h1.2, lt_of_le_of_lt h1.1 (hq ax).2⟩

theorem aabbQuery_spec {box : T → AABB α} {t : KdT α} (h : Built box s t) (q : AABB α) (f : ℕ) (hf : s.size ≤ f) :
    s.aabbQuery q (fun _ => false) f =
      some (if meets q s.rootAABB = true then leafName t ++ seen q t else []) := by
  unfold aabbQuery
  cases hm : meets q s.rootAABB with
  | false => simp
  | true =>
    simp only [Bool.not_true, Bool.false_eq_true, if_false, if_true, root, if_pos h.one_lt]
    have hc := h.count
    rcases rep_isLeaf h.rep with ⟨h1, h2, h3⟩ | ⟨h1, h2, h3⟩
    · rw [if_pos h1, h2]
      cases t with
      | leaf => rfl
      | node => exact absurd trivial h3
    · rw [h1, h2]
      simp only [Bool.false_eq_true, if_false, List.nil_append]
      have hh := h.height
      have := queryLoop_spec (s := s) q f [1] [t] (List.Forall₂.cons ⟨h.rep, h3⟩ List.Forall₂.nil)
        ⟨by simp only [List.length_nil]; omega, trivial⟩ (by simp only [List.map_cons, List.map_nil, List.sum_cons, List.sum_nil]; omega)
      rw [this]; simp

theorem aabbQuery_stop {box : T → AABB α} {t : KdT α} (h : Built box s t) (q : AABB α) (stop : ℕ → Bool) (f : ℕ)
    (calls : List ℕ) (hc : s.aabbQuery q (fun _ => false) f = some calls) :
    s.aabbQuery q stop f = some (Spec.upTo stop calls) := by
  unfold aabbQuery at *
  cases hm : meets q s.rootAABB with
  | false => rw [hm] at hc; simp only [Bool.not_false, if_true, Option.some.injEq] at hc ⊢; rw [← hc]; rfl
  | true =>
    rw [hm] at hc
    simp only [Bool.not_true, Bool.false_eq_true, if_false, root, if_pos h.one_lt] at hc ⊢
    split_ifs at hc ⊢ with h1
    · simp only [Option.some.injEq] at hc ⊢; rw [← hc]; simp [Spec.upTo]
    · exact queryLoop_stop q stop f _ _ hc

/-- An object that overlaps the query box is in a leaf that is reached. -/
theorem seen_object {box : T → AABB α} {objs : List T} {os : List ℕ} {t : KdT α} (h : Good box objs os t) {q : AABB α}
    (hq : BoxOk q) : ∀ o ∈ os, ∀ b, objectBox box objs o = some b → q.intersectsAABB b = true →
    ∃ w n l, t.LeafAt w n l ∧ o ∈ l ∧ ∀ st ∈ w, StepOk q st := by
  induction h with
  | leaf i os => intro o ho b _ _; exact ⟨[], i, os, .leaf _ _, ho, by simp⟩
  | node os lo ro ax p l r _ _ _ _ _ _ h3 h4 h5 ih1 ih2 =>
    intro o ho b hb hqb
    have hx := (inter_iff q b).1 hqb ax
    have hqx := hq ax
    have goLeft : o ∈ lo → q.minPoint.get ax ≤ p → ∃ w n m, (KdT.node ax p l r).LeafAt w n m ∧ o ∈ m ∧ ∀ st ∈ w, StepOk q st := by
      intro h1 h2
      obtain ⟨w, n, m, a1, a2, a3⟩ := ih1 o h1 b hb hqb
      refine ⟨_, n, m, .left _ _ _ _ _ _ _ a1, a2, fun st hst => ?_⟩
      rcases List.mem_cons.1 hst with rfl | hst
      · simpa [StepOk] using h2
      · exact a3 st hst
    have goRight : o ∈ ro → p ≤ q.maxPoint.get ax → ∃ w n m, (KdT.node ax p l r).LeafAt w n m ∧ o ∈ m ∧ ∀ st ∈ w, StepOk q st := by
      intro h1 h2
      obtain ⟨w, n, m, a1, a2, a3⟩ := ih2 o h1 b hb hqb
      refine ⟨_, n, m, .right _ _ _ _ _ _ _ a1, a2, fun st hst => ?_⟩
      rcases List.mem_cons.1 hst with rfl | hst
      · simpa [StepOk] using h2
      · exact a3 st hst
    by_cases hl : o ∈ lo
    · by_cases hm : q.minPoint.get ax ≤ p
      · exact goLeft hl hm
      · push Not at hm
        refine goRight ?_ (hm.le.trans hqx)
        by_contra hr
        have := h5 o ho hr b hb
        linarith [hx.1]
    · have hr := (h3 o ho).resolve_left hl
      have := h4 o ho hl b hb
      exact goRight hr (by linarith [hx.2])

end MGL.KdTree
