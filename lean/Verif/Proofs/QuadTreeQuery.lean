import Verif.Proofs.QuadTreeRun
import Verif.Spec.Query

/-! The traversal of the quad tree by `AABBQuery` and by `CollidingPairsQuery`. -/

set_option linter.unusedSectionVars false

namespace MGL
namespace QuadTree
variable {T α : Type*} [DecidableEq T] [Field α] [LinearOrder α]

/-- `m` is `a` or below `a`. -/
inductive Desc (s : QuadTree T α) (a : ℕ) : ℕ → Prop
  | refl : Desc s a a
  | snoc {p c j : ℕ} : Desc s a p → s.child p = some c → j < 4 → Desc s a (c + j)

variable {s : QuadTree T α} {dep : ℕ → ℕ}

theorem Desc.trans {a b m : ℕ} (h : Desc s a b) (h' : Desc s b m) : Desc s a m := by
  induction h' with
  | refl => exact h
  | snoc _ hc hj ih => exact .snoc ih hc hj

theorem Desc.head {a m : ℕ} (h : Desc s a m) : m = a ∨ ∃ c j, s.child a = some c ∧ j < 4 ∧ Desc s (c + j) m := by
  induction h with
  | refl => exact Or.inl rfl
  | @snoc p c j hd hc hj ih =>
    rcases ih with rfl | ⟨c', j', h1, h2, h3⟩
    · exact Or.inr ⟨c, j, hc, hj, .refl⟩
    · exact Or.inr ⟨c', j', h1, h2, .snoc h3 hc hj⟩

theorem Desc.used (hw : Wf s dep) {a m : ℕ} (ha : s.Used a) (h : Desc s a m) : s.Used m := by
  induction h with
  | refl => exact ha
  | snoc _ hc hj ih => exact (hw.kids _ ih _ hc _ hj).1

theorem Desc.depth (hw : Wf s dep) {a m : ℕ} (ha : s.Used a) (h : Desc s a m) : m = a ∨ dep a < dep m := by
  induction h with
  | refl => exact Or.inl rfl
  | snoc hd hc hj ih =>
    right
    have := (hw.kids _ (hd.used hw ha) _ hc _ hj).2.2.2.1
    rcases ih with e | e
    · rw [e] at this; omega
    · omega

theorem Desc.linear (hw : Wf s dep) {a b m : ℕ} (ha : s.Used a) (hb : s.Used b) (h : Desc s a m) (h' : Desc s b m) : Desc s a b ∨ Desc s b a := by
  induction h with
  | refl => exact Or.inr h'
  | @snoc p c j hd hc hj ih =>
    generalize hm : c + j = m at h'
    cases h' with
    | refl => rw [← hm]; exact Or.inl (.snoc hd hc hj)
    | @snoc p' c' j' hd' hc' hj' =>
      have e1 := (hw.kids _ (hd.used hw ha) _ hc _ hj).2.2.1
      have e2 := (hw.kids _ (hd'.used hw hb) _ hc' _ hj').2.2.1
      rw [hm, e2, Option.some.injEq] at e1
      subst e1
      exact ih hd'

/-- The children the query pushes, last one first. -/
def sel (q : Rect α) (ctr : V2 α) (c : ℕ) : List ℕ :=
  (if q.maxPoint.x ≥ ctr.x ∧ q.minPoint.y ≤ ctr.y then [c + 1] else []) ++
  (if q.minPoint.x ≤ ctr.x ∧ q.maxPoint.y ≥ ctr.y then [c + 2] else []) ++
  (if q.maxPoint.x ≥ ctr.x ∧ q.maxPoint.y ≥ ctr.y then [c + 3] else []) ++
  (if q.minPoint.x ≤ ctr.x ∧ q.minPoint.y ≤ ctr.y then [c] else [])

/-- All nodes that are pushed. -/
def nextStack (s : QuadTree T α) (q : Rect α) (i : ℕ) : List ℕ :=
  match s.child i with
  | none => []
  | some c => sel q (s.center i) c

theorem queryLoop_cons (q : Rect α) (stop : ℕ → Bool) (f i : ℕ) (st : List ℕ) : queryLoop s q stop (f + 1) (i :: st) =
    if (!(s.objects i).isEmpty && stop i) = true then some [i] else
      (queryLoop s q stop f (nextStack s q i ++ st)).map fun l => if (!(s.objects i).isEmpty) = true then i :: l else l := by
  rw [queryLoop]
  congr 1
  unfold nextStack
  cases s.child i with
  | none => rfl
  | some c =>
    simp only [sel]
    congr 2
    split_ifs <;> simp

theorem mem_sel {q : Rect α} {ctr : V2 α} {c k : ℕ} (h : k ∈ sel q ctr c) : ∃ j < 4, k = c + j := by
  simp only [sel, List.mem_append] at h
  rcases h with ((h | h) | h) | h <;> split_ifs at h
  all_goals first | (simp at h; done) | skip
  · exact ⟨1, by omega, by simpa using h⟩
  · exact ⟨2, by omega, by simpa using h⟩
  · exact ⟨3, by omega, by simpa using h⟩
  · exact ⟨0, by omega, by simpa using h⟩

theorem sel_sublist (q : Rect α) (ctr : V2 α) (c : ℕ) : (sel q ctr c).Sublist [c + 1, c + 2, c + 3, c] := by
  unfold sel
  have h1 : ∀ (p : Prop) [Decidable p] (x : ℕ), (if p then [x] else []).Sublist [x] := fun p _ x => by split_ifs <;> simp
  exact (((h1 _ (c + 1)).append (h1 _ (c + 2))).append (h1 _ (c + 3))).append (h1 _ c)

theorem sel_nodup (q : Rect α) (ctr : V2 α) (c : ℕ) : (sel q ctr c).Nodup :=
  (sel_sublist q ctr c).nodup (by simp)

theorem mem_nextStack (hw : Wf s dep) {q : Rect α} {i k : ℕ} (hi : s.Used i) (h : k ∈ nextStack s q i) :
    s.Used k ∧ dep k = dep i + 1 ∧ Desc s i k ∧ s.parent k = some i := by
  unfold nextStack at h
  cases hc : s.child i with
  | none => rw [hc] at h; simp at h
  | some c =>
    rw [hc] at h
    obtain ⟨j, hj, rfl⟩ := mem_sel h
    obtain ⟨k1, k2, k3, k4, k5, k6⟩ := hw.kids i hi c hc j hj
    exact ⟨k1, k4, .snoc .refl hc hj, k3⟩

variable [IsStrictOrderedRing α]

theorem Wf.radius_pos (hw : Wf s dep) {i : ℕ} (hi : s.Used i) : 0 < (s.radius i).x ∧ 0 < (s.radius i).y := by
  obtain ⟨e1, e2⟩ := hw.radius_eq (dep i) i rfl hi
  have hx : 0 < (s.radius s.root).x := by
    rw [hw.root_radius, hw.root_center]; have := hw.pos_x; dsimp only; linarith
  have hy : 0 < (s.radius s.root).y := by
    rw [hw.root_radius, hw.root_center]; have := hw.pos_y; dsimp only; linarith
  rw [← e1] at hx
  rw [← e2] at hy
  exact ⟨(mul_pos_iff_of_pos_right (by positivity)).1 hx, (mul_pos_iff_of_pos_right (by positivity)).1 hy⟩

theorem contains_trans {a b c : Rect α} (h : a.contains b = true) (h' : b.contains c = true) : a.contains c = true := by
  rw [contains_iff] at *
  exact ⟨h.1.trans h'.1, h.2.1.trans h'.2.1, h'.2.2.1.trans h.2.2.1, h'.2.2.2.trans h.2.2.2⟩

theorem Desc.rect (hw : Wf s dep) {a m : ℕ} (ha : s.Used a) (h : Desc s a m) : (s.nodeRect a).contains (s.nodeRect m) = true := by
  induction h with
  | refl => rw [contains_iff]; exact ⟨le_rfl, le_rfl, le_rfl, le_rfl⟩
  | @snoc p c j hd hc hj ih =>
    refine contains_trans ih ?_
    have hp := hd.used hw ha
    obtain ⟨k1, k2, k3, k4, k5, k6⟩ := hw.kids p hp c hc j hj
    obtain ⟨rx, ry⟩ := hw.radius_pos hp
    rw [contains_iff]
    simp only [nodeRect, k5, k6, quadCenter, half]
    interval_cases j <;> simp <;> refine ⟨?_, ?_, ?_, ?_⟩ <;> linarith

theorem intersects_iff (a b : Rect α) : a.intersects b = true ↔
    b.minPoint.x ≤ a.maxPoint.x ∧ b.minPoint.y ≤ a.maxPoint.y ∧ a.minPoint.x ≤ b.maxPoint.x ∧ a.minPoint.y ≤ b.maxPoint.y := by
  simp [Rect.intersects, and_assoc]

/-- A child that holds an object in the query rectangle is pushed. -/
theorem sel_complete (hw : Wf s dep) {q b : Rect α} {i c j : ℕ} (hi : s.Used i) (hc : s.child i = some c) (hj : j < 4)
    (hb : (s.nodeRect (c + j)).contains b = true) (hq : q.intersects b = true) : c + j ∈ nextStack s q i := by
  unfold nextStack
  rw [hc]
  obtain ⟨k1, k2, k3, k4, k5, k6⟩ := hw.kids i hi c hc j hj
  rw [contains_iff] at hb
  rw [intersects_iff] at hq
  simp only [nodeRect, k5, k6, quadCenter, half] at hb
  obtain ⟨q1, q2, q3, q4⟩ := hq
  dsimp only [sel]
  simp only [List.mem_append]
  interval_cases j <;> simp at hb
  · refine Or.inr ?_
    rw [if_pos ⟨by linarith, by linarith⟩]; simp
  · refine Or.inl (Or.inl (Or.inl ?_))
    rw [if_pos ⟨by linarith, by linarith⟩]; simp
  · refine Or.inl (Or.inl (Or.inr ?_))
    rw [if_pos ⟨by linarith, by linarith⟩]; simp
  · refine Or.inl (Or.inr ?_)
    rw [if_pos ⟨by linarith, by linarith⟩]; simp

theorem queryLoop_stop (q : Rect α) (stop : ℕ → Bool) : ∀ (f : ℕ) (st l : List ℕ), queryLoop s q (fun _ => false) f st = some l →
    queryLoop s q stop f st = some (Spec.upTo stop l)
  | f, [], l, h => by
    cases f <;> (simp only [queryLoop, Option.some.injEq] at h ⊢; subst h; rfl)
  | 0, i :: st, l, h => by simp [queryLoop] at h
  | f + 1, i :: st, l, h => by
    rw [queryLoop_cons] at h ⊢
    rw [if_neg (by simp)] at h
    obtain ⟨l', h1, h2⟩ := Option.map_eq_some_iff.1 h
    have ih := queryLoop_stop q stop f _ l' h1
    rw [ih, Option.map_some]
    by_cases ho : (!(s.objects i).isEmpty) = true
    · rw [if_pos ho] at h2
      rw [← h2]
      by_cases hs : stop i = true
      · simp [ho, hs, Spec.upTo]
      · simp [ho, hs, Spec.upTo]
    · rw [if_neg ho] at h2
      simp only [Bool.not_eq_true] at ho
      rw [← h2]
      simp [ho]

theorem intersects_mono {q a b : Rect α} (h : a.contains b = true) (hq : q.intersects b = true) : q.intersects a = true := by
  rw [contains_iff] at h
  rw [intersects_iff] at hq ⊢
  exact ⟨by linarith [hq.1], by linarith [hq.2.1], by linarith [hq.2.2.1], by linarith [hq.2.2.2]⟩

/-- A pushed child meets the query rectangle if its parent does. -/
theorem sel_sound (hw : Wf s dep) {q : Rect α} {i k : ℕ} (hi : s.Used i) (hq : q.intersects (s.nodeRect i) = true) (h : k ∈ nextStack s q i) :
    q.intersects (s.nodeRect k) = true := by
  unfold nextStack at h
  cases hc : s.child i with
  | none => rw [hc] at h; simp at h
  | some c =>
    rw [hc] at h
    rw [intersects_iff] at hq ⊢
    simp only [nodeRect] at hq
    obtain ⟨q1, q2, q3, q4⟩ := hq
    obtain ⟨rx, ry⟩ := hw.radius_pos hi
    have key := fun j hj => (hw.kids i hi c hc j hj).2.2.2.2
    simp only [sel, List.mem_append] at h
    rcases h with ((h | h) | h) | h <;> split_ifs at h with hh
    all_goals first | (simp at h; done) | skip
    all_goals rw [List.mem_singleton] at h
    · obtain ⟨e1, e2⟩ := key 1 (by omega)
      rw [h]; simp only [nodeRect, e1, e2, quadCenter, half]; simp
      refine ⟨?_, ?_, ?_, ?_⟩ <;> linarith [hh.1, hh.2]
    · obtain ⟨e1, e2⟩ := key 2 (by omega)
      rw [h]; simp only [nodeRect, e1, e2, quadCenter, half]; simp
      refine ⟨?_, ?_, ?_, ?_⟩ <;> linarith [hh.1, hh.2]
    · obtain ⟨e1, e2⟩ := key 3 (by omega)
      rw [h]; simp only [nodeRect, e1, e2, quadCenter, half]; simp
      refine ⟨?_, ?_, ?_, ?_⟩ <;> linarith [hh.1, hh.2]
    · obtain ⟨e1, e2⟩ := key 0 (by omega)
      rw [Nat.add_zero] at e1 e2
      rw [h]; simp only [nodeRect, e1, e2, quadCenter, half]; simp
      refine ⟨?_, ?_, ?_, ?_⟩ <;> linarith [hh.1, hh.2]

theorem queryLoop_meets (hw : Wf s dep) (q : Rect α) : ∀ (f : ℕ) (st l : List ℕ), (∀ i ∈ st, s.Used i ∧ q.intersects (s.nodeRect i) = true) →
    queryLoop s q (fun _ => false) f st = some l → ∀ m ∈ l, q.intersects (s.nodeRect m) = true
  | f, [], l, _, h => by
    cases f <;> (simp only [queryLoop, Option.some.injEq] at h; subst h; simp)
  | 0, i :: st, l, _, h => by simp [queryLoop] at h
  | f + 1, i :: st, l, hu, h => by
    rw [queryLoop_cons, if_neg (by simp)] at h
    obtain ⟨l', h1, h2⟩ := Option.map_eq_some_iff.1 h
    have hi := hu i (by simp)
    have ih := queryLoop_meets hw q f _ l' (fun k hk => by
      rcases List.mem_append.1 hk with hk | hk
      · exact ⟨(mem_nextStack hw hi.1 hk).1, sel_sound hw hi.1 hi.2 hk⟩
      · exact hu k (List.mem_cons_of_mem _ hk)) h1
    rw [← h2]
    split_ifs
    · intro m hm
      rcases List.mem_cons.1 hm with rfl | hm
      · exact hi.2
      · exact ih m hm
    · exact ih

theorem queryLoop_complete (hw : Wf s dep) (q : Rect α) : ∀ (f : ℕ) (st l : List ℕ), (∀ i ∈ st, s.Used i) →
    queryLoop s q (fun _ => false) f st = some l → ∀ i ∈ st, ∀ m, Desc s i m → s.objects m ≠ [] → q.intersects (s.nodeRect m) = true → m ∈ l
  | f, [], l, _, h => by simp
  | 0, i :: st, l, _, h => by simp [queryLoop] at h
  | f + 1, i :: st, l, hu, h => by
    rw [queryLoop_cons, if_neg (by simp)] at h
    obtain ⟨l', h1, h2⟩ := Option.map_eq_some_iff.1 h
    have hi := hu i (by simp)
    have hu' : ∀ k ∈ nextStack s q i ++ st, s.Used k := by
      intro k hk
      rcases List.mem_append.1 hk with hk | hk
      · exact (mem_nextStack hw hi hk).1
      · exact hu k (List.mem_cons_of_mem _ hk)
    have ih := queryLoop_complete hw q f _ l' hu' h1
    have sub : ∀ x, x ∈ l' → x ∈ l := by
      intro x hx; rw [← h2]; split_ifs
      · exact List.mem_cons_of_mem _ hx
      · exact hx
    intro k hk m hd ho hq
    rcases List.mem_cons.1 hk with rfl | hk
    · rcases hd.head with rfl | ⟨c, j, hc, hj, hd'⟩
      · rw [← h2, if_pos]
        · simp
        · cases hob : s.objects m with
          | nil => exact absurd hob ho
          | cons => rfl
      · have hk1 := (hw.kids k hi c hc j hj).1
        exact sub _ (ih (c + j) (List.mem_append_left _ (sel_complete hw hi hc hj (hd'.rect hw hk1) hq)) m hd' ho hq)
    · exact sub _ (ih k (List.mem_append_right _ hk) m hd ho hq)

/-- Neither node is below the other. -/
def Indep (s : QuadTree T α) (a b : ℕ) : Prop := ¬Desc s a b ∧ ¬Desc s b a

theorem queryLoop_nodup (hw : Wf s dep) (q : Rect α) : ∀ (f : ℕ) (st l : List ℕ), (∀ i ∈ st, s.Used i) → st.Pairwise s.Indep →
    queryLoop s q (fun _ => false) f st = some l → l.Nodup ∧ ∀ m ∈ l, s.objects m ≠ [] ∧ ∃ i ∈ st, Desc s i m
  | f, [], l, _, _, h => by
    cases f <;> (simp only [queryLoop, Option.some.injEq] at h; subst h; simp)
  | 0, i :: st, l, _, _, h => by simp [queryLoop] at h
  | f + 1, i :: st, l, hu, hp, h => by
    rw [queryLoop_cons, if_neg (by simp)] at h
    obtain ⟨l', h1, h2⟩ := Option.map_eq_some_iff.1 h
    have hi := hu i (by simp)
    obtain ⟨p1, p2⟩ := List.pairwise_cons.1 hp
    have hu' : ∀ k ∈ nextStack s q i ++ st, s.Used k := by
      intro k hk
      rcases List.mem_append.1 hk with hk | hk
      · exact (mem_nextStack hw hi hk).1
      · exact hu k (List.mem_cons_of_mem _ hk)
    have hp' : (nextStack s q i ++ st).Pairwise s.Indep := by
      rw [List.pairwise_append]
      refine ⟨?_, p2, ?_⟩
      · have hnd : (nextStack s q i).Nodup := by
          unfold nextStack
          split
          · exact List.nodup_nil
          · exact sel_nodup _ _ _
        refine List.Pairwise.imp_of_mem ?_ hnd
        intro a b ha hb hne
        obtain ⟨a1, a2, -, -⟩ := mem_nextStack hw hi ha
        obtain ⟨b1, b2, -, -⟩ := mem_nextStack hw hi hb
        constructor
        · intro hd; rcases hd.depth hw a1 with e | e
          · exact hne e.symm
          · omega
        · intro hd; rcases hd.depth hw b1 with e | e
          · exact hne e
          · omega
      · intro a ha b hb
        obtain ⟨a1, a2, a3, a4⟩ := mem_nextStack hw hi ha
        have hbi := p1 b hb
        refine ⟨fun hd => hbi.1 (a3.trans hd), fun hd => ?_⟩
        rcases Desc.linear hw (hu b (List.mem_cons_of_mem _ hb)) hi hd a3 with e | e
        · exact hbi.2 e
        · exact hbi.1 e
    obtain ⟨n1, n2⟩ := queryLoop_nodup hw q f _ l' hu' hp' h1
    have back : ∀ m ∈ l', s.objects m ≠ [] ∧ ∃ k ∈ i :: st, Desc s k m := by
      intro m hm
      obtain ⟨m1, k, hk, hd⟩ := n2 m hm
      refine ⟨m1, ?_⟩
      rcases List.mem_append.1 hk with hk | hk
      · exact ⟨i, by simp, (mem_nextStack hw hi hk).2.2.1.trans hd⟩
      · exact ⟨k, List.mem_cons_of_mem _ hk, hd⟩
    rw [← h2]
    split_ifs with ho
    · refine ⟨List.nodup_cons.2 ⟨fun hm => ?_, n1⟩, ?_⟩
      · obtain ⟨-, k, hk, hd⟩ := n2 i hm
        rcases List.mem_append.1 hk with hk | hk
        · obtain ⟨k1, k2, -, -⟩ := mem_nextStack hw hi hk
          rcases hd.depth hw k1 with e | e
          · rw [e] at k2; omega
          · omega
        · exact (p1 k hk).2 hd
      · intro m hm
        rcases List.mem_cons.1 hm with rfl | hm
        · refine ⟨?_, m, by simp, .refl⟩
          intro e; rw [e] at ho; simp at ho
        · exact back m hm
    · exact ⟨n1, back⟩

/-- The steps the traversal of the subtrees needs. -/
def work (D : ℕ) (dep : ℕ → ℕ) (st : List ℕ) : ℕ := (st.map fun i => 5 ^ (D + 1 - dep i)).sum

theorem Deep.dep_le (hw : Wf s dep) {D i : ℕ} (hD : s.Deep D dep) (hi : s.Used i) : dep i ≤ D := by
  by_cases e : i = s.root
  · rw [e, hw.root_dep]; omega
  · obtain ⟨p, c, j, hp, hj, hc, rfl⟩ := hw.tree i hi e
    have h1 := (hw.kids p hp c hc j hj).2.2.2.1
    have h2 := hD.1 p hp (by simp [hc])
    omega

theorem queryLoop_total (hw : Wf s dep) {D : ℕ} (hD : s.Deep D dep) (q : Rect α) : ∀ (f : ℕ) (st : List ℕ), (∀ i ∈ st, s.Used i) →
    work D dep st ≤ f → ∃ l, queryLoop s q (fun _ => false) f st = some l
  | f, [], _, _ => by cases f <;> exact ⟨[], rfl⟩
  | 0, i :: st, _, h => by
    exfalso
    simp only [work, List.map_cons, List.sum_cons] at h
    have : 0 < 5 ^ (D + 1 - dep i) := by positivity
    omega
  | f + 1, i :: st, hu, h => by
    have hi := hu i (by simp)
    have hu' : ∀ k ∈ nextStack s q i ++ st, s.Used k := by
      intro k hk
      rcases List.mem_append.1 hk with hk | hk
      · exact (mem_nextStack hw hi hk).1
      · exact hu k (List.mem_cons_of_mem _ hk)
    have hwork : work D dep (nextStack s q i ++ st) ≤ f := by
      have hdi := Deep.dep_le hw hD hi
      obtain ⟨e, he⟩ := Nat.exists_eq_add_of_le hdi
      have key : work D dep (nextStack s q i) + 1 ≤ 5 ^ (D + 1 - dep i) := by
        unfold nextStack
        cases hc : s.child i with
        | none => simp only [work, List.map_nil, List.sum_nil]; exact Nat.one_le_pow _ _ (by norm_num)
        | some c =>
          have hk : ∀ j < 4, dep (c + j) = dep i + 1 := fun j hj => (hw.kids i hi c hc j hj).2.2.2.1
          have hsub : work D dep (sel q (s.center i) c) ≤ work D dep [c + 1, c + 2, c + 3, c] :=
            ((sel_sublist q (s.center i) c).map _).sum_le_sum (fun _ _ => Nat.zero_le _)
          have e1 : work D dep [c + 1, c + 2, c + 3, c] = 4 * 5 ^ (D + 1 - (dep i + 1)) := by
            have : dep c = dep i + 1 := hk 0 (by omega)
            simp only [work, List.map_cons, List.map_nil, List.sum_cons, List.sum_nil, hk 1 (by omega), hk 2 (by omega), hk 3 (by omega), this]
            omega
          have e2 : D + 1 - dep i = (D + 1 - (dep i + 1)) + 1 := by omega
          rw [e2, pow_succ]
          have : 0 < 5 ^ (D + 1 - (dep i + 1)) := by positivity
          dsimp only
          omega
      have e3 : work D dep (nextStack s q i ++ st) = work D dep (nextStack s q i) + work D dep st := by simp [work]
      have e4 : work D dep (i :: st) = 5 ^ (D + 1 - dep i) + work D dep st := by simp [work]
      omega
    obtain ⟨l, hl⟩ := queryLoop_total hw hD q f _ hu' hwork
    rw [queryLoop_cons, if_neg (by simp), hl, Option.map_some]
    exact ⟨_, rfl⟩

theorem queryLoop_mono (q : Rect α) (stop : ℕ → Bool) : ∀ (f f' : ℕ) (st l : List ℕ), f ≤ f' → queryLoop s q stop f st = some l →
    queryLoop s q stop f' st = some l
  | f, f', [], l, _, h => by
    cases f <;> cases f' <;> exact h
  | 0, f', i :: st, l, _, h => by simp [queryLoop] at h
  | f + 1, 0, i :: st, l, hf, _ => by omega
  | f + 1, f' + 1, i :: st, l, hf, h => by
    rw [queryLoop_cons] at h ⊢
    by_cases hs : (!(s.objects i).isEmpty && stop i) = true
    · rw [if_pos hs] at h ⊢; exact h
    · rw [if_neg hs] at h ⊢
      obtain ⟨l', h1, h2⟩ := Option.map_eq_some_iff.1 h
      rw [queryLoop_mono q stop f f' _ l' (by omega) h1, Option.map_some, h2]

theorem Wf.desc_root (hw : Wf s dep) : ∀ (d i : ℕ), dep i = d → s.Used i → Desc s s.root i := by
  intro d
  induction d with
  | zero =>
    intro i hd hu
    by_cases e : i = s.root
    · rw [e]; exact .refl
    · obtain ⟨p, c, j, hp, hj, hc, rfl⟩ := hw.tree i hu e
      have := (hw.kids p hp c hc j hj).2.2.2.1
      omega
  | succ d ih =>
    intro i hd hu
    by_cases e : i = s.root
    · rw [e]; exact .refl
    · obtain ⟨p, c, j, hp, hj, hc, rfl⟩ := hw.tree i hu e
      have := (hw.kids p hp c hc j hj).2.2.2.1
      exact .snoc (ih p (by omega) hp) hc hj

theorem upTo_false {X : Type*} : ∀ l : List X, Spec.upTo (fun _ => false) l = l
  | [] => rfl
  | x :: l => by rw [Spec.upTo, upTo_false l]; rfl

/-- The result of the query, for every callback. -/
theorem aabbQuery_spec (hw : Wf s dep) {D : ℕ} (hD : s.Deep D dep) (q : Rect α) :
    ∃ ns F, (∀ f ≥ F, ∀ stop, s.aabbQuery q stop f = some (Spec.upTo stop ns)) ∧ ns.Nodup ∧
      ∀ m, m ∈ ns ↔ s.Used m ∧ s.objects m ≠ [] ∧ q.intersects (s.nodeRect m) = true := by
  have hroot := hw.used_root
  have hsize : s.size ≠ 0 := by have := hroot.1; omega
  by_cases hq : q.intersects s.bounding = true
  · obtain ⟨l, hl⟩ := queryLoop_total hw hD q (work D dep [s.root]) [s.root] (by simpa using hroot) le_rfl
    obtain ⟨n1, n2⟩ := queryLoop_nodup hw q _ _ l (by simpa using hroot) (by simp) hl
    refine ⟨l, work D dep [s.root], fun f hf stop => ?_, n1, fun m => ⟨fun hm => ?_, fun hm => ?_⟩⟩
    · unfold aabbQuery
      rw [if_neg (by simp [hsize, hq])]
      exact queryLoop_stop q stop f _ l (queryLoop_mono q _ _ f _ l hf hl)
    · obtain ⟨h1, i, hi, hd⟩ := n2 m hm
      rw [List.mem_singleton] at hi
      subst hi
      refine ⟨hd.used hw hroot, h1, queryLoop_meets hw q _ _ l ?_ hl m hm⟩
      intro i hi
      rw [List.mem_singleton] at hi
      rw [hi, hw.rect_root]
      exact ⟨hroot, hq⟩
    · exact queryLoop_complete hw q _ _ l (by simpa using hroot) hl _ (by simp) m (hw.desc_root _ m rfl hm.1) hm.2.1 hm.2.2
  · refine ⟨[], 0, fun f _ stop => ?_, List.nodup_nil, fun m => ⟨by simp, fun hm => absurd ?_ hq⟩⟩
    · unfold aabbQuery; rw [if_pos (by simp [hq])]; rfl
    · rw [← hw.rect_root]
      exact intersects_mono ((hw.desc_root _ m rfl hm.1).rect hw hroot) hm.2.2

end QuadTree
end MGL
