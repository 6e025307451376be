import Verif.Proofs.QuadTreeQuery
import Verif.Model.QuadTreeNN
import Mathlib.Algebra.BigOperators.Group.Multiset.Basic

/-! The nearest neighbour search of the quad tree. -/

set_option linter.unusedSectionVars false

namespace MGL
namespace QuadTree
variable {T α : Type*} [DecidableEq T] [Field α] [LinearOrder α] [IsStrictOrderedRing α]
variable {s : QuadTree T α} {dep : ℕ → ℕ}

/-- The squared distance of two points. -/
def sq2 (p x : V2 α) : α := (x.x - p.x) * (x.x - p.x) + (x.y - p.y) * (x.y - p.y)

theorem clamp_near {c lo hi x : α} (_ : lo ≤ hi) (h1 : lo ≤ x) (h2 : x ≤ hi) : (clamp c lo hi - c) * (clamp c lo hi - c) ≤ (x - c) * (x - c) := by
  unfold clamp
  split_ifs with a b
  · rw [sub_self, mul_zero]; exact mul_self_nonneg _
  · exact mul_self_le_mul_self (by linarith) (by linarith)
  · rw [← neg_mul_neg, ← neg_mul_neg (x - c)]
    exact mul_self_le_mul_self (by linarith) (by linarith)

theorem clamp_range {c lo hi : α} (h : lo ≤ hi) : lo ≤ clamp c lo hi ∧ clamp c lo hi ≤ hi := by
  unfold clamp
  split_ifs with a b
  · exact ⟨b, a⟩
  · exact ⟨le_rfl, h⟩
  · exact ⟨h, le_rfl⟩

theorem nodeDistSq_le (hw : Wf s dep) {n : ℕ} (hn : s.Used n) (p : V2 α) {x : V2 α} (hx : x ∈ Spec.rect (s.nodeRect n)) : s.nodeDistSq p n ≤ sq2 p x := by
  obtain ⟨rx, ry⟩ := hw.radius_pos hn
  obtain ⟨x1, x2, x3, x4⟩ := hx
  simp only [nodeRect] at x1 x2 x3 x4
  have a := clamp_near (c := p.x - (s.center n).x) (lo := -(s.radius n).x) (hi := (s.radius n).x) (x := x.x - (s.center n).x)
    (by linarith) (by linarith) (by linarith)
  have b := clamp_near (c := p.y - (s.center n).y) (lo := -(s.radius n).y) (hi := (s.radius n).y) (x := x.y - (s.center n).y)
    (by linarith) (by linarith) (by linarith)
  rw [show x.x - (s.center n).x - (p.x - (s.center n).x) = x.x - p.x by ring] at a
  rw [show x.y - (s.center n).y - (p.y - (s.center n).y) = x.y - p.y by ring] at b
  exact add_le_add a b

theorem nodeDistSq_attained (hw : Wf s dep) {n : ℕ} (hn : s.Used n) (p : V2 α) : ∃ x ∈ Spec.rect (s.nodeRect n), s.nodeDistSq p n = sq2 p x := by
  obtain ⟨rx, ry⟩ := hw.radius_pos hn
  obtain ⟨a1, a2⟩ := clamp_range (c := p.x - (s.center n).x) (lo := -(s.radius n).x) (hi := (s.radius n).x) (by linarith)
  obtain ⟨b1, b2⟩ := clamp_range (c := p.y - (s.center n).y) (lo := -(s.radius n).y) (hi := (s.radius n).y) (by linarith)
  refine ⟨⟨(s.center n).x + clamp (p.x - (s.center n).x) (-(s.radius n).x) (s.radius n).x,
    (s.center n).y + clamp (p.y - (s.center n).y) (-(s.radius n).y) (s.radius n).y⟩, ⟨?_, ?_, ?_, ?_⟩, ?_⟩
  · simp only [nodeRect]; linarith
  · simp only [nodeRect]; linarith
  · simp only [nodeRect]; linarith
  · simp only [nodeRect]; linarith
  · simp only [nodeDistSq, sq2]; ring

theorem rect_subset {a b : Rect α} (h : a.contains b = true) {x : V2 α} (hx : x ∈ Spec.rect b) : x ∈ Spec.rect a := by
  rw [contains_iff] at h
  obtain ⟨x1, x2, x3, x4⟩ := hx
  exact ⟨h.1.trans x1, x2.trans h.2.2.1, h.2.1.trans x3, x4.trans h.2.2.2⟩

theorem Desc.dist_le (hw : Wf s dep) {a m : ℕ} (ha : s.Used a) (h : Desc s a m) (p : V2 α) : s.nodeDistSq p a ≤ s.nodeDistSq p m := by
  obtain ⟨x, hx, e⟩ := nodeDistSq_attained hw (h.used hw ha) p
  rw [e]
  exact nodeDistSq_le hw ha p (rect_subset (h.rect hw ha) hx)

theorem flush_spec (P : PQueue α T) (stop : ℕ → α → T → Bool) (d : α) : ∀ (f : ℕ) (q : P.Q) (out : List (α × T)), (P.items q).card ≤ f →
    ∃ q' L st, flush P stop d f q out = some (q', out ++ L, st) ∧ P.items q = (L : Multiset (α × T)) + P.items q' ∧
      L.Pairwise (fun x y => x.1 ≤ y.1) ∧ (∀ x ∈ L, x.1 ≤ d) ∧ (∀ x ∈ L, ∀ y ∈ P.items q', x.1 ≤ y.1) ∧ (st = false → ∀ y ∈ P.items q', d < y.1) ∧
      (st = true → ∃ i a o, stop i a o = true) ∧
      (∀ i x, L[i]? = some x → (st = true → i + 1 < L.length) → stop (out.length + i) x.1 x.2 = false) := by
  intro f
  induction f with
  | zero =>
    intro q out h
    have h0 : P.items q = 0 := Multiset.card_eq_zero.1 (by omega)
    rw [flush]
    cases hp : P.pop q with
    | none => exact ⟨q, [], false, by simp, by simp, by simp, by simp, by simp, by simp [h0], by simp, by simp⟩
    | some r =>
      obtain ⟨e, -⟩ := P.pop_some q r.1 r.2 hp
      rw [h0] at e
      exact absurd e.symm (Multiset.cons_ne_zero)
  | succ f ih =>
    intro q out h
    rw [flush]
    cases hp : P.pop q with
    | none =>
      have h0 := P.pop_none q hp
      exact ⟨q, [], false, by simp, by simp, by simp, by simp, by simp, by simp [h0], by simp, by simp⟩
    | some r =>
      obtain ⟨x, q'⟩ := r
      obtain ⟨e, hmin⟩ := P.pop_some q x q' hp
      dsimp only
      by_cases hx : x.1 ≤ d
      · rw [if_pos hx]
        by_cases hs : stop out.length x.1 x.2 = true
        · rw [if_pos hs]
          refine ⟨q', [x], true, rfl, by rw [e]; rfl, by simp, by simpa using hx, ?_, by simp, fun _ => ⟨_, _, _, hs⟩, ?_⟩
          swap
          · intro i y hi hlt
            have := hlt rfl
            simp at this
          intro y hy z hz
          rw [List.mem_singleton] at hy
          rw [hy]
          exact hmin z (by rw [e]; exact Multiset.mem_cons_of_mem hz)
        · rw [if_neg hs]
          obtain ⟨q'', L, st, h1, h2, h3, h4, h5, h6, h7, h8⟩ := ih q' (out ++ [x]) (by rw [e, Multiset.card_cons] at h; omega)
          refine ⟨q'', x :: L, st, by rw [h1]; simp, by rw [e, h2, ← Multiset.cons_coe, Multiset.cons_add], ?_, ?_, ?_, h6, h7, ?_⟩
          · refine List.pairwise_cons.2 ⟨fun y hy => hmin y ?_, h3⟩
            rw [e, h2]
            exact Multiset.mem_cons_of_mem (Multiset.mem_add.2 (Or.inl hy))
          · intro y hy
            rcases List.mem_cons.1 hy with rfl | hy
            · exact hx
            · exact h4 y hy
          · intro y hy z hz
            rcases List.mem_cons.1 hy with rfl | hy
            · refine hmin z ?_
              rw [e, h2]
              exact Multiset.mem_cons_of_mem (Multiset.mem_add.2 (Or.inr hz))
            · exact h5 y hy z hz
          · intro i y hi hlt
            cases i with
            | zero =>
              rw [List.getElem?_cons_zero, Option.some.injEq] at hi
              rw [← hi]
              simpa using hs
            | succ i =>
              rw [List.getElem?_cons_succ] at hi
              have h9 := h8 i y hi (fun e => by have := hlt e; simp only [List.length_cons] at this; omega)
              rw [List.length_append, List.length_singleton] at h9
              rw [show out.length + (i + 1) = out.length + 1 + i by omega]
              exact h9
      · rw [if_neg hx]
        refine ⟨q, [], false, by simp, by simp, by simp, by simp, by simp, fun _ y hy => ?_, by simp, by simp⟩
        exact lt_of_lt_of_le (not_le.1 hx) (hmin y hy)

theorem items_foldl (P : PQueue α T) (dist : T → α) : ∀ (l : List T) (q : P.Q),
    P.items (l.foldl (fun q o => P.insert (dist o) o q) q) = ((l.map fun o => (dist o, o) : List (α × T)) : Multiset (α × T)) + P.items q
  | [], q => by simp
  | o :: l, q => by
    rw [List.foldl_cons, items_foldl P dist l, P.items_insert, List.map_cons, ← Multiset.cons_coe, Multiset.add_cons, Multiset.cons_add]

/-- The state of the search: the queued nodes `M`, the queued objects `O`, the reports `out`, the visited nodes `V`, and a distance `D`
between the reported and the queued ones. -/
structure NN (s : QuadTree T α) (p : V2 α) (dist : T → α) (stop : ℕ → α → T → Bool) (M : Multiset (α × ℕ)) (O : Multiset (α × T)) (out : List (α × T)) (V : Finset ℕ) (D : α) : Prop where
  used : ∀ x ∈ M, s.Used x.2
  key : ∀ x ∈ M, D ≤ x.1 ∧ (x.1 = s.nodeDistSq p x.2 ∨ x.2 = s.root ∧ x.1 ≤ s.nodeDistSq p x.2)
  nod : (M.map Prod.snd).Nodup
  ind : ∀ x ∈ M, ∀ y ∈ M, x.2 ≠ y.2 → s.Indep x.2 y.2
  vis : ∀ m, s.Used m → (m ∈ V ↔ ¬∃ x ∈ M, Desc s x.2 m)
  sub : ∀ m ∈ V, s.Used m
  obj : (out : Multiset (α × T)) + O = (V.sum fun n => (s.objects n : Multiset T)).map fun o => (dist o, o)
  srt : out.Pairwise fun x y => x.1 ≤ y.1
  le : ∀ x ∈ out, x.1 ≤ D ∧ ∀ y ∈ O, x.1 ≤ y.1
  near : ∀ n ∈ V, s.objects n ≠ [] → ∀ y ∈ O, s.nodeDistSq p n ≤ y.1
  vkey : ∀ n ∈ V, s.nodeDistSq p n ≤ D ∨ n = s.root
  ne : ∀ n ∈ V, s.objects n ≠ [] → O ≠ 0
  go : ∀ (i : ℕ) (x : α × T), out[i]? = some x → stop i x.1 x.2 = false

/-- What is known of the reports in the end. -/
def NNResult (s : QuadTree T α) (p : V2 α) (dist : T → α) (stop : ℕ → α → T → Bool) (out : List (α × T)) : Prop :=
  out.Pairwise (fun x y => x.1 ≤ y.1) ∧ (∀ (i : ℕ) (x : α × T), out[i]? = some x → i + 1 < out.length → stop i x.1 x.2 = false) ∧ ∃ R : Multiset (α × T), (out : Multiset (α × T)) + R = s.all.map (fun o => (dist o, o)) ∧
    (∀ x ∈ out, ∀ y ∈ R, x.1 ≤ y.1) ∧ (s.all ≠ 0 → R ≠ 0) ∧
    ((∀ i a o, stop i a o = false) → ∀ n, s.Used n → s.objects n ≠ [] → ∀ y ∈ R, s.nodeDistSq p n ≤ y.1)

theorem all_split (s : QuadTree T α) {V : Finset ℕ} (h : ∀ m ∈ V, m < s.size) :
    s.all = (V.sum fun n => (s.objects n : Multiset T)) + ((Finset.range s.size \ V).sum fun n => (s.objects n : Multiset T)) := by
  unfold all
  rw [add_comm, Finset.sum_sdiff]
  intro m hm
  exact Finset.mem_range.2 (h m hm)

/-- The search ends with these reports. -/
theorem nn_done (hw : Wf s dep) {p : V2 α} {dist : T → α} (hd : ∀ n, s.Used n → ∀ o ∈ s.objects n, s.nodeDistSq p n ≤ dist o)
    {M : Multiset (α × ℕ)} {O : Multiset (α × T)} {out : List (α × T)} {V : Finset ℕ} {D : α}
    (used : ∀ x ∈ M, s.Used x.2) (key : ∀ x ∈ M, D ≤ x.1 ∧ x.1 ≤ s.nodeDistSq p x.2) (vis : ∀ m, s.Used m → (m ∈ V ↔ ¬∃ x ∈ M, Desc s x.2 m))
    (sub : ∀ m ∈ V, s.Used m) (obj : (out : Multiset (α × T)) + O = (V.sum fun n => (s.objects n : Multiset T)).map fun o => (dist o, o))
    (srt : out.Pairwise fun x y => x.1 ≤ y.1) (le : ∀ x ∈ out, x.1 ≤ D ∧ ∀ y ∈ O, x.1 ≤ y.1) (stop : ℕ → α → T → Bool)
    (go : ∀ (i : ℕ) (x : α × T), out[i]? = some x → i + 1 < out.length → stop i x.1 x.2 = false)
    (ne : (∀ n ∈ V, s.objects n ≠ [] → O ≠ 0) ∨ ∃ n, s.Used n ∧ n ∉ V ∧ s.objects n ≠ [])
    (hn : (∀ i a o, stop i a o = false) → M = 0 ∧ ∀ n ∈ V, s.objects n ≠ [] → ∀ y ∈ O, s.nodeDistSq p n ≤ y.1) : NNResult s p dist stop out := by
  have rest : ∀ n ∈ Finset.range s.size \ V, ∀ o ∈ s.objects n, M ≠ 0 ∧ D ≤ dist o := by
    intro n hn o ho
    rw [Finset.mem_sdiff, Finset.mem_range] at hn
    have hu : s.Used n := by
      refine ⟨hn.1, fun h => ?_⟩
      have := hw.dummy n h.1 h.2
      rw [this.2] at ho
      simp at ho
    have := hn.2
    rw [vis n hu, not_not] at this
    obtain ⟨x, hx, hdx⟩ := this
    refine ⟨fun h => by rw [h] at hx; simp at hx, ?_⟩
    exact ((key x hx).1.trans (key x hx).2).trans ((hdx.dist_le hw (used x hx) p).trans (hd n hu o ho))
  refine ⟨srt, go, O + ((Finset.range s.size \ V).sum fun n => (s.objects n : Multiset T)).map (fun o => (dist o, o)), ?_, ?_, ?_, ?_⟩
  · rw [all_split s (fun m hm => (sub m hm).1), Multiset.map_add, ← obj, add_assoc]
  · intro x hx y hy
    rcases Multiset.mem_add.1 hy with hy | hy
    · exact (le x hx).2 y hy
    · obtain ⟨o, ho, rfl⟩ := Multiset.mem_map.1 hy
      rw [Multiset.mem_sum] at ho
      obtain ⟨n, hn, ho⟩ := ho
      exact (le x hx).1.trans (rest n hn o ho).2
  · intro hall h0
    rw [add_eq_zero, Multiset.map_eq_zero] at h0
    have out : ∀ n, n < s.size → n ∉ V → s.objects n = [] := by
      intro n hn hv
      have h1 := Multiset.le_zero.1 (h0.2 ▸ Finset.single_le_sum (f := fun n => (s.objects n : Multiset T)) (fun _ _ => Multiset.zero_le _)
        (Finset.mem_sdiff.2 ⟨Finset.mem_range.2 hn, hv⟩))
      simpa using h1
    rcases ne with ne | ⟨n, n1, n2, n3⟩
    · refine hall (Multiset.eq_zero_of_forall_notMem fun o ho => ?_)
      obtain ⟨n, hn, ho⟩ := mem_all.1 ho
      have hne := List.ne_nil_of_mem ho
      by_cases hv : n ∈ V
      · exact ne n hv hne h0.1
      · exact hne (out n hn hv)
    · exact n3 (out n n1.1 n2)
  · intro hne n hu ho y hy
    obtain ⟨h0, h1⟩ := hn hne
    rcases Multiset.mem_add.1 hy with hy | hy
    · refine h1 n ?_ ho y hy
      rw [vis n hu, h0]; simp
    · obtain ⟨o, ho, rfl⟩ := Multiset.mem_map.1 hy
      rw [Multiset.mem_sum] at ho
      obtain ⟨n, hn, ho⟩ := ho
      exact absurd h0 (rest n hn o ho).1

/-- The children as new entries of the queue. -/
def kidItems (s : QuadTree T α) (p : V2 α) (n : ℕ) : List (α × ℕ) :=
  match s.child n with
  | none => []
  | some c => [(s.nodeDistSq p (c + 3), c + 3), (s.nodeDistSq p (c + 2), c + 2), (s.nodeDistSq p (c + 1), c + 1), (s.nodeDistSq p c, c)]

theorem items_kids (R : PQueue α ℕ) (p : V2 α) (n : ℕ) (q : R.Q) :
    R.items (pushChildren R s p n q) = (kidItems s p n : Multiset (α × ℕ)) + R.items q := by
  unfold pushChildren
  unfold kidItems
  cases s.child n with
  | none => simp
  | some c =>
    simp only [R.items_insert]
    simp only [← Multiset.cons_coe, Multiset.cons_add, Multiset.coe_nil, zero_add]

theorem mem_kidItems {p : V2 α} {n : ℕ} {x : α × ℕ} : x ∈ kidItems s p n ↔ ∃ c j, s.child n = some c ∧ j < 4 ∧ x = (s.nodeDistSq p (c + j), c + j) := by
  unfold kidItems
  cases hc : s.child n with
  | none => simp
  | some c =>
    simp only [List.mem_cons, List.not_mem_nil, or_false]
    constructor
    · rintro (h | h | h | h)
      · exact ⟨c, 3, rfl, by omega, h⟩
      · exact ⟨c, 2, rfl, by omega, h⟩
      · exact ⟨c, 1, rfl, by omega, h⟩
      · exact ⟨c, 0, rfl, by omega, h⟩
    · rintro ⟨c', j, e, hj, h⟩
      rw [Option.some.injEq] at e
      subst e
      interval_cases j
      · exact Or.inr (Or.inr (Or.inr h))
      · exact Or.inr (Or.inr (Or.inl h))
      · exact Or.inr (Or.inl h)
      · exact Or.inl h

/-- The steps still needed. -/
def work2 (D : ℕ) (dep : ℕ → ℕ) (M : Multiset (α × ℕ)) : ℕ := (M.map fun x => 5 ^ (D + 1 - dep x.2)).sum

theorem work2_kids (hw : Wf s dep) {D : ℕ} (hD : s.Deep D dep) {n : ℕ} (hn : s.Used n) (p : V2 α) :
    work2 D dep (kidItems s p n : Multiset (α × ℕ)) + 1 ≤ 5 ^ (D + 1 - dep n) := by
  unfold kidItems
  cases hc : s.child n with
  | none => simp only [work2, Multiset.coe_nil, Multiset.map_zero, Multiset.sum_zero]; exact Nat.one_le_pow _ _ (by norm_num)
  | some c =>
    have hk : ∀ j < 4, dep (c + j) = dep n + 1 := fun j hj => (hw.kids n hn c hc j hj).2.2.2.1
    have h0 : dep c = dep n + 1 := hk 0 (by omega)
    have hlt := hD.1 n hn (by simp [hc])
    have e2 : D + 1 - dep n = (D + 1 - (dep n + 1)) + 1 := by omega
    simp only [work2, Multiset.map_coe, Multiset.sum_coe, List.map_cons, List.map_nil, List.sum_cons, List.sum_nil, hk 1 (by omega),
      hk 2 (by omega), hk 3 (by omega), h0]
    rw [e2, pow_succ]
    have : 0 < 5 ^ (D + 1 - (dep n + 1)) := by positivity
    omega

/-- The queue after a node is replaced by its children. -/
theorem nn_nodes (hw : Wf s dep) {p : V2 α} {M' : Multiset (α × ℕ)} {d D : α} {n : ℕ} {V : Finset ℕ}
    (used : ∀ x ∈ ((d, n) ::ₘ M'), s.Used x.2)
    (key : ∀ x ∈ ((d, n) ::ₘ M'), D ≤ x.1 ∧ (x.1 = s.nodeDistSq p x.2 ∨ x.2 = s.root ∧ x.1 ≤ s.nodeDistSq p x.2))
    (nod : (((d, n) ::ₘ M').map Prod.snd).Nodup)
    (ind : ∀ x ∈ ((d, n) ::ₘ M'), ∀ y ∈ ((d, n) ::ₘ M'), x.2 ≠ y.2 → s.Indep x.2 y.2)
    (vis : ∀ m, s.Used m → (m ∈ V ↔ ¬∃ x ∈ ((d, n) ::ₘ M'), Desc s x.2 m))
    (hmin : ∀ x ∈ ((d, n) ::ₘ M'), d ≤ x.1) :
    (∀ x ∈ (kidItems s p n : Multiset (α × ℕ)) + M', s.Used x.2) ∧
    (∀ x ∈ (kidItems s p n : Multiset (α × ℕ)) + M', d ≤ x.1 ∧ (x.1 = s.nodeDistSq p x.2 ∨ x.2 = s.root ∧ x.1 ≤ s.nodeDistSq p x.2)) ∧
    (((kidItems s p n : Multiset (α × ℕ)) + M').map Prod.snd).Nodup ∧
    (∀ x ∈ (kidItems s p n : Multiset (α × ℕ)) + M', ∀ y ∈ (kidItems s p n : Multiset (α × ℕ)) + M', x.2 ≠ y.2 → s.Indep x.2 y.2) ∧
    (∀ m, s.Used m → (m ∈ insert n V ↔ ¬∃ x ∈ (kidItems s p n : Multiset (α × ℕ)) + M', Desc s x.2 m)) := by
  have hn : s.Used n := used (d, n) (Multiset.mem_cons_self _ _)
  have hdn : d ≤ s.nodeDistSq p n := by
    rcases (key (d, n) (Multiset.mem_cons_self _ _)).2 with h | h
    · exact h.le
    · exact h.2
  have kid : ∀ x ∈ kidItems s p n, s.Used x.2 ∧ dep x.2 = dep n + 1 ∧ Desc s n x.2 ∧ s.parent x.2 = some n ∧ x.1 = s.nodeDistSq p x.2 := by
    intro x hx
    obtain ⟨c, j, hc, hj, rfl⟩ := mem_kidItems.1 hx
    obtain ⟨k1, k2, k3, k4, k5, k6⟩ := hw.kids n hn c hc j hj
    exact ⟨k1, k4, .snoc .refl hc hj, k3, rfl⟩
  rw [Multiset.map_cons, Multiset.nodup_cons] at nod
  have hnM : ∀ x ∈ M', x.2 ≠ n := fun x hx e => nod.1 (Multiset.mem_map.2 ⟨x, hx, e⟩)
  have indn : ∀ x ∈ M', s.Indep n x.2 := fun x hx => ind (d, n) (Multiset.mem_cons_self _ _) x (Multiset.mem_cons_of_mem hx) (hnM x hx).symm
  have usedM : ∀ x ∈ M', s.Used x.2 := fun x hx => used x (Multiset.mem_cons_of_mem hx)
  have cross : ∀ x ∈ kidItems s p n, ∀ y ∈ M', s.Indep x.2 y.2 := by
    intro x hx y hy
    obtain ⟨k1, k2, k3, -, -⟩ := kid x hx
    refine ⟨fun h => (indn y hy).1 (k3.trans h), fun h => ?_⟩
    rcases Desc.linear hw (usedM y hy) hn h k3 with e | e
    · exact (indn y hy).2 e
    · exact (indn y hy).1 e
  refine ⟨fun x hx => ?_, fun x hx => ?_, ?_, fun x hx y hy hne => ?_, fun m hm => ?_⟩
  · rcases Multiset.mem_add.1 hx with hx | hx
    · exact (kid x hx).1
    · exact usedM x hx
  · rcases Multiset.mem_add.1 hx with hx | hx
    · obtain ⟨k1, k2, k3, k4, k5⟩ := kid x hx
      exact ⟨by rw [k5]; exact hdn.trans (k3.dist_le hw hn p), Or.inl k5⟩
    · exact ⟨hmin x (Multiset.mem_cons_of_mem hx), (key x (Multiset.mem_cons_of_mem hx)).2⟩
  · rw [Multiset.map_add, Multiset.nodup_add]
    refine ⟨?_, nod.2, ?_⟩
    · unfold kidItems
      cases s.child n with
      | none => simp
      | some c => simp
    · rw [Multiset.disjoint_left]
      intro k h1 h2
      obtain ⟨x, hx, rfl⟩ := Multiset.mem_map.1 h1
      obtain ⟨y, hy, e⟩ := Multiset.mem_map.1 h2
      refine (cross x hx y hy).1 ?_
      rw [e]; exact .refl
  · rcases Multiset.mem_add.1 hx with hx | hx <;> rcases Multiset.mem_add.1 hy with hy | hy
    · obtain ⟨a1, a2, -, -, -⟩ := kid x hx
      obtain ⟨b1, b2, -, -, -⟩ := kid y hy
      refine ⟨fun h => ?_, fun h => ?_⟩
      · rcases h.depth hw a1 with e | e
        · exact hne e.symm
        · omega
      · rcases h.depth hw b1 with e | e
        · exact hne e
        · omega
    · exact cross x hx y hy
    · exact (cross y hy x hx).symm
    · exact ind x (Multiset.mem_cons_of_mem hx) y (Multiset.mem_cons_of_mem hy) hne
  · rw [Finset.mem_insert, vis m hm]
    constructor
    · rintro (rfl | h) ⟨x, hx, hd⟩
      · rcases Multiset.mem_add.1 hx with hx | hx
        · obtain ⟨k1, k2, -, -, -⟩ := kid x hx
          rcases hd.depth hw k1 with e | e
          · rw [← e] at k2; omega
          · omega
        · exact (indn x hx).2 hd
      · rcases Multiset.mem_add.1 hx with hx | hx
        · exact h ⟨(d, n), Multiset.mem_cons_self _ _, (kid x hx).2.2.1.trans hd⟩
        · exact h ⟨x, Multiset.mem_cons_of_mem hx, hd⟩
    · intro h
      by_cases e : m = n
      · exact Or.inl e
      · right
        rintro ⟨x, hx, hd⟩
        rcases Multiset.mem_cons.1 hx with rfl | hx
        · rcases hd.head with e' | ⟨c, j, hc, hj, hd'⟩
          · exact e e'
          · exact h ⟨_, Multiset.mem_add.2 (Or.inl (mem_kidItems.2 ⟨c, j, hc, hj, rfl⟩)), hd'⟩
        · exact h ⟨x, Multiset.mem_add.2 (Or.inr hx), hd⟩

theorem nnLoop_spec (hw : Wf s dep) {K : ℕ} (hK : s.Deep K dep) (R : PQueue α ℕ) (P : PQueue α T) {p : V2 α} {dist : T → α}
    (hd : ∀ n, s.Used n → ∀ o ∈ s.objects n, s.nodeDistSq p n ≤ dist o) (stop : ℕ → α → T → Bool) :
    ∀ (f : ℕ) (nodes : R.Q) (q : P.Q) (out : List (α × T)) (V : Finset ℕ) (D : α), NN s p dist stop (R.items nodes) (P.items q) out V D →
      work2 K dep (R.items nodes) + s.all.card ≤ f →
      ∃ out', nnLoop R P s p dist stop f nodes q out = some out' ∧ NNResult s p dist stop out' := by
  intro f
  induction f with
  | zero =>
    intro nodes q out V D h hf
    rw [nnLoop]
    cases hp : R.pop nodes with
    | none =>
      have h0 := R.pop_none nodes hp
      refine ⟨out, rfl, nn_done hw hd h.used (fun x hx => by rw [h0] at hx; simp at hx) h.vis h.sub h.obj h.srt h.le stop (fun i x hx _ => h.go i x hx) (Or.inl h.ne) fun _ => ⟨h0, h.near⟩⟩
    | some r =>
      exfalso
      obtain ⟨x, nodes'⟩ := r
      obtain ⟨e, -⟩ := R.pop_some nodes x nodes' hp
      rw [e] at hf
      simp only [work2, Multiset.map_cons, Multiset.sum_cons] at hf
      have : 0 < 5 ^ (K + 1 - dep x.2) := by positivity
      omega
  | succ f ih =>
    intro nodes q out V D h hf
    rw [nnLoop]
    cases hp : R.pop nodes with
    | none =>
      have h0 := R.pop_none nodes hp
      refine ⟨out, rfl, nn_done hw hd h.used (fun x hx => by rw [h0] at hx; simp at hx) h.vis h.sub h.obj h.srt h.le stop (fun i x hx _ => h.go i x hx) (Or.inl h.ne) fun _ => ⟨h0, h.near⟩⟩
    | some r =>
      obtain ⟨⟨d, n⟩, nodes'⟩ := r
      obtain ⟨e, hmin⟩ := R.pop_some nodes (d, n) nodes' hp
      dsimp only
      obtain ⟨used, key, nod, ind, vis, sub, obj, srt, le, near, vkey, ne, go⟩ := h
      rw [e] at used key nod ind vis hmin hf
      obtain ⟨used', key', nod', ind', vis'⟩ := nn_nodes hw used key nod ind vis hmin
      have hn : s.Used n := used (d, n) (Multiset.mem_cons_self _ _)
      have hkn := key (d, n) (Multiset.mem_cons_self _ _)
      have hdn : d ≤ s.nodeDistSq p n := by
        rcases hkn.2 with h | h
        · exact h.le
        · exact h.2
      have hnV : n ∉ V := by
        rw [vis n hn, not_not]
        exact ⟨(d, n), Multiset.mem_cons_self _ _, .refl⟩
      have sub' : ∀ m ∈ insert n V, s.Used m := by
        intro m hm
        rcases Finset.mem_insert.1 hm with rfl | hm
        · exact hn
        · exact sub m hm
      have vkey' : ∀ m ∈ insert n V, s.nodeDistSq p m ≤ d ∨ m = s.root := by
        intro m hm
        rcases Finset.mem_insert.1 hm with rfl | hm
        · rcases hkn.2 with h | h
          · exact Or.inl h.ge
          · exact Or.inr h.1
        · rcases vkey m hm with h | h
          · exact Or.inl (h.trans hkn.1)
          · exact Or.inr h
      have hwork : work2 K dep ((kidItems s p n : Multiset (α × ℕ)) + R.items nodes') + s.all.card ≤ f := by
        have h1 := work2_kids hw hK hn p
        have h2 : work2 K dep ((kidItems s p n : Multiset (α × ℕ)) + R.items nodes') = work2 K dep (kidItems s p n : Multiset (α × ℕ)) + work2 K dep (R.items nodes') := by
          simp only [work2, Multiset.map_add, Multiset.sum_add]
        have h3 : work2 K dep ((d, n) ::ₘ R.items nodes') = 5 ^ (K + 1 - dep n) + work2 K dep (R.items nodes') := by
          simp only [work2, Multiset.map_cons, Multiset.sum_cons]
        omega
      have hsum : ((insert n V).sum fun m => (s.objects m : Multiset T)) = (s.objects n : Multiset T) + V.sum fun m => (s.objects m : Multiset T) :=
        Finset.sum_insert hnV
      by_cases ho : s.objects n = []
      · rw [if_pos ho, Option.bind_some, if_neg (by simp)]
        refine ih _ q out (insert n V) d ?_ (by rw [items_kids]; exact hwork)
        rw [items_kids]
        refine ⟨used', key', nod', ind', vis', sub', ?_, srt, fun x hx => ⟨(le x hx).1.trans hkn.1, (le x hx).2⟩, ?_, vkey', ?_, go⟩
        · rw [hsum, ho, obj]; simp
        · intro m hm hmo y hy
          rcases Finset.mem_insert.1 hm with rfl | hm
          · exact absurd ho hmo
          · exact near m hm hmo y hy
        · intro m hm hmo
          rcases Finset.mem_insert.1 hm with rfl | hm
          · exact absurd ho hmo
          · exact ne m hm hmo
      · rw [if_neg ho]
        have hcard : (P.items q).card ≤ f := by
          have h1 : ((out : Multiset (α × T)) + P.items q).card = (V.sum fun n => (s.objects n : Multiset T)).card := by rw [obj, Multiset.card_map]
          have h2 := congrArg Multiset.card (all_split s (V := V) (fun m hm => (sub m hm).1))
          rw [Multiset.card_add] at h1 h2
          omega
        obtain ⟨q', L, st, f1, f2, f3, f4, f5, f6, f7, f8⟩ := flush_spec P stop d f q out hcard
        unfold nnVisit
        rw [f1, Option.map_some, Option.bind_some]
        have obj' : ((out ++ L : List (α × T)) : Multiset (α × T)) + P.items q' = (V.sum fun n => (s.objects n : Multiset T)).map fun o => (dist o, o) := by
          rw [← obj, f2, ← Multiset.coe_add, add_assoc]
        have srt' : (out ++ L).Pairwise fun x y => x.1 ≤ y.1 := by
          rw [List.pairwise_append]
          refine ⟨srt, f3, fun x hx y hy => (le x hx).2 y ?_⟩
          rw [f2]; exact Multiset.mem_add.2 (Or.inl hy)
        have le' : ∀ x ∈ out ++ L, x.1 ≤ d ∧ ∀ y ∈ P.items q', x.1 ≤ y.1 := by
          intro x hx
          rcases List.mem_append.1 hx with hx | hx
          · refine ⟨(le x hx).1.trans hkn.1, fun y hy => (le x hx).2 y ?_⟩
            rw [f2]; exact Multiset.mem_add.2 (Or.inr hy)
          · exact ⟨f4 x hx, f5 x hx⟩
        have go' : ∀ (i : ℕ) (x : α × T), (out ++ L)[i]? = some x → (st = true → i + 1 < (out ++ L).length) → stop i x.1 x.2 = false := by
          intro i x hx hlt
          by_cases hi : i < out.length
          · rw [List.getElem?_append_left hi] at hx
            exact go i x hx
          · rw [List.getElem?_append_right (by omega)] at hx
            have h1 := f8 _ x hx (fun e => by have := hlt e; rw [List.length_append] at this; omega)
            rw [show out.length + (i - out.length) = i by omega] at h1
            exact h1
        cases st with
        | true =>
          dsimp only
          rw [if_pos rfl, if_pos rfl]
          refine ⟨_, rfl, nn_done hw hd (M := (d, n) ::ₘ R.items nodes') (D := d) used ?_ vis sub obj' srt' le' stop (fun i x hx hlt => go' i x hx fun _ => hlt) (Or.inr ⟨n, hn, hnV, ho⟩) ?_⟩
          · intro x hx
            refine ⟨hmin x hx, ?_⟩
            rcases (key x hx).2 with h | h
            · exact h.le
            · exact h.2
          · intro hnev
            obtain ⟨i, a, o, hs⟩ := f7 rfl
            rw [hnev] at hs; simp at hs
        | false =>
          dsimp only
          rw [if_neg (by simp), if_neg (by simp)]
          refine ih _ _ _ (insert n V) d ?_ (by rw [items_kids]; exact hwork)
          rw [items_kids, items_foldl]
          refine ⟨used', key', nod', ind', vis', sub', ?_, srt', ?_, ?_, vkey', ?_, fun i x hx => go' i x hx (by simp)⟩
          · rw [hsum, Multiset.map_add, ← obj', Multiset.map_coe]
            rw [add_left_comm]
          · intro x hx
            refine ⟨(le' x hx).1, fun y hy => ?_⟩
            rcases Multiset.mem_add.1 hy with hy | hy
            · obtain ⟨o, ho', rfl⟩ := List.mem_map.1 (Multiset.mem_coe.1 hy)
              exact (le' x hx).1.trans (hdn.trans (hd n hn o ho'))
            · exact (le' x hx).2 y hy
          · intro m hm hmo y hy
            rcases Multiset.mem_add.1 hy with hy1 | hy2
            · obtain ⟨o, ho', rfl⟩ := List.mem_map.1 (Multiset.mem_coe.1 hy1)
              rcases vkey' m hm with h | h
              · exact h.trans (hdn.trans (hd n hn o ho'))
              · refine le_trans ?_ (hd n hn o ho')
                rw [h]
                exact (hw.desc_root _ n rfl hn).dist_le hw hw.used_root p
            · rcases Finset.mem_insert.1 hm with rfl | hm
              · rcases hkn.2 with h | h
                · rw [← h]; exact (f6 rfl y hy2).le
                · have hy' : y ∈ (V.sum fun n => (s.objects n : Multiset T)).map fun o => (dist o, o) := by
                    rw [← obj']; exact Multiset.mem_add.2 (Or.inr hy2)
                  obtain ⟨o, ho', rfl⟩ := Multiset.mem_map.1 hy'
                  rw [Multiset.mem_sum] at ho'
                  obtain ⟨k, hk, ho'⟩ := ho'
                  have hk' := sub k hk
                  refine le_trans ?_ (hd k hk' o ho')
                  have h1 : m = s.root := h.1
                  rw [h1]
                  exact (hw.desc_root _ k rfl hk').dist_le hw hw.used_root p
              · exact near m hm hmo y (by rw [f2]; exact Multiset.mem_add.2 (Or.inr hy2))
          · intro m hm hmo h0
            rw [add_eq_zero] at h0
            exact ho (by simpa using h0.1)

theorem nearestObjects_spec (hw : Wf s dep) {K : ℕ} (hK : s.Deep K dep) (R : PQueue α ℕ) (P : PQueue α T) {p : V2 α} {dist : T → α}
    (hd : ∀ n, s.Used n → ∀ o ∈ s.objects n, s.nodeDistSq p n ≤ dist o) (stop : ℕ → α → T → Bool) :
    ∃ F, ∀ f ≥ F, ∃ out, s.nearestObjects R P p dist stop f = some out ∧ NNResult s p dist stop out := by
  refine ⟨work2 K dep (R.items (R.insert 0 s.root R.empty)) + s.all.card, fun f hf => ?_⟩
  refine nnLoop_spec hw hK R P hd stop f _ _ [] ∅ 0 ?_ hf
  have hroot := hw.used_root
  rw [R.items_insert, R.items_empty, P.items_empty]
  refine ⟨?_, ?_, ?_, ?_, ?_, by simp, by simp, by simp, by simp, by simp, by simp, by simp, by simp⟩
  · intro x hx; simp at hx; rw [hx]; exact hroot
  · intro x hx; simp at hx; rw [hx]
    refine ⟨le_rfl, Or.inr ⟨rfl, ?_⟩⟩
    exact add_nonneg (mul_self_nonneg _) (mul_self_nonneg _)
  · simp
  · intro x hx y hy hne; simp at hx hy; rw [hx, hy] at hne; exact absurd rfl hne
  · intro m hm
    simp only [Finset.notMem_empty, false_iff, not_not]
    exact ⟨(0, s.root), by simp, hw.desc_root _ m rfl hm⟩

end QuadTree
end MGL
