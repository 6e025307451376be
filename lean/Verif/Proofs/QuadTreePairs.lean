import Verif.Proofs.QuadTreeQuery
import Mathlib.Data.List.Nodup

/-! The pairs reported by `CollidingPairsQuery`. -/

set_option linter.unusedSectionVars false

namespace MGL
namespace QuadTree
variable {T α : Type*} [DecidableEq T] [Field α] [LinearOrder α]
variable {s : QuadTree T α} {dep : ℕ → ℕ}

theorem mapM_some {X Y : Type*} {g : X → Option Y} {h : X → Y} : ∀ (l : List X), (∀ x ∈ l, g x = some (h x)) → l.mapM g = some (l.map h)
  | [], _ => by simp
  | x :: l, hl => by
    rw [List.mapM_cons, hl x (by simp), mapM_some l (fun y hy => hl y (List.mem_cons_of_mem _ hy))]
    rfl

theorem ancestors_spec (hw : Wf s dep) : ∀ (d i : ℕ), dep i = d → s.Used i → ∃ l, (∀ f, d ≤ f → s.ancestors f (s.parent i) = some l) ∧
    l.Nodup ∧ ∀ m, m ∈ l ↔ Desc s m i ∧ m ≠ i ∧ s.Used m := by
  intro d
  induction d with
  | zero =>
    intro i hd hu
    have hi : i = s.root := by
      by_contra e
      obtain ⟨p, c, j, hp, hj, hc, rfl⟩ := hw.tree i hu e
      have := (hw.kids p hp c hc j hj).2.2.2.1
      omega
    subst hi
    refine ⟨[], fun f _ => ?_, List.nodup_nil, fun m => ?_⟩
    · rw [hw.root_parent]; cases f <;> rfl
    · simp only [List.not_mem_nil, false_iff]
      rintro ⟨h1, h2, h3⟩
      rcases h1.depth hw h3 with e | e
      · exact h2 e.symm
      · omega
  | succ d ih =>
    intro i hd hu
    have hi : i ≠ s.root := by intro e; rw [e, hw.root_dep] at hd; omega
    obtain ⟨p, c, j, hp, hj, hc, rfl⟩ := hw.tree i hu hi
    obtain ⟨k1, k2, k3, k4, k5, k6⟩ := hw.kids p hp c hc j hj
    obtain ⟨l, l1, l2, l3⟩ := ih p (by omega) hp
    refine ⟨p :: l, fun f hf => ?_, List.nodup_cons.2 ⟨fun h => ((l3 p).1 h).2.1 rfl, l2⟩, fun m => ?_⟩
    · obtain ⟨f, rfl⟩ : ∃ g, f = g + 1 := ⟨f - 1, by omega⟩
      rw [k3, ancestors, l1 f (by omega), Option.map_some]
    · rw [List.mem_cons, l3]
      constructor
      · rintro (rfl | ⟨h1, h2, h3⟩)
        · refine ⟨.snoc .refl hc hj, fun e => ?_, hp⟩
          rw [← e] at k4; omega
        · refine ⟨.snoc h1 hc hj, fun e => ?_, h3⟩
          rcases h1.depth hw h3 with e' | e'
          · exact h2 e'.symm
          · rw [e] at e'; omega
      · rintro ⟨h1, h2, h3⟩
        generalize hm : c + j = i at h1 h2
        cases h1 with
        | refl => exact absurd rfl h2
        | @snoc p' c' j' hd' hc' hj' =>
          have e2 := (hw.kids _ (hd'.used hw h3) _ hc' _ hj').2.2.1
          rw [← hm, k3, Option.some.injEq] at e2
          subst e2
          by_cases e : m = p
          · exact Or.inl e
          · exact Or.inr ⟨hd', e, h3⟩

variable [IsStrictOrderedRing α]

/-- The rectangles have no interior point in common. -/
def Sep (a b : Rect α) : Prop :=
  a.maxPoint.x ≤ b.minPoint.x ∨ b.maxPoint.x ≤ a.minPoint.x ∨ a.maxPoint.y ≤ b.minPoint.y ∨ b.maxPoint.y ≤ a.minPoint.y

theorem Sep.mono {a b a' b' : Rect α} (h : Sep a b) (ha : a.contains a' = true) (hb : b.contains b' = true) : Sep a' b' := by
  rw [contains_iff] at ha hb
  obtain ⟨a1, a2, a3, a4⟩ := ha
  obtain ⟨b1, b2, b3, b4⟩ := hb
  rcases h with h | h | h | h
  · exact Or.inl (by linarith)
  · exact Or.inr (Or.inl (by linarith))
  · exact Or.inr (Or.inr (Or.inl (by linarith)))
  · exact Or.inr (Or.inr (Or.inr (by linarith)))

theorem sep_siblings (hw : Wf s dep) {i c j k : ℕ} (hi : s.Used i) (hc : s.child i = some c) (hj : j < 4) (hk : k < 4) (hne : j ≠ k) :
    Sep (s.nodeRect (c + j)) (s.nodeRect (c + k)) := by
  obtain ⟨-, -, -, -, j5, j6⟩ := hw.kids i hi c hc j hj
  obtain ⟨-, -, -, -, k5, k6⟩ := hw.kids i hi c hc k hk
  simp only [Sep, nodeRect, j5, j6, k5, k6, quadCenter, half]
  interval_cases j <;> interval_cases k <;> simp <;> omega

theorem sep_of_indep (hw : Wf s dep) {i m : ℕ} (hi : s.Used i) (hm : s.Used m) : Desc s i m ∨ Desc s m i ∨ Sep (s.nodeRect i) (s.nodeRect m) := by
  have h := hw.desc_root _ i rfl hi
  clear hi
  induction h with
  | refl => exact Or.inl (hw.desc_root _ m rfl hm)
  | @snoc p c j hd hc hj ih =>
    have hp := hd.used hw hw.used_root
    rcases ih with h | h | h
    · rcases h.head with rfl | ⟨c', k, hc', hk, h'⟩
      · exact Or.inr (Or.inl (.snoc .refl hc hj))
      · rw [hc, Option.some.injEq] at hc'
        subst hc'
        by_cases e : j = k
        · subst e; exact Or.inl h'
        · refine Or.inr (Or.inr ?_)
          refine (sep_siblings hw hp hc hj hk e).mono ?_ (h'.rect hw (hw.kids p hp c hc k hk).1)
          rw [contains_iff]; exact ⟨le_rfl, le_rfl, le_rfl, le_rfl⟩
    · exact Or.inr (Or.inl (.snoc h hc hj))
    · refine Or.inr (Or.inr (h.mono (Desc.rect hw hp (.snoc .refl hc hj)) ?_))
      rw [contains_iff]; exact ⟨le_rfl, le_rfl, le_rfl, le_rfl⟩

/-- What the callback reports for the object at one index of a node. -/
def pairsOf (s : QuadTree T α) (box : T → Rect α) (q : Rect α) (objs : List T) (anc : List ℕ) (i : ℕ) : List (T × T) :=
  match objs[i]? with
  | none => []
  | some a =>
    if !q.intersects (box a) then []
    else ((objs.drop (i + 1)).filter fun b => (box a).intersects (box b)).map (fun b => (a, b)) ++
      anc.flatMap fun m => ((s.objects m).filter fun b => (box a).intersects (box b)).map fun b => (a, b)

theorem mem_pairsOf {box : T → Rect α} {q : Rect α} {objs : List T} {anc : List ℕ} {i : ℕ} {a b : T} :
    (a, b) ∈ pairsOf s box q objs anc i ↔ objs[i]? = some a ∧ q.intersects (box a) = true ∧ (box a).intersects (box b) = true ∧
      ((∃ k, i < k ∧ objs[k]? = some b) ∨ ∃ m ∈ anc, b ∈ s.objects m) := by
  unfold pairsOf
  cases h : objs[i]? with
  | none => simp
  | some x =>
    dsimp only
    have hdrop : ∀ y, y ∈ objs.drop (i + 1) ↔ ∃ k, i < k ∧ objs[k]? = some y := by
      intro y
      rw [List.mem_iff_getElem?]
      constructor
      · rintro ⟨k, hk⟩
        rw [List.getElem?_drop] at hk
        exact ⟨_, by omega, hk⟩
      · rintro ⟨k, hk, e⟩
        refine ⟨k - (i + 1), ?_⟩
        rw [List.getElem?_drop]
        rw [show i + 1 + (k - (i + 1)) = k by omega]; exact e
    by_cases hq : q.intersects (box x) = true
    · rw [if_neg (by simp [hq])]
      simp only [List.mem_append, List.mem_map, List.mem_filter, Prod.mk.injEq, List.mem_flatMap, hdrop, Option.some.injEq]
      constructor
      · rintro (⟨y, ⟨h1, h2⟩, rfl, rfl⟩ | ⟨m, hm, y, ⟨h1, h2⟩, rfl, rfl⟩)
        · exact ⟨rfl, hq, h2, Or.inl h1⟩
        · exact ⟨rfl, hq, h2, Or.inr ⟨m, hm, h1⟩⟩
      · rintro ⟨rfl, -, h2, h1 | ⟨m, hm, h1⟩⟩
        · exact Or.inl ⟨b, ⟨h1, h2⟩, rfl, rfl⟩
        · exact Or.inr ⟨m, hm, b, ⟨h1, h2⟩, rfl, rfl⟩
    · rw [if_pos (by simp [hq])]
      constructor
      · simp
      · rintro ⟨h1, h2, -⟩
        rw [Option.some.injEq] at h1
        rw [h1] at hq; exact absurd h2 hq

/-- Each object is in one node only, once. -/
structure Single (s : QuadTree T α) : Prop where
  nodup : ∀ i < s.size, (s.objects i).Nodup
  one : ∀ i < s.size, ∀ j < s.size, ∀ x, x ∈ s.objects i → x ∈ s.objects j → i = j

theorem single_of_nodup (h : s.all.Nodup) : s.Single := by
  have cnt : ∀ x i, i < s.size → Multiset.count x (s.objects i : Multiset T) ≤ Multiset.count x s.all := by
    intro x i hi
    unfold all
    exact Multiset.count_le_of_le _ (Finset.single_le_sum (f := fun k => (s.objects k : Multiset T)) (fun _ _ => Multiset.zero_le _) (Finset.mem_range.2 hi))
  refine ⟨fun i hi => ?_, fun i hi j hj x h1 h2 => ?_⟩
  · rw [← Multiset.coe_nodup, Multiset.nodup_iff_count_le_one]
    intro x
    exact (cnt x i hi).trans (Multiset.nodup_iff_count_le_one.1 h x)
  · by_contra hne
    have h3 : ((s.objects i : Multiset T) + (s.objects j : Multiset T)) ≤ s.all := by
      unfold all
      rw [← Finset.sum_pair (f := fun k => (s.objects k : Multiset T)) hne]
      refine Finset.sum_le_sum_of_subset ?_
      intro k hk
      simp only [Finset.mem_insert, Finset.mem_singleton] at hk
      rcases hk with rfl | rfl <;> exact Finset.mem_range.2 (by assumption)
    have h4 := Multiset.nodup_iff_count_le_one.1 (Multiset.nodup_of_le h3 h) x
    rw [Multiset.count_add] at h4
    have p1 : 1 ≤ Multiset.count x (s.objects i : Multiset T) := Multiset.one_le_count_iff_mem.2 (by simpa using h1)
    have p2 : 1 ≤ Multiset.count x (s.objects j : Multiset T) := Multiset.one_le_count_iff_mem.2 (by simpa using h2)
    omega

theorem pairsOf_nodup (hs : s.Single) (box : T → Rect α) (q : Rect α) {n : ℕ} {anc : List ℕ} (hn : n < s.size) (hanc : anc.Nodup)
    (hsz : ∀ m ∈ anc, m < s.size ∧ m ≠ n) (i : ℕ) : (pairsOf s box q (s.objects n) anc i).Nodup := by
  unfold pairsOf
  cases h : (s.objects n)[i]? with
  | none => exact List.nodup_nil
  | some a =>
    dsimp only
    split_ifs
    · exact List.nodup_nil
    · have inj : Function.Injective fun b : T => (a, b) := fun x y e => (Prod.mk.inj e).2
      rw [List.nodup_append']
      refine ⟨((((List.drop_sublist _ _).nodup (hs.nodup n hn)).filter _).map inj), ?_, ?_⟩
      · rw [List.nodup_flatMap]
        refine ⟨fun m hm => ((hs.nodup m (hsz m hm).1).filter _).map inj, ?_⟩
        refine List.Pairwise.imp_of_mem ?_ hanc
        intro m k hm hk hne p h1 h2
        simp only [List.mem_map, List.mem_filter] at h1 h2
        obtain ⟨y, ⟨y1, -⟩, rfl⟩ := h1
        obtain ⟨z, ⟨z1, -⟩, e⟩ := h2
        rw [Prod.mk.injEq] at e
        rw [e.2] at z1
        exact hne (hs.one m (hsz m hm).1 k (hsz k hk).1 y y1 z1)
      · intro p h1 h2
        simp only [List.mem_map, List.mem_filter, List.mem_flatMap] at h1 h2
        obtain ⟨y, ⟨y1, -⟩, rfl⟩ := h1
        obtain ⟨m, hm, z, ⟨z1, -⟩, e⟩ := h2
        rw [Prod.mk.injEq] at e
        rw [e.2] at z1
        exact (hsz m hm).2 (hs.one m (hsz m hm).1 n hn y z1 (List.mem_of_mem_drop y1))

/-- The result of the whole query. -/
theorem collidingPairs_spec (hw : Wf s dep) {D : ℕ} (hD : s.Deep D dep) {box : T → Rect α} (hf : Fit box s) (hs : s.Single)
    (q : Rect α) :
    ∃ l F, (∀ f ≥ F, s.collidingPairs box q f = some l) ∧
      l.Nodup ∧ (∀ a b, (a, b) ∈ l → (b, a) ∉ l) ∧
      (∀ a b, (a, b) ∈ l ↔ q.intersects (box a) = true ∧ (box a).intersects (box b) = true ∧ ∃ n m, s.Used n ∧ s.Used m ∧ a ∈ s.objects n ∧
        b ∈ s.objects m ∧ Desc s m n ∧ (m = n → ∃ i k : ℕ, i < k ∧ (s.objects n)[i]? = some a ∧ (s.objects n)[k]? = some b)) := by
  obtain ⟨ns, F0, hns, nd, vis⟩ := aabbQuery_spec hw hD q
  replace hns : ∀ f ≥ F0, s.aabbQuery q (fun _ => false) f = some ns := fun f hf => by rw [hns f hf, upTo_false]
  have comp : ∀ m, s.Used m → (∃ o ∈ s.objects m, q.intersects (box o) = true) → m ∈ ns := fun m hm ⟨o, ho, hq⟩ =>
    (vis m).2 ⟨hm, List.ne_nil_of_mem ho, intersects_mono (hf m hm o ho) hq⟩
  replace vis : ∀ m ∈ ns, s.Used m := fun m hm => ((vis m).1 hm).1
  choose! anc an1 an2 an3 using fun n (hn : s.Used n) => ancestors_spec hw (dep n) n rfl hn
  have used_lt : ∀ m, s.Used m → m < s.size := fun m hm => hm.1
  let out : ℕ → List (T × T) := fun n => (List.range (s.objects n).length).flatMap (pairsOf s box q (s.objects n) (anc n))
  have hout : ∀ f ≥ D, ∀ n ∈ ns, s.pairsAt box q f n = some (out n) := by
    intro f hf n hn
    have hun := vis n hn
    unfold pairsAt
    rw [an1 n hun f ((Deep.dep_le hw hD hun).trans hf)]
    rfl
  have mem_out : ∀ n a b, s.Used n → ((a, b) ∈ out n ↔ q.intersects (box a) = true ∧ (box a).intersects (box b) = true ∧
      ∃ i : ℕ, (s.objects n)[i]? = some a ∧ ((∃ k : ℕ, i < k ∧ (s.objects n)[k]? = some b) ∨ ∃ m, Desc s m n ∧ m ≠ n ∧ s.Used m ∧ b ∈ s.objects m)) := by
    intro n a b hn
    simp only [out, List.mem_flatMap, List.mem_range, mem_pairsOf, an3 n hn]
    constructor
    · rintro ⟨i, -, h1, h2, h3, h4⟩
      refine ⟨h2, h3, i, h1, ?_⟩
      rcases h4 with h4 | ⟨m, hm, h4⟩
      · exact Or.inl h4
      · exact Or.inr ⟨m, hm.1, hm.2.1, hm.2.2, h4⟩
    · rintro ⟨h2, h3, i, h1, h4⟩
      refine ⟨i, (List.getElem?_eq_some_iff.1 h1).1, h1, h2, h3, ?_⟩
      rcases h4 with h4 | ⟨m, hm1, hm2, hm3, h4⟩
      · exact Or.inl h4
      · exact Or.inr ⟨m, ⟨hm1, hm2, hm3⟩, h4⟩
  have mem_all' : ∀ a b, (a, b) ∈ ns.flatMap out ↔ q.intersects (box a) = true ∧ (box a).intersects (box b) = true ∧
      ∃ n m, s.Used n ∧ s.Used m ∧ a ∈ s.objects n ∧
        b ∈ s.objects m ∧ Desc s m n ∧ (m = n → ∃ i k : ℕ, i < k ∧ (s.objects n)[i]? = some a ∧ (s.objects n)[k]? = some b) := by
    intro a b
    rw [List.mem_flatMap]
    constructor
    · rintro ⟨n, hn, h⟩
      have hun := vis n hn
      obtain ⟨h1, h2, i, h3, h4⟩ := (mem_out n a b hun).1 h
      refine ⟨h1, h2, ?_⟩
      rcases h4 with ⟨k, hk, h4⟩ | ⟨m, hm1, hm2, hm3, h4⟩
      · exact ⟨n, n, hun, hun, List.mem_of_getElem? h3, List.mem_of_getElem? h4, .refl, fun _ => ⟨i, k, hk, h3, h4⟩⟩
      · exact ⟨n, m, hun, hm3, List.mem_of_getElem? h3, h4, hm1, fun e => absurd e hm2⟩
    · rintro ⟨h1, h2, n, m, hn, hm, h3, h4, h5, h6⟩
      refine ⟨n, comp n hn ⟨a, h3, h1⟩, (mem_out n a b hn).2 ⟨h1, h2, ?_⟩⟩
      by_cases e : m = n
      · obtain ⟨i, k, h7, h8, h9⟩ := h6 e
        exact ⟨i, h8, Or.inl ⟨k, h7, h9⟩⟩
      · obtain ⟨i, hi⟩ := List.mem_iff_getElem?.1 h3
        exact ⟨i, hi, Or.inr ⟨m, h5, e, hm, h4⟩⟩
  refine ⟨ns.flatMap out, max F0 D, fun f hf => ?_, ?_, ?_, mem_all'⟩
  · unfold collidingPairs
    rw [hns f (le_trans (le_max_left _ _) hf), Option.bind_some, mapM_some ns (hout f (le_trans (le_max_right _ _) hf)), Option.map_some]
    rw [List.flatMap_def]
  · rw [List.nodup_flatMap]
    constructor
    · intro n hn
      have hun := vis n hn
      simp only [out]
      rw [List.nodup_flatMap]
      refine ⟨fun i _ => pairsOf_nodup hs box q (used_lt n hun) (an2 n hun) (fun m hm => ?_) i, ?_⟩
      · obtain ⟨-, h2, h3⟩ := (an3 n hun m).1 hm
        exact ⟨used_lt m h3, h2⟩
      · refine List.Pairwise.imp_of_mem ?_ List.nodup_range
        intro i k hi hk hne
        rintro ⟨a, b⟩ h1 h2
        rw [mem_pairsOf] at h1 h2
        have hi' : i < (s.objects n).length := List.mem_range.1 hi
        exact hne ((List.getElem?_inj hi' (hs.nodup n (used_lt n hun))).1 (h1.1.trans h2.1.symm))
    · refine List.Pairwise.imp_of_mem ?_ nd
      intro n k hn hk hne
      rintro ⟨a, b⟩ h1 h2
      obtain ⟨-, -, i, h3, -⟩ := (mem_out n a b (vis n hn)).1 h1
      obtain ⟨-, -, j, h4, -⟩ := (mem_out k a b (vis k hk)).1 h2
      exact hne (hs.one n (used_lt n (vis n hn)) k (used_lt k (vis k hk)) a (List.mem_of_getElem? h3) (List.mem_of_getElem? h4))
  · intro a b h1 h2
    obtain ⟨-, -, n, m, hn, hm, h3, h4, h5, h6⟩ := (mem_all' a b).1 h1
    obtain ⟨-, -, n', m', hn', hm', h3', h4', h5', h6'⟩ := (mem_all' b a).1 h2
    have e1 := hs.one _ (used_lt _ hm) _ (used_lt _ hn') b h4 h3'
    have e2 := hs.one _ (used_lt _ hm') _ (used_lt _ hn) a h4' h3
    subst e1 e2
    have e3 : m = m' := by
      rcases h5.depth hw hm with e | e
      · exact e.symm
      · rcases h5'.depth hw hm' with e' | e'
        · exact e'
        · omega
    subst e3
    obtain ⟨i, k, l1, l2, l3⟩ := h6 rfl
    obtain ⟨i', k', l1', l2', l3'⟩ := h6' rfl
    have hnd := hs.nodup m (used_lt _ hm)
    have e4 := (List.getElem?_inj (List.getElem?_eq_some_iff.1 l2).1 hnd).1 (l2.trans l3'.symm)
    have e5 := (List.getElem?_inj (List.getElem?_eq_some_iff.1 l3).1 hnd).1 (l3.trans l2'.symm)
    omega

theorem ancestors_mono : ∀ (f f' : ℕ) (n : Option ℕ) (l : List ℕ), f ≤ f' → s.ancestors f n = some l → s.ancestors f' n = some l
  | 0, 0, none, _, _, h => h
  | 0, _ + 1, none, _, _, h => h
  | _ + 1, 0, none, _, _, h => h
  | _ + 1, _ + 1, none, _, _, h => h
  | 0, _, some n, l, _, h => by simp [ancestors] at h
  | f + 1, 0, some n, l, hf, _ => by omega
  | f + 1, f' + 1, some n, l, hf, h => by
    rw [ancestors] at h ⊢
    obtain ⟨l', h1, h2⟩ := Option.map_eq_some_iff.1 h
    rw [ancestors_mono f f' _ l' (by omega) h1, Option.map_some, h2]

theorem mapM_mono {X Y : Type*} {g g' : X → Option Y} (hg : ∀ x y, g x = some y → g' x = some y) : ∀ (l : List X) (r : List Y),
    l.mapM g = some r → l.mapM g' = some r
  | [], r, h => by simpa using h
  | x :: l, r, h => by
    rw [List.mapM_cons] at h ⊢
    obtain ⟨y, h1, h2⟩ := Option.bind_eq_some_iff.1 h
    obtain ⟨r', h3, h4⟩ := Option.bind_eq_some_iff.1 h2
    rw [hg x y h1, mapM_mono hg l r' h3]
    exact h4

theorem collidingPairs_mono {box : T → Rect α} {q : Rect α} {f f' : ℕ} {l : List (T × T)} (hf : f ≤ f') (h : s.collidingPairs box q f = some l) :
    s.collidingPairs box q f' = some l := by
  unfold collidingPairs at h ⊢
  obtain ⟨ns, h1, h2⟩ := Option.bind_eq_some_iff.1 h
  obtain ⟨r, h3, h4⟩ := Option.map_eq_some_iff.1 h2
  have h5 : s.aabbQuery q (fun _ => false) f' = some ns := by
    unfold aabbQuery at h1 ⊢
    split_ifs at h1 ⊢
    · exact h1
    · exact queryLoop_mono q _ f f' _ ns hf h1
  rw [h5, Option.bind_some, mapM_mono ?_ ns r h3, Option.map_some, h4]
  intro n y hy
  unfold pairsAt at hy ⊢
  obtain ⟨anc, h6, h7⟩ := Option.map_eq_some_iff.1 hy
  rw [ancestors_mono f f' _ anc hf h6, Option.map_some, h7]

end QuadTree
end MGL
