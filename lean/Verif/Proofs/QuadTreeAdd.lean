import Verif.Proofs.QuadTree

/-! `Add(object, node)` and `SplitLeaf` keep the invariant of the quad tree. -/

set_option linter.unusedSectionVars false

namespace MGL
namespace QuadTree
variable {T α : Type*} [DecidableEq T] [Field α] [LinearOrder α] [IsStrictOrderedRing α]

theorem contains_iff (a b : Rect α) : a.contains b = true ↔
    a.minPoint.x ≤ b.minPoint.x ∧ a.minPoint.y ≤ b.minPoint.y ∧ b.maxPoint.x ≤ a.maxPoint.x ∧ b.maxPoint.y ≤ a.maxPoint.y := by
  simp [Rect.contains, and_assoc]

theorem straddles_iff (s : QuadTree T α) (box : T → Rect α) (n : ℕ) (o : T) : s.straddles box n o = true ↔
    ((box o).minPoint.x < (s.center n).x ∧ (s.center n).x < (box o).maxPoint.x) ∨
    ((box o).minPoint.y < (s.center n).y ∧ (s.center n).y < (box o).maxPoint.y) := by
  simp [straddles, min2_eq, max2_eq]

theorem quadrant_lt (s : QuadTree T α) (box : T → Rect α) (n : ℕ) (o : T) : s.quadrant box n o < 4 := by
  unfold quadrant
  dsimp only
  split_ifs <;> omega

/-- An object that does not straddle is inside the quarter it goes to. -/
theorem quadrant_fit {s : QuadTree T α} {box : T → Rect α} {n m : ℕ} {o : T} (hfit : (s.nodeRect n).contains (box o) = true)
    (hst : s.straddles box n o = false) (hr : s.radius m = half (s.radius n))
    (hc : s.center m = quadCenter (s.center n) (half (s.radius n)) (s.quadrant box n o)) : (s.nodeRect m).contains (box o) = true := by
  rw [contains_iff] at hfit ⊢
  have hst' : ¬ (s.straddles box n o = true) := by simp [hst]
  rw [straddles_iff] at hst'
  push Not at hst'
  obtain ⟨hx, hy⟩ := hst'
  simp only [nodeRect, hr, hc] at *
  unfold quadrant
  simp only [quadCenter, half]
  obtain ⟨h1, h2, h3, h4⟩ := hfit
  by_cases l : (box o).minPoint.x < (s.center n).x <;> by_cases t : (box o).minPoint.y < (s.center n).y
  · have := hx l; have := hy t
    simp [l, t]; refine ⟨?_, ?_, ?_, ?_⟩ <;> linarith
  · have := hx l; have := not_lt.1 t
    simp [l, t]; refine ⟨?_, ?_, ?_, ?_⟩ <;> linarith
  · have := not_lt.1 l; have := hy t
    simp [l, t]; refine ⟨?_, ?_, ?_, ?_⟩ <;> linarith
  · have := not_lt.1 l; have := not_lt.1 t
    simp [l, t]; refine ⟨?_, ?_, ?_, ?_⟩ <;> linarith

/-- The radius of a node from its depth. -/
theorem Wf.radius_eq {s : QuadTree T α} {dep : ℕ → ℕ} (h : Wf s dep) : ∀ d i, dep i = d → s.Used i →
    (s.radius i).x * 2 ^ d = (s.radius s.root).x ∧ (s.radius i).y * 2 ^ d = (s.radius s.root).y
  | 0, i, hd, hu => by
    by_cases hi : i = s.root
    · subst hi; simp
    · obtain ⟨p, c, j, hp, hj, hc, rfl⟩ := h.tree i hu hi
      have := (h.kids p hp c hc j hj).2.2.2.1
      omega
  | d + 1, i, hd, hu => by
    by_cases hi : i = s.root
    · subst hi; rw [h.root_dep] at hd; omega
    · obtain ⟨p, c, j, hp, hj, hc, rfl⟩ := h.tree i hu hi
      obtain ⟨-, -, -, h4, h5, -⟩ := h.kids p hp c hc j hj
      obtain ⟨e1, e2⟩ := Wf.radius_eq h d p (by omega) hp
      rw [h5, ← e1, ← e2]
      simp only [half, pow_succ]
      constructor <;> ring

theorem Wf.used_root {s : QuadTree T α} {dep : ℕ → ℕ} (h : Wf s dep) : s.Used s.root :=
  ⟨by have := h.root_le; omega, by omega⟩

/-- A node that may be split is not deep. -/
theorem Wf.split_deep {s : QuadTree T α} {dep : ℕ → ℕ} (h : Wf s dep) {n D : ℕ} (hn : s.Used n) (hD : s.Deep D dep)
    (hr : min2 (s.radius n).x (s.radius n).y ≥ 1 / 20) : dep n < D := by
  by_contra hlt
  push Not at hlt
  have h2 := hD.2
  obtain ⟨e1, e2⟩ := h.radius_eq (dep n) n rfl hn
  rw [min2_eq] at hr
  rw [← e1, ← e2] at h2
  have hp : (2 : α) ^ D ≤ 2 ^ dep n := pow_le_pow_right₀ (by norm_num) hlt
  have hx : 1 / 20 ≤ (s.radius n).x := hr.le.trans (min_le_left _ _)
  have hy : 1 / 20 ≤ (s.radius n).y := hr.le.trans (min_le_right _ _)
  have hpos : (0 : α) < 2 ^ dep n := by positivity
  rcases min_lt_iff.1 h2 with k | k <;> nlinarith

theorem used_push {s : QuadTree T α} {o : T} {n i : ℕ} : (s.push o n).Used i ↔ s.Used i := Iff.rfl

theorem Wf.push {s : QuadTree T α} {dep : ℕ → ℕ} (h : Wf s dep) (o : T) {n : ℕ} (hn : s.Used n) : Wf (s.push o n) dep where
  root_le := h.root_le
  root_parent := h.root_parent
  root_dep := h.root_dep
  root_center := h.root_center
  root_radius := h.root_radius
  pos_x := h.pos_x
  pos_y := h.pos_y
  dummy := fun i h1 h2 => by
    refine ⟨(h.dummy i h1 h2).1, ?_⟩
    have : i ≠ n := fun e => hn.2 ⟨e ▸ h1, e ▸ h2⟩
    simp only [QuadTree.push, Function.update_of_ne this]
    exact (h.dummy i h1 h2).2
  kids := h.kids
  tree := h.tree

theorem fit_push {s : QuadTree T α} {box : T → Rect α} (h : Fit box s) {o : T} {n : ℕ} (hf : (s.nodeRect n).contains (box o) = true) :
    Fit box (s.push o n) := by
  intro i hi x hx
  simp only [push, Function.update_apply] at hx
  split_ifs at hx with e
  · subst e
    rcases List.mem_append.1 hx with k | k
    · exact h i hi x k
    · rw [List.mem_singleton.1 k]; exact hf
  · exact h i hi x hx

theorem all_push (s : QuadTree T α) (o : T) {n : ℕ} (hn : n < s.size) : (s.push o n).all = o ::ₘ s.all := by
  have h := sum_update hn s.objects (s.objects n ++ [o])
  have h2 : (s.push o n).all + (s.objects n : Multiset T) = s.all + ((s.objects n : Multiset T) + {o}) := by
    rw [← Multiset.coe_singleton, Multiset.coe_add]
    exact h
  have h3 : (s.push o n).all + (s.objects n : Multiset T) = (o ::ₘ s.all) + (s.objects n : Multiset T) := by
    rw [h2, ← Multiset.singleton_add]; abel
  exact add_right_cancel h3

theorem ok_push {s : QuadTree T α} {o : T} {n : ℕ} : (s.push o n).assoc o = some n ∧ o ∈ (s.push o n).objects n := by
  simp [push]

theorem push_step {s : QuadTree T α} {dep : ℕ → ℕ} (o : T) {n : ℕ} (hn : s.Used n) : Step (dep n) s dep (s.push o n) dep where
  size := le_rfl
  root := rfl
  bounding := rfl
  parent := fun _ _ => rfl
  center := fun _ _ => rfl
  radius := fun _ _ => rfl
  dp := fun _ _ => rfl
  child := fun _ _ _ h => h
  objects := fun i _ hd => by
    have : i ≠ n := fun e => by subst e; omega
    simp [push, Function.update_of_ne this]
  okAt := fun e he x ⟨i, hi, ha, hx, hd⟩ => by
    by_cases e : x = o
    · subst e; exact ⟨n, hn, ok_push.1, ok_push.2, he⟩
    · refine ⟨i, hi, by simpa [push, Function.update_of_ne e] using ha, ?_, hd⟩
      by_cases e2 : i = n
      · subst e2; simp [push, hx]
      · simpa [push, Function.update_of_ne e2] using hx
  assoc := fun x => by
    by_cases e : x = o
    · subst e; exact Or.inr ⟨n, hn, ok_push⟩
    · left; simp [push, Function.update_of_ne e]
  deep := fun _ h => h

/-- The state at the beginning of the loop of `SplitLeaf`. -/
def splitInit (s : QuadTree T α) (leaf : ℕ) : QuadTree T α :=
  { s with
      size := s.size + 4
      parent := fun i => if s.size ≤ i ∧ i < s.size + 4 then some leaf else s.parent i
      child := Function.update (fun i => if s.size ≤ i ∧ i < s.size + 4 then none else s.child i) leaf (some s.size)
      objects := fun i => if s.size ≤ i ∧ i < s.size + 4 then [] else s.objects i
      radius := fun i => if s.size ≤ i ∧ i < s.size + 4 then half (s.radius leaf) else s.radius i
      center := fun i => if s.size ≤ i ∧ i < s.size + 4 then quadCenter (s.center leaf) (half (s.radius leaf)) (i - s.size) else s.center i }

theorem splitLeaf_eq {cap : ℕ∞} {box : T → Rect α} {add : QuadTree T α → T → ℕ → Option (QuadTree T α)} {s s' : QuadTree T α} {leaf : ℕ}
    (h : splitLeaf cap box add s leaf = some s') :
    splitLoop box add leaf s.size (s.objects leaf).length (s.splitInit leaf) 0 = some s' := by
  unfold splitLeaf at h
  obtain ⟨s1, h1, h2⟩ := Option.bind_eq_some_iff.1 h
  rw [alloc_some h1] at h2
  exact h2

theorem splitLeaf_top {box : T → Rect α} {add : QuadTree T α → T → ℕ → Option (QuadTree T α)} {s : QuadTree T α} {leaf : ℕ} :
    splitLeaf ⊤ box add s leaf = splitLoop box add leaf s.size (s.objects leaf).length (s.splitInit leaf) 0 := by
  obtain ⟨s1, h1⟩ := alloc_top s (some leaf)
  unfold splitLeaf
  rw [h1, Option.bind_some, alloc_some h1]
  rfl

section
variable {s : QuadTree T α} {dep : ℕ → ℕ} {leaf : ℕ}

/-- The depths after a split. -/
def depSplit (s : QuadTree T α) (dep : ℕ → ℕ) (leaf : ℕ) : ℕ → ℕ := fun i => if s.size ≤ i ∧ i < s.size + 4 then dep leaf + 1 else dep i

theorem used_splitInit (h : Wf s dep) {i : ℕ} : (s.splitInit leaf).Used i ↔ s.Used i ∨ (s.size ≤ i ∧ i < s.size + 4) := by
  have := h.root_le
  unfold Used splitInit
  dsimp only
  omega

theorem Wf.splitInit (h : Wf s dep) (hl : s.Used leaf) (hc : s.child leaf = none) : Wf (s.splitInit leaf) (depSplit s dep leaf) := by
  have hr := h.root_le
  have hlt := hl.1
  have hold : ∀ i, i < s.size → ¬(s.size ≤ i ∧ i < s.size + 4) := fun i hi => by omega
  have hrt : s.root < s.size := by omega
  constructor
  · show s.root + 4 ≤ s.size + 4; omega
  · simp only [QuadTree.splitInit, if_neg (hold _ hrt)]; exact h.root_parent
  · show depSplit s dep leaf s.root = 0
    simp only [depSplit, if_neg (hold _ hrt)]; exact h.root_dep
  · simp only [QuadTree.splitInit, if_neg (hold _ hrt)]; exact h.root_center
  · simp only [QuadTree.splitInit, if_neg (hold _ hrt)]; exact h.root_radius
  · exact h.pos_x
  · exact h.pos_y
  · intro i h1 h2
    have h1' : s.root < i := h1
    have h2' : i < s.root + 4 := h2
    have hi : i < s.size := by omega
    have hne : i ≠ leaf := fun e => hl.2 ⟨e ▸ h1', e ▸ h2'⟩
    simp only [QuadTree.splitInit, if_neg (hold _ hi), Function.update_of_ne hne]
    exact h.dummy i h1' h2'
  · intro i hi c hci j hj
    rw [used_splitInit h] at hi
    by_cases e : i = leaf
    · subst e
      simp only [QuadTree.splitInit, Function.update_self, Option.some.injEq] at hci
      subst hci
      have hn : s.size ≤ s.size + j ∧ s.size + j < s.size + 4 := by omega
      rw [used_splitInit h]
      refine ⟨Or.inr hn, ?_, ?_, ?_, ?_, ?_⟩
      · show s.size + j ≠ s.root; omega
      · simp only [QuadTree.splitInit, if_pos hn]
      · simp only [depSplit, if_pos hn, if_neg (hold _ hlt)]
      · simp only [QuadTree.splitInit, if_pos hn, if_neg (hold _ hlt)]
      · simp only [QuadTree.splitInit, if_pos hn, if_neg (hold _ hlt), Nat.add_sub_cancel_left]
    · simp only [QuadTree.splitInit, Function.update_of_ne e] at hci
      rcases hi with hi | hi
      · rw [if_neg (hold _ hi.1)] at hci
        obtain ⟨k1, k2, k3, k4, k5, k6⟩ := h.kids i hi c hci j hj
        rw [used_splitInit h]
        have hk := hold _ k1.1
        refine ⟨Or.inl k1, k2, ?_, ?_, ?_, ?_⟩
        · simp only [QuadTree.splitInit, if_neg hk]; exact k3
        · simp only [depSplit, if_neg hk, if_neg (hold _ hi.1)]; exact k4
        · simp only [QuadTree.splitInit, if_neg hk, if_neg (hold _ hi.1)]; exact k5
        · simp only [QuadTree.splitInit, if_neg hk, if_neg (hold _ hi.1)]; exact k6
      · rw [if_pos hi] at hci; exact absurd hci (by simp)
  · intro i hi hne
    rw [used_splitInit h] at hi
    rcases hi with hi | hi
    · obtain ⟨p, c, j, hp, hj, hpc, rfl⟩ := h.tree i hi hne
      have hpl : p ≠ leaf := fun e => by rw [e, hc] at hpc; simp at hpc
      refine ⟨p, c, j, (used_splitInit h).2 (Or.inl hp), hj, ?_, rfl⟩
      simp only [QuadTree.splitInit, Function.update_of_ne hpl, if_neg (hold _ hp.1)]
      exact hpc
    · refine ⟨leaf, s.size, i - s.size, (used_splitInit h).2 (Or.inl hl), by omega, ?_, by omega⟩
      simp [QuadTree.splitInit]

theorem fit_splitInit {box : T → Rect α} (h : Wf s dep) (hf : Fit box s) : Fit box (s.splitInit leaf) := by
  intro i hi o ho
  rw [used_splitInit h] at hi
  simp only [splitInit] at ho
  split_ifs at ho with e
  · simp at ho
  · rcases hi with hi | hi
    · have := hf i hi o ho
      simpa only [nodeRect, splitInit, if_neg e] using this
    · exact absurd hi e

theorem all_splitInit : (s.splitInit leaf).all = s.all := by
  unfold all
  show ∑ i ∈ Finset.range (s.size + 4), _ = _
  have e : ∀ i ∈ Finset.range (s.size + 4), i ∉ Finset.range s.size → ((s.splitInit leaf).objects i : Multiset T) = 0 := by
    intro i hi hi2
    simp only [Finset.mem_range] at hi hi2
    simp only [splitInit]
    rw [if_pos (by omega)]; rfl
  rw [← Finset.sum_subset (Finset.range_mono (by omega : s.size ≤ s.size + 4)) e]
  refine Finset.sum_congr rfl fun i hi => ?_
  simp only [Finset.mem_range] at hi
  simp only [splitInit]
  rw [if_neg (by omega)]

theorem step_splitInit (h : Wf s dep) (hl : s.Used leaf) (hc : s.child leaf = none)
    (hr : min2 (s.radius leaf).x (s.radius leaf).y ≥ 1 / 20) : Step (dep leaf) s dep (s.splitInit leaf) (depSplit s dep leaf) := by
  have hold : ∀ i, i < s.size → ¬(s.size ≤ i ∧ i < s.size + 4) := fun i hi => by omega
  have hok : ∀ e ≤ dep leaf, ∀ x, s.OkAt e dep x → (s.splitInit leaf).OkAt e (depSplit s dep leaf) x := fun e _ x ⟨i, hi, ha, hx, hd⟩ =>
    ⟨i, (used_splitInit h).2 (Or.inl hi), ha, by simpa only [splitInit, if_neg (hold _ hi.1)] using hx,
      by simpa only [depSplit, if_neg (hold _ hi.1)] using hd⟩
  refine ⟨?_, rfl, rfl, ?_, ?_, ?_, ?_, ?_, ?_, hok, fun x => Or.inl rfl, ?_⟩
  · show s.size ≤ s.size + 4; omega
  · intro i hi; simp only [splitInit, if_neg (hold _ hi)]
  · intro i hi; simp only [splitInit, if_neg (hold _ hi)]
  · intro i hi; simp only [splitInit, if_neg (hold _ hi)]
  · intro i hi; simp only [depSplit, if_neg (hold _ hi)]
  · intro i hi c hci
    have : i ≠ leaf := fun e => by rw [e, hc] at hci; simp at hci
    simp only [splitInit, Function.update_of_ne this, if_neg (hold _ hi)]; exact hci
  · intro i hi _; simp only [splitInit, if_neg (hold _ hi)]
  · intro D hD
    have hlD := h.split_deep hl hD hr
    refine ⟨fun i hi hci => ?_, ?_⟩
    · rw [used_splitInit h] at hi
      by_cases e : i = leaf
      · subst e; simp only [depSplit, if_neg (hold _ hl.1)]; exact hlD
      · simp only [splitInit, Function.update_of_ne e] at hci
        rcases hi with hi | hi
        · rw [if_neg (hold _ hi.1)] at hci
          simp only [depSplit, if_neg (hold _ hi.1)]
          exact hD.1 i hi hci
        · rw [if_pos hi] at hci; exact absurd rfl hci
    · have : s.root < s.size := by have := h.root_le; omega
      show min ((s.splitInit leaf).radius s.root).x ((s.splitInit leaf).radius s.root).y < _
      simp only [splitInit, if_neg (hold _ this)]
      exact hD.2

end

/-- The effect of `Add(object, n)`. -/
structure Added (box : T → Rect α) (s : QuadTree T α) (dep : ℕ → ℕ) (o : T) (n : ℕ) (s' : QuadTree T α) (dep' : ℕ → ℕ) : Prop where
  wf : Wf s' dep'
  fit : Fit box s'
  step : Step (dep n) s dep s' dep'
  all : s'.all = o ::ₘ s.all
  mem : s'.OkAt (dep n) dep' o

/-- What is known of the recursive calls. -/
def AddSpec (box : T → Rect α) (add : QuadTree T α → T → ℕ → Option (QuadTree T α)) : Prop :=
  ∀ s dep o n s', Wf s dep → Fit box s → s.Used n → (s.nodeRect n).contains (box o) = true → add s o n = some s' →
    ∃ dep', Added box s dep o n s' dep'

theorem Step.used {d : ℕ} {s s' : QuadTree T α} {dep dep' : ℕ → ℕ} (h : Step d s dep s' dep') {i : ℕ} (hi : s.Used i) : s'.Used i :=
  ⟨hi.1.trans_le h.size, by rw [h.root]; exact hi.2⟩

/-- Dropping the entry that was moved to a child. -/
def dropAt (s : QuadTree T α) (leaf i : ℕ) : QuadTree T α :=
  { s with objects := Function.update s.objects leaf (swapPop (s.objects leaf) i) }

theorem Wf.dropAt {s : QuadTree T α} {dep : ℕ → ℕ} (h : Wf s dep) {leaf : ℕ} (hn : s.Used leaf) (i : ℕ) : Wf (s.dropAt leaf i) dep where
  root_le := h.root_le
  root_parent := h.root_parent
  root_dep := h.root_dep
  root_center := h.root_center
  root_radius := h.root_radius
  pos_x := h.pos_x
  pos_y := h.pos_y
  dummy := fun i h1 h2 => by
    refine ⟨(h.dummy i h1 h2).1, ?_⟩
    have : i ≠ leaf := fun e => hn.2 ⟨e ▸ h1, e ▸ h2⟩
    simp only [QuadTree.dropAt, Function.update_of_ne this]
    exact (h.dummy i h1 h2).2
  kids := h.kids
  tree := h.tree

theorem mem_dropAt {s : QuadTree T α} {leaf i m : ℕ} {o x : T} (ho : (s.objects leaf)[i]? = some o)
    (hx : x ∈ (s.dropAt leaf i).objects m) : x ∈ s.objects m := by
  simp only [dropAt, Function.update_apply] at hx
  split_ifs at hx with e
  · subst e; exact mem_of_swapPop ho hx
  · exact hx

theorem fit_dropAt {s : QuadTree T α} {box : T → Rect α} (h : Fit box s) {leaf i : ℕ} {o : T} (ho : (s.objects leaf)[i]? = some o) :
    Fit box (s.dropAt leaf i) := fun m hm x hx => h m hm x (mem_dropAt ho hx)

theorem all_dropAt {s : QuadTree T α} {leaf i : ℕ} {o : T} (hl : leaf < s.size) (ho : (s.objects leaf)[i]? = some o) :
    o ::ₘ (s.dropAt leaf i).all = s.all := by
  have h := sum_update hl s.objects (swapPop (s.objects leaf) i)
  have hp : (s.objects leaf : Multiset T) = o ::ₘ (swapPop (s.objects leaf) i : Multiset T) := by
    rw [Multiset.cons_coe]; exact (Multiset.coe_eq_coe.2 (swapPop_perm ho)).symm
  have h2 : (s.dropAt leaf i).all + (s.objects leaf : Multiset T) = s.all + (swapPop (s.objects leaf) i : Multiset T) := h
  rw [hp, ← Multiset.singleton_add] at h2
  have h3 : (o ::ₘ (s.dropAt leaf i).all) + (swapPop (s.objects leaf) i : Multiset T) = s.all + (swapPop (s.objects leaf) i : Multiset T) := by
    rw [← h2, ← Multiset.singleton_add]; abel
  exact add_right_cancel h3

theorem splitLoop_spec {box : T → Rect α} {add : QuadTree T α → T → ℕ → Option (QuadTree T α)} (hadd : AddSpec box add) (leaf c : ℕ) :
    ∀ (k : ℕ) (s : QuadTree T α) (dep : ℕ → ℕ) (i : ℕ) (s' : QuadTree T α), Wf s dep → Fit box s → s.Used leaf → s.child leaf = some c →
      splitLoop box add leaf c k s i = some s' → ∃ dep', Wf s' dep' ∧ Fit box s' ∧ Step (dep leaf) s dep s' dep' ∧ s'.all = s.all := by
  intro k
  induction k with
  | zero =>
    intro s dep i s' hw hf hl hc h
    unfold splitLoop at h
    split at h
    · have e := Option.some.inj h
      subst e
      exact ⟨dep, hw, hf, Step.refl _ _ _, rfl⟩
    · simp at h
  | succ k ih =>
    intro s dep i s' hw hf hl hc h
    unfold splitLoop at h
    split at h
    · have e := Option.some.inj h
      subst e
      exact ⟨dep, hw, hf, Step.refl _ _ _, rfl⟩
    · rename_i o ho
      by_cases hst : s.straddles box leaf o
      · simp only [hst, if_true] at h
        exact ih s dep (i + 1) s' hw hf hl hc h
      · simp only [hst, if_false, Bool.false_eq_true] at h
        obtain ⟨s1, h1, h2⟩ := Option.bind_eq_some_iff.1 h
        obtain ⟨k1, k2, k3, k4, k5, k6⟩ := hw.kids leaf hl c hc _ (s.quadrant_lt box leaf o)
        have hmem : o ∈ s.objects leaf := List.mem_of_getElem? ho
        have hfo := quadrant_fit (hf leaf hl o hmem) (by simpa using hst) k5 k6
        obtain ⟨dep1, a⟩ := hadd s dep o _ s1 hw hf k1 hfo h1
        have hl1 := a.step.used hl
        have ho1 : s1.objects leaf = s.objects leaf := a.step.objects leaf hl.1 (by omega)
        have ho1' : (s1.objects leaf)[i]? = some o := by rw [ho1]; exact ho
        have hd1 := a.step.dp leaf hl.1
        have st : Step (dep leaf) s dep (s1.dropAt leaf i) dep1 := by
          have s0 := a.step.mono (show dep leaf ≤ dep (c + s.quadrant box leaf o) by omega)
          have hok : ∀ e ≤ dep leaf, ∀ x, s1.OkAt e dep1 x → (s1.dropAt leaf i).OkAt e dep1 x := by
            intro e he x hx
            by_cases hxo : x = o
            · subst hxo
              obtain ⟨m, m1, m2, m3, m4⟩ := a.mem
              have : m ≠ leaf := fun e => by subst e; omega
              exact ⟨m, m1, m2, by simpa [dropAt, Function.update_of_ne this] using m3, by omega⟩
            · obtain ⟨m, m1, m2, m3, m4⟩ := hx
              refine ⟨m, m1, m2, ?_, m4⟩
              by_cases hml : m = leaf
              · subst hml; simpa [dropAt] using mem_swapPop ho1' m3 hxo
              · simpa [dropAt, Function.update_of_ne hml] using m3
          exact { s0 with
            objects := fun j hj hd => by
              have : j ≠ leaf := fun e => by subst e; omega
              have e2 := s0.objects j hj hd
              simpa [dropAt, Function.update_of_ne this] using e2
            okAt := fun e he x hx => hok e he x (s0.okAt e he x hx)
            assoc := fun x => (s0.assoc x).imp id fun h => (hok 0 (Nat.zero_le _) x (h.at dep1)).ok }
        obtain ⟨dep2, w2, f2, st2, al2⟩ := ih (s1.dropAt leaf i) dep1 i s' (a.wf.dropAt hl1 i) (fit_dropAt a.fit ho1') hl1
          (a.step.child leaf hl.1 c hc) h2
        refine ⟨dep2, w2, f2, st.trans (by rw [← hd1]; exact st2), ?_⟩
        have e1 := all_dropAt hl1.1 ho1'
        rw [a.all] at e1
        rw [al2, (Multiset.cons_inj_right o).1 e1]

theorem addAt_spec (cap : ℕ∞) (box : T → Rect α) : ∀ f, AddSpec box (addAt cap box f) := by
  intro f
  induction f with
  | zero => intro s dep o n s' _ _ _ _ h; simp [addAt] at h
  | succ f ih =>
    intro s dep o n s' hw hf hn hfit h
    unfold addAt at h
    have hpush : Added box s dep o n (s.push o n) dep :=
      ⟨hw.push o hn, fit_push hf hfit, push_step o hn, all_push s o hn.1, ⟨n, hn, ok_push.1, ok_push.2, le_rfl⟩⟩
    by_cases hst : s.straddles box n o
    · simp only [hst, if_true] at h
      rw [← Option.some.inj h]
      exact ⟨dep, hpush⟩
    · simp only [hst, if_false, Bool.false_eq_true] at h
      cases hc : s.child n with
      | none =>
        simp only [hc] at h
        split_ifs at h with hsp
        · have h2 := splitLeaf_eq h
          have hn' : (s.push o n).Used n := hn
          have hr : min2 ((s.push o n).radius n).x ((s.push o n).radius n).y ≥ 1 / 20 := hsp.2
          have w0 := hpush.wf.splitInit (leaf := n) hn' hc
          have st0 := step_splitInit hpush.wf hn' hc hr
          have hu : ((s.push o n).splitInit n).Used n := st0.used hn'
          obtain ⟨dep', w, fi, st, al⟩ := splitLoop_spec ih n _ _ _ (depSplit (s.push o n) dep n) 0 s' w0
            (fit_splitInit hpush.wf hpush.fit) hu (by simp [splitInit]) h2
          have hdn : depSplit (s.push o n) dep n n = dep n := st0.dp n hn.1
          rw [hdn] at st
          have stt := (hpush.step.trans st0).trans st
          refine ⟨dep', w, fi, stt, ?_, (st0.trans st).okAt _ le_rfl o hpush.mem⟩
          rw [al, all_splitInit, hpush.all]
        · rw [← Option.some.inj h]
          exact ⟨dep, hpush⟩
      | some c =>
        simp only [hc] at h
        obtain ⟨k1, k2, k3, k4, k5, k6⟩ := hw.kids n hn c hc _ (s.quadrant_lt box n o)
        obtain ⟨dep', a⟩ := ih s dep o _ s' hw hf k1 (quadrant_fit hfit (by simpa using hst) k5 k6) h
        refine ⟨dep', a.wf, a.fit, a.step.mono (by omega), a.all, ?_⟩
        obtain ⟨m, m1, m2, m3, m4⟩ := a.mem
        exact ⟨m, m1, m2, m3, by omega⟩

/-- With enough passes and no limit on the number of nodes, `Add(object, n)` returns. -/
theorem splitLoop_total {box : T → Rect α} {f : ℕ} (leaf c D : ℕ)
    (htot : ∀ (s : QuadTree T α) dep o n, Wf s dep → Fit box s → s.Used n → (s.nodeRect n).contains (box o) = true → s.Deep D dep →
      D + 1 ≤ f + dep n → ∃ s', addAt ⊤ box f s o n = some s') :
    ∀ (k : ℕ) (s : QuadTree T α) (dep : ℕ → ℕ) (i : ℕ), Wf s dep → Fit box s → s.Used leaf → s.child leaf = some c → s.Deep D dep →
      D ≤ f + dep leaf → (s.objects leaf).length ≤ k + i → ∃ s', splitLoop box (addAt ⊤ box f) leaf c k s i = some s' := by
  intro k
  induction k with
  | zero =>
    intro s dep i hw hf hl hc hD hfu hk
    unfold splitLoop
    have : (s.objects leaf)[i]? = none := by rw [List.getElem?_eq_none_iff]; omega
    rw [this]
    exact ⟨s, rfl⟩
  | succ k ih =>
    intro s dep i hw hf hl hc hD hfu hk
    unfold splitLoop
    cases ho : (s.objects leaf)[i]? with
    | none => exact ⟨s, rfl⟩
    | some o =>
      by_cases hst : s.straddles box leaf o
      · simp only [hst, if_true]
        exact ih s dep (i + 1) hw hf hl hc hD hfu (by omega)
      · simp only [hst, if_false, Bool.false_eq_true]
        obtain ⟨k1, k2, k3, k4, k5, k6⟩ := hw.kids leaf hl c hc _ (s.quadrant_lt box leaf o)
        have hmem : o ∈ s.objects leaf := List.mem_of_getElem? ho
        have hfo := quadrant_fit (hf leaf hl o hmem) (by simpa using hst) k5 k6
        obtain ⟨s1, h1⟩ := htot s dep o _ hw hf k1 hfo hD (by omega)
        rw [h1, Option.bind_some]
        obtain ⟨dep1, a⟩ := addAt_spec ⊤ box f s dep o _ s1 hw hf k1 hfo h1
        have hl1 := a.step.used hl
        have ho1 : s1.objects leaf = s.objects leaf := a.step.objects leaf hl.1 (by omega)
        have ho1' : (s1.objects leaf)[i]? = some o := by rw [ho1]; exact ho
        refine ih (s1.dropAt leaf i) dep1 i (a.wf.dropAt hl1 i) (fit_dropAt a.fit ho1') hl1 (a.step.child leaf hl.1 c hc)
          (a.step.deep D hD) (by rw [a.step.dp leaf hl.1]; exact hfu) ?_
        have hlen := swapPop_length ho1'
        rw [ho1] at hlen
        simp only [dropAt, Function.update_self, ho1]
        omega

theorem addAt_total (box : T → Rect α) (D : ℕ) : ∀ (f : ℕ) (s : QuadTree T α) dep o n, Wf s dep → Fit box s → s.Used n →
    (s.nodeRect n).contains (box o) = true → s.Deep D dep → D + 1 ≤ f + dep n → ∃ s', addAt ⊤ box f s o n = some s' := by
  intro f
  induction f with
  | zero =>
    intro s dep o n hw hf hn hfit hD hfu
    exfalso
    have : 0 < dep n := by omega
    have hne : n ≠ s.root := fun e => by rw [e, hw.root_dep] at this; omega
    obtain ⟨p, c, j, hp, hj, hpc, rfl⟩ := hw.tree n hn hne
    have h1 := hD.1 p hp (by simp [hpc])
    have h2 := (hw.kids p hp c hpc j hj).2.2.2.1
    omega
  | succ f ih =>
    intro s dep o n hw hf hn hfit hD hfu
    unfold addAt
    by_cases hst : s.straddles box n o
    · simp only [hst, if_true]; exact ⟨_, rfl⟩
    · simp only [hst, if_false, Bool.false_eq_true]
      cases hc : s.child n with
      | none =>
        dsimp only
        split_ifs with hsp
        · rw [splitLeaf_top]
          have hw1 := hw.push o hn
          have hn' : (s.push o n).Used n := hn
          have hr : min2 ((s.push o n).radius n).x ((s.push o n).radius n).y ≥ 1 / 20 := hsp.2
          have w0 := hw1.splitInit (leaf := n) hn' hc
          have st0 := step_splitInit hw1 hn' hc hr
          have hu : ((s.push o n).splitInit n).Used n := st0.used hn'
          have hdn : depSplit (s.push o n) dep n n = dep n := st0.dp n hn.1
          have hob : ((s.push o n).splitInit n).objects n = (s.push o n).objects n := by
            have : ¬((s.push o n).size ≤ n ∧ n < (s.push o n).size + 4) := by have := hn'.1; omega
            simp only [splitInit, if_neg this]
          refine splitLoop_total n _ D ih _ _ (depSplit (s.push o n) dep n) 0 w0 (fit_splitInit hw1 (fit_push hf hfit)) hu (by simp [splitInit])
            (st0.deep D ((push_step o hn).deep D hD)) (by rw [hdn]; omega) ?_
          rw [hob]; omega
        · exact ⟨_, rfl⟩
      | some c =>
        dsimp only
        obtain ⟨k1, k2, k3, k4, k5, k6⟩ := hw.kids n hn c hc _ (s.quadrant_lt box n o)
        exact ih s dep o _ hw hf k1 (quadrant_fit hfit (by simpa using hst) k5 k6) hD (by omega)

end QuadTree
end MGL
