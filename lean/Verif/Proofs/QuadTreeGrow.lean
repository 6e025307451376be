import Verif.Proofs.QuadTreeAdd

/-! Growing the root of the quad tree. -/

set_option linter.unusedSectionVars false

namespace MGL
namespace QuadTree
variable {T α : Type*} [DecidableEq T] [Field α] [LinearOrder α] [IsStrictOrderedRing α]

/-- The center of a rectangle. -/
def mid (b : Rect α) : V2 α := ⟨(b.minPoint.x + b.maxPoint.x) * (1 / 2), (b.minPoint.y + b.maxPoint.y) * (1 / 2)⟩

/-- Half the extents of a rectangle. -/
def rad (b : Rect α) : V2 α := ⟨b.maxPoint.x - (mid b).x, b.maxPoint.y - (mid b).y⟩

/-- What growing does: the old root becomes the `q`-th quarter of the new one. -/
structure Grown (s : QuadTree T α) (b : Rect α) (q : ℕ) (s' : QuadTree T α) : Prop where
  size : s'.size = s.size + 4
  root : s'.root = s.size
  bounding : s'.bounding = b
  parent : ∀ i < s.size, ¬(s.root ≤ i ∧ i < s.root + 4) →
    s'.parent i = s.parent i ∨ ∃ c, s.child s.root = some c ∧ c ≤ i ∧ i < c + 4 ∧ s'.parent i = some (s.root + q)
  parent_kid : ∀ c, s.child s.root = some c → ∀ j < 4, c + j < s.size → ¬(s.root ≤ c + j ∧ c + j < s.root + 4) → s.parent (c + j) = some s.root →
    s'.parent (c + j) = some (s.root + q)
  child : ∀ i < s.size, ¬(s.root ≤ i ∧ i < s.root + 4) → s'.child i = s.child i
  objects : ∀ i < s.size, ¬(s.root ≤ i ∧ i < s.root + 4) → s'.objects i = s.objects i
  center : ∀ i < s.size, ¬(s.root ≤ i ∧ i < s.root + 4) → s'.center i = s.center i
  radius : ∀ i < s.size, ¬(s.root ≤ i ∧ i < s.root + 4) → s'.radius i = s.radius i
  gparent : ∀ j < 4, s'.parent (s.root + j) = some s.size
  gchild : ∀ j < 4, s'.child (s.root + j) = if j = q then s.child s.root else none
  gobjects : ∀ j < 4, s'.objects (s.root + j) = if j = q then s.objects s.root else []
  gcenter : ∀ j < 4, s'.center (s.root + j) = quadCenter (mid b) (half (rad b)) j
  gradius : ∀ j < 4, s'.radius (s.root + j) = half (rad b)
  nparent : s'.parent s.size = none
  nchild : s'.child s.size = some s.root
  nobjects : s'.objects s.size = []
  ncenter : s'.center s.size = mid b
  nradius : s'.radius s.size = rad b
  dummy : ∀ i, s.size < i → i < s.size + 4 → s'.child i = none ∧ s'.objects i = []
  assoc : ∀ x, s'.assoc x = s.assoc x ∨ (x ∈ s.objects s.root ∧ s'.assoc x = some (s.root + q))
  assoc_root : ∀ x ∈ s.objects s.root, s.assoc x = some s.root → s'.assoc x = some (s.root + q)

/-- What moving the root does. -/
structure Moved (s : QuadTree T α) (q : ℕ) (s1 : QuadTree T α) : Prop where
  size : s1.size = s.size
  root : s1.root = s.root
  bounding : s1.bounding = s.bounding
  parent : ∀ i < s.size, ¬(s.root ≤ i ∧ i < s.root + 4) →
    s1.parent i = s.parent i ∨ ∃ c, s.child s.root = some c ∧ c ≤ i ∧ i < c + 4 ∧ s1.parent i = some (s.root + q)
  parent_kid : ∀ c, s.child s.root = some c → ∀ j < 4, ¬(s.root ≤ c + j ∧ c + j < s.root + 4) → s.parent (c + j) = some s.root →
    s1.parent (c + j) = some (s.root + q)
  child : ∀ i, ¬(s.root ≤ i ∧ i < s.root + 4) → s1.child i = s.child i
  objects : ∀ i, ¬(s.root ≤ i ∧ i < s.root + 4) → s1.objects i = s.objects i
  center : ∀ i, ¬(s.root ≤ i ∧ i < s.root + 4) → s1.center i = s.center i
  radius : ∀ i, ¬(s.root ≤ i ∧ i < s.root + 4) → s1.radius i = s.radius i
  gchild : ∀ j < 4, s1.child (s.root + j) = if j = q then s.child s.root else none
  gobjects : ∀ j < 4, s1.objects (s.root + j) = if j = q then s.objects s.root else []
  assoc : ∀ x, s1.assoc x = s.assoc x ∨ (x ∈ s.objects s.root ∧ s1.assoc x = some (s.root + q))
  assoc_root : ∀ x ∈ s.objects s.root, s.assoc x = some s.root → s1.assoc x = some (s.root + q)

theorem moved {s : QuadTree T α} {q : ℕ} (hq : q < 4)
    (hd : ∀ i, s.root < i → i < s.root + 4 → s.child i = none ∧ s.objects i = []) : Moved s q (s.moveRoot q) := by
  by_cases q0 : q = 0
  · subst q0
    have e : s.moveRoot 0 = s := by simp [moveRoot]
    rw [e]
    refine ⟨rfl, rfl, rfl, fun _ _ _ => Or.inl rfl, fun _ _ _ _ _ h => h, fun _ _ => rfl, fun _ _ => rfl, fun _ _ => rfl, fun _ _ => rfl,
      ?_, ?_, fun _ => Or.inl rfl, fun _ _ h => h⟩
    · intro j hj
      split_ifs with e
      · subst e; rfl
      · exact (hd _ (by omega) (by omega)).1
    · intro j hj
      split_ifs with e
      · subst e; rfl
      · exact (hd _ (by omega) (by omega)).2
  · obtain ⟨sw, hsw⟩ : ∃ sw : ℕ → ℕ, ∀ i, sw i = if i = s.root then s.root + q else if i = s.root + q then s.root else i := ⟨_, fun _ => rfl⟩
    have sw1 : ∀ i, ¬(s.root ≤ i ∧ i < s.root + 4) → sw i = i := by
      intro i hi; rw [hsw, if_neg (by omega), if_neg (by omega)]
    have sw2 : sw (s.root + q) = s.root := by rw [hsw, if_neg (by omega), if_pos rfl]
    have sw3 : ∀ j < 4, j ≠ q → s.root < sw (s.root + j) ∧ sw (s.root + j) < s.root + 4 := by
      intro j hj hne; rw [hsw]; split_ifs <;> omega
    have e : s.moveRoot q = { s with
        parent := match s.child s.root with
          | none => fun i => s.parent (sw i)
          | some c => fun i => if c ≤ i ∧ i < c + 4 then some (s.root + q) else s.parent (sw i)
        child := fun i => s.child (sw i)
        objects := fun i => s.objects (sw i)
        center := fun i => s.center (sw i)
        radius := fun i => s.radius (sw i)
        assoc := fun o => if o ∈ s.objects s.root then some (s.root + q) else s.assoc o } := by
      have hf : (fun i => if i = s.root then s.root + q else if i = s.root + q then s.root else i) = sw := (funext hsw).symm
      have h1 : (s.swapNodes s.root (s.root + q)) = { s with
          parent := fun i => s.parent (sw i), child := fun i => s.child (sw i), objects := fun i => s.objects (sw i),
          center := fun i => s.center (sw i), radius := fun i => s.radius (sw i) } := by
        rw [← hf]; rfl
      unfold moveRoot
      rw [if_pos q0]
      dsimp only
      rw [h1]
      dsimp only
      simp only [sw2]
      congr 1
    rw [e]
    refine ⟨rfl, rfl, rfl, ?_, ?_, ?_, ?_, ?_, ?_, ?_, ?_, ?_, ?_⟩
    · intro i hi hg
      dsimp only
      cases hc : s.child s.root with
      | none => left; dsimp only; rw [sw1 i hg]
      | some c =>
        dsimp only
        split_ifs with e
        · exact Or.inr ⟨c, rfl, e.1, e.2, rfl⟩
        · left; rw [sw1 i hg]
    · intro c hc j hj hg hp
      dsimp only
      rw [hc]
      dsimp only
      rw [if_pos (by omega)]
    · intro i hg; dsimp only; rw [sw1 i hg]
    · intro i hg; dsimp only; rw [sw1 i hg]
    · intro i hg; dsimp only; rw [sw1 i hg]
    · intro i hg; dsimp only; rw [sw1 i hg]
    · intro j hj
      split_ifs with e
      · subst e; dsimp only; rw [sw2]
      · exact (hd _ (sw3 j hj e).1 (sw3 j hj e).2).1
    · intro j hj
      split_ifs with e
      · subst e; dsimp only; rw [sw2]
      · exact (hd _ (sw3 j hj e).1 (sw3 j hj e).2).2
    · intro x
      dsimp only
      split_ifs with e
      · exact Or.inr ⟨e, rfl⟩
      · exact Or.inl rfl
    · intro x hx _
      dsimp only
      rw [if_pos hx]

theorem grown {cap : ℕ∞} {s s' : QuadTree T α} {dep : ℕ → ℕ} {b : Rect α} {q : ℕ} (hq : q < 4) (hw : Wf s dep)
    (h : growImpl cap { s with bounding := b } q = some s') : Grown s b q s' := by
  have hr := hw.root_le
  have m := moved (s := { s with bounding := b }) hq hw.dummy
  unfold growImpl at h
  dsimp only at h
  generalize moveRoot { s with bounding := b } q = s1 at *
  obtain ⟨s4, h1, h2⟩ := Option.map_eq_some_iff.1 h
  have h4 := alloc_none h1
  subst h4
  obtain ⟨m1, m2, m3, m4, m5, m6, m7, m8, m9, m10, m11, m12, m13⟩ := m
  dsimp only at m1 m2 m3 m4 m5 m6 m7 m8 m9 m10 m11 m12 m13
  simp only [m1, m2, m3] at h2
  subst h2
  refine ⟨rfl, rfl, rfl, ?_, ?_, ?_, ?_, ?_, ?_, ?_, ?_, ?_, ?_, ?_, ?_, ?_, ?_, ?_, ?_, ?_, m12, m13⟩
  · intro i hi hg; dsimp only; rw [if_neg hg, if_neg (by omega)]; exact m4 i hi hg
  · intro c hc j hj hlt hg hp; dsimp only; rw [if_neg hg, if_neg (by omega)]; exact m5 c hc j hj hg hp
  · intro i hi hg; dsimp only; rw [Function.update_of_ne (by omega), if_neg (by omega)]; exact m6 i hg
  · intro i hi hg; dsimp only; rw [if_neg (by omega)]; exact m7 i hg
  · intro i hi hg; dsimp only; rw [if_neg (by omega), if_neg (by omega), if_neg (by omega), if_neg (by omega), if_neg (by omega)]; exact m8 i hg
  · intro i hi hg; dsimp only; rw [if_neg (by omega), if_neg (by omega)]; exact m9 i hg
  · intro j hj; dsimp only; rw [if_pos (by omega)]
  · intro j hj; dsimp only; rw [Function.update_of_ne (by omega), if_neg (by omega)]; exact m10 j hj
  · intro j hj; dsimp only; rw [if_neg (by omega)]; exact m11 j hj
  · intro j hj; dsimp only; rw [if_neg (by omega)]
    interval_cases j <;> simp [quadCenter, half, rad, mid]
  · intro j hj; dsimp only; rw [if_neg (by omega), if_pos (by omega)]; rfl
  · dsimp only; rw [if_neg (by omega), if_pos (by omega)]
  · dsimp only; rw [Function.update_self]
  · dsimp only; rw [if_pos (by omega)]
  · dsimp only; rw [if_pos rfl]; rfl
  · dsimp only; rw [if_pos rfl]; rfl
  · intro i h1 h2; dsimp only; rw [Function.update_of_ne (by omega), if_pos (by omega), if_pos (by omega)]; exact ⟨rfl, rfl⟩

theorem growImpl_top (s : QuadTree T α) (q : ℕ) : ∃ s', growImpl ⊤ s q = some s' := by
  obtain ⟨s1, h1⟩ := alloc_top (s.moveRoot q) none
  unfold growImpl
  dsimp only
  rw [h1]
  exact ⟨_, rfl⟩

section
variable {s s' : QuadTree T α} {b : Rect α} {q : ℕ} {dep : ℕ → ℕ}

/-- The depths after growing. -/
def depGrow (s : QuadTree T α) (dep : ℕ → ℕ) : ℕ → ℕ := fun i =>
  if i = s.size then 0 else if s.root ≤ i ∧ i < s.root + 4 then 1 else dep i + 1

theorem Grown.used (g : Grown s b q s') (hw : Wf s dep) {i : ℕ} : s'.Used i ↔ i < s.size ∨ i = s.size := by
  have := hw.root_le
  unfold Used
  rw [g.size, g.root]
  omega

theorem Grown.wf (g : Grown s b q s') (hw : Wf s dep) (hq : q < 4) (hx : b.minPoint.x < b.maxPoint.x) (hy : b.minPoint.y < b.maxPoint.y)
    (hc : s.center s.root = quadCenter (mid b) (half (rad b)) q) (hrad : s.radius s.root = half (rad b)) : Wf s' (depGrow s dep) := by
  have hr := hw.root_le
  have hdg : ∀ j < 4, depGrow s dep (s.root + j) = 1 := fun j hj => by
    unfold depGrow; rw [if_neg (by omega), if_pos (by omega)]
  have hdo : ∀ i < s.size, ¬(s.root ≤ i ∧ i < s.root + 4) → depGrow s dep i = dep i + 1 := fun i hi hg => by
    unfold depGrow; rw [if_neg (by omega), if_neg hg]
  constructor
  · rw [g.size, g.root]
  · rw [g.root]; exact g.nparent
  · rw [g.root]; simp [depGrow]
  · rw [g.root, g.ncenter, g.bounding]; rfl
  · rw [g.root, g.nradius, g.ncenter, g.bounding]; rfl
  · rw [g.bounding]; exact hx
  · rw [g.bounding]; exact hy
  · intro i h1 h2; rw [g.root] at h1 h2; exact g.dummy i h1 h2
  · intro i hi c hci j hj
    rw [g.used hw] at hi
    rw [g.used hw, g.root]
    by_cases hn : i = s.size
    · subst hn
      rw [g.nchild, Option.some.injEq] at hci
      subst hci
      refine ⟨by omega, by omega, g.gparent j hj, ?_, ?_, ?_⟩
      · rw [hdg j hj]; simp [depGrow]
      · rw [g.nradius]; exact g.gradius j hj
      · rw [g.ncenter, g.nradius]; exact g.gcenter j hj
    · have hi' : i < s.size := by omega
      by_cases hg : s.root ≤ i ∧ i < s.root + 4
      · obtain ⟨k, rfl⟩ := Nat.exists_eq_add_of_le hg.1
        have hk : k < 4 := by omega
        rw [g.gchild k hk] at hci
        split_ifs at hci with e
        subst e
        obtain ⟨k1, k2, k3, k4, k5, k6⟩ := hw.kids s.root hw.used_root c hci j hj
        have hng : ¬(s.root ≤ c + j ∧ c + j < s.root + 4) := by have := k1.2; omega
        refine ⟨Or.inl k1.1, by have := k1.1; omega, g.parent_kid c hci j hj k1.1 hng k3, ?_, ?_, ?_⟩
        · rw [hdg k hk, hdo _ k1.1 hng, k4, hw.root_dep]
        · rw [g.radius _ k1.1 hng, g.gradius k hk, k5, hrad]
        · rw [g.center _ k1.1 hng, g.gcenter k hk, g.gradius k hk, k6, hc, hrad]
      · rw [g.child i hi' hg] at hci
        have hiu : s.Used i := ⟨hi', by omega⟩
        obtain ⟨k1, k2, k3, k4, k5, k6⟩ := hw.kids i hiu c hci j hj
        have hng : ¬(s.root ≤ c + j ∧ c + j < s.root + 4) := by have := k1.2; omega
        refine ⟨Or.inl k1.1, by have := k1.1; omega, ?_, ?_, ?_, ?_⟩
        · rcases g.parent _ k1.1 hng with e | ⟨c2, e1, e2, e3, e4⟩
          · rw [e, k3]
          · exfalso
            have := (hw.kids s.root hw.used_root c2 e1 (c + j - c2) (by omega)).2.2.1
            rw [show c2 + (c + j - c2) = c + j by omega, k3, Option.some.injEq] at this
            omega
        · rw [hdo _ k1.1 hng, hdo i hi' hg, k4]
        · rw [g.radius _ k1.1 hng, g.radius i hi' hg, k5]
        · rw [g.center _ k1.1 hng, g.center i hi' hg, g.radius i hi' hg, k6]
  · intro i hi hne
    rw [g.used hw] at hi
    rw [g.root] at hne
    have hi' : i < s.size := by omega
    by_cases hg : s.root ≤ i ∧ i < s.root + 4
    · exact ⟨s.size, s.root, i - s.root, (g.used hw).2 (Or.inr rfl), by omega, g.nchild, by omega⟩
    · obtain ⟨p, c, j, hp, hj, hpc, rfl⟩ := hw.tree i ⟨hi', by omega⟩ (by omega)
      by_cases hpr : p = s.root
      · subst hpr
        refine ⟨s.root + q, c, j, (g.used hw).2 (by omega), hj, ?_, rfl⟩
        rw [g.gchild q hq, if_pos rfl, hpc]
      · have hng : ¬(s.root ≤ p ∧ p < s.root + 4) := by have := hp.2; omega
        exact ⟨p, c, j, (g.used hw).2 (Or.inl hp.1), hj, by rw [g.child p hp.1 hng]; exact hpc, rfl⟩

theorem Grown.fit {box : T → Rect α} (g : Grown s b q s') (hw : Wf s dep) (hf : Fit box s)
    (hc : s.center s.root = quadCenter (mid b) (half (rad b)) q) (hrad : s.radius s.root = half (rad b)) : Fit box s' := by
  intro i hi o ho
  rw [g.used hw] at hi
  by_cases hn : i = s.size
  · subst hn; rw [g.nobjects] at ho; simp at ho
  · have hi' : i < s.size := by omega
    by_cases hg : s.root ≤ i ∧ i < s.root + 4
    · obtain ⟨k, rfl⟩ := Nat.exists_eq_add_of_le hg.1
      have hk : k < 4 := by omega
      rw [g.gobjects k hk] at ho
      split_ifs at ho with e
      · subst e
        have := hf s.root hw.used_root o ho
        simpa only [nodeRect, g.gcenter k hk, g.gradius k hk, hc, hrad] using this
      · simp at ho
    · rw [g.objects i hi' hg] at ho
      have := hf i ⟨hi', by omega⟩ o ho
      simpa only [nodeRect, g.center i hi' hg, g.radius i hi' hg] using this

theorem Grown.all (g : Grown s b q s') (hw : Wf s dep) (hq : q < 4) : s'.all = s.all := by
  have hr := hw.root_le
  unfold QuadTree.all
  rw [g.size]
  have e : ∀ i ∈ Finset.range (s.size + 4), i ∉ Finset.range s.size → (s'.objects i : Multiset T) = 0 := by
    intro i hi hi2
    simp only [Finset.mem_range] at hi hi2
    by_cases hn : i = s.size
    · rw [hn, g.nobjects]; rfl
    · rw [(g.dummy i (by omega) (by omega)).2]; rfl
  rw [← Finset.sum_subset (Finset.range_mono (by omega : s.size ≤ s.size + 4)) e]
  by_cases q0 : q = 0
  · refine Finset.sum_congr rfl fun i hi => ?_
    have hi := Finset.mem_range.1 hi
    by_cases hg : s.root ≤ i ∧ i < s.root + 4
    · obtain ⟨k, rfl⟩ := Nat.exists_eq_add_of_le hg.1
      rw [g.gobjects k (by omega)]
      split_ifs with e
      · subst e; subst q0; rfl
      · rw [(hw.dummy _ (by omega) (by omega)).2]
    · rw [g.objects i hi hg]
  · have hu : ∀ i ∈ Finset.range s.size, (s'.objects i : Multiset T) =
        (Function.update (Function.update s.objects s.root []) (s.root + q) (s.objects s.root) i : Multiset T) := by
      intro i hi
      have hi := Finset.mem_range.1 hi
      by_cases hg : s.root ≤ i ∧ i < s.root + 4
      · obtain ⟨k, rfl⟩ := Nat.exists_eq_add_of_le hg.1
        rw [g.gobjects k (by omega)]
        split_ifs with e
        · subst e; rw [Function.update_self]
        · rw [Function.update_of_ne (by omega)]
          by_cases k0 : k = 0
          · subst k0; simp
          · rw [Function.update_of_ne (by omega), (hw.dummy _ (by omega) (by omega)).2]
      · rw [Function.update_of_ne (by omega), Function.update_of_ne (by omega), g.objects i hi hg]
    rw [Finset.sum_congr rfl hu]
    have h1 := sum_update (show s.root + q < s.size by omega) (Function.update s.objects s.root []) (s.objects s.root)
    have h2 := sum_update (show s.root < s.size by omega) s.objects []
    rw [Function.update_of_ne (show s.root + q ≠ s.root by omega), (hw.dummy (s.root + q) (by omega) (by omega)).2] at h1
    simp only [Multiset.coe_nil, add_zero] at h1 h2
    rw [h1, h2]

theorem Grown.ok (g : Grown s b q s') (hw : Wf s dep) (hq : q < 4) (x : T) (hx : s.Ok x) : s'.Ok x := by
  have hr := hw.root_le
  have key : x ∈ s.objects s.root → s'.assoc x = some (s.root + q) → s'.Ok x := fun hm ha =>
    ⟨s.root + q, (g.used hw).2 (by omega), ha, by rw [g.gobjects q hq, if_pos rfl]; exact hm⟩
  obtain ⟨i, hi, ha, hm⟩ := hx
  by_cases hir : i = s.root
  · subst hir; exact key hm (g.assoc_root x hm ha)
  · rcases g.assoc x with e | ⟨e1, e2⟩
    · refine ⟨i, (g.used hw).2 (Or.inl hi.1), e.trans ha, ?_⟩
      rw [g.objects i hi.1 (by have := hi.2; omega)]; exact hm
    · exact key e1 e2

theorem Grown.assoc_or (g : Grown s b q s') (hw : Wf s dep) (hq : q < 4) (x : T) : s'.assoc x = s.assoc x ∨ s'.Ok x := by
  have hr := hw.root_le
  rcases g.assoc x with e | ⟨e1, e2⟩
  · exact Or.inl e
  · exact Or.inr ⟨s.root + q, (g.used hw).2 (by omega), e2, by rw [g.gobjects q hq, if_pos rfl]; exact e1⟩

end

end QuadTree
end MGL
