import Verif.Proofs.QuadTreeGrow
import Mathlib.Algebra.Order.Archimedean.Basic
import Mathlib.Tactic.Positivity

/-! `Clear`, `Add(object)` and `Remove` keep the invariant of the quad tree. -/

set_option linter.unusedSectionVars false

namespace MGL
namespace QuadTree
variable {T α : Type*} [DecidableEq T] [Field α] [LinearOrder α] [IsStrictOrderedRing α]

/-- The invariant between the operations. `lost` are the objects that were in the tree when it was last cleared. -/
structure Inv (box : T → Rect α) (s : QuadTree T α) (lost : T → Prop) : Prop where
  wf : ∃ dep D, Wf s dep ∧ s.Deep D dep
  fit : Fit box s
  stored : ∀ x ∈ s.all, s.Ok x
  assoc : ∀ x, ¬lost x → s.assoc x ≠ none → s.Ok x

/-- The bounding rectangle after the root has become the `q`-th quarter. -/
def growRect (b : Rect α) (q : ℕ) : Rect α :=
  let w := b.maxPoint.x - b.minPoint.x
  let h := b.maxPoint.y - b.minPoint.y
  ⟨⟨if q = 1 ∨ q = 3 then b.minPoint.x - w else b.minPoint.x, if q = 2 ∨ q = 3 then b.minPoint.y - h else b.minPoint.y⟩,
   ⟨if q = 0 ∨ q = 2 then b.maxPoint.x + w else b.maxPoint.x, if q = 0 ∨ q = 1 then b.maxPoint.y + h else b.maxPoint.y⟩⟩

/-- Growing in one of the four directions. -/
def grow (cap : ℕ∞) (s : QuadTree T α) (q : ℕ) : Option (QuadTree T α) := growImpl cap { s with bounding := growRect s.bounding q } q

/-- The direction `Add` grows in. -/
def pick (b bb : Rect α) : ℕ :=
  if b.minPoint.x ≥ bb.minPoint.x then
    if b.maxPoint.x ≤ bb.maxPoint.x then (if b.minPoint.y ≥ bb.minPoint.y then 0 else 2)
    else if b.minPoint.y < bb.minPoint.y then 2 else 0
  else if b.minPoint.y < bb.minPoint.y then 3 else 1

theorem pick_lt (b bb : Rect α) : pick b bb < 4 := by unfold pick; split_ifs <;> omega

theorem add_fit {cap : ℕ∞} {box : T → Rect α} {f g : ℕ} {s : QuadTree T α} {o : T} (h : s.bounding.contains (box o) = true) :
    add cap box f g s o = addAt cap box f s o s.root := by
  rw [contains_iff] at h
  unfold add
  simp only [ge_iff_le, h.1, h.2.1, h.2.2.1, h.2.2.2, if_true]

theorem add_zero {cap : ℕ∞} {box : T → Rect α} {f : ℕ} {s : QuadTree T α} {o : T} (h : s.bounding.contains (box o) = false) :
    add cap box f 0 s o = none := by
  have h' : ¬(s.bounding.contains (box o) = true) := by simp [h]
  rw [contains_iff] at h'
  unfold add
  dsimp only
  split_ifs with h1 h2 h3 h4
  all_goals first | rfl | skip
  exact absurd ⟨h1, h3, h2, h4⟩ h'

theorem add_succ {cap : ℕ∞} {box : T → Rect α} {f g : ℕ} {s : QuadTree T α} {o : T} (h : s.bounding.contains (box o) = false) :
    add cap box f (g + 1) s o = (grow cap s (pick (box o) s.bounding)).bind fun s1 => add cap box f g s1 o := by
  have h' : ¬(s.bounding.contains (box o) = true) := by simp [h]
  rw [contains_iff] at h'
  rw [add]
  unfold pick grow
  dsimp only
  split_ifs with h1 h2 h3 h4
  all_goals first | (exfalso; exact h' ⟨h1, h3, h2, h4⟩) | skip
  all_goals simp [growRect, growTopLeft, growTopRight, growBottomLeft, growBottomRight]

theorem Wf.center_root {s : QuadTree T α} {dep : ℕ → ℕ} (h : Wf s dep) : s.center s.root = mid s.bounding := h.root_center

theorem Wf.radius_root {s : QuadTree T α} {dep : ℕ → ℕ} (h : Wf s dep) : s.radius s.root = rad s.bounding := by
  rw [h.root_radius, h.center_root]; rfl

theorem Wf.rect_root {s : QuadTree T α} {dep : ℕ → ℕ} (h : Wf s dep) : s.nodeRect s.root = s.bounding := by
  unfold nodeRect
  rw [h.radius_root, h.center_root]
  simp only [rad, mid]
  ext <;> dsimp only <;> ring

theorem mid_growRect (b : Rect α) {q : ℕ} (hq : q < 4) : mid b = quadCenter (mid (growRect b q)) (half (rad (growRect b q))) q := by
  interval_cases q <;> ext <;> simp [mid, quadCenter, half, rad, growRect] <;> ring

theorem rad_growRect (b : Rect α) {q : ℕ} (hq : q < 4) : rad b = half (rad (growRect b q)) := by
  interval_cases q <;> ext <;> simp [mid, half, rad, growRect] <;> ring

theorem grow_pos (b : Rect α) {q : ℕ} (hq : q < 4) (hx : b.minPoint.x < b.maxPoint.x) (hy : b.minPoint.y < b.maxPoint.y) :
    (growRect b q).minPoint.x < (growRect b q).maxPoint.x ∧ (growRect b q).minPoint.y < (growRect b q).maxPoint.y := by
  interval_cases q <;> simp [growRect] <;> constructor <;> linarith

theorem grow_spec {cap : ℕ∞} {box : T → Rect α} {s s' : QuadTree T α} {lost : T → Prop} {q : ℕ} (hq : q < 4) (h : Inv box s lost)
    (hg : grow cap s q = some s') : Inv box s' lost ∧ s'.all = s.all ∧ s'.bounding = growRect s.bounding q := by
  obtain ⟨⟨dep, D, hw, hD⟩, hf, h1, h2⟩ := h
  have g := grown hq hw hg
  have hc : s.center s.root = quadCenter (mid (growRect s.bounding q)) (half (rad (growRect s.bounding q))) q := by
    rw [hw.center_root]; exact mid_growRect _ hq
  have hr : s.radius s.root = half (rad (growRect s.bounding q)) := by rw [hw.radius_root]; exact rad_growRect _ hq
  obtain ⟨px, py⟩ := grow_pos s.bounding hq hw.pos_x hw.pos_y
  have w' := g.wf hw hq px py hc hr
  have hall := g.all hw hq
  refine ⟨⟨⟨_, D + 1, w', ?_, ?_⟩, g.fit hw hf hc hr, ?_, ?_⟩, hall, g.bounding⟩
  · intro i hi hci
    rw [g.used hw] at hi
    unfold depGrow
    split_ifs with e1 e2
    · omega
    · obtain ⟨k, rfl⟩ := Nat.exists_eq_add_of_le e2.1
      rw [g.gchild k (by omega)] at hci
      split_ifs at hci
      · have := hD.1 s.root hw.used_root hci
        rw [hw.root_dep] at this; omega
      · exact absurd rfl hci
    · have hi' : i < s.size := by omega
      rw [g.child i hi' e2] at hci
      have := hD.1 i ⟨hi', by omega⟩ hci
      omega
  · have h3 := hD.2
    rw [g.root, g.nradius]
    rw [hr] at h3
    simp only [half] at h3
    rw [pow_succ]
    rcases min_lt_iff.1 h3 with k | k
    · exact min_lt_iff.2 (Or.inl (by linarith))
    · exact min_lt_iff.2 (Or.inr (by linarith))
  · intro x hx; rw [hall] at hx; exact g.ok hw hq x (h1 x hx)
  · intro x hx ha
    rcases g.assoc_or hw hq x with e | e
    · exact g.ok hw hq x (h2 x hx (by rwa [← e]))
    · exact e

/-- `Add` puts the object into the tree and keeps the invariant; what was lost and is added again is no longer lost. -/
theorem add_spec {cap : ℕ∞} {box : T → Rect α} {f : ℕ} {lost : T → Prop} {o : T} : ∀ (g : ℕ) {s s' : QuadTree T α}, Inv box s lost →
    add cap box f g s o = some s' → Inv box s' (fun x => lost x ∧ x ≠ o) ∧ s'.all = o ::ₘ s.all := by
  intro g
  induction g with
  | zero =>
    intro s s' hi h
    by_cases hc : s.bounding.contains (box o) = true
    · rw [add_fit hc] at h
      obtain ⟨⟨dep, D, hw, hD⟩, hf, h1, h2⟩ := hi
      obtain ⟨dep', a⟩ := addAt_spec cap box f s dep o s.root s' hw hf hw.used_root (by rw [hw.rect_root]; exact hc) h
      refine ⟨⟨⟨dep', D, a.wf, a.step.deep D hD⟩, a.fit, ?_, ?_⟩, a.all⟩
      · intro x hx
        rw [a.all] at hx
        rcases Multiset.mem_cons.1 hx with e | e
        · rw [e]; exact a.mem.ok
        · exact a.step.ok x (h1 x e)
      · intro x hx ha
        by_cases e : x = o
        · rw [e]; exact a.mem.ok
        · rcases a.step.assoc x with e2 | e2
          · exact a.step.ok x (h2 x (fun hl => hx ⟨hl, e⟩) (by rwa [← e2]))
          · exact e2
    · rw [add_zero (by simpa using hc)] at h; simp at h
  | succ g ih =>
    intro s s' hi h
    by_cases hc : s.bounding.contains (box o) = true
    · rw [add_fit hc] at h
      obtain ⟨⟨dep, D, hw, hD⟩, hf, h1, h2⟩ := hi
      obtain ⟨dep', a⟩ := addAt_spec cap box f s dep o s.root s' hw hf hw.used_root (by rw [hw.rect_root]; exact hc) h
      refine ⟨⟨⟨dep', D, a.wf, a.step.deep D hD⟩, a.fit, ?_, ?_⟩, a.all⟩
      · intro x hx
        rw [a.all] at hx
        rcases Multiset.mem_cons.1 hx with e | e
        · rw [e]; exact a.mem.ok
        · exact a.step.ok x (h1 x e)
      · intro x hx ha
        by_cases e : x = o
        · rw [e]; exact a.mem.ok
        · rcases a.step.assoc x with e2 | e2
          · exact a.step.ok x (h2 x (fun hl => hx ⟨hl, e⟩) (by rwa [← e2]))
          · exact e2
    · rw [add_succ (by simpa using hc)] at h
      obtain ⟨s1, g1, g2⟩ := Option.bind_eq_some_iff.1 h
      obtain ⟨i1, a1, -⟩ := grow_spec (pick_lt _ _) hi g1
      obtain ⟨i2, a2⟩ := ih i1 g2
      exact ⟨i2, by rw [a2, a1]⟩

/-- `Clear`. -/
theorem clear_spec {cap : ℕ∞} {box : T → Rect α} {s s' : QuadTree T α} {mn mx : V2 α} (hx : mn.x < mx.x) (hy : mn.y < mx.y) {lost : T → Prop}
    (hl : ∀ x, s.assoc x ≠ none → lost x) [Archimedean α] (h : clear cap s mn mx = some s') : Inv box s' lost ∧ s'.all = 0 ∧ s'.bounding = ⟨mn, mx⟩ := by
  unfold clear at h
  obtain ⟨s1, h1, h2⟩ := Option.map_eq_some_iff.1 h
  have h4 := alloc_none h1
  subst h4
  dsimp only at h2
  subst h2
  have hall : ∀ i, i < 4 → (0 : ℕ) ≤ i ∧ i < 0 + 4 := fun i hi => by omega
  generalize hs : ({ s with size := _, parent := _, child := _, objects := _, center := _, radius := _, root := _, bounding := _ } : QuadTree T α) = s'
  have ho : ∀ i < 4, s'.objects i = [] ∧ s'.child i = none ∧ s'.parent i = none := by
    intro i hi
    rw [← hs]
    dsimp only
    rw [if_pos (hall i hi), if_pos (hall i hi), if_pos (hall i hi)]
    exact ⟨rfl, rfl, rfl⟩
  have hsz : s'.size = 4 := by rw [← hs]
  have hrt : s'.root = 0 := by rw [← hs]
  have hb : s'.bounding = ⟨mn, mx⟩ := by rw [← hs]
  have hce : s'.center 0 = mid ⟨mn, mx⟩ := by rw [← hs]; simp [mid]
  have hra : s'.radius 0 = rad ⟨mn, mx⟩ := by rw [← hs]; simp [rad, mid]
  have has : s'.assoc = s.assoc := by rw [← hs]
  have ha : s'.all = 0 := by
    unfold QuadTree.all
    refine Finset.sum_eq_zero fun i hi => ?_
    rw [hsz, Finset.mem_range] at hi
    rw [(ho i hi).1]; rfl
  refine ⟨⟨?_, ?_, ?_, ?_⟩, ha, hb⟩
  · obtain ⟨D, hD⟩ := pow_unbounded_of_one_lt (20 * (rad ⟨mn, mx⟩ : V2 α).x) (one_lt_two (α := α))
    refine ⟨fun _ => 0, D, ⟨by rw [hsz, hrt], ?_, rfl, ?_, ?_, by rw [hb]; exact hx, by rw [hb]; exact hy, ?_, ?_, ?_⟩, ?_, ?_⟩
    · rw [hrt]; exact (ho 0 (by omega)).2.2
    · rw [hrt, hce, hb]; rfl
    · rw [hrt, hra, hce, hb]; rfl
    · intro i _ h2
      rw [hrt] at h2
      exact ⟨(ho i (by omega)).2.1, (ho i (by omega)).1⟩
    · intro i hi c hc
      have := hi.1
      rw [hsz] at this
      rw [(ho i this).2.1] at hc; simp at hc
    · intro i hi hne
      have h1 := hi.1; have h2 := hi.2
      rw [hsz] at h1
      rw [hrt] at h2 hne
      omega
    · intro i hi hc
      have := hi.1
      rw [hsz] at this
      rw [(ho i this).2.1] at hc; simp at hc
    · rw [hrt, hra]
      exact min_lt_iff.2 (Or.inl (by rw [lt_div_iff₀ (by norm_num)]; linarith))
  · intro i hi o ho2
    have := hi.1
    rw [hsz] at this
    rw [(ho i this).1] at ho2; simp at ho2
  · intro x hx2; rw [ha] at hx2; simp at hx2
  · intro x hx2 ha2; rw [has] at ha2; exact absurd (hl x ha2) hx2

/-- `Remove`. -/
theorem remove_spec {box : T → Rect α} {s s' : QuadTree T α} {o : T} {lost : T → Prop} (h : Inv box s lost) (hnd : s.all.Nodup) (hl : ¬lost o)
    (hr : remove s o = some s') : Inv box s' lost ∧ s'.all = s.all.erase o := by
  unfold remove at hr
  cases ha : s.assoc o with
  | none =>
    simp only [ha, Option.some.injEq] at hr
    subst hr
    refine ⟨h, (Multiset.erase_of_notMem fun hm => ?_).symm⟩
    obtain ⟨i, -, h2, -⟩ := h.stored o hm
    rw [ha] at h2; simp at h2
  | some n =>
    simp only [ha] at hr
    obtain ⟨i, hi, h2, hm⟩ := h.assoc o hl (by simp [ha])
    rw [ha, Option.some.injEq] at h2
    subst h2
    rw [if_pos hi.1, Option.some.injEq] at hr
    unfold nodeRemove at hr
    obtain ⟨k, hk⟩ : ∃ k, (s.objects n).findIdx? (· = o) = some k := by
      have : ((s.objects n).findIdx? (· = o)).isSome := by
        rw [List.findIdx?_isSome]
        exact List.any_eq_true.2 ⟨o, hm, by simp⟩
      exact Option.isSome_iff_exists.1 this
    have hko : (s.objects n)[k]? = some o := by
      obtain ⟨hlt, he, -⟩ := List.findIdx?_eq_some_iff_getElem.1 hk
      rw [List.getElem?_eq_some_iff]
      exact ⟨hlt, by simpa using he⟩
    simp only [hk] at hr
    have hall : o ::ₘ s'.all = s.all := by rw [← hr]; exact all_dropAt hi.1 hko
    obtain ⟨⟨dep, D, hw, hD⟩, hf, h1, h2⟩ := h
    have hnot : o ∉ s'.all := by rw [← hall] at hnd; exact (Multiset.nodup_cons.1 hnd).1
    have hok : ∀ x, x ≠ o → s.Ok x → s'.Ok x := by
      intro x hx ⟨j, j1, j2, j3⟩
      rw [← hr]
      refine ⟨j, j1, by simpa [Function.update_of_ne hx] using j2, ?_⟩
      by_cases e : j = n
      · subst e; simpa using mem_swapPop hko j3 hx
      · simpa [Function.update_of_ne e] using j3
    refine ⟨⟨⟨dep, D, ?_, ?_⟩, ?_, ?_, ?_⟩, ?_⟩
    · have w := hw.dropAt hi k
      rw [← hr]
      exact ⟨w.root_le, w.root_parent, w.root_dep, w.root_center, w.root_radius, w.pos_x, w.pos_y, w.dummy, w.kids, w.tree⟩
    · rw [← hr]; exact hD
    · have := fit_dropAt hf hko
      rw [← hr]
      exact this
    · intro x hx
      refine hok x (fun e => hnot (e ▸ hx)) (h1 x ?_)
      rw [← hall]; exact Multiset.mem_cons_of_mem hx
    · intro x hx hax
      have hxo : x ≠ o := fun e => by rw [← hr, e] at hax; simp at hax
      refine hok x hxo (h2 x hx ?_)
      rw [← hr] at hax
      simpa [Function.update_of_ne hxo] using hax
    · rw [← hall, Multiset.erase_cons_head]

end QuadTree
end MGL
