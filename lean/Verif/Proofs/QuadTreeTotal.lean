import Verif.Proofs.QuadTreeRun

/-! `Add` returns, and neither the step budgets nor a sufficient capacity change its result. -/

set_option linter.unusedSectionVars false

namespace MGL
namespace QuadTree
variable {T α : Type*} [DecidableEq T] [Field α] [LinearOrder α]

theorem alloc_mono {cap cap' : ℕ∞} {s s' : QuadTree T α} {p : Option ℕ} (h : allocateNodeGroup cap s p = some s') :
    s.size ≤ s'.size ∧ ((s'.size : ℕ∞) ≤ cap' ∨ cap ≤ cap' → allocateNodeGroup cap' s p = some s') := by
  have hsz : s'.size = s.size + 4 := by
    cases p with
    | none => rw [alloc_none h]
    | some p => rw [alloc_some h]
  refine ⟨by omega, fun hc => ?_⟩
  rw [hsz] at hc
  unfold allocateNodeGroup at h ⊢
  split_ifs at h with h1
  rw [if_neg (not_lt.2 (hc.elim id fun k => (not_lt.1 h1).trans k))]
  exact h

theorem splitLoop_mono {cap cap' : ℕ∞} {box : T → Rect α} {add add' : QuadTree T α → T → ℕ → Option (QuadTree T α)}
    (hadd : ∀ s o n s', add s o n = some s' → s.size ≤ s'.size ∧ ((s'.size : ℕ∞) ≤ cap' ∨ cap ≤ cap' → add' s o n = some s')) (leaf c : ℕ) :
    ∀ (k : ℕ) (s : QuadTree T α) (i : ℕ) (s' : QuadTree T α), splitLoop box add leaf c k s i = some s' →
      s.size ≤ s'.size ∧ ((s'.size : ℕ∞) ≤ cap' ∨ cap ≤ cap' → splitLoop box add' leaf c k s i = some s') := by
  intro k
  induction k with
  | zero =>
    intro s i s' h
    unfold splitLoop at h ⊢
    cases ho : (s.objects leaf)[i]? with
    | none => simp only [ho, Option.some.injEq] at h; subst h; exact ⟨le_rfl, fun _ => rfl⟩
    | some o => simp [ho] at h
  | succ k ih =>
    intro s i s' h
    unfold splitLoop at h ⊢
    cases ho : (s.objects leaf)[i]? with
    | none => simp only [ho, Option.some.injEq] at h; subst h; exact ⟨le_rfl, fun _ => rfl⟩
    | some o =>
      simp only [ho] at h ⊢
      split_ifs at h ⊢ with hst
      · exact ih s (i + 1) s' h
      · obtain ⟨s1, h1, h2⟩ := Option.bind_eq_some_iff.1 h
        obtain ⟨a1, a2⟩ := hadd _ _ _ _ h1
        obtain ⟨b1, b2⟩ := ih _ _ _ h2
        refine ⟨a1.trans b1, fun hc => ?_⟩
        rw [a2 (hc.imp (fun h => le_trans (by exact_mod_cast b1) h) id), Option.bind_some]
        exact b2 hc

theorem addAt_mono {cap cap' : ℕ∞} (box : T → Rect α) : ∀ (f f' : ℕ) (s : QuadTree T α) (o : T) (n : ℕ) (s' : QuadTree T α), f ≤ f' →
    addAt cap box f s o n = some s' → s.size ≤ s'.size ∧ ((s'.size : ℕ∞) ≤ cap' ∨ cap ≤ cap' → addAt cap' box f' s o n = some s') := by
  intro f
  induction f with
  | zero => intro f' s o n s' _ h; simp [addAt] at h
  | succ f ih =>
    intro f' s o n s' hf h
    obtain ⟨f', rfl⟩ := Nat.exists_eq_add_of_le' (show 1 ≤ f' by omega)
    unfold addAt at h ⊢
    split_ifs at h ⊢ with hst
    · rw [← Option.some.inj h]; exact ⟨le_rfl, fun _ => rfl⟩
    · cases hc : s.child n with
      | none =>
        simp only [hc] at h ⊢
        split_ifs at h ⊢ with hsp
        · unfold splitLeaf at h ⊢
          obtain ⟨s1, h1, h2⟩ := Option.bind_eq_some_iff.1 h
          obtain ⟨a1, a2⟩ := alloc_mono (cap' := cap') h1
          obtain ⟨b1, b2⟩ := splitLoop_mono (cap := cap) (cap' := cap') (add' := addAt cap' box f') (fun s o n s' => ih f' s o n s' (by omega)) _ _ _ _ _ _ h2
          refine ⟨a1.trans b1, fun hcc => ?_⟩
          rw [a2 (hcc.imp (fun h => le_trans (by exact_mod_cast b1) h) id), Option.bind_some]
          exact b2 hcc
        · rw [← Option.some.inj h]; exact ⟨le_rfl, fun _ => rfl⟩
      | some c =>
        simp only [hc] at h ⊢
        exact ih f' s o _ s' (by omega) h

theorem grow_mono {cap cap' : ℕ∞} {s s' : QuadTree T α} {q : ℕ} (h : grow cap s q = some s') :
    s.size ≤ s'.size ∧ ((s'.size : ℕ∞) ≤ cap' ∨ cap ≤ cap' → grow cap' s q = some s') := by
  unfold grow growImpl at h ⊢
  dsimp only at h ⊢
  obtain ⟨s1, h1, h2⟩ := Option.map_eq_some_iff.1 h
  obtain ⟨a1, a2⟩ := alloc_mono (cap' := cap') h1
  have hs : s'.size = s1.size := by rw [← h2]
  have hs0 : (moveRoot { s with bounding := growRect s.bounding q } q).size = s.size := by
    unfold moveRoot; split_ifs <;> rfl
  rw [hs0] at a1
  rw [hs]
  exact ⟨a1, fun hc => by rw [a2 hc, Option.map_some, h2]⟩

theorem add_mono [IsStrictOrderedRing α] {cap cap' : ℕ∞} {box : T → Rect α} {f f' : ℕ} (hf : f ≤ f') {o : T} : ∀ (g g' : ℕ) (s s' : QuadTree T α), g ≤ g' →
    add cap box f g s o = some s' → s.size ≤ s'.size ∧ ((s'.size : ℕ∞) ≤ cap' ∨ cap ≤ cap' → add cap' box f' g' s o = some s') := by
  intro g
  induction g with
  | zero =>
    intro g' s s' hg h
    by_cases hc : s.bounding.contains (box o) = true
    · rw [add_fit hc] at h ⊢
      exact addAt_mono box f f' s o _ s' hf h
    · rw [add_zero (by simpa using hc)] at h; simp at h
  | succ g ih =>
    intro g' s s' hg h
    obtain ⟨g', rfl⟩ := Nat.exists_eq_add_of_le' (show 1 ≤ g' by omega)
    by_cases hc : s.bounding.contains (box o) = true
    · rw [add_fit hc] at h ⊢
      exact addAt_mono box f f' s o _ s' hf h
    · rw [add_succ (by simpa using hc)] at h ⊢
      obtain ⟨s1, h1, h2⟩ := Option.bind_eq_some_iff.1 h
      obtain ⟨a1, a2⟩ := grow_mono (cap' := cap') h1
      obtain ⟨b1, b2⟩ := ih g' s1 s' (by omega) h2
      refine ⟨a1.trans b1, fun hcc => ?_⟩
      rw [a2 (hcc.imp (fun h => le_trans (by exact_mod_cast b1) h) id), Option.bind_some]
      exact b2 hcc

section
variable [IsStrictOrderedRing α]

theorem grow_top (s : QuadTree T α) (q : ℕ) : ∃ s', grow ⊤ s q = some s' := growImpl_top _ _

/-- How far the object reaches out of the rectangle, in multiples of the size of the rectangle. -/
def Reach (b bb : Rect α) (l r t d : ℕ) : Prop :=
  bb.minPoint.x - l * (bb.maxPoint.x - bb.minPoint.x) ≤ b.minPoint.x ∧ b.maxPoint.x ≤ bb.maxPoint.x + r * (bb.maxPoint.x - bb.minPoint.x) ∧
  bb.minPoint.y - t * (bb.maxPoint.y - bb.minPoint.y) ≤ b.minPoint.y ∧ b.maxPoint.y ≤ bb.maxPoint.y + d * (bb.maxPoint.y - bb.minPoint.y)

/-- Growing brings the object closer to the inside. -/
theorem reach_grow {b bb : Rect α} {l r t d : ℕ} (hx : bb.minPoint.x < bb.maxPoint.x) (hy : bb.minPoint.y < bb.maxPoint.y)
    (h : Reach b bb l r t d) (hn : bb.contains b = false) :
    ∃ l' r' t' d', Reach b (growRect bb (pick b bb)) l' r' t' d' ∧ l' + r' + t' + d' < l + r + t + d := by
  have hn' : ¬(bb.contains b = true) := by simp [hn]
  rw [contains_iff] at hn'
  obtain ⟨h1, h2, h3, h4⟩ := h
  have w0 : 0 < bb.maxPoint.x - bb.minPoint.x := by linarith
  have v0 : 0 < bb.maxPoint.y - bb.minPoint.y := by linarith
  have hl : (0 : α) ≤ l * (bb.maxPoint.x - bb.minPoint.x) := by positivity
  have hr : (0 : α) ≤ r * (bb.maxPoint.x - bb.minPoint.x) := by positivity
  have ht : (0 : α) ≤ t * (bb.maxPoint.y - bb.minPoint.y) := by positivity
  have hd : (0 : α) ≤ d * (bb.maxPoint.y - bb.minPoint.y) := by positivity
  have posl : b.minPoint.x < bb.minPoint.x → 1 ≤ l := fun k => by
    rcases Nat.eq_zero_or_pos l with e | e
    · subst e; simp at h1; exact absurd h1 (not_le.2 k)
    · exact e
  have posr : bb.maxPoint.x < b.maxPoint.x → 1 ≤ r := fun k => by
    rcases Nat.eq_zero_or_pos r with e | e
    · subst e; simp at h2; exact absurd h2 (not_le.2 k)
    · exact e
  have post : b.minPoint.y < bb.minPoint.y → 1 ≤ t := fun k => by
    rcases Nat.eq_zero_or_pos t with e | e
    · subst e; simp at h3; exact absurd h3 (not_le.2 k)
    · exact e
  have posd : bb.maxPoint.y < b.maxPoint.y → 1 ≤ d := fun k => by
    rcases Nat.eq_zero_or_pos d with e | e
    · subst e; simp at h4; exact absurd h4 (not_le.2 k)
    · exact e
  unfold pick
  split_ifs with c1 c2 c3 c4 c5
  · -- bottom right, because of the bottom
    have c4 : bb.maxPoint.y < b.maxPoint.y := not_le.1 fun k => hn' ⟨c1, c3, c2, k⟩
    obtain ⟨d', rfl⟩ := Nat.exists_eq_add_of_le' (posd c4)
    have hp : (0 : α) ≤ (d' : α) * (bb.maxPoint.y - bb.minPoint.y) := by positivity
    refine ⟨l, r, t, d', ⟨?_, ?_, ?_, ?_⟩, by omega⟩ <;> simp [growRect] <;> push_cast at h4 hd <;> linarith
  · obtain ⟨t', rfl⟩ := Nat.exists_eq_add_of_le' (post (not_le.1 c3))
    have hp : (0 : α) ≤ (t' : α) * (bb.maxPoint.y - bb.minPoint.y) := by positivity
    refine ⟨l, r, t', d, ⟨?_, ?_, ?_, ?_⟩, by omega⟩ <;> simp [growRect] <;> push_cast at h3 ht <;> linarith
  · obtain ⟨r', rfl⟩ := Nat.exists_eq_add_of_le' (posr (not_le.1 c2))
    have hp : (0 : α) ≤ (r' : α) * (bb.maxPoint.x - bb.minPoint.x) := by positivity
    refine ⟨l, r', t, d, ⟨?_, ?_, ?_, ?_⟩, by omega⟩ <;> simp [growRect] <;> push_cast at h2 hr <;> linarith
  · obtain ⟨r', rfl⟩ := Nat.exists_eq_add_of_le' (posr (not_le.1 c2))
    have hp : (0 : α) ≤ (r' : α) * (bb.maxPoint.x - bb.minPoint.x) := by positivity
    refine ⟨l, r', t, d, ⟨?_, ?_, ?_, ?_⟩, by omega⟩ <;> simp [growRect] <;> push_cast at h2 hr <;> linarith
  · obtain ⟨l', rfl⟩ := Nat.exists_eq_add_of_le' (posl (not_le.1 c1))
    have hp : (0 : α) ≤ (l' : α) * (bb.maxPoint.x - bb.minPoint.x) := by positivity
    refine ⟨l', r, t, d, ⟨?_, ?_, ?_, ?_⟩, by omega⟩ <;> simp [growRect] <;> push_cast at h1 hl <;> linarith
  · obtain ⟨l', rfl⟩ := Nat.exists_eq_add_of_le' (posl (not_le.1 c1))
    have hp : (0 : α) ≤ (l' : α) * (bb.maxPoint.x - bb.minPoint.x) := by positivity
    refine ⟨l', r, t, d, ⟨?_, ?_, ?_, ?_⟩, by omega⟩ <;> simp [growRect] <;> push_cast at h1 hl <;> linarith

theorem add_total_aux {box : T → Rect α} {lost : T → Prop} {o : T} : ∀ (N : ℕ) {s : QuadTree T α}, Inv box s lost →
    ∀ l r t d, Reach (box o) s.bounding l r t d → l + r + t + d ≤ N → ∃ f g s', add ⊤ box f g s o = some s' := by
  intro N
  induction N with
  | zero =>
    intro s hi l r t d hR hN
    obtain ⟨⟨dep, D, hw, hD⟩, hf, -, -⟩ := hi
    have hc : s.bounding.contains (box o) = true := by
      obtain ⟨h1, h2, h3, h4⟩ := hR
      obtain ⟨rfl, rfl, rfl, rfl⟩ : l = 0 ∧ r = 0 ∧ t = 0 ∧ d = 0 := by omega
      rw [contains_iff]
      simp at h1 h2 h3 h4
      exact ⟨h1, h3, h2, h4⟩
    obtain ⟨s', h⟩ := addAt_total box D (D + 1) s dep o s.root hw hf hw.used_root (by rw [hw.rect_root]; exact hc) hD (by omega)
    exact ⟨D + 1, 0, s', by rw [add_fit hc]; exact h⟩
  | succ N ih =>
    intro s hi l r t d hR hN
    by_cases hc : s.bounding.contains (box o) = true
    · obtain ⟨⟨dep, D, hw, hD⟩, hf, -, -⟩ := hi
      obtain ⟨s', h⟩ := addAt_total box D (D + 1) s dep o s.root hw hf hw.used_root (by rw [hw.rect_root]; exact hc) hD (by omega)
      exact ⟨D + 1, 0, s', by rw [add_fit hc]; exact h⟩
    · have hc' : s.bounding.contains (box o) = false := by simpa using hc
      obtain ⟨s1, h1⟩ := grow_top s (pick (box o) s.bounding)
      obtain ⟨i1, -, b1⟩ := grow_spec (pick_lt _ _) hi h1
      obtain ⟨dep, D, hw, hD⟩ := hi.wf
      obtain ⟨l', r', t', d', hR', hlt⟩ := reach_grow hw.pos_x hw.pos_y hR hc'
      rw [← b1] at hR'
      obtain ⟨f, g, s', h⟩ := ih i1 l' r' t' d' hR' (by omega)
      exact ⟨f, g + 1, s', by rw [add_succ hc', h1, Option.bind_some]; exact h⟩

/-- `Add` returns. -/
theorem add_total [Archimedean α] {box : T → Rect α} {lost : T → Prop} {s : QuadTree T α} (hi : Inv box s lost) (o : T) :
    ∃ f g s', add ⊤ box f g s o = some s' := by
  obtain ⟨dep, D, hw, -⟩ := hi.wf
  have wx : 0 < s.bounding.maxPoint.x - s.bounding.minPoint.x := by have := hw.pos_x; linarith
  have wy : 0 < s.bounding.maxPoint.y - s.bounding.minPoint.y := by have := hw.pos_y; linarith
  obtain ⟨l, hl⟩ := Archimedean.arch (s.bounding.minPoint.x - (box o).minPoint.x) wx
  obtain ⟨r, hr⟩ := Archimedean.arch ((box o).maxPoint.x - s.bounding.maxPoint.x) wx
  obtain ⟨t, ht⟩ := Archimedean.arch (s.bounding.minPoint.y - (box o).minPoint.y) wy
  obtain ⟨d, hd⟩ := Archimedean.arch ((box o).maxPoint.y - s.bounding.maxPoint.y) wy
  rw [nsmul_eq_mul] at hl hr ht hd
  exact add_total_aux (l + r + t + d) hi l r t d ⟨by linarith, by linarith, by linarith, by linarith⟩ le_rfl

end

end QuadTree
end MGL
