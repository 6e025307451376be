import Verif.Proofs.Hull2DChains

/-! The contents of the array after `ConvexHullInPlace`. -/

set_option linter.unusedSectionVars false

namespace MGL.Hull2D
open Spec

variable {α : Type*} [Field α] [LinearOrder α] [IsStrictOrderedRing α]

theorem chains_spec {p0 p1 : V2 α} {rest : List (V2 α)} (hs : (p0 :: p1 :: rest).Pairwise lexLe) :
    ∃ h, chains (p0 :: p1 :: rest) = some h ∧ h.head? = some p0 ∧ (∀ v ∈ h, v ∈ p0 :: p1 :: rest) ∧
      (∀ q ∈ p0 :: p1 :: rest, q ∈ hull2 h) ∧ (StrictCCW h ∨ ∃ a, h = [a, a]) := by
  obtain ⟨lm, hlm⟩ : ∃ lm, (p1 :: rest).getLast? = some lm := ⟨(p1 :: rest).getLast (by simp), List.getLast?_eq_getLast_of_ne_nil (by simp)⟩
  have hsplit : p1 :: rest = (p1 :: rest).dropLast ++ [lm] := by
    have e := List.dropLast_append_getLast (l := p1 :: rest) (by simp)
    rw [List.getLast?_eq_getLast_of_ne_nil (by simp)] at hlm
    rw [Option.some.inj hlm] at e
    exact e.symm
  set I := (p1 :: rest).dropLast with hI
  have hlen : I.length = rest.length := by simp [hI]
  have hle : lexLe p0 p1 := (List.pairwise_cons.1 hs).1 p1 (by simp)
  -- the lower chain
  obtain ⟨low, l1, l2, l3, l4, l5, l6, l7, l8⟩ := scan_spec (2 * (rest.length + 2)) (p1 :: rest) p0 []
    (Or.inl ⟨by simp, by simp⟩) hs (by simp; omega)
  have low_scan : scan (2 * (rest.length + 2)) 1 rest [p1, p0] = some low := by
    rw [← l1, scan, show popWhile 1 p1 [p0] = some [p0] by simp [popWhile]]
    dsimp only
    rw [if_pos (by simp; omega)]
  rw [List.getLast?_cons_cons, hlm] at l6
  rw [List.getLast?_singleton] at l5
  have l8 := l8 (by simp)
  -- the upper chain
  have hsU : ((lm :: (I.reverse ++ [p0])).map neg2).Pairwise lexLe := by
    rw [List.pairwise_map]
    have : (p0 :: (I ++ [lm])).reverse = lm :: (I.reverse ++ [p0]) := by simp
    rw [← this, List.pairwise_reverse]
    rw [hsplit] at hs
    exact hs.imp fun h => lexLe_neg2.2 h
  obtain ⟨upF, u1, u2, u3, u4, u5, u6, u7, u8⟩ := scan_spec (rest.length + 2) ((I.reverse ++ [p0]).map neg2) (neg2 lm) []
    (Or.inl ⟨by simp, by simp⟩) (by simpa using hsU) (by simp [hlen]; omega)
  have u8 := u8 (by simp)
  -- … taken apart
  have u1' : scan (rest.length + 2) 1 (I.reverse ++ [p0]) [lm] = some (upF.map neg2) := by
    have := scan_neg2 (rest.length + 2) 1 (I.reverse ++ [p0]) [lm]
    rw [List.map_cons, List.map_nil, u1] at this
    cases hx : scan (rest.length + 2) 1 (I.reverse ++ [p0]) [lm] with
    | none => rw [hx] at this; cases this
    | some y =>
      rw [hx, Option.map_some] at this
      rw [Option.some.inj this, List.map_map]
      congr 1
      conv_lhs => rw [← List.map_id y]
      exact List.map_congr_left fun a _ => (neg2_neg2 a).symm
  rw [scan_append] at u1'
  cases hx : scan (rest.length + 2) 1 I.reverse [lm] with
  | none => rw [hx] at u1'; cases u1'
  | some st1 =>
    rw [hx, Option.bind_some, scan] at u1'
    cases hy : popWhile 1 p0 st1 with
    | none => rw [hy] at u1'; cases u1'
    | some st2 =>
      rw [hy] at u1'
      dsimp only at u1'
      split at u1'
      swap
      · cases u1'
      rw [scan] at u1'
      have hup : upF.map neg2 = p0 :: st2 := (Option.some.inj u1').symm
      have hupF : upF = (p0 :: st2).map neg2 := by
        rw [← hup, List.map_map]
        conv_lhs => rw [← List.map_id upF]
        exact List.map_congr_left fun a _ => (neg2_neg2 a).symm
      have hst2 : st2 ≠ [] := by
        rintro rfl; rw [hupF] at u8; simp at u8
      have hst2l : st2.getLast? = some lm := by
        rw [hupF, List.getLast?_map, List.getLast?_cons_of_ne_nil hst2] at u5
        cases hz : st2.getLast? with
        | none => rw [hz] at u5; simp at u5
        | some z => rw [hz] at u5; simp at u5; rw [neg2_inj u5]
      obtain ⟨up, hup2⟩ : ∃ up, st2 = up ++ [lm] := by
        refine ⟨st2.dropLast, ?_⟩
        have e := List.dropLast_append_getLast (l := st2) hst2
        rw [List.getLast?_eq_getLast_of_ne_nil hst2] at hst2l
        rw [Option.some.inj hst2l] at e
        exact e.symm
      obtain ⟨lrest, rfl⟩ : ∃ lrest, low = lm :: lrest := by
        cases low with
        | nil => simp at l6
        | cons a r => simp at l6; exact ⟨r, by rw [l6]⟩
      have st1ne : st1 ≠ [] := by
        rintro rfl; rw [popWhile] at hy
        · simp at hy; exact hst2 hy
        · intro a b c hh; cases hh
      obtain ⟨a1, r1, rfl⟩ : ∃ a r, st1 = a :: r := by
        cases st1 with
        | nil => exact absurd rfl st1ne
        | cons a r => exact ⟨a, r, rfl⟩
      have hlow7 : lrest.length + 1 ≤ rest.length + 2 := by simp only [List.length_cons, List.length_nil] at l7; omega
      have b1 := scan_base (2 * (rest.length + 2)) (rest.length + 2) 1 (le_refl _) lrest (by omega) I.reverse lm [] hx
      have b2 := popWhile_base 1 (le_refl _) p0 lrest r1 a1 hy
      have hch : chains (p0 :: p1 :: rest) = some (st2 ++ lrest).reverse := by
        unfold chains
        have e1 : 2 * (p0 :: p1 :: rest).length = 2 * (rest.length + 2) := by simp
        rw [e1]
        dsimp only
        rw [low_scan]
        dsimp only
        rw [List.length_cons, Nat.add_comm lrest.length 1]
        have e2 : (p1 :: rest).dropLast.reverse = I.reverse := rfl
        rw [e2]
        have e3 : lm :: lrest = [lm] ++ lrest := rfl
        rw [e3, b1]
        dsimp only
        rw [b2]; rfl
      have hlist : st2 ++ lrest = up ++ lm :: lrest := by rw [hup2]; simp
      rw [hlist] at hch
      have memU : ∀ v ∈ p0 :: (up ++ [lm]), v ∈ p0 :: p1 :: rest := by
        intro v hv
        have : neg2 v ∈ upF := by rw [hupF, hup2]; exact List.mem_map_of_mem hv
        rw [hsplit]
        rcases u3 _ this with h | h
        · simp at h; rw [neg2_inj h]; simp
        · obtain ⟨w, hw, hw'⟩ := List.mem_map.1 h
          rw [← neg2_inj hw']
          simp at hw ⊢; tauto
      refine ⟨_, hch, ?_, ?_, ?_, ?_⟩
      · rw [List.head?_reverse, List.getLast?_append_of_ne_nil _ (by simp), l5]
      · intro v hv
        rw [List.mem_reverse, List.mem_append] at hv
        rcases hv with hv | hv
        · exact memU v (by simp [hv])
        · rcases l3 v hv with h | h
          · simp at h; simp [h]
          · exact List.mem_cons_of_mem _ h
      · intro q hq K hK hmem
        obtain ⟨a, ha, b, hb, h1, h2, h3⟩ := cov_points (l4 q (by
          rcases List.mem_cons.1 hq with rfl | h
          · left; rfl
          · right; exact h))
        obtain ⟨c, hc, d, hd, k1, k2, k3⟩ := cov_points (u4 (neg2 q) (by
          rw [hsplit] at hq
          by_cases hql : q = lm
          · left; show neg2 q = neg2 lm; rw [hql]
          · right; apply List.mem_map_of_mem; simp at hq ⊢; tauto))
        have inl : ∀ v ∈ lm :: lrest, v ∈ K := fun v hv => hmem v (by rw [List.mem_reverse, List.mem_append]; exact Or.inr hv)
        have p0K : p0 ∈ K := inl p0 (List.mem_of_getLast? l5)
        have inu : ∀ v ∈ upF, neg2 v ∈ K := by
          intro v hv
          rw [hupF, hup2] at hv
          obtain ⟨w, hw, rfl⟩ := List.mem_map.1 hv
          rw [neg2_neg2]
          rcases List.mem_cons.1 hw with rfl | hw
          · exact p0K
          · rcases List.mem_append.1 hw with hw | hw
            · exact hmem w (by rw [List.mem_reverse, List.mem_append]; exact Or.inl hw)
            · rw [List.mem_singleton.1 hw]; exact inl lm (by simp)
        refine between_mem hK (inl a ha) (inl b hb) (inu c hc) (inu d hd) h1 h2 h3 ?_ ?_ ?_
        · rw [← lexLe_neg2, neg2_neg2]; exact k2
        · rw [← lexLe_neg2, neg2_neg2]; exact k1
        · rw [← neg2_neg2 q, area2_neg2]; exact k3
      · by_cases hne : p0 = lm
        · right
          refine ⟨p0, ?_⟩
          have e1 := pair_of_ends l2 l5 l6 hne l8
          have e2 := pair_of_ends u2 (s := neg2 lm) (e := neg2 p0) (by rw [u5]; rfl) (by rw [hupF]; rfl) (by rw [hne]) u8
          rw [hupF, hup2] at e2
          have hupnil : up = [] := by
            have := congrArg List.length e2
            simp at this
            exact this
          rw [hupnil, e1]; rfl
        · left
          have hu : Good ((p0 :: up ++ [lm]).map neg2) := by
            have : (p0 :: up ++ [lm]).map neg2 = upF := by rw [hupF, hup2]; rfl
            rw [this]; exact u2
          exact join_strictCCW hne l2 l5 l6 hu

/-! ### Removing close points -/

theorem dedup_spec (n : ℕ) : ∀ (xs : List (V2 α)) (l : V2 α) (r : List (V2 α)), (r.length + 1) + xs.length ≤ n →
    ∃ kept, dedup n xs (l :: r) = some kept ∧ kept.reverse.Sublist ((l :: r).reverse ++ xs) ∧ (l :: r) <:+ kept ∧
      ∀ v ∈ xs, v ∈ kept ∨ ∃ k ∈ kept, distSq2D v k ≤ eps := by
  intro xs
  induction xs with
  | nil => intro l r _; exact ⟨l :: r, rfl, by simp, List.suffix_refl _, fun v hv => by cases hv⟩
  | cons x xs ih =>
    intro l r h
    rw [List.length_cons] at h
    rw [dedup]
    by_cases hd : distSq2D x l > eps
    · obtain ⟨kept, h1, h2, h3, h4⟩ := ih x (l :: r) (by rw [List.length_cons]; omega)
      refine ⟨kept, ?_, by simpa using h2, (List.suffix_cons _ _).trans h3, ?_⟩
      · rw [if_pos hd, if_pos (by rw [List.length_cons]; omega), h1]
      · intro v hv
        rcases List.mem_cons.1 hv with rfl | hv
        · exact Or.inl (h3.subset (by simp))
        · exact h4 v hv
    · obtain ⟨kept, h1, h2, h3, h4⟩ := ih l r (by omega)
      refine ⟨kept, ?_, h2.trans (List.Sublist.append_left (List.sublist_cons_self _ _) _), h3, ?_⟩
      · rw [if_neg hd, h1]
      · intro v hv
        rcases List.mem_cons.1 hv with rfl | hv
        · exact Or.inr ⟨l, h3.subset (by simp), not_lt.1 hd⟩
        · exact h4 v hv

theorem trim_spec (p0 : V2 α) : ∀ kept : List (V2 α), kept.getLast? = some p0 → trim p0 kept <:+ kept ∧ (trim p0 kept).getLast? = some p0 ∧
    ∀ v ∈ kept, v ∈ trim p0 kept ∨ distSq2D v p0 < eps := by
  intro kept
  induction kept with
  | nil => intro h; cases h
  | cons l r ih =>
    intro h
    cases r with
    | nil => exact ⟨List.suffix_refl _, h, fun v hv => Or.inl hv⟩
    | cons m r =>
      rw [trim]
      by_cases hd : distSq2D l p0 < eps
      · rw [if_pos hd]
        obtain ⟨h1, h2, h3⟩ := ih (by rwa [List.getLast?_cons_cons] at h)
        refine ⟨h1.trans (List.suffix_cons _ _), h2, ?_⟩
        intro v hv
        rcases List.mem_cons.1 hv with rfl | hv
        · exact Or.inr hd
        · exact h3 v hv
      · rw [if_neg hd]
        exact ⟨List.suffix_refl _, h, fun v hv => Or.inl hv⟩

theorem triplewise_sublist {β : Type*} {R : β → β → β → Prop} {l m : List β} (h : l.Sublist m) (hm : m.Triplewise R) : l.Triplewise R := by
  induction h with
  | slnil => exact hm
  | cons a _ ih => exact ih (List.triplewise_cons.1 hm).2
  | cons_cons a hs ih => exact List.triplewise_cons.2 ⟨(List.triplewise_cons.1 hm).1.sublist hs, ih (List.triplewise_cons.1 hm).2⟩

theorem StrictCCW_sublist {l m : List (V2 α)} (h : l.Sublist m) (hm : StrictCCW m) : StrictCCW l :=
  ⟨hm.1.sublist h, triplewise_sublist h hm.2⟩

theorem distSq2D_eq (a b : V2 α) : distSq2D a b = distSq2 a b := by unfold distSq2D distSq2; ring

theorem sorted_spec (p : List (V2 α)) : (p.insertionSort lexLe).Pairwise lexLe := by
  haveI : Std.Total (lexLe (α := α)) := ⟨lexLe_total⟩
  haveI : IsTrans (V2 α) lexLe := ⟨fun _ _ _ => lexLe_trans⟩
  exact List.pairwise_insertionSort lexLe p

theorem mem_hull2 {S : List (V2 α)} {v : V2 α} (h : v ∈ S) : v ∈ hull2 S := fun _ _ hm => hm v h

theorem hull2_convex (S : List (V2 α)) : Convex2 (hull2 S) := fun p hp q hq s t hs ht hst K hK hm => hK p (hp K hK hm) q (hq K hK hm) s t hs ht hst

/-- Everything about the result. -/
theorem result_spec (p : List (V2 α)) : ∃ out, convexHullInPlace p = some out ∧ (∀ v ∈ out, v ∈ p) ∧ StrictCCW out ∧ (p ≠ [] → out ≠ []) ∧
    ∃ h : List (V2 α), (∀ v ∈ h, v ∈ p) ∧ (∀ q ∈ p, q ∈ hull2 h) ∧
      ∀ v ∈ h, v ∈ out ∨ ∃ k ∈ p, distSq2D v k ≤ eps ∧ (k ∈ out ∨ ∃ o ∈ out, distSq2D k o < eps) := by
  by_cases hl : p.length ≤ 1
  · refine ⟨p, by rw [convexHullInPlace, if_pos hl], fun v hv => hv, ?_, id, p, fun v hv => hv, fun q hq => mem_hull2 hq, fun v hv => Or.inl hv⟩
    match p, hl with
    | [], _ => exact ⟨by simp, by simp⟩
    | [a], _ => exact ⟨by simp, by simp⟩
  · have hlen := List.length_insertionSort (r := lexLe) p
    have hmem : ∀ v, v ∈ p.insertionSort lexLe ↔ v ∈ p := fun v => List.mem_insertionSort lexLe
    have hsort := sorted_spec p
    rw [convexHullInPlace, if_neg hl]
    have hpne : p ≠ [] := by rintro rfl; simp at hl
    match hs : p.insertionSort lexLe with
    | [] => rw [hs] at hlen; simp at hlen; exact absurd (List.length_eq_zero_iff.1 hlen.symm) hpne
    | [a] => rw [hs] at hlen; simp at hlen; omega
    | [a, b] =>
      rw [hs] at hmem
      dsimp only
      by_cases hd : distSq2D a b > eps
      · rw [if_pos hd]
        refine ⟨_, rfl, fun v hv => (hmem v).1 hv, ⟨?_, by simp⟩, fun _ => by simp, [a, b], fun v hv => (hmem v).1 hv,
          fun q hq => mem_hull2 ((hmem q).2 hq), fun v hv => Or.inl hv⟩
        simp
        rintro rfl
        have e0 : distSq2D a a = 0 := by unfold distSq2D; simp
        rw [e0] at hd
        have : (0 : α) < eps := by unfold eps; positivity
        exact absurd hd (not_lt.2 this.le)
      · rw [if_neg hd]
        refine ⟨_, rfl, fun v hv => (hmem v).1 (by simp at hv; simp [hv]), ⟨by simp, by simp⟩, fun _ => by simp, [a, b],
          fun v hv => (hmem v).1 hv, fun q hq => mem_hull2 ((hmem q).2 hq), ?_⟩
        intro v hv
        simp at hv
        rcases hv with rfl | rfl
        · left; simp
        · right
          refine ⟨a, (hmem a).1 (by simp), ?_, Or.inl (by simp)⟩
          have : distSq2D v a = distSq2D a v := by unfold distSq2D; ring
          rw [this]; exact not_lt.1 hd
    | p0 :: p1 :: p2 :: rest =>
      dsimp only
      rw [hs] at hsort hmem hlen
      obtain ⟨h, c1, c2, c3, c4, c5⟩ := chains_spec hsort
      rw [c1]
      cases h with
      | nil => cases c2
      | cons h0 hss =>
        dsimp only
        have e0 : h0 = p0 := by simpa using c2
        have hbound : 1 + hss.length ≤ p.length := by
          rcases c5 with c5 | ⟨a, ha⟩
          · have : (h0 :: hss).length ≤ (p0 :: p1 :: p2 :: rest).length := (c5.1.subperm fun v hv => c3 v hv).length_le
            rw [hlen, List.length_cons] at this
            omega
          · rw [(List.cons.inj ha).2]; simp; omega
        obtain ⟨kept, d1, d2, d3, d4⟩ := dedup_spec p.length hss h0 [] (by simpa using hbound)
        rw [d1, Option.map_some]
        have hkl : kept.getLast? = some h0 := by
          rw [← getLast?_suffix d3 (by simp)]; rfl
        obtain ⟨t1, t2, t3⟩ := trim_spec h0 kept hkl
        have sub : (trim h0 kept).reverse.Sublist (h0 :: hss) := by
          have : (trim h0 kept).reverse.Sublist kept.reverse := t1.sublist.reverse
          exact this.trans (by simpa using d2)
        have ktp : ∀ v ∈ kept, v ∈ p := fun v hv => (hmem v).1 (c3 v (by
          have := d2.subset (List.mem_reverse.2 hv); simpa using this))
        have h0out : h0 ∈ (trim h0 kept).reverse := List.mem_reverse.2 (List.mem_of_getLast? t2)
        have near : ∀ k ∈ kept, k ∈ (trim h0 kept).reverse ∨ ∃ o ∈ (trim h0 kept).reverse, distSq2D k o < eps := by
          intro k hk
          rcases t3 k hk with h | h
          · exact Or.inl (List.mem_reverse.2 h)
          · exact Or.inr ⟨h0, h0out, h⟩
        refine ⟨_, rfl, fun v hv => (hmem v).1 (c3 v (sub.subset hv)), ?_, fun _ hh => (by rw [hh] at h0out; cases h0out),
          h0 :: hss, fun v hv => (hmem v).1 (c3 v hv), fun q hq => c4 q ((hmem q).2 hq), ?_⟩
        · rcases c5 with c5 | ⟨a, ha⟩
          · exact StrictCCW_sublist sub c5
          · have e1 := (List.cons.inj ha).1
            have e2 := (List.cons.inj ha).2
            subst e1
            rw [e2, dedup] at d1
            have hz : ¬ distSq2D h0 h0 > eps := by
              have : (0 : α) < eps := by unfold eps; positivity
              unfold distSq2D; simp; exact this.le
            rw [if_neg hz, dedup] at d1
            rw [← Option.some.inj d1, trim]
            · exact ⟨by simp, by simp⟩
            · intro a b c hh; cases hh
        · intro v hv
          rcases List.mem_cons.1 hv with rfl | hv
          · exact Or.inl h0out
          · rcases d4 v hv with h | ⟨k, hk, hd⟩
            · rcases near v h with h | ⟨o, ho, hd⟩
              · exact Or.inl h
              · refine Or.inr ⟨o, ktp o (t1.subset (List.mem_reverse.1 ho)), hd.le, Or.inl ho⟩
            · exact Or.inr ⟨k, ktp k hk, hd, near k hk⟩

end MGL.Hull2D
