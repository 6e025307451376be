import Verif.Proofs.KdTreeRaySim

/-! The nearest hit visitor of the kd-tree. -/

set_option linter.unusedSectionVars false

namespace MGL.KdTree
variable {T α : Type*} [Field α] [LinearOrder α] [IsStrictOrderedRing α] {s : KdTree T α} {pos dir : V3 α}

/-- An object with a box around a point is in the leaf where the point is. -/
theorem leaf_object {box : T → AABB α} {objs : List T} {os : List ℕ} {tr : KdT α} (h : Good box objs os tr) {x : Fin 3 → α} :
    ∀ w n l, tr.LeafAt w n l → (∀ st ∈ w, (st.right = false → x st.axis < st.pos) ∧ (st.right = true → st.pos < x st.axis)) →
    ∀ o ∈ os, ∀ b, objectBox box objs o = some b → (∀ ax, b.minPoint.get ax ≤ x ax ∧ x ax ≤ b.maxPoint.get ax) → o ∈ l := by
  induction h with
  | leaf i os => intro w n l hl _ o ho _ _ _; cases hl; exact ho
  | node os lo ro ax p l r _ _ _ _ _ _ h3 h4 h5 ih1 ih2 =>
    intro w n m hl hw o ho b hb hx
    cases hl with
    | left _ _ _ _ w _ _ hl =>
      have hs := (hw _ (List.mem_cons_self ..)).1 rfl
      refine ih1 w n m hl (fun st hst => hw st (by simp [hst])) o ?_ b hb hx
      by_contra hn
      have := h4 o ho hn b hb
      exact absurd (this.trans (hx ax).1) (not_le.2 hs)
    | right _ _ _ _ w _ _ hl =>
      have hs := (hw _ (List.mem_cons_self ..)).2 rfl
      refine ih2 w n m hl (fun st hst => hw st (by simp [hst])) o ?_ b hb hx
      by_contra hn
      have := h5 o ho hn b hb
      exact absurd ((hx ax).2.trans this) (not_le.2 hs)

/-- The range test of the visitor. -/
theorem inRange_iff (tn : α) (tx : Option α) (t : α) :
    ((FX.fin tn).leFin t && FX.finLe t (toFX tx)) = true ↔ InPart tn tx t := by
  cases tx <;> simp [FX.leFin, FX.finLe, toFX, InPart]

theorem nearer_iff (tn : α) (tx : Option α) (t : α) (best : Option (α × ℕ)) :
    nearer (FX.fin tn) (toFX tx) t best = true ↔ InPart tn tx t ∧ ∀ b, best = some b → t < b.1 := by
  rw [nearer, Bool.and_eq_true, inRange_iff]
  cases best <;> simp

theorem nearestBucket_spec (hit : ℕ → Option α) (tn : α) (tx : Option α) (os : List ℕ) : ∀ (best : Option (α × ℕ)),
    (∀ b, best = some b → ∃ c, nearestBucket hit (.fin tn) (toFX tx) os best = some c ∧ c.1 ≤ b.1) ∧
    (∀ o ∈ os, ∀ t, hit o = some t → InPart tn tx t → ∃ c, nearestBucket hit (.fin tn) (toFX tx) os best = some c ∧ c.1 ≤ t) ∧
    (∀ c, nearestBucket hit (.fin tn) (toFX tx) os best = some c →
      best = some c ∨ (c.2 ∈ os ∧ hit c.2 = some c.1 ∧ InPart tn tx c.1)) := by
  induction os with
  | nil => intro best; exact ⟨fun b h => ⟨b, h, le_refl _⟩, by simp, fun c h => Or.inl h⟩
  | cons o os ih =>
    intro best
    rw [nearestBucket]
    generalize hb' : nearestUpdate hit (FX.fin tn) (toFX tx) o best = best'
    unfold nearestUpdate at hb'
    obtain ⟨i1, i2, i3⟩ := ih best'
    have hcase : ∀ t, hit o = some t →
        (InPart tn tx t ∧ (∀ b, best = some b → t < b.1) ∧ best' = some (t, o)) ∨
        (¬(InPart tn tx t ∧ ∀ b, best = some b → t < b.1) ∧ best' = best) := by
      intro t ht
      rw [ht, Option.elim_some] at hb'
      by_cases hc : nearer (FX.fin tn) (toFX tx) t best = true
      · rw [if_pos hc] at hb'
        have := (nearer_iff tn tx t best).1 hc
        exact Or.inl ⟨this.1, this.2, hb'.symm⟩
      · rw [if_neg hc] at hb'
        rw [nearer_iff] at hc
        exact Or.inr ⟨hc, hb'.symm⟩
    have hnone : hit o = none → best' = best := by
      intro h; rw [h, Option.elim_none] at hb'; exact hb'.symm
    have k1 : ∀ b, best = some b → ∃ b', best' = some b' ∧ b'.1 ≤ b.1 := by
      intro b hb
      cases hh : hit o with
      | none => exact ⟨b, (hnone hh).trans hb, le_refl _⟩
      | some t =>
        rcases hcase t hh with ⟨_, h, e⟩ | ⟨_, e⟩
        · exact ⟨_, e, (h b hb).le⟩
        · exact ⟨b, e.trans hb, le_refl _⟩
    have k2 : ∀ t, hit o = some t → InPart tn tx t → ∃ b', best' = some b' ∧ b'.1 ≤ t := by
      intro t ht hin
      rcases hcase t ht with ⟨_, h, e⟩ | ⟨h, e⟩
      · exact ⟨_, e, le_refl t⟩
      · rw [not_and] at h
        have h := h hin
        push Not at h
        obtain ⟨b, hb, hle⟩ := h
        exact ⟨b, e.trans hb, hle⟩
    have k3 : ∀ b', best' = some b' → best = some b' ∨ (b'.2 = o ∧ hit o = some b'.1 ∧ InPart tn tx b'.1) := by
      intro b' e'
      cases hh : hit o with
      | none => exact Or.inl ((hnone hh).symm.trans e')
      | some t =>
        rcases hcase t hh with ⟨h, _, e⟩ | ⟨_, e⟩
        · rw [e'] at e; cases e
          exact Or.inr ⟨rfl, rfl, h⟩
        · exact Or.inl (e.symm.trans e')
    refine ⟨fun b hb => ?_, fun o' ho' t ht hin => ?_, fun c hc => ?_⟩
    · obtain ⟨b', e1, e2⟩ := k1 b hb
      obtain ⟨c, e3, e4⟩ := i1 b' e1
      exact ⟨c, e3, e4.trans e2⟩
    · rcases List.mem_cons.1 ho' with rfl | ho'
      · obtain ⟨b', e1, e2⟩ := k2 t ht hin
        obtain ⟨c, e3, e4⟩ := i1 b' e1
        exact ⟨c, e3, e4.trans e2⟩
      · exact i2 o' ho' t ht hin
    · rcases i3 c hc with h | ⟨h1, h2, h3⟩
      · rcases k3 c h with h | ⟨h1, h2, h3⟩
        · exact Or.inl h
        · exact Or.inr ⟨by simp [h1], by rw [h1]; exact h2, h3⟩
      · exact Or.inr ⟨by simp [h1], h2, h3⟩

theorem covers_ge {l : List (ℕ × α × Option α)} {te : α} {tx : Option α} (h : Covers l te tx) : ∀ c ∈ l, te ≤ c.2.1 := by
  induction l generalizing te with
  | nil => intro c hc; cases hc
  | cons x l ih =>
    intro c hc
    cases l with
    | nil =>
      simp only [List.mem_singleton] at hc
      subst hc
      exact h.1.ge
    | cons y l =>
      obtain ⟨a1, m, a2, a3, a4⟩ := h
      rcases List.mem_cons.1 hc with rfl | hc
      · exact a1.ge
      · exact a3.trans (ih a4 c hc)

theorem covers_tail {x : ℕ × α × Option α} {l : List (ℕ × α × Option α)} {te : α} {tx : Option α} (h : Covers (x :: l) te tx) :
    x.2.1 = te ∧ ∀ c ∈ l, ∀ t, InPart x.2.1 x.2.2 t → t ≤ c.2.1 := by
  cases l with
  | nil => exact ⟨h.1, fun c hc => by cases hc⟩
  | cons y l =>
    obtain ⟨a1, m, a2, a3, a4⟩ := h
    exact ⟨a1, fun c hc t ht => (ht.2 m a2).trans (covers_ge a4 c hc)⟩

theorem covers_rest {x : ℕ × α × Option α} {l : List (ℕ × α × Option α)} {te : α} {tx : Option α} (h : Covers (x :: l) te tx) :
    l = [] ∨ ∃ m, Covers l m tx := by
  cases l with
  | nil => exact Or.inl rfl
  | cons y l => obtain ⟨_, m, _, _, a4⟩ := h; exact Or.inr ⟨m, a4⟩

/-- The visitor on the parts of a ray. -/
theorem visitor_spec (hit : ℕ → Option α) (l : List (ℕ × α × Option α)) : ∀ (te : α) (tx : Option α), (l = [] ∨ Covers l te tx) →
    (∀ c ∈ l, ∀ o ∈ s.leafObjects c.1, ∀ t, hit o = some t → InPart c.2.1 c.2.2 t →
      ∃ b, Spec.runCalls (s.nearestVisitor hit) none (l.map toCall) = some b ∧ b.1 ≤ t) ∧
    (∀ b, Spec.runCalls (s.nearestVisitor hit) none (l.map toCall) = some b →
      ∃ c ∈ l, b.2 ∈ s.leafObjects c.1 ∧ hit b.2 = some b.1 ∧ InPart c.2.1 c.2.2 b.1) := by
  induction l with
  | nil => intro te tx _; exact ⟨(fun c hc => by cases hc), (fun b hb => by cases hb)⟩
  | cons x l ih =>
    intro te tx h
    replace h : Covers (x :: l) te tx := h.resolve_left (by simp)
    obtain ⟨h1, h2⟩ := covers_tail h
    obtain ⟨n1, n2, n3⟩ := nearestBucket_spec hit x.2.1 x.2.2 (s.leafObjects x.1) none
    have hrest : ∃ m, l = [] ∨ Covers l m tx := by
      rcases covers_rest h with h | ⟨m, h⟩
      · exact ⟨te, Or.inl h⟩
      · exact ⟨m, Or.inr h⟩
    obtain ⟨m, hm⟩ := hrest
    have hih := ih m tx hm
    simp only [List.map_cons, Spec.runCalls]
    have e1 : s.nearestVisitor hit none (toCall x) =
        (nearestBucket hit (.fin x.2.1) (toFX x.2.2) (s.leafObjects x.1) none,
          (nearestBucket hit (.fin x.2.1) (toFX x.2.2) (s.leafObjects x.1) none).isSome) := rfl
    rw [e1]
    dsimp only
    cases hn : nearestBucket hit (.fin x.2.1) (toFX x.2.2) (s.leafObjects x.1) none with
    | none =>
      rw [hn] at n2
      simp only [Option.isSome_none, Bool.false_eq_true, if_false]
      refine ⟨fun c hc o ho t ht hin => ?_, fun b hb => ?_⟩
      · rcases List.mem_cons.1 hc with rfl | hc
        · obtain ⟨b, hb, _⟩ := n2 o ho t ht hin; cases hb
        · exact hih.1 c hc o ho t ht hin
      · obtain ⟨c, hc, h⟩ := hih.2 b hb
        exact ⟨c, by simp [hc], h⟩
    | some b =>
      simp only [Option.isSome_some, if_true]
      have hb := (n3 b hn).resolve_left (by simp)
      refine ⟨fun c hc o ho t ht hin => ⟨b, rfl, ?_⟩, fun b' hb' => ?_⟩
      · rcases List.mem_cons.1 hc with rfl | hc
        · obtain ⟨b', hb', h⟩ := n2 o ho t ht hin
          rw [hn] at hb'; cases hb'; exact h
        · exact (h2 c hc b.1 hb.2.2).trans hin.1
      · cases hb'
        exact ⟨x, by simp, hb⟩

/-- Every distance is in one of the parts. -/
theorem covers_mem {l : List (ℕ × α × Option α)} {te : α} {tx : Option α} (h : Covers l te tx) {t : α} (ht : InPart te tx t) :
    ∃ c ∈ l, InPart c.2.1 c.2.2 t := by
  induction l generalizing te with
  | nil => exact absurd h (by simp [Covers])
  | cons x l ih =>
    cases l with
    | nil =>
      obtain ⟨a1, a2, _⟩ := h
      exact ⟨x, by simp, by rw [a1, a2]; exact ht⟩
    | cons y l =>
      obtain ⟨a1, m, a2, a3, a4⟩ := h
      rcases le_total t m with hm | hm
      · exact ⟨x, by simp, by rw [a1, a2]; exact ⟨ht.1, fun z e => by cases e; exact hm⟩⟩
      · obtain ⟨c, hc, h⟩ := ih a4 ⟨hm, ht.2⟩
        exact ⟨c, by simp [hc], h⟩

end MGL.KdTree
