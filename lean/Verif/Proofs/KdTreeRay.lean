import Verif.Proofs.KdTreeQuery
import Verif.Model.KdTreeRay
import Mathlib.Tactic.FieldSimp

/-! Lemmas for the ray query of the kd-tree. -/

set_option linter.unusedSectionVars false

namespace MGL.KdTree
variable {T α : Type*} [Field α] [LinearOrder α] [IsStrictOrderedRing α]

/-- A coordinate of the point at distance `t` of the ray. -/
def rayAt (pos dir : V3 α) (t : α) (ax : Fin 3) : α := pos.get ax + t * dir.get ax

/-- The distance at which the ray crosses a plane. -/
def crossing (pos dir : V3 α) (ax : Fin 3) (p : α) : α := (p - pos.get ax) / dir.get ax

/-- The end of the ray, at infinity for `none`, is at or before the plane. -/
def ExitLe (pos dir : V3 α) (tx : Option α) (ax : Fin 3) (p : α) : Prop :=
  match tx with
  | none => dir.get ax < 0
  | some t => rayAt pos dir t ax ≤ p

instance (pos dir : V3 α) (tx : Option α) (ax : Fin 3) (p : α) : Decidable (ExitLe pos dir tx ax p) := by
  unfold ExitLe; cases tx <;> infer_instance

/-- The leaves that the part of the ray from `te` to `tx` passes, with the parts inside them. -/
def trav (pos dir : V3 α) : KdT α → α → Option α → List (ℕ × α × Option α)
  | .leaf i _, te, tx => [(i, te, tx)]
  | .node ax p l r, te, tx =>
    if rayAt pos dir te ax ≤ p then
      if ExitLe pos dir tx ax p then trav pos dir l te tx
      else trav pos dir l te (some (crossing pos dir ax p)) ++ trav pos dir r (crossing pos dir ax p) tx
    else if ExitLe pos dir tx ax p then
      trav pos dir r te (some (crossing pos dir ax p)) ++ trav pos dir l (crossing pos dir ax p) tx
    else trav pos dir r te tx

/-- The parts follow each other without gaps from `te` to `tx`. -/
def Covers : List (ℕ × α × Option α) → α → Option α → Prop
  | [], _, _ => False
  | [c], te, tx => c.2.1 = te ∧ c.2.2 = tx ∧ ∀ t, tx = some t → te ≤ t
  | c :: cs, te, tx => c.2.1 = te ∧ ∃ m, c.2.2 = some m ∧ te ≤ m ∧ Covers cs m tx

theorem covers_append {l m : List (ℕ × α × Option α)} {te c : α} {tx : Option α} (h1 : Covers l te (some c)) (h2 : Covers m c tx) :
    Covers (l ++ m) te tx := by
  induction l generalizing te with
  | nil => exact absurd h1 (by simp [Covers])
  | cons x l ih =>
    cases l with
    | nil =>
      obtain ⟨a1, a2, a3⟩ := h1
      cases m with
      | nil => exact absurd h2 (by simp [Covers])
      | cons y m => exact ⟨a1, c, a2, a3 c rfl, h2⟩
    | cons y l =>
      obtain ⟨a1, b, a2, a3, a4⟩ := h1
      exact ⟨a1, b, a2, a3, ih a4⟩

variable {pos dir : V3 α}

theorem rayAt_crossing {ax : Fin 3} (p : α) (h : dir.get ax ≠ 0) : rayAt pos dir (crossing pos dir ax p) ax = p := by
  unfold rayAt crossing; field_simp; ring

/-- The distance `t` is in the part from `te` to `tx`. -/
def InPart (te : α) (tx : Option α) (t : α) : Prop := te ≤ t ∧ ∀ x, tx = some x → t ≤ x

/-- The coordinate along the axis is monotone. -/
theorem rayAt_lt {ax : Fin 3} {t u : α} (h : t ≤ u) (hlt : rayAt pos dir t ax < rayAt pos dir u ax) : 0 < dir.get ax := by
  unfold rayAt at hlt
  by_contra hn
  push Not at hn
  nlinarith

theorem rayAt_gt {ax : Fin 3} {t u : α} (h : t ≤ u) (hlt : rayAt pos dir u ax < rayAt pos dir t ax) : dir.get ax < 0 := by
  unfold rayAt at hlt
  by_contra hn
  push Not at hn
  nlinarith

/-- A point between two points on one side is on that side. -/
theorem part_le {ax : Fin 3} {p te t : α} {tx : Option α} (h1 : rayAt pos dir te ax ≤ p) (h2 : ExitLe pos dir tx ax p)
    (ht : InPart te tx t) : rayAt pos dir t ax ≤ p := by
  obtain ⟨h3, h4⟩ := ht
  cases tx with
  | none =>
    simp only [ExitLe] at h2
    unfold rayAt at *
    nlinarith
  | some u =>
    simp only [ExitLe] at h2
    have h5 := h4 u rfl
    unfold rayAt at *
    rcases le_total (dir.get ax) 0 with h | h <;> nlinarith

theorem part_ge {ax : Fin 3} {p te t : α} {tx : Option α} (h1 : ¬ rayAt pos dir te ax ≤ p) (h2 : ¬ ExitLe pos dir tx ax p)
    (ht : InPart te tx t) : p ≤ rayAt pos dir t ax := by
  obtain ⟨h3, h4⟩ := ht
  cases tx with
  | none =>
    simp only [ExitLe] at h2
    unfold rayAt at *
    nlinarith
  | some u =>
    simp only [ExitLe] at h2
    have h5 := h4 u rfl
    unfold rayAt at *
    rcases le_total (dir.get ax) 0 with h | h <;> nlinarith

/-- The crossing of a plane between the two ends. -/
theorem crossing_up {ax : Fin 3} {p te : α} {tx : Option α} (hd : dir.get ax ≠ 0) (hv : ∀ x, tx = some x → te ≤ x)
    (h1 : rayAt pos dir te ax ≤ p) (h2 : ¬ ExitLe pos dir tx ax p) :
    0 < dir.get ax ∧ te ≤ crossing pos dir ax p ∧ ∀ x, tx = some x → crossing pos dir ax p ≤ x := by
  have hpos : 0 < dir.get ax := by
    cases tx with
    | none =>
      simp only [ExitLe, not_lt] at h2
      exact lt_of_le_of_ne h2 (Ne.symm hd)
    | some u =>
      simp only [ExitLe, not_le] at h2
      exact rayAt_lt (hv u rfl) (lt_of_le_of_lt h1 h2)
  refine ⟨hpos, ?_, ?_⟩
  · unfold crossing rayAt at *
    rw [le_div_iff₀ hpos]; linarith
  · rintro x rfl
    simp only [ExitLe, not_le] at h2
    unfold crossing rayAt at *
    rw [div_le_iff₀ hpos]; linarith

theorem crossing_down {ax : Fin 3} {p te : α} {tx : Option α} (hv : ∀ x, tx = some x → te ≤ x)
    (h1 : ¬ rayAt pos dir te ax ≤ p) (h2 : ExitLe pos dir tx ax p) :
    dir.get ax < 0 ∧ te ≤ crossing pos dir ax p ∧ ∀ x, tx = some x → crossing pos dir ax p ≤ x := by
  rw [not_le] at h1
  have hneg : dir.get ax < 0 := by
    cases tx with
    | none => exact h2
    | some u =>
      simp only [ExitLe] at h2
      exact rayAt_gt (hv u rfl) (lt_of_le_of_lt h2 h1)
  refine ⟨hneg, ?_, ?_⟩
  · unfold crossing rayAt at *
    rw [le_div_iff_of_neg hneg]; linarith
  · rintro x rfl
    simp only [ExitLe] at h2
    unfold crossing rayAt at *
    rw [div_le_iff_of_neg hneg]; linarith

theorem trav_covers (hd : ∀ ax, dir.get ax ≠ 0) (t : KdT α) : ∀ (te : α) (tx : Option α), (∀ x, tx = some x → te ≤ x) →
    Covers (trav pos dir t te tx) te tx := by
  induction t with
  | leaf i os => intro te tx h; exact ⟨rfl, rfl, h⟩
  | node ax p l r ihl ihr =>
    intro te tx h
    rw [trav]
    split_ifs with h1 h2 h2
    · exact ihl te tx h
    · obtain ⟨_, k1, k2⟩ := crossing_up (hd ax) h h1 h2
      exact covers_append (ihl te _ (fun x e => by cases e; exact k1)) (ihr _ tx k2)
    · obtain ⟨_, k1, k2⟩ := crossing_down h h1 h2
      exact covers_append (ihr te _ (fun x e => by cases e; exact k1)) (ihl _ tx k2)
    · exact ihr te tx h

/-- The point of the ray is on the side of the split where the step leads. -/
def OnSide (pos dir : V3 α) (t : α) (st : KdStep α) : Prop :=
  (st.right = false → rayAt pos dir t st.axis ≤ st.pos) ∧ (st.right = true → st.pos ≤ rayAt pos dir t st.axis)

theorem trav_inside (hd : ∀ ax, dir.get ax ≠ 0) (tr : KdT α) : ∀ (te : α) (tx : Option α), (∀ x, tx = some x → te ≤ x) →
    ∀ c ∈ trav pos dir tr te tx, (∀ t, InPart c.2.1 c.2.2 t → InPart te tx t) ∧
      ∃ w os, tr.LeafAt w c.1 os ∧ ∀ t, InPart c.2.1 c.2.2 t → ∀ st ∈ w, OnSide pos dir t st := by
  induction tr with
  | leaf i os =>
    intro te tx h c hc
    simp only [trav, List.mem_singleton] at hc
    subst hc
    exact ⟨fun t ht => ht, [], os, .leaf _ _, fun _ _ st hst => by cases hst⟩
  | node ax p l r ihl ihr =>
    intro te tx h c hc
    have left : ∀ te' tx', (∀ x, tx' = some x → te' ≤ x) → (∀ t, InPart te' tx' t → InPart te tx t) →
        (∀ t, InPart te' tx' t → rayAt pos dir t ax ≤ p) → c ∈ trav pos dir l te' tx' →
        (∀ t, InPart c.2.1 c.2.2 t → InPart te tx t) ∧
        ∃ w os, (KdT.node ax p l r).LeafAt w c.1 os ∧ ∀ t, InPart c.2.1 c.2.2 t → ∀ st ∈ w, OnSide pos dir t st := by
      intro te' tx' h1 h2 h3 h4
      obtain ⟨k1, w, os, k2, k3⟩ := ihl te' tx' h1 c h4
      refine ⟨fun t ht => h2 t (k1 t ht), _, os, .left _ _ _ _ _ _ _ k2, fun t ht st hst => ?_⟩
      rcases List.mem_cons.1 hst with rfl | hst
      · exact ⟨fun _ => h3 t (k1 t ht), fun e => by cases e⟩
      · exact k3 t ht st hst
    have right : ∀ te' tx', (∀ x, tx' = some x → te' ≤ x) → (∀ t, InPart te' tx' t → InPart te tx t) →
        (∀ t, InPart te' tx' t → p ≤ rayAt pos dir t ax) → c ∈ trav pos dir r te' tx' →
        (∀ t, InPart c.2.1 c.2.2 t → InPart te tx t) ∧
        ∃ w os, (KdT.node ax p l r).LeafAt w c.1 os ∧ ∀ t, InPart c.2.1 c.2.2 t → ∀ st ∈ w, OnSide pos dir t st := by
      intro te' tx' h1 h2 h3 h4
      obtain ⟨k1, w, os, k2, k3⟩ := ihr te' tx' h1 c h4
      refine ⟨fun t ht => h2 t (k1 t ht), _, os, .right _ _ _ _ _ _ _ k2, fun t ht st hst => ?_⟩
      rcases List.mem_cons.1 hst with rfl | hst
      · exact ⟨fun e => (by cases e), fun _ => h3 t (k1 t ht)⟩
      · exact k3 t ht st hst
    have hcr := rayAt_crossing (pos := pos) p (hd ax)
    rw [trav] at hc
    split_ifs at hc with h1 h2 h2
    · exact left te tx h (fun t ht => ht) (fun t ht => part_le h1 h2 ht) hc
    · obtain ⟨k0, k1, k2⟩ := crossing_up (hd ax) h h1 h2
      rcases List.mem_append.1 hc with hc | hc
      · refine left te _ (fun x e => by cases e; exact k1) (fun t ht => ⟨ht.1, fun x e => (ht.2 _ rfl).trans (k2 x e)⟩)
          (fun t ht => ?_) hc
        have := ht.2 _ rfl
        rw [← hcr]; unfold rayAt; nlinarith
      · refine right _ tx k2 (fun t ht => ⟨k1.trans ht.1, ht.2⟩) (fun t ht => ?_) hc
        have := ht.1
        rw [← hcr]; unfold rayAt; nlinarith
    · obtain ⟨k0, k1, k2⟩ := crossing_down h h1 h2
      rcases List.mem_append.1 hc with hc | hc
      · refine right te _ (fun x e => by cases e; exact k1) (fun t ht => ⟨ht.1, fun x e => (ht.2 _ rfl).trans (k2 x e)⟩)
          (fun t ht => ?_) hc
        have := ht.2 _ rfl
        rw [← hcr]; unfold rayAt; nlinarith
      · refine left _ tx k2 (fun t ht => ⟨k1.trans ht.1, ht.2⟩) (fun t ht => ?_) hc
        have := ht.1
        rw [← hcr]; unfold rayAt; nlinarith
    · exact right te tx h (fun t ht => ht) (fun t ht => part_ge h1 h2 ht) hc

end MGL.KdTree
