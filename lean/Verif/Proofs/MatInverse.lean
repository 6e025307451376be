import Verif.Proofs.MatGen

/-! When the Gauss-Jordan elimination of `InverseMatrix` meets no small pivot. -/

set_option linter.unusedSectionVars false

namespace MGL.MatGen
variable {α : Type*} {n : ℕ} [Field α] [LinearOrder α] [IsStrictOrderedRing α]

/-- The accumulated row operations: invertible, and each row from `k` on still has one original row in it that no other row has. -/
def Track (k : ℕ) (A : Matrix (Fin n) (Fin n) α) : Prop :=
  IsUnit A ∧ ∃ σ : Fin n → Fin n, (∀ i j : Fin n, k ≤ i.val → k ≤ j.val → σ i = σ j → i = j) ∧
    ∀ i : Fin n, k ≤ i.val → ∀ r, A r (σ i) = if r = i then 1 else 0

theorem track_elim (c : Fin n) (l : List (Fin n)) (hl : ∀ i ∈ l, i ≠ c) (s : Matrix (Fin n) (Fin n) α × Matrix (Fin n) (Fin n) α)
    (h : Track (c.val + 1) s.1) : Track (c.val + 1) (l.foldl (elim1 c) s).1 := by
  induction l generalizing s with
  | nil => exact h
  | cons i l ih =>
    refine ih (fun j hj => hl j (by simp [hj])) _ ?_
    obtain ⟨hu, σ, h1, h2⟩ := h
    refine ⟨isUnit_subRow _ i c _ (hl i (by simp)) hu, σ, h1, fun j hj r => ?_⟩
    have hcj : c ≠ j := fun e => by rw [e] at hj; omega
    simp only [elim1, subRow]
    split_ifs with ha hb hb
    · rw [h2 j hj, h2 j hj, if_neg hcj, if_pos (ha.symm.trans hb)]; ring
    · rw [h2 j hj, h2 j hj, if_neg hcj, if_neg (fun e => hb (ha.trans e))]; ring
    · rw [h2 j hj, if_pos hb]
    · rw [h2 j hj, if_neg hb]

theorem invStep_track (c : Fin n) (s s' : Matrix (Fin n) (Fin n) α × Matrix (Fin n) (Fin n) α) (eps : α) (he : 0 < eps)
    (h : Track c.val s.1) (hs : invStep eps s c = some s') : Track (c.val + 1) s'.1 := by
  unfold invStep at hs
  obtain ⟨p1, p2, p3⟩ := pivotSearch_spec s.2 c
  set g := pivotSearch s.2 c with hg
  simp only at hs
  by_cases hlt : g.2 < eps
  · rw [if_pos hlt] at hs; exact absurd hs (by simp)
  rw [if_neg hlt] at hs
  have hne : s.2 g.1 c ≠ 0 := by
    intro h0; rw [h0, abs_zero] at p2; exact hlt (by rw [p2]; exact he)
  obtain ⟨t, ht, ht1, ht2⟩ : ∃ t : Matrix (Fin n) (Fin n) α × Matrix (Fin n) (Fin n) α,
      (if g.1 ≠ c then (swapRows s.1 g.1 c, swapRows s.2 g.1 c) else s) = t ∧ Track c.val t.1 ∧ t.2 c c ≠ 0 := by
    by_cases hgc : g.1 = c
    · exact ⟨s, by simp [hgc], h, by rw [hgc] at hne; exact hne⟩
    · refine ⟨_, by rw [if_pos hgc], ?_, ?_⟩
      · obtain ⟨hu, σ, h1, h2⟩ := h
        have hsw : ∀ i : Fin n, c.val ≤ i.val → c.val ≤ (Equiv.swap g.1 c i).val := by
          intro i hi
          rw [Equiv.swap_apply_def]
          split_ifs
          · exact le_refl _
          · exact p1
          · exact hi
        refine ⟨isUnit_swapRows _ _ _ hu, fun i => σ (Equiv.swap g.1 c i), fun i j hi hj e => ?_, fun i hi r => ?_⟩
        · exact (Equiv.swap g.1 c).injective (h1 _ _ (hsw i hi) (hsw j hj) e)
        · have e : ∀ j, swapRows s.1 g.1 c r j = s.1 (Equiv.swap g.1 c r) j := by
            intro j
            simp only [swapRows, Equiv.swap_apply_def]
            split_ifs <;> rfl
          show swapRows s.1 g.1 c r (σ (Equiv.swap g.1 c i)) = _
          rw [e, h2 _ (hsw i hi)]
          by_cases hri : r = i
          · rw [if_pos hri, if_pos (by rw [hri])]
          · rw [if_neg hri, if_neg fun e' => hri ((Equiv.swap g.1 c).injective e')]
      · simp only [swapRows, if_neg (Ne.symm hgc), if_true]; exact hne
  rw [ht] at hs
  simp only [Option.some.injEq] at hs
  rw [← hs]
  refine track_elim c _ (by intro i hi; simp at hi; exact ne_of_gt hi) _ (track_elim c _ (by intro i hi; simp at hi; exact ne_of_lt hi) _ ?_)
  obtain ⟨hu, σ, h1, h2⟩ := ht1
  refine ⟨isUnit_scaleRow _ _ _ (one_div_ne_zero ht2) hu, σ, fun i j hi hj => h1 i j (by omega) (by omega), fun i hi r => ?_⟩
  have hci : c ≠ i := fun e => by rw [e] at hi; omega
  simp only [scaleRow]
  split_ifs with ha hb hb
  · exact absurd (ha.symm.trans hb) hci
  · rw [h2 i (by omega), if_neg hb, zero_mul]
  · rw [h2 i (by omega), if_pos hb]
  · rw [h2 i (by omega), if_neg hb]

/-- If the elimination stops at column `c`, the matrix maps a vector with 1 as its last non-zero component to one with all components below the tolerance. -/
theorem stuck_vector (M0 : Matrix (Fin n) (Fin n) α) (c : Fin n) (s : Matrix (Fin n) (Fin n) α × Matrix (Fin n) (Fin n) α)
    (h : Inv M0 c.val s) (ht : Track c.val s.1) (eps : α) (he : 0 < eps) (hs : invStep eps s c = none) :
    ∃ v : Fin n → α, v c = 1 ∧ (∀ j, c < j → v j = 0) ∧ ∀ i, |M0.mulVec v i| < eps := by
  obtain ⟨p1, p2, p3⟩ := pivotSearch_spec s.2 c
  have hlt : (pivotSearch s.2 c).2 < eps := by
    by_contra hn
    unfold invStep at hs
    simp only [if_neg hn] at hs
    cases hs
  obtain ⟨hu, σ, h1, h2⟩ := ht
  set v : Fin n → α := fun j => if j = c then 1 else if j < c then -s.2 j c else 0 with hv
  set w : Fin n → α := fun i => if i < c then 0 else s.2 i c with hw
  have hBv : s.2.mulVec v = w := by
    ext i
    simp only [Matrix.mulVec, dotProduct, hv, hw]
    have hcol : ∀ j, j < c → ∀ i, s.2 i j = if i = j then 1 else 0 := fun j hj => h.2 j hj
    rcases lt_or_ge i c with hic | hic
    · rw [if_pos hic, Finset.sum_eq_add i c (ne_of_lt hic)]
      · rw [if_neg (ne_of_lt hic), if_pos hic, hcol i hic i]; simp
      · intro j _ hj
        rw [if_neg hj.2]
        by_cases hjc : j < c
        · rw [if_pos hjc, hcol j hjc i, if_neg (Ne.symm hj.1), zero_mul]
        · rw [if_neg hjc, mul_zero]
      · simp
      · simp
    · rw [if_neg (not_lt.2 hic), Finset.sum_eq_single c]
      · simp
      · intro j _ hj
        rw [if_neg hj]
        by_cases hjc : j < c
        · rw [if_pos hjc, hcol j hjc i, if_neg (ne_of_gt (lt_of_lt_of_le hjc hic)), zero_mul]
        · rw [if_neg hjc, mul_zero]
      · simp
  set u : Fin n → α := fun r => ∑ i, if c ≤ i ∧ σ i = r then w i else 0 with hud
  have hAu : s.1.mulVec u = w := by
    ext r
    simp only [Matrix.mulVec, dotProduct, hud, Finset.mul_sum]
    rw [Finset.sum_comm]
    have : ∀ i, (∑ x, s.1 r x * if c ≤ i ∧ σ i = x then w i else 0) = if r = i then w i else 0 := by
      intro i
      by_cases hci : c ≤ i
      · rw [Finset.sum_eq_single (σ i)]
        · rw [if_pos ⟨hci, rfl⟩, h2 i hci]
          split_ifs <;> simp
        · intro x _ hx
          rw [if_neg fun e => hx e.2.symm, mul_zero]
        · simp
      · rw [Finset.sum_eq_zero fun x _ => by rw [if_neg fun e => hci e.1, mul_zero]]
        rw [show w i = 0 from if_pos (not_le.1 hci)]; simp
    simp only [this]
    simp
  have hMv : M0.mulVec v = u := by
    have e : s.1.mulVec (M0.mulVec v) = s.1.mulVec u := by rw [Matrix.mulVec_mulVec, h.1, hBv, hAu]
    exact Matrix.mulVec_injective_of_isUnit hu e
  refine ⟨v, by simp [hv], fun j hj => by simp [hv, ne_of_gt hj, not_lt_of_gt hj], fun r => ?_⟩
  rw [hMv]
  by_cases hr : ∃ i, c ≤ i ∧ σ i = r
  · obtain ⟨i, hi, hir⟩ := hr
    have : u r = w i := by
      simp only [hud]
      rw [Finset.sum_eq_single i]
      · rw [if_pos ⟨hi, hir⟩]
      · intro j _ hj
        rw [if_neg fun e => hj (h1 j i e.1 hi (e.2.trans hir.symm))]
      · simp
    rw [this, show w i = s.2 i c from if_neg (not_lt.2 hi)]
    exact lt_of_le_of_lt (p3 i hi) hlt
  · have : u r = 0 := Finset.sum_eq_zero fun i _ => if_neg fun e => hr ⟨i, e⟩
    rw [this, abs_zero]; exact he

theorem invLoop_success (M0 : Matrix (Fin n) (Fin n) α) (eps : α) (he : 0 < eps)
    (hM : ∀ (c : Fin n) (v : Fin n → α), v c = 1 → (∀ j, c < j → v j = 0) → ∃ i, eps ≤ |M0.mulVec v i|) (k : ℕ) (hk : k ≤ n)
    (s : Matrix (Fin n) (Fin n) α × Matrix (Fin n) (Fin n) α) (h : Inv M0 k s) (ht : Track k s.1) :
    (invLoop eps ((List.finRange n).drop k) s).2 = true := by
  induction hj : n - k generalizing k s with
  | zero =>
    have hkn : k = n := by omega
    subst hkn
    rw [List.drop_eq_nil_of_le (by simp)]; rfl
  | succ m ih =>
    have hkn : k < n := by omega
    have hd : (List.finRange n).drop k = ⟨k, hkn⟩ :: (List.finRange n).drop (k + 1) := by
      rw [List.drop_eq_getElem_cons (by simpa using hkn)]; simp
    rw [hd, invLoop]
    rcases hs : invStep eps s ⟨k, hkn⟩ with _ | s'
    · obtain ⟨v, h1, h3, h2⟩ := stuck_vector M0 ⟨k, hkn⟩ s h ht eps he hs
      obtain ⟨i, hi⟩ := hM _ v h1 h3
      exact absurd (h2 i) (not_lt.2 hi)
    · exact ih (k + 1) (by omega) s' (invStep_spec M0 ⟨k, hkn⟩ s h eps he s' hs) (invStep_track ⟨k, hkn⟩ s s' eps he ht hs) (by omega)

/-- The inversion succeeds if the matrix maps no vector with 1 as its last non-zero component to a vector below the tolerance. -/
theorem inverseMatrix_success (m : Matrix (Fin n) (Fin n) α) (eps : α) (he : 0 < eps)
    (hM : ∀ (c : Fin n) (v : Fin n → α), v c = 1 → (∀ j, c < j → v j = 0) → ∃ i, eps ≤ |m.mulVec v i|) : (inverseMatrix m eps).2 = true := by
  have h1 : ((fun i j => if i = j then 1 else 0 : Matrix (Fin n) (Fin n) α)) = (1 : Matrix (Fin n) (Fin n) α) := by
    ext i j; rw [Matrix.one_apply]
  have := invLoop_success m eps he hM 0 (by omega) ((1 : Matrix (Fin n) (Fin n) α), m) ⟨Matrix.one_mul m, by omega⟩
    ⟨isUnit_one, id, fun i j _ _ e => e, fun i _ r => Matrix.one_apply⟩
  simpa [inverseMatrix, h1] using this

end MGL.MatGen
