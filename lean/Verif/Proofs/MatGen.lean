import Verif.Model.MatGen
import Verif.Proofs.Scalar
import Mathlib.LinearAlgebra.Matrix.NonsingularInverse
import Mathlib.LinearAlgebra.Matrix.ToLinearEquiv
import Mathlib.Algebra.BigOperators.Group.Finset.Basic
import Mathlib.Tactic.Ring
import Mathlib.Tactic.Linarith

/-! Helper lemmas about the generic matrix routines. -/

namespace MGL.MatGen
variable {α : Type*} {n : ℕ}

section Field
variable [Field α]

theorem swapRows_mul (A B : Matrix (Fin n) (Fin n) α) (a b : Fin n) :
    swapRows A a b * B = swapRows (A * B) a b := by
  ext i j
  simp only [swapRows, Matrix.mul_apply]
  split_ifs <;> rfl

theorem scaleRow_mul (A B : Matrix (Fin n) (Fin n) α) (r : Fin n) (s : α) :
    scaleRow A r s * B = scaleRow (A * B) r s := by
  ext i j
  simp only [scaleRow, Matrix.mul_apply]
  split_ifs
  · rw [Finset.sum_mul]; exact Finset.sum_congr rfl (fun k _ => by ring)
  · rfl

theorem subRow_mul (A B : Matrix (Fin n) (Fin n) α) (i c : Fin n) (f : α) :
    subRow A i c f * B = subRow (A * B) i c f := by
  ext a b
  simp only [subRow, Matrix.mul_apply]
  split_ifs
  · rw [Finset.sum_mul, ← Finset.sum_sub_distrib]; exact Finset.sum_congr rfl (fun k _ => by ring)
  · rfl

/-- Effect of eliminating with the rows of `l` (none of which is the pivot row `c`). -/
theorem foldl_elim1 (c : Fin n) (l : List (Fin n)) (hl : ∀ i ∈ l, i ≠ c) (hnd : l.Nodup)
    (M0 : Matrix (Fin n) (Fin n) α) (s : Matrix (Fin n) (Fin n) α × Matrix (Fin n) (Fin n) α)
    (h : s.1 * M0 = s.2) :
    (l.foldl (elim1 c) s).1 * M0 = (l.foldl (elim1 c) s).2 ∧
    ∀ a b, (l.foldl (elim1 c) s).2 a b = if a ∈ l then s.2 a b - s.2 c b * s.2 a c else s.2 a b := by
  induction l generalizing s with
  | nil => exact ⟨h, fun a b => by simp⟩
  | cons i l ih =>
    have hi : i ≠ c := hl i (by simp)
    rw [List.nodup_cons] at hnd
    have h' : (elim1 c s i).1 * M0 = (elim1 c s i).2 := by
      simp only [elim1]; rw [subRow_mul, h]
    obtain ⟨h1, h2⟩ := ih (fun j hj => hl j (by simp [hj])) hnd.2 (elim1 c s i) h'
    refine ⟨h1, fun a b => ?_⟩
    rw [List.foldl_cons, h2]
    simp only [elim1, subRow, if_neg (Ne.symm hi), List.mem_cons]
    by_cases hai : a = i
    · subst hai; simp [hnd.1]
    · simp [hai]

/-- Same for `Pivot`, on one matrix. -/
theorem foldl_subRow (c col : Fin n) (l : List (Fin n)) (hl : ∀ i ∈ l, i ≠ c) (hnd : l.Nodup)
    (m : Matrix (Fin n) (Fin n) α) :
    ∀ a b, (l.foldl (fun m i => subRow m i c (m i col)) m) a b =
      if a ∈ l then m a b - m c b * m a col else m a b := by
  induction l generalizing m with
  | nil => intro a b; simp
  | cons i l ih =>
    have hi : i ≠ c := hl i (by simp)
    rw [List.nodup_cons] at hnd
    intro a b
    rw [List.foldl_cons, ih (fun j hj => hl j (by simp [hj])) hnd.2]
    simp only [subRow, if_neg (Ne.symm hi), List.mem_cons]
    by_cases hai : a = i
    · subst hai; simp [hnd.1]
    · simp [hai]

end Field

variable [Field α] [LinearOrder α] [IsStrictOrderedRing α]

omit [IsStrictOrderedRing α] in
theorem foldl_pivot (m : Matrix (Fin n) (Fin n) α) (c : Fin n) (l : List (Fin n)) (hl : ∀ i ∈ l, c < i)
    (g : Fin n × α) (hg1 : c ≤ g.1) (hg2 : g.2 = absF (m g.1 c)) :
    let r := l.foldl (fun g i => let val := absF (m i c); if val > g.2 then (i, val) else g) g
    c ≤ r.1 ∧ r.2 = absF (m r.1 c) ∧ g.2 ≤ r.2 ∧ ∀ i ∈ l, absF (m i c) ≤ r.2 := by
  induction l generalizing g with
  | nil => exact ⟨hg1, hg2, le_refl _, by simp⟩
  | cons i l ih =>
    simp only [List.foldl_cons]
    by_cases hv : absF (m i c) > g.2
    · simp only [if_pos hv]
      obtain ⟨a1, a2, a3, a4⟩ := ih (fun j hj => hl j (by simp [hj])) (i, absF (m i c))
        (le_of_lt (hl i (by simp))) rfl
      refine ⟨a1, a2, le_trans (le_of_lt hv) a3, ?_⟩
      intro j hj
      rcases List.mem_cons.1 hj with rfl | hj
      · exact a3
      · exact a4 j hj
    · simp only [if_neg hv]
      obtain ⟨a1, a2, a3, a4⟩ := ih (fun j hj => hl j (by simp [hj])) g hg1 hg2
      refine ⟨a1, a2, a3, ?_⟩
      intro j hj
      rcases List.mem_cons.1 hj with rfl | hj
      · exact le_trans (not_lt.1 hv) a3
      · exact a4 j hj

theorem pivotSearch_spec (m : Matrix (Fin n) (Fin n) α) (c : Fin n) :
    c ≤ (pivotSearch m c).1 ∧ (pivotSearch m c).2 = |m (pivotSearch m c).1 c| ∧
    ∀ i, c ≤ i → |m i c| ≤ (pivotSearch m c).2 := by
  obtain ⟨a1, a2, a3, a4⟩ := foldl_pivot m c ((List.finRange n).filter (fun i => c < i))
    (by simp) (c, absF (m c c)) (le_refl _) rfl
  refine ⟨a1, by rw [← absF_eq]; exact a2, ?_⟩
  intro i hi
  rcases eq_or_lt_of_le hi with rfl | hi
  · rw [← absF_eq]; exact a3
  · rw [← absF_eq]; exact a4 i (by simp [hi])

/-- The loop invariant of `InverseMatrix`: `inversed * M0 = mat`, the columns before `k` are columns
of the identity. -/
def Inv (M0 : Matrix (Fin n) (Fin n) α) (k : ℕ) (s : Matrix (Fin n) (Fin n) α × Matrix (Fin n) (Fin n) α) :
    Prop :=
  s.1 * M0 = s.2 ∧ ∀ c : Fin n, c.val < k → ∀ i, s.2 i c = if i = c then 1 else 0

theorem invStep_spec (M0 : Matrix (Fin n) (Fin n) α) (c : Fin n)
    (s : Matrix (Fin n) (Fin n) α × Matrix (Fin n) (Fin n) α) (h : Inv M0 c.val s) (eps : α) (he : 0 < eps)
    (s' : Matrix (Fin n) (Fin n) α × Matrix (Fin n) (Fin n) α) (hs : invStep eps s c = some s') :
    Inv M0 (c.val + 1) s' := by
  unfold invStep at hs
  obtain ⟨p1, p2, p3⟩ := pivotSearch_spec s.2 c
  set g := pivotSearch s.2 c with hg
  simp only at hs
  by_cases hlt : g.2 < eps
  · rw [if_pos hlt] at hs; exact absurd hs (by simp)
  rw [if_neg hlt] at hs
  have hne : s.2 g.1 c ≠ 0 := by
    intro h0; rw [h0, abs_zero] at p2; exact hlt (by rw [p2]; exact he)
  -- the swap
  obtain ⟨t, ht, ht1, ht2, ht3⟩ : ∃ t : Matrix (Fin n) (Fin n) α × Matrix (Fin n) (Fin n) α,
      (if g.1 ≠ c then (swapRows s.1 g.1 c, swapRows s.2 g.1 c) else s) = t ∧ t.1 * M0 = t.2 ∧
      t.2 c c ≠ 0 ∧ ∀ d : Fin n, d < c → ∀ i, t.2 i d = if i = d then 1 else 0 := by
    by_cases hgc : g.1 = c
    · refine ⟨s, by simp [hgc], h.1, by rw [← hgc] at hne ⊢; convert hne using 2, fun d hd => h.2 d hd⟩
    · refine ⟨_, by rw [if_pos hgc], ?_, ?_, ?_⟩
      · rw [swapRows_mul, h.1]
      · simp only [swapRows, if_neg (Ne.symm hgc), if_true]; exact hne
      · intro d hd i
        have := h.2 d hd
        have hcd : c ≠ d := ne_of_gt hd
        have hgd : g.1 ≠ d := ne_of_gt (lt_of_lt_of_le hd p1)
        simp only [swapRows]
        split_ifs with h1 h2 h3 h4
        · exact absurd (h1.symm.trans h2) hgd
        · rw [this, if_neg hcd]
        · exact absurd (h3.symm.trans h4) hcd
        · rw [this, if_neg hgd]
        · rename_i h5; rw [this, if_pos h5]
        · rename_i h5; rw [this, if_neg h5]
  rw [ht] at hs
  set u : Matrix (Fin n) (Fin n) α × Matrix (Fin n) (Fin n) α :=
    (scaleRow t.1 c (1 / t.2 c c), scaleRow t.2 c (1 / t.2 c c)) with hu
  have hu1 : u.1 * M0 = u.2 := by simp only [hu]; rw [scaleRow_mul, ht1]
  have huc : u.2 c c = 1 := by simp [hu, scaleRow, mul_inv_cancel₀ ht2]
  have hu3 : ∀ d : Fin n, d < c → ∀ i, u.2 i d = if i = d then 1 else 0 := by
    intro d hd i
    have hcd : c ≠ d := ne_of_gt hd
    simp only [hu, scaleRow]
    split_ifs with h1 h2 h3
    · exact absurd (h1.symm.trans h2) hcd
    · rw [h1, ht3 d hd, if_neg hcd, zero_mul]
    · rw [ht3 d hd, if_pos h3]
    · rename_i h3; rw [ht3 d hd, if_neg h3]
  obtain ⟨v1, v2⟩ := foldl_elim1 c ((List.finRange n).filter (fun i => i < c)) (by
    intro i hi; simp at hi; exact ne_of_lt hi) ((List.nodup_finRange n).filter _) M0 u hu1
  set v := ((List.finRange n).filter (fun i => i < c)).foldl (elim1 c) u with hv
  obtain ⟨w1, w2⟩ := foldl_elim1 c ((List.finRange n).filter (fun i => c < i)) (by
    intro i hi; simp at hi; exact ne_of_gt hi) ((List.nodup_finRange n).filter _) M0 v v1
  simp only [Option.some.injEq] at hs
  rw [← hs]
  have key : ∀ a b, (((List.finRange n).filter (fun i => c < i)).foldl (elim1 c) v).2 a b =
      if a = c then u.2 a b else u.2 a b - u.2 c b * u.2 a c := by
    intro a b
    rw [w2, v2 a b, v2 c b, v2 a c]
    simp only [List.mem_filter, List.mem_finRange, true_and, decide_eq_true_eq, lt_irrefl, if_false]
    rcases lt_trichotomy a c with hac | hac | hac
    · simp [hac, ne_of_lt hac, not_lt_of_gt hac]
    · simp [hac]
    · simp [hac, ne_of_gt hac, not_lt_of_gt hac]
  refine ⟨w1, ?_⟩
  intro d hd i
  rw [key]
  rcases Nat.lt_succ_iff_lt_or_eq.1 hd with hd | hd
  · have hdc : d < c := hd
    have hcd : c ≠ d := ne_of_gt hdc
    split_ifs with h1 h2 h3
    · exact absurd (h1.symm.trans h2) hcd
    · rw [h1, hu3 d hdc, if_neg hcd]
    · rw [hu3 d hdc, hu3 d hdc c, if_neg hcd, if_pos h3]; ring
    · rw [hu3 d hdc, hu3 d hdc c, if_neg hcd, if_neg h3]; ring
  · have hdc : d = c := Fin.ext hd
    subst hdc
    split_ifs with h1
    · rw [h1, huc]
    · rw [huc]; ring

theorem invLoop_spec (M0 : Matrix (Fin n) (Fin n) α) (eps : α) (he : 0 < eps) (k : ℕ) (hk : k ≤ n)
    (s : Matrix (Fin n) (Fin n) α × Matrix (Fin n) (Fin n) α) (h : Inv M0 k s)
    (ht : (invLoop eps ((List.finRange n).drop k) s).2 = true) :
    (invLoop eps ((List.finRange n).drop k) s).1 * M0 = 1 := by
  induction hj : n - k generalizing k s with
  | zero =>
    have hkn : k = n := by omega
    subst hkn
    have : (List.finRange k).drop k = [] := by simp
    rw [this]
    simp only [invLoop]
    rw [h.1]
    ext i j
    rw [h.2 j j.isLt, Matrix.one_apply]
  | succ m ih =>
    have hkn : k < n := by omega
    have hd : (List.finRange n).drop k = ⟨k, hkn⟩ :: (List.finRange n).drop (k + 1) := by
      rw [List.drop_eq_getElem_cons (by simpa using hkn)]; simp
    rw [hd] at ht ⊢
    rw [invLoop] at ht ⊢
    rcases hs : invStep eps s ⟨k, hkn⟩ with _ | s'
    · rw [hs] at ht; simp at ht
    · rw [hs] at ht
      simp only at ht ⊢
      exact ih (k + 1) (by omega) s' (invStep_spec M0 ⟨k, hkn⟩ s h eps he s' hs) ht (by omega)

theorem inverseMatrix_left (m : Matrix (Fin n) (Fin n) α) (eps : α) (he : 0 < eps)
    (ht : (inverseMatrix m eps).2 = true) : (inverseMatrix m eps).1 * m = 1 := by
  have h1 : ((fun i j => if i = j then 1 else 0 : Matrix (Fin n) (Fin n) α)) = (1 : Matrix (Fin n) (Fin n) α) := by
    ext i j; rw [Matrix.one_apply]
  exact invLoop_spec m eps he 0 (by omega) _ ⟨by simp only [h1]; exact Matrix.one_mul m, by omega⟩
    (by simpa [inverseMatrix] using ht)

/-- A matrix whose first `k` columns are identity columns and whose column `k` vanishes from row `k`
on is singular. -/
theorem singular_of_stuck (A : Matrix (Fin n) (Fin n) α) (c : Fin n)
    (h1 : ∀ d : Fin n, d < c → ∀ i, A i d = if i = d then 1 else 0) (h2 : ∀ i, c ≤ i → A i c = 0) :
    A.det = 0 := by
  rw [← Matrix.exists_mulVec_eq_zero_iff]
  refine ⟨fun j => if j = c then -1 else if j < c then A j c else 0, ?_, ?_⟩
  · intro h; have := congrFun h c; simp at this
  · ext i
    simp only [Matrix.mulVec, dotProduct, Pi.zero_apply]
    rcases lt_or_ge i c with hic | hic
    · rw [Finset.sum_eq_add i c (ne_of_lt hic)]
      · rw [if_neg (ne_of_lt hic), if_pos hic, h1 i hic i]; simp
      · intro j _ hj
        rw [if_neg hj.2]
        by_cases hjc : j < c
        · rw [if_pos hjc, h1 j hjc i, if_neg (Ne.symm hj.1), zero_mul]
        · rw [if_neg hjc, mul_zero]
      · simp
      · simp
    · apply Finset.sum_eq_zero
      intro j _
      by_cases hj : j = c
      · rw [hj, h2 i hic, zero_mul]
      · rw [if_neg hj]
        by_cases hjc : j < c
        · rw [if_pos hjc, h1 j hjc i, if_neg (ne_of_gt (lt_of_lt_of_le hjc hic)), zero_mul]
        · rw [if_neg hjc, mul_zero]

omit [LinearOrder α] [IsStrictOrderedRing α] in
theorem isUnit_swapRows (A : Matrix (Fin n) (Fin n) α) (a b : Fin n) (h : IsUnit A) :
    IsUnit (swapRows A a b) := by
  have e : swapRows A a b = swapRows 1 a b * A := by rw [swapRows_mul, Matrix.one_mul]
  rw [e]
  refine IsUnit.mul ?_ h
  refine IsUnit.of_mul_eq_one (swapRows 1 a b) ?_
  rw [swapRows_mul, Matrix.one_mul]
  ext i j
  simp only [swapRows]
  split_ifs with h1 h2 h3
  · rw [h1, h2]
  · rw [h1]
  · rw [h3]
  · rfl

omit [LinearOrder α] [IsStrictOrderedRing α] in
theorem isUnit_scaleRow (A : Matrix (Fin n) (Fin n) α) (r : Fin n) (s : α) (hs : s ≠ 0) (h : IsUnit A) :
    IsUnit (scaleRow A r s) := by
  have e : scaleRow A r s = scaleRow 1 r s * A := by rw [scaleRow_mul, Matrix.one_mul]
  rw [e]
  refine IsUnit.mul ?_ h
  refine IsUnit.of_mul_eq_one (scaleRow 1 r s⁻¹) ?_
  rw [scaleRow_mul, Matrix.one_mul]
  ext i j
  simp only [scaleRow]
  split_ifs with h1
  · rw [mul_assoc, inv_mul_cancel₀ hs, mul_one]
  · rfl

omit [LinearOrder α] [IsStrictOrderedRing α] in
theorem isUnit_subRow (A : Matrix (Fin n) (Fin n) α) (i c : Fin n) (f : α) (hic : i ≠ c) (h : IsUnit A) :
    IsUnit (subRow A i c f) := by
  have e : subRow A i c f = subRow 1 i c f * A := by rw [subRow_mul, Matrix.one_mul]
  rw [e]
  refine IsUnit.mul ?_ h
  refine IsUnit.of_mul_eq_one (subRow 1 i c (-f)) ?_
  rw [subRow_mul, Matrix.one_mul]
  ext a b
  simp only [subRow, if_neg (Ne.symm hic), if_true]
  split_ifs with h1
  · rw [h1]; ring
  · rfl

omit [LinearOrder α] [IsStrictOrderedRing α] in
theorem isUnit_elim (c : Fin n) (l : List (Fin n)) (hl : ∀ i ∈ l, i ≠ c)
    (s : Matrix (Fin n) (Fin n) α × Matrix (Fin n) (Fin n) α) (h : IsUnit s.2) :
    IsUnit (l.foldl (elim1 c) s).2 := by
  induction l generalizing s with
  | nil => exact h
  | cons i l ih =>
    exact ih (fun j hj => hl j (by simp [hj])) _ (isUnit_subRow _ i c _ (hl i (by simp)) h)

/-- The pivot of an invertible matrix is not zero, and the step then keeps it invertible and does not
depend on the tolerance. -/
theorem invStep_progress (M0 : Matrix (Fin n) (Fin n) α) (c : Fin n)
    (s : Matrix (Fin n) (Fin n) α × Matrix (Fin n) (Fin n) α) (h : Inv M0 c.val s) (hu : IsUnit s.2) :
    ∃ δ > 0, ∃ s', IsUnit s'.2 ∧ ∀ eps, eps ≤ δ → invStep eps s c = some s' := by
  obtain ⟨p1, p2, p3⟩ := pivotSearch_spec s.2 c
  have hpos : 0 < (pivotSearch s.2 c).2 := by
    by_contra hn
    have hz : (pivotSearch s.2 c).2 = 0 := le_antisymm (not_lt.1 hn) (by rw [p2]; exact abs_nonneg _)
    have hdet := singular_of_stuck s.2 c (fun d hd => h.2 d hd) (fun i hi => by
      have := p3 i hi; rw [hz] at this; exact abs_eq_zero.1 (le_antisymm this (abs_nonneg _)))
    rw [Matrix.isUnit_iff_isUnit_det, hdet] at hu
    exact not_isUnit_zero hu
  have hne : s.2 (pivotSearch s.2 c).1 c ≠ 0 := by
    intro h0; rw [h0, abs_zero] at p2; rw [p2] at hpos; exact lt_irrefl _ hpos
  refine ⟨_, hpos, _, ?_, fun eps he => by rw [invStep]; exact if_neg (not_lt.2 he)⟩
  apply isUnit_elim _ _ (by intro i hi; simp at hi; exact ne_of_gt hi)
  apply isUnit_elim _ _ (by intro i hi; simp at hi; exact ne_of_lt hi)
  by_cases hgc : (pivotSearch s.2 c).1 = c
  · simp only [hgc, ne_eq, not_true_eq_false, if_false]
    rw [hgc] at hne
    exact isUnit_scaleRow _ _ _ (one_div_ne_zero hne) hu
  · simp only [if_pos (show (pivotSearch s.2 c).1 ≠ c from hgc)]
    refine isUnit_scaleRow _ _ _ (one_div_ne_zero ?_) (isUnit_swapRows _ _ _ hu)
    simp only [swapRows, if_neg (Ne.symm hgc), if_true]; exact hne

theorem invLoop_progress (M0 : Matrix (Fin n) (Fin n) α) (k : ℕ) (hk : k ≤ n)
    (s : Matrix (Fin n) (Fin n) α × Matrix (Fin n) (Fin n) α) (h : Inv M0 k s) (hu : IsUnit s.2) :
    ∃ δ > 0, ∀ eps, 0 < eps → eps ≤ δ → (invLoop eps ((List.finRange n).drop k) s).2 = true := by
  induction hj : n - k generalizing k s with
  | zero =>
    have hkn : k = n := by omega
    subst hkn
    exact ⟨1, one_pos, fun eps _ _ => by
      rw [List.drop_eq_nil_of_le (by simp)]; rfl⟩
  | succ m ih =>
    have hkn : k < n := by omega
    have hd : (List.finRange n).drop k = ⟨k, hkn⟩ :: (List.finRange n).drop (k + 1) := by
      rw [List.drop_eq_getElem_cons (by simpa using hkn)]; simp
    obtain ⟨δ, hδ, s', hs', hall⟩ := invStep_progress M0 ⟨k, hkn⟩ s h hu
    obtain ⟨δ', hδ', hall'⟩ := ih (k + 1) (by omega) s'
      (invStep_spec M0 ⟨k, hkn⟩ s h δ hδ s' (hall δ le_rfl)) hs' (by omega)
    refine ⟨min δ δ', lt_min hδ hδ', fun eps h0 he => ?_⟩
    rw [hd, invLoop, hall eps (le_trans he (min_le_left _ _))]
    exact hall' eps h0 (le_trans he (min_le_right _ _))

theorem inverseMatrix_progress (m : Matrix (Fin n) (Fin n) α) (hm : m.det ≠ 0) :
    ∃ δ > 0, ∀ eps, 0 < eps → eps ≤ δ → (inverseMatrix m eps).2 = true := by
  have h1 : ((fun i j => if i = j then 1 else 0 : Matrix (Fin n) (Fin n) α)) = (1 : Matrix (Fin n) (Fin n) α) := by
    ext i j; rw [Matrix.one_apply]
  have := invLoop_progress m 0 (by omega) ((1 : Matrix (Fin n) (Fin n) α), m) ⟨Matrix.one_mul m, by omega⟩
    ((Matrix.isUnit_iff_isUnit_det _).2 (isUnit_iff_ne_zero.2 hm))
  simpa [inverseMatrix, h1] using this

end MGL.MatGen
