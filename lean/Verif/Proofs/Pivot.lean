import Verif.Proofs.MatGen

/-! Helper lemmas for `float4x4::Pivot`. -/

namespace MGL.MatGen
variable {α : Type*} {n : ℕ} [Field α] [LinearOrder α] [IsStrictOrderedRing α]

theorem foldl_max (m : Matrix (Fin n) (Fin n) α) (r col : Fin n) (l : List (Fin n)) (hl : ∀ i ∈ l, r ≤ i) (g0 : Fin n)
    (hg : r ≤ g0) :
    r ≤ l.foldl (fun g i => if absF (m i col) > absF (m g col) then i else g) g0 ∧
    |m g0 col| ≤ |m (l.foldl (fun g i => if absF (m i col) > absF (m g col) then i else g) g0) col| ∧
    ∀ i ∈ l, |m i col| ≤ |m (l.foldl (fun g i => if absF (m i col) > absF (m g col) then i else g) g0) col| := by
  induction l generalizing g0 with
  | nil => simpa using hg
  | cons a l ih =>
    rw [List.foldl_cons]
    have ha := hl a (by simp)
    have hl' : ∀ i ∈ l, r ≤ i := fun i hi => hl i (by simp [hi])
    simp only [absF_eq] at *
    by_cases h : |m a col| > |m g0 col|
    · rw [if_pos h]
      obtain ⟨h1, h2, h3⟩ := ih hl' a ha
      refine ⟨h1, h.le.trans h2, ?_⟩
      intro i hi
      rcases List.mem_cons.1 hi with rfl | hi
      · exact h2
      · exact h3 i hi
    · rw [if_neg h]
      obtain ⟨h1, h2, h3⟩ := ih hl' g0 hg
      refine ⟨h1, h2, ?_⟩
      intro i hi
      rcases List.mem_cons.1 hi with rfl | hi
      · exact (not_lt.1 h).trans h2
      · exact h3 i hi

theorem pivotRow_spec (m : Matrix (Fin n) (Fin n) α) (r col : Fin n) :
    r ≤ pivotRow m r col ∧ ∀ i, r ≤ i → |m i col| ≤ |m (pivotRow m r col) col| := by
  have := foldl_max m r col ((List.finRange n).filter (fun i => r ≤ i)) (by simp) r le_rfl
  exact ⟨this.1, fun i hi => this.2.2 i (by simpa using hi)⟩

omit [LinearOrder α] [IsStrictOrderedRing α] in
theorem foldl_subRow_mul (M : Matrix (Fin n) (Fin n) α) (r col : Fin n) (l : List (Fin n)) (hl : ∀ i ∈ l, i ≠ r)
    (E : Matrix (Fin n) (Fin n) α) (hE : IsUnit E) :
    ∃ E', IsUnit E' ∧ l.foldl (fun m i => subRow m i r (m i col)) (E * M) = E' * M := by
  induction l generalizing E with
  | nil => exact ⟨E, hE, rfl⟩
  | cons a l ih =>
    rw [List.foldl_cons, ← subRow_mul]
    exact ih (fun i hi => hl i (by simp [hi])) _ (isUnit_subRow _ _ _ _ (hl a (by simp)) hE)

theorem pivotStep_mul (eps : α) (he : 0 < eps) (M E : Matrix (Fin n) (Fin n) α) (hE : IsUnit E) (k : ℕ) (col : Fin n) :
    ∃ E', IsUnit E' ∧ (pivotStep eps (E * M, k) col).1 = E' * M := by
  unfold pivotStep
  by_cases h : k < n
  · simp only [h, dite_true]
    set r : Fin n := ⟨k, h⟩
    set g := pivotRow (E * M) r col
    by_cases hz : equalAbs ((E * M) g col) 0 eps = true
    · rw [if_pos hz]; exact ⟨E, hE, rfl⟩
    · rw [if_neg hz]
      have hz' : (E * M) g col ≠ 0 := by
        intro h0; rw [h0] at hz; simp [equalAbs, absF_eq, he] at hz
      obtain ⟨E1, hE1, e1, e1g⟩ : ∃ E1, IsUnit E1 ∧ (if r ≠ g then swapRows (E * M) r g else E * M) = E1 * M ∧
          (E1 * M) r col ≠ 0 := by
        by_cases hrg : r = g
        · refine ⟨E, hE, by simp [hrg], ?_⟩; rw [hrg]; exact hz'
        · refine ⟨swapRows E r g, isUnit_swapRows _ _ _ hE, by rw [if_pos hrg, ← swapRows_mul], ?_⟩
          rw [swapRows_mul]; simpa [swapRows] using hz'
      simp only [e1]
      rw [← scaleRow_mul]
      exact foldl_subRow_mul M r col _ (by simp) _ (isUnit_scaleRow _ _ _ (one_div_ne_zero e1g) hE1)
  · simp only [h, dite_false]; exact ⟨E, hE, rfl⟩

theorem pivot_mul (eps : α) (he : 0 < eps) (M : Matrix (Fin n) (Fin n) α) :
    ∃ E, IsUnit E ∧ pivot M eps = E * M := by
  have main : ∀ (l : List (Fin n)) (E : Matrix (Fin n) (Fin n) α) (k : ℕ), IsUnit E →
      ∃ E', IsUnit E' ∧ (l.foldl (pivotStep eps) (E * M, k)).1 = E' * M := by
    intro l
    induction l with
    | nil => intro E k hE; exact ⟨E, hE, rfl⟩
    | cons a l ih =>
      intro E k hE
      rw [List.foldl_cons]
      obtain ⟨E1, hE1, e1⟩ := pivotStep_mul eps he M E hE k a
      have : pivotStep eps (E * M, k) a = (E1 * M, (pivotStep eps (E * M, k) a).2) := Prod.ext e1 rfl
      rw [this]
      exact ih E1 _ hE1
  have := main (List.finRange n) 1 0 isUnit_one
  rw [one_mul] at this
  exact this

/-- The first `c` columns are in reduced row echelon form with `r` pivots. -/
def Ech (m : Matrix (Fin n) (Fin n) α) (c r : ℕ) : Prop :=
  r ≤ c ∧ r ≤ n ∧ ∃ p : ℕ → ℕ, (∀ i j, i < j → j < r → p i < p j) ∧ (∀ k, k < r → p k < c) ∧
    (∀ k, k < r → ∀ a b : Fin n, b.val = p k → m a b = if a.val = k then 1 else 0) ∧
    (∀ a b : Fin n, b.val < c → r ≤ a.val → m a b = 0) ∧
    (∀ a b : Fin n, a.val < r → b.val < p a.val → m a b = 0)

theorem ech_step (m : Matrix (Fin n) (Fin n) α) (c r : ℕ) (hc : c < n) (hr : r < n) (h : Ech m c r)
    (hz : m (pivotRow m ⟨r, hr⟩ ⟨c, hc⟩) ⟨c, hc⟩ ≠ 0) (eps : α)
    (he : eps ≤ |m (pivotRow m ⟨r, hr⟩ ⟨c, hc⟩) ⟨c, hc⟩|) :
    Ech (pivotStep eps (m, r) ⟨c, hc⟩).1 (c + 1) (r + 1) ∧ (pivotStep eps (m, r) ⟨c, hc⟩).2 = r + 1 := by
  obtain ⟨hrc, hrn, p, hp1, hp2, hp3, hp4, hp5⟩ := h
  have hg := (pivotRow_spec m ⟨r, hr⟩ ⟨c, hc⟩).1
  set R : Fin n := ⟨r, hr⟩ with hR
  set C : Fin n := ⟨c, hc⟩ with hC
  set g := pivotRow m R C with hgdef
  have heq : equalAbs (m g C) 0 eps = false := by
    simp only [equalAbs, absF_eq, sub_zero, decide_eq_false_iff_not, not_lt]; exact he
  have hstep : pivotStep eps (m, r) C =
      (((List.finRange n).filter (fun i => i ≠ R)).foldl (fun m i => subRow m i R (m i C))
        (scaleRow (if R ≠ g then swapRows m R g else m) R (1 / (if R ≠ g then swapRows m R g else m) R C)), r + 1) := by
    unfold pivotStep
    simp only [hr, dite_true]
    rw [← hR, ← hgdef, heq]; rfl
  rw [hstep]
  refine ⟨?_, rfl⟩
  have e1 : (if R ≠ g then swapRows m R g else m) = swapRows m R g := by
    by_cases h : R = g
    · rw [if_neg (by simpa using h), ← h]; ext a b; simp only [swapRows]
      split_ifs with h1
      · rw [h1]
      · rfl
    · rw [if_pos h]
  rw [e1]
  have hrg : r ≤ g.val := hg
  -- entries of the swapped matrix
  have s1 : ∀ b, swapRows m R g R b = m g b := by intro b; simp [swapRows]
  have s2 : ∀ a b, a.val < r → swapRows m R g a b = m a b := by
    intro a b ha
    have h1 : a ≠ R := fun h => by rw [h] at ha; simp [hR] at ha
    have h2 : a ≠ g := fun h => by rw [h] at ha; omega
    simp [swapRows, h1, h2]
  have s3 : ∀ a b, r ≤ a.val → b.val < c → swapRows m R g a b = 0 := by
    intro a b ha hb
    simp only [swapRows]
    split_ifs
    · exact hp4 _ _ hb hrg
    · exact hp4 _ _ hb le_rfl
    · exact hp4 _ _ hb ha
  set w := swapRows m R g with hw
  have hwz : w R C ≠ 0 := by rw [s1]; exact hz
  set k := w R C with hk
  have key : ∀ a b, (((List.finRange n).filter (fun i => i ≠ R)).foldl (fun m i => subRow m i R (m i C))
        (scaleRow w R (1 / k))) a b = if a = R then w R b / k else w a b - w R b / k * w a C := by
    intro a b
    rw [foldl_subRow R C _ (by simp) ((List.nodup_finRange n).filter _)]
    by_cases ha : a = R
    · subst ha; simp [scaleRow]; ring
    · simp only [ha, scaleRow, List.mem_filter, List.mem_finRange, ne_eq, not_false_eq_true, decide_true, and_self, if_true, if_false]; ring
  -- columns before c
  have k1 : ∀ a b, b.val < c → a ≠ R → w a b - w R b / k * w a C = w a b := by
    intro a b hb _
    rw [s3 R b le_rfl hb]; ring
  dsimp only
  refine ⟨by omega, by omega, fun i => if i = r then c else p i, ?_, ?_, ?_, ?_, ?_⟩
  · intro i j hij hj
    have hi : i ≠ r := by omega
    show (if i = r then c else p i) < (if j = r then c else p j)
    rw [if_neg hi]
    split_ifs with h
    · exact hp2 i (by omega)
    · exact hp1 i j hij (by omega)
  · intro i hi
    show (if i = r then c else p i) < c + 1
    split_ifs with h
    · omega
    · have := hp2 i (by omega); omega
  · intro i hi a b hb
    rw [key]
    by_cases h : i = r
    · simp only [h, if_true] at hb
      have hbC : b = C := Fin.ext hb
      rw [hbC, h]
      by_cases ha : a = R
      · rw [if_pos ha, if_pos (by rw [ha]), ← hk, div_self hwz]
      · rw [if_neg ha, if_neg (fun hh => ha (Fin.ext hh)), ← hk, div_self hwz]; ring
    · simp only [h, if_false] at hb
      have hi' : i < r := by omega
      have hbc : b.val < c := by rw [hb]; exact hp2 i hi'
      by_cases ha : a = R
      · rw [if_pos ha, s3 R b le_rfl hbc, zero_div, if_neg (by rw [ha]; simp [hR]; omega)]
      · rw [if_neg ha, k1 a b hbc ha]
        by_cases har : a.val < r
        · rw [s2 a b har]; exact hp3 i hi' a b hb
        · rw [s3 a b (by omega) hbc, if_neg (by omega)]
  · intro a b hb ha
    have haR : a ≠ R := fun h => by rw [h] at ha; simp [hR] at ha
    rw [key, if_neg haR]
    rcases Nat.lt_or_ge b.val c with hbc | hbc
    · rw [k1 a b hbc haR, s3 a b (by omega) hbc]
    · have hbC : b = C := Fin.ext (show b.val = c by omega)
      rw [hbC, ← hk, div_self hwz]; ring
  · intro a b ha hb
    rw [key]
    by_cases haR : a = R
    · have : a.val = r := by rw [haR]
      simp only [this, if_true] at hb
      rw [if_pos haR, s3 R b le_rfl hb, zero_div]
    · have hav : a.val ≠ r := fun h => haR (Fin.ext h)
      have har : a.val < r := by omega
      simp only [hav, if_false] at hb
      have hbc : b.val < c := lt_trans hb (hp2 _ har)
      rw [if_neg haR, k1 a b hbc haR, s2 a b har]
      exact hp5 a b har hb

theorem pivot_ech (M : Matrix (Fin n) (Fin n) α) (c r : ℕ) (hc : c ≤ n) (h : Ech M c r) :
    ∃ δ : α, 0 < δ ∧ ∀ eps, 0 < eps → eps ≤ δ →
      ∃ r', Ech ((((List.finRange n).drop c).foldl (pivotStep eps) (M, r)).1) n r' := by
  induction hj : n - c generalizing c r M with
  | zero =>
    have : c = n := by omega
    subst this
    rw [List.drop_eq_nil_of_le (by simp)]
    exact ⟨1, one_pos, fun _ _ _ => ⟨r, h⟩⟩
  | succ k ih =>
    have hcn : c < n := by omega
    have hrn : r < n := lt_of_le_of_lt h.1 hcn
    have hd : (List.finRange n).drop c = ⟨c, hcn⟩ :: (List.finRange n).drop (c + 1) := by
      rw [List.drop_eq_getElem_cons (by simpa using hcn)]; simp
    rw [hd]
    by_cases hz : M (pivotRow M ⟨r, hrn⟩ ⟨c, hcn⟩) ⟨c, hcn⟩ = 0
    · have hE : Ech M (c + 1) r := by
        obtain ⟨h1, h2, p, hp1, hp2, hp3, hp4, hp5⟩ := h
        refine ⟨by omega, h2, p, hp1, fun k hk => by have := hp2 k hk; omega, hp3, ?_, hp5⟩
        intro a b hb ha
        rcases Nat.lt_or_ge b.val c with hbc | hbc
        · exact hp4 a b hbc ha
        · have hbC : b = ⟨c, hcn⟩ := Fin.ext (show b.val = c by omega)
          have := (pivotRow_spec M ⟨r, hrn⟩ ⟨c, hcn⟩).2 a ha
          rw [hz, abs_zero] at this
          rw [hbC]; exact abs_nonpos_iff.1 this
      obtain ⟨δ, hδ, hh⟩ := ih M (c + 1) r (by omega) hE (by omega)
      refine ⟨δ, hδ, fun eps h1 h2 => ?_⟩
      rw [List.foldl_cons]
      have : pivotStep eps (M, r) ⟨c, hcn⟩ = (M, r) := by
        unfold pivotStep
        simp only [hrn, dite_true, hz]
        rw [if_pos (by simp [equalAbs, absF_eq, h1])]
      rw [this]
      exact hh eps h1 h2
    · set q := |M (pivotRow M ⟨r, hrn⟩ ⟨c, hcn⟩) ⟨c, hcn⟩| with hq
      have hq0 : 0 < q := abs_pos.2 hz
      have hsame : ∀ eps, eps ≤ q → pivotStep eps (M, r) ⟨c, hcn⟩ = pivotStep q (M, r) ⟨c, hcn⟩ := by
        intro eps he
        have hA : ∀ e, e ≤ q → equalAbs (M (pivotRow M ⟨r, hrn⟩ ⟨c, hcn⟩) ⟨c, hcn⟩) 0 e = false := by
          intro e he
          simp only [equalAbs, absF_eq, sub_zero, decide_eq_false_iff_not, not_lt]; exact he
        unfold pivotStep
        simp only [hrn, dite_true]
        rw [hA eps he, hA q le_rfl]
      obtain ⟨e1, e2⟩ := ech_step M c r hcn hrn h hz q le_rfl
      obtain ⟨δ, hδ, hh⟩ := ih _ (c + 1) (r + 1) (by omega) e1 (by omega)
      refine ⟨min δ q, lt_min hδ hq0, fun eps h1 h2 => ?_⟩
      rw [List.foldl_cons, hsame eps (h2.trans (min_le_right _ _))]
      have : pivotStep q (M, r) ⟨c, hcn⟩ = ((pivotStep q (M, r) ⟨c, hcn⟩).1, r + 1) := Prod.ext rfl e2
      rw [this]
      exact hh eps h1 (h2.trans (min_le_left _ _))

end MGL.MatGen
