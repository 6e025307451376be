import Verif.Proofs.MatGen
import Mathlib.Algebra.BigOperators.Fin

/-! Helper lemmas for the LU decomposition. -/

namespace MGL.MatGen
variable {α : Type*} {n : ℕ}

/-- `Σ_{k < i} f k`. -/
def psum [AddCommMonoid α] (i : Fin n) (f : Fin n → α) : α := ∑ k, if k < i then f k else 0

section Field
variable [Field α]

theorem foldl_sub (l : List (Fin n)) (f : Fin n → α) (x : α) :
    l.foldl (fun acc k => acc - f k) x = x - (l.map f).sum := by
  induction l generalizing x with
  | nil => simp
  | cons a l ih => rw [List.foldl_cons, ih, List.map_cons, List.sum_cons]; ring

theorem filter_sum (l : List (Fin n)) (p : Fin n → Bool) (f : Fin n → α) :
    ((l.filter p).map f).sum = (l.map (fun k => if p k then f k else 0)).sum := by
  induction l with
  | nil => rfl
  | cons a l ih =>
    rw [List.map_cons, List.sum_cons, List.filter_cons]
    by_cases h : p a
    · rw [if_pos h, List.map_cons, List.sum_cons, ih, if_pos h]
    · rw [if_neg h, ih, if_neg h, zero_add]

theorem foldl_lt (i : Fin n) (f : Fin n → α) (x : α) :
    ((List.finRange n).filter (fun k => k < i)).foldl (fun acc k => acc - f k) x = x - psum i f := by
  rw [foldl_sub, filter_sum, psum, Fin.sum_univ_def]
  simp only [decide_eq_true_eq]

theorem psum_congr (i : Fin n) (f g : Fin n → α) (h : ∀ k, k < i → f k = g k) : psum i f = psum i g := by
  refine Finset.sum_congr rfl (fun k _ => ?_)
  split_ifs with hk
  · exact h k hk
  · rfl

/-- Splitting a full sum at `i` when the terms beyond `i` vanish. -/
theorem sum_split (i : Fin n) (f : Fin n → α) (h : ∀ k, i < k → f k = 0) : ∑ k, f k = psum i f + f i := by
  have : ∀ k, f k = (if k < i then f k else 0) + (if k = i then f k else 0) := by
    intro k
    rcases lt_trichotomy k i with hk | hk | hk
    · simp [hk, ne_of_lt hk]
    · simp [hk]
    · simp [h k hk]
  rw [Finset.sum_congr rfl (fun k _ => this k), Finset.sum_add_distrib]
  simp [psum]

end Field

variable [Field α] [LinearOrder α]

omit [LinearOrder α] in
theorem luUpper_eq (mat lower upper : Matrix (Fin n) (Fin n) α) (i a b : Fin n) :
    luUpper mat lower i upper a b =
      if a = i ∧ i ≤ b then mat i b - psum i (fun k => lower i k * upper k b) else upper a b := by
  have main : ∀ (l : List (Fin n)) (u : Matrix (Fin n) (Fin n) α), (∀ k c, k ≠ i → u k c = upper k c) → l.Nodup →
      l.foldl (fun u col => Mat.setAt u i col
        (((List.finRange n).filter (fun k => k < i)).foldl (fun acc k => acc - lower i k * u k col) (mat i col))) u a b
      = if a = i ∧ b ∈ l then mat i b - psum i (fun k => lower i k * upper k b) else u a b := by
    intro l
    induction l with
    | nil => intro u _ _; simp
    | cons c l ih =>
      intro u hu hnd
      rw [List.nodup_cons] at hnd
      rw [List.foldl_cons, ih _ _ hnd.2]
      · rw [foldl_lt, psum_congr i (fun k => lower i k * u k c) (fun k => lower i k * upper k c)
          (fun k hk => by rw [hu k c (ne_of_lt hk)])]
        simp only [List.mem_cons, Mat.setAt]
        by_cases ha : a = i
        · by_cases hb : b ∈ l
          · simp [ha, hb]
          · by_cases hbc : b = c
            · simp [ha, hbc, hnd.1]
            · simp [ha, hb, hbc]
        · simp [ha]
      · intro k d hk
        simp only [Mat.setAt, hk, false_and, if_false]
        exact hu k d hk
  rw [luUpper, main _ upper (fun _ _ _ => rfl) ((List.nodup_finRange n).filter _)]
  simp

/-- One iteration of the inner loop of `luLower`. -/
def lowStep (mat upper : Matrix (Fin n) (Fin n) α) (i : Fin n) (w : Matrix (Fin n) (Fin n) α) (row : Fin n) :
    Option (Matrix (Fin n) (Fin n) α) :=
  if equalAbs (upper i i) 0 then none
  else some (Mat.setAt w row i
    (((List.finRange n).filter (fun k => k < i)).foldl (fun acc k => acc - w row k * upper k i) (mat row i)
      / upper i i))

theorem luLower_lowStep (mat lower upper : Matrix (Fin n) (Fin n) α) (i : Fin n) :
    luLower mat upper i lower =
      ((List.finRange n).filter (fun row => i < row)).foldlM (lowStep mat upper i) lower := rfl

theorem luLower_eq (mat lower upper : Matrix (Fin n) (Fin n) α) (i : Fin n) (r : Matrix (Fin n) (Fin n) α)
    (h : luLower mat upper i lower = some r) :
    (∀ a b, r a b = if b = i ∧ i < a then (mat a i - psum i (fun k => lower a k * upper k i)) / upper i i
      else lower a b) ∧ ((∃ a, i < a) → equalAbs (upper i i) 0 = false) := by
  have main : ∀ (l : List (Fin n)) (w r : Matrix (Fin n) (Fin n) α), (∀ a k, k ≠ i → w a k = lower a k) → l.Nodup →
      l.foldlM (lowStep mat upper i) w = some r →
      (∀ a b, r a b = if b = i ∧ a ∈ l then (mat a i - psum i (fun k => lower a k * upper k i)) / upper i i
        else w a b) ∧ ((∃ a, a ∈ l) → equalAbs (upper i i) 0 = false) := by
    intro l
    induction l with
    | nil =>
      intro w r _ _ h
      have h : w = r := Option.some.inj h
      subst h; simp
    | cons c l ih =>
      intro w r hw hnd h
      rw [List.nodup_cons] at hnd
      rw [List.foldlM_cons] at h
      by_cases hz : equalAbs (upper i i) 0 = true
      · have e : lowStep mat upper i w c = none := if_pos hz
        rw [e] at h; cases h
      · have e : lowStep mat upper i w c = some (Mat.setAt w c i
          (((List.finRange n).filter (fun k => k < i)).foldl (fun acc k => acc - w c k * upper k i) (mat c i)
            / upper i i)) := if_neg hz
        rw [e] at h
        have h' := ih _ r ?_ hnd.2 h
        · refine ⟨fun a b => ?_, fun _ => by simpa using hz⟩
          rw [h'.1, foldl_lt, psum_congr i (fun k => w c k * upper k i) (fun k => lower c k * upper k i)
            (fun k hk => by rw [hw c k (ne_of_lt hk)])]
          simp only [List.mem_cons, Mat.setAt]
          by_cases hb : b = i
          · by_cases ha : a ∈ l
            · simp [ha, hb]
            · by_cases hac : a = c
              · simp [hb, hac, hnd.1]
              · simp [ha, hb, hac]
          · simp [hb]
        · intro a k hk
          simp only [Mat.setAt, hk, and_false, if_false]
          exact hw a k hk
  rw [luLower_lowStep] at h
  have := main _ lower r (fun _ _ _ => rfl) ((List.nodup_finRange n).filter _) h
  simpa using this

theorem luLower_some (mat lower upper : Matrix (Fin n) (Fin n) α) (i : Fin n)
    (h : (∃ a, i < a) → equalAbs (upper i i) 0 = false) : ∃ r, luLower mat upper i lower = some r := by
  rw [luLower_lowStep]
  by_cases he : equalAbs (upper i i) 0 = true
  · have hl : (List.finRange n).filter (fun row => decide (i < row)) = [] := by
      rw [List.filter_eq_nil_iff]
      intro a _ ha
      have := h ⟨a, by simpa using ha⟩
      rw [he] at this; exact absurd this (by simp)
    rw [hl]; exact ⟨lower, rfl⟩
  · generalize (List.finRange n).filter (fun row => decide (i < row)) = l
    induction l generalizing lower with
    | nil => exact ⟨lower, rfl⟩
    | cons c l ih =>
      rw [List.foldlM_cons]
      have e : lowStep mat upper i lower c = some (Mat.setAt lower c i
          (((List.finRange n).filter (fun k => k < i)).foldl (fun acc k => acc - lower c k * upper k i) (mat c i)
            / upper i i)) := if_neg he
      rw [e]
      exact ih _

/-- The loop invariant of the decomposition, before row/column `i`. -/
structure LUInv (mat : Matrix (Fin n) (Fin n) α) (i : ℕ) (L U : Matrix (Fin n) (Fin n) α) : Prop where
  diag : ∀ a, L a a = 1
  low : ∀ a k, a < k → L a k = 0
  up : ∀ k c, (i ≤ k.val ∨ c < k) → U k c = 0
  prod : ∀ a c : Fin n, (a.val < i ∨ c.val < i) → ∑ k, L a k * U k c = mat a c

variable [IsStrictOrderedRing α]

theorem LUInv.step {mat L U L' : Matrix (Fin n) (Fin n) α} {i : Fin n} (h : LUInv mat i.val L U)
    (hs : luLower mat (luUpper mat L i U) i L = some L') : LUInv mat (i.val + 1) L' (luUpper mat L i U) := by
  obtain ⟨hL, hne⟩ := luLower_eq _ _ _ _ _ hs
  have hU := luUpper_eq mat L U i
  set U' := luUpper mat L i U with hU'
  have hS : ∀ a c, ∑ k, L a k * U k c = psum i (fun k => L a k * U k c) := by
    intro a c
    rw [sum_split i _ (fun k hk => by rw [h.up k c (Or.inl (le_of_lt hk)), mul_zero]), h.up i c (Or.inl le_rfl)]
    simp
  have hS' : ∀ a c, ∑ k, L' a k * U' k c = psum i (fun k => L a k * U k c) + L' a i * U' i c := by
    intro a c
    rw [sum_split i]
    · congr 1
      refine psum_congr i _ _ (fun k hk => ?_)
      rw [hL a k, if_neg (by simp [ne_of_lt hk]), hU k c, if_neg (by simp [ne_of_lt hk])]
    · intro k hk
      rw [hU, if_neg (by simp [ne_of_gt hk]), h.up k c (Or.inl (le_of_lt hk)), mul_zero]
  constructor
  · intro a; rw [hL, if_neg (by rintro ⟨rfl, h⟩; exact lt_irrefl _ h)]; exact h.diag a
  · intro a k hak; rw [hL, if_neg (by rintro ⟨rfl, h⟩; exact lt_asymm hak h)]; exact h.low a k hak
  · intro k c hkc
    rw [hU]
    split_ifs with hc
    · obtain ⟨rfl, hc⟩ := hc
      rcases hkc with hkc | hkc
      · omega
      · exact absurd hc (not_le.2 hkc)
    · rcases hkc with hkc | hkc
      · exact h.up k c (Or.inl (by omega))
      · exact h.up k c (Or.inr hkc)
  · intro a c hac
    rw [hS']
    rcases lt_trichotomy a i with ha | ha | ha
    · rw [hL a i, if_neg (by simp [le_of_lt ha]), h.low a i ha, zero_mul, add_zero, ← hS]
      exact h.prod a c (Or.inl ha)
    · subst ha
      have e1 : L' a a = 1 := by rw [hL, if_neg (by simp), h.diag]
      by_cases hc : a ≤ c
      · rw [e1, hU a c, if_pos ⟨rfl, hc⟩]; ring
      · rw [hU a c, if_neg (by simp [hc]), h.up a c (Or.inl le_rfl), mul_zero, add_zero, ← hS]
        exact h.prod a c (Or.inr (not_le.1 hc))
    · have hai : i.val < a.val := ha
      have hci : c.val ≤ i.val := by omega
      rcases eq_or_lt_of_le (show c ≤ i from hci) with hc | hc
      · subst hc
        have hz := hne ⟨a, ha⟩
        have hz' : U' c c ≠ 0 := by
          intro h0; rw [h0] at hz; simp [equalAbs, absF_eq] at hz
        rw [hL a c, if_pos ⟨rfl, ha⟩, div_mul_cancel₀ _ hz']
        have : psum c (fun k => L a k * U' k c) = psum c (fun k => L a k * U k c) :=
          psum_congr c _ _ (fun k hk => by rw [hU, if_neg (by simp [ne_of_lt hk])])
        rw [this]; ring
      · rw [hU i c, if_neg (by simp [hc]), h.up i c (Or.inl le_rfl), mul_zero, add_zero, ← hS]
        exact h.prod a c (Or.inr hc)

theorem lu_drop (k : ℕ) (hk : k < n) :
    (List.finRange n).drop k = ⟨k, hk⟩ :: (List.finRange n).drop (k + 1) := by
  rw [List.drop_eq_getElem_cons (by simpa using hk)]; simp

theorem luLoop_spec (mat : Matrix (Fin n) (Fin n) α) (k : ℕ) (hk : k ≤ n) (L U L' U' : Matrix (Fin n) (Fin n) α)
    (h : LUInv mat k L U)
    (hs : ((List.finRange n).drop k).foldlM (fun s i =>
      let u := luUpper mat s.1 i s.2
      (luLower mat u i s.1).map (fun l => (l, u))) (L, U) = some (L', U')) : LUInv mat n L' U' := by
  induction hj : n - k generalizing k L U with
  | zero =>
    have : k = n := by omega
    subst this
    rw [List.drop_eq_nil_of_le (by simp)] at hs
    have e : (L, U) = (L', U') := by simpa using hs
    injection e with e1 e2
    subst e1 e2; exact h
  | succ m ih =>
    have hkn : k < n := by omega
    rw [lu_drop k hkn, List.foldlM_cons] at hs
    rcases hl : luLower mat (luUpper mat L ⟨k, hkn⟩ U) ⟨k, hkn⟩ L with _ | l
    · simp [hl] at hs
    · simp only [hl] at hs
      exact ih (k + 1) (by omega) l _ (LUInv.step (i := ⟨k, hkn⟩) h hl) hs (by omega)

/-- Completeness: agreement with a given factorisation on the parts computed so far. -/
theorem luLoop_complete (mat P Q : Matrix (Fin n) (Fin n) α) (hPd : ∀ a, P a a = 1) (hPl : ∀ a k, a < k → P a k = 0)
    (hQ : ∀ k c, c < k → Q k c = 0) (hpq : P * Q = mat)
    (hp : ∀ i, (∃ a, i < a) → equalAbs (Q i i) 0 = false) (k : ℕ) (hk : k ≤ n) (L U : Matrix (Fin n) (Fin n) α)
    (hL : ∀ a c, L a c = if c.val < k then P a c else if a = c then 1 else 0)
    (hU : ∀ a c, U a c = if a.val < k then Q a c else 0) :
    ((List.finRange n).drop k).foldlM (fun s i =>
      let u := luUpper mat s.1 i s.2
      (luLower mat u i s.1).map (fun l => (l, u))) (L, U) = some (P, Q) := by
  induction hj : n - k generalizing k L U with
  | zero =>
    have : k = n := by omega
    subst this
    rw [List.drop_eq_nil_of_le (by simp)]
    have e1 : L = P := by ext a c; rw [hL, if_pos c.isLt]
    have e2 : U = Q := by ext a c; rw [hU, if_pos a.isLt]
    rw [e1, e2]; rfl
  | succ m ih =>
    have hkn : k < n := by omega
    have hmat : ∀ a c, mat a c = ∑ j, P a j * Q j c := by
      intro a c; rw [← hpq, Matrix.mul_apply]
    rw [lu_drop k hkn, List.foldlM_cons]
    set i : Fin n := ⟨k, hkn⟩ with hi
    have hUi := luUpper_eq mat L U i
    set U' := luUpper mat L i U with hU'
    have eU : ∀ a c, U' a c = if a.val < k + 1 then Q a c else 0 := by
      intro a c
      rw [hUi]
      split_ifs with h1 h2 h2
      · obtain ⟨rfl, hc⟩ := h1
        rw [hmat, sum_split i _ (fun j hj => by rw [hPl i j hj, zero_mul]), hPd, one_mul,
          psum_congr i (fun j => L i j * U j c) (fun j => P i j * Q j c)
            (fun j hj => by rw [hL, hU, if_pos (show j.val < k from hj), if_pos (show j.val < k from hj)])]
        ring
      · obtain ⟨rfl, hc⟩ := h1; simp [hi] at h2
      · rw [hU]
        by_cases hak : a.val < k
        · rw [if_pos hak]
        · have hai : a = i := Fin.ext (by simp [hi]; omega)
          rw [if_neg hak, hai, hQ i c (by
            by_contra hc; exact h1 ⟨hai, not_lt.1 hc⟩)]
      · rw [hU, if_neg (by omega)]
    obtain ⟨l, hl⟩ := luLower_some mat L U' i (by
      intro ha; rw [eU i i, if_pos (by simp [hi])]; exact hp i ha)
    obtain ⟨hl1, hl2⟩ := luLower_eq _ _ _ _ _ hl
    simp only [hl]
    refine ih (k + 1) (by omega) l U' ?_ eU (by omega)
    intro a c
    rw [hl1]
    by_cases h1 : c = i ∧ i < a
    · rw [if_pos h1]
      obtain ⟨rfl, ha⟩ := h1
      rw [if_pos (by simp [hi])]
      have hQi : Q i i ≠ 0 := by
        intro h0; have := hp i ⟨a, ha⟩; rw [h0] at this; simp [equalAbs, absF_eq] at this
      rw [eU i i, if_pos (by simp [hi]), hmat, sum_split i _ (fun j hj => by rw [hQ j i hj, mul_zero]),
        psum_congr i (fun j => L a j * U' j i) (fun j => P a j * Q j i)
          (fun j hj => by rw [hL, eU, if_pos (show j.val < k from hj), if_pos (Nat.lt_succ_of_lt (show j.val < k from hj))])]
      field_simp; ring
    · rw [if_neg h1, hL]
      by_cases hck : c.val < k
      · rw [if_pos hck, if_pos (by omega)]
      · rw [if_neg hck]
        by_cases hci : c = i
        · subst hci
          rw [if_pos (show i.val < k + 1 by simp [hi])]
          split_ifs with h3
          · rw [h3, hPd]
          · rw [hPl a i (lt_of_le_of_ne (not_lt.1 (fun h => h1 ⟨rfl, h⟩)) h3)]
        · have hne : c.val ≠ k := fun h => hci (Fin.ext h)
          rw [if_neg (show ¬ c.val < k + 1 by omega)]

end MGL.MatGen
