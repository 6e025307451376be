import Verif.Model.CArith
import Verif.Spec.CArith
import Mathlib.Tactic.Ring
import Mathlib.Data.Nat.Bitwise
import Mathlib.Tactic.Linarith
import Mathlib.Tactic.NormNum
import Mathlib.Algebra.GroupWithZero.Basic
import Mathlib.Algebra.Group.Basic

/-! Properties C06, C07: factorials, binomial coefficients, integer powers. -/

namespace MGL

open Spec Nat

private theorem chk_nat (x : ℕ) (h : x ≤ intMax) : chk 32 (x : ℤ) = some (x : ℤ) := by
  unfold chk
  rw [if_pos]
  unfold intMax at h
  constructor <;> push_cast <;> omega

private theorem factorialLoop_eq (i left : ℕ) (h : (i + left)! ≤ intMax) :
    factorialLoop (i ! : ℤ) ((i : ℤ) + 1) left = some ((i + left)! : ℤ) := by
  induction left generalizing i with
  | zero => simp [factorialLoop]
  | succ left ih =>
    rw [factorialLoop]
    have h1 : ((i !: ℕ) : ℤ) * ((i : ℤ) + 1) = (((i + 1)! : ℕ) : ℤ) := by
      rw [Nat.factorial_succ]; push_cast; ring
    have h2 : (i + 1)! ≤ intMax := le_trans (Nat.factorial_le (by omega)) h
    rw [h1, chk_nat _ h2]
    have := ih (i + 1) (by rwa [show i + 1 + left = i + (left + 1) by ring])
    rw [show i + (left + 1) = i + 1 + left by ring]
    simpa using this

/-- `Factorial(n)` is `n!` whenever `n!` fits in an `int`. -/
theorem C06_factorial (n : ℕ) (h : n ! ≤ intMax) : factorial n = some (n ! : ℤ) := by
  unfold factorial
  by_cases hn : n = 0
  · subst hn; simp [factorialLoop]
  · have := factorialLoop_eq 1 (n - 1) (by rwa [show 1 + (n - 1) = n by omega])
    rw [show 1 + (n - 1) = n by omega] at this
    rw [show ((n : ℤ) - 1).toNat = n - 1 by omega]
    simpa using this

example := C06_factorial 12 (by decide +kernel)

/-- Negative arguments give the empty product. -/
theorem C06_factorial_neg (n : ℤ) (h : n < 0) : factorial n = some 1 := by
  unfold factorial
  rw [show (n - 1).toNat = 0 by omega]; rfl

example := C06_factorial_neg (-3) (by decide)

/-- The bound of the documentation: 12! fits, 13! does not, and then the behaviour is undefined. -/
theorem C06_factorial_limit : 12 ! ≤ intMax ∧ ¬ 13 ! ≤ intMax ∧ factorial 13 = none := by
  refine ⟨by decide, by decide, by decide⟩

example : factorial 5 = some 120 := by decide

/-! #### Binomial coefficients -/

/-- `CombinatorialRec(n,k)` is the binomial coefficient for `0 <= k <= n` when it fits. -/
theorem C06_combinatorialRec_partial (n k : ℕ) (hk : k ≤ n) (h : n.choose k ≤ intMax) :
    combinatorialRec n k = some (n.choose k : ℤ) := by
  induction n generalizing k with
  | zero =>
    rw [combinatorialRec, dif_pos (by omega)]
    simp [show k = 0 by omega]
  | succ n ih =>
    rw [combinatorialRec]
    by_cases hb : (k : ℤ) ≤ 0 ∨ (k : ℤ) ≥ ((n + 1 : ℕ) : ℤ)
    · rw [dif_pos hb]
      rcases hb with hb | hb
      · simp [show k = 0 by omega]
      · simp [show k = n + 1 by omega]
    · rw [dif_neg hb]
      obtain ⟨k, rfl⟩ : ∃ j, k = j + 1 := ⟨k - 1, by omega⟩
      rw [Nat.choose_succ_succ'] at h ⊢
      have e1 : ((n + 1 : ℕ) : ℤ) - 1 = (n : ℤ) := by push_cast; ring
      have e2 : ((k + 1 : ℕ) : ℤ) - 1 = (k : ℤ) := by push_cast; ring
      rw [e1, e2, ih k (by omega) (by omega), ih (k + 1) (by omega) (by omega)]
      simp -implicitDefEqProofs only [Option.bind_eq_bind, Option.bind_some]
      rw [← Nat.cast_add, chk_nat _ h]

example := C06_combinatorialRec_partial 10 3 (by decide) (by decide +kernel)

/-- The defect: outside `0 <= k <= n` the recursive version answers 1 instead of 0, so the two
implementations disagree. -/
theorem C06_combinatorialRec_out_of_range :
    combinatorialRec 3 5 = some 1 ∧ combinatorialTab 3 5 = some 0 ∧ Nat.choose 3 5 = 0 := by
  refine ⟨?_, by decide, by decide⟩
  rw [combinatorialRec, dif_pos (by omega)]

/-- ... and this holds for every out-of-range argument. -/
theorem C06_combinatorial_disagree (n k : ℤ) (hn : 0 ≤ n) (h : k < 0 ∨ k > n) :
    combinatorialRec n k = some 1 ∧ combinatorialTab n k = some 0 := by
  constructor
  · rw [combinatorialRec, dif_pos (by omega)]
  · rw [combinatorialTab, if_neg (by omega), if_pos h]

example := C06_combinatorial_disagree 3 5 (by decide) (by decide)

private theorem choose_mono_both (i j n k : ℕ) (hj : j ≤ k) (hij : j ≤ i) (hkn : k ≤ n)
    (h : i - j ≤ n - k) : i.choose j ≤ n.choose k := by
  calc i.choose j ≤ (j + (n - k)).choose j := Nat.choose_le_choose j (by omega)
    _ = (j + (n - k)).choose (n - k) := by
        rw [← Nat.choose_symm (show j ≤ j + (n - k) by omega)]; congr 1; omega
    _ ≤ n.choose (n - k) := Nat.choose_le_choose _ (by omega)
    _ = n.choose k := Nat.choose_symm hkn

/-- What the inner loop does to the row being written. -/
private theorem combInner_spec (t2 : List ℤ) (f : ℕ → ℕ) (j left : ℕ) :
    ∀ t1 : List ℤ, t1.length = t2.length → 1 ≤ j → j + left ≤ t2.length →
    (∀ m, j ≤ m + 1 → m < j + left → t2[m]? = some (f m : ℤ)) →
    (∀ m, j ≤ m → m < j + left → f m + f (m - 1) ≤ intMax) →
    ∃ r, combInner t2 t1 j left = some r ∧ r.length = t1.length ∧
      (∀ m, j ≤ m → m < j + left → r[m]? = some ((f m + f (m - 1) : ℕ) : ℤ)) ∧
      (∀ m, m < j ∨ j + left ≤ m → r[m]? = t1[m]?) := by
  induction left generalizing j with
  | zero =>
    intro t1 _ _ _ _ _
    exact ⟨t1, rfl, rfl, fun m h1 h2 => by omega, fun m _ => rfl⟩
  | succ left ih =>
    intro t1 hlen hj hb hval hfit
    rw [combInner, hval j (by omega) (by omega), if_neg (by omega),
      hval (j - 1) (by omega) (by omega)]
    have hs : chk 32 ((f j : ℤ) + (f (j - 1) : ℤ)) = some ((f j + f (j - 1) : ℕ) : ℤ) := by
      rw [← Nat.cast_add]; exact chk_nat _ (hfit j le_rfl (by omega))
    simp -implicitDefEqProofs only [Option.bind_eq_bind, Option.bind_some, hs]
    rw [if_pos (by omega)]
    obtain ⟨r, hr, hrl, hrv, hro⟩ := ih (j + 1) (t1.set j ((f j + f (j - 1) : ℕ) : ℤ))
      (by rw [List.length_set]; exact hlen) (by omega) (by omega)
      (fun m h1 h2 => hval m (by omega) (by omega))
      (fun m h1 h2 => hfit m (by omega) (by omega))
    refine ⟨r, hr, by rw [hrl, List.length_set], fun m h1 h2 => ?_, fun m hm => ?_⟩
    · by_cases hmj : m = j
      · subst hmj
        rw [hro m (by omega), List.getElem?_set_self (by omega)]
      · exact hrv m (by omega) (by omega)
    · rw [hro m (by omega), List.getElem?_set_ne (by omega)]

/-- Loop invariant of the outer loop: before row `i`, `t2` holds the part of row `i-1` of Pascal's
triangle that is still needed, and the untouched entries of both halves are 1. -/
private theorem combOuter_spec (n k : ℕ) (hk0 : 0 < k) (hkn : k < n) (hfit : n.choose k ≤ intMax)
    (left : ℕ) : ∀ (i : ℕ) (t1 t2 : List ℤ), 2 ≤ i → i + left = n + 1 →
    t1.length = k + 1 → t2.length = k + 1 →
    (∀ j ≤ k, i - 1 ≤ j + (n - k) → j ≤ i - 1 → t2[j]? = some ((i - 1).choose j : ℤ)) →
    (∀ j ≤ k, i - 1 ≤ j → t2[j]? = some 1) → (∀ j ≤ k, i - 2 ≤ j → t1[j]? = some 1) →
    t1[0]? = some 1 → t2[0]? = some 1 →
    ∃ r, combOuter n k t1 t2 i left = some r ∧ r.2[k]? = some (n.choose k : ℤ) := by
  induction left with
  | zero =>
    intro i t1 t2 hi hil hl1 hl2 hrow _ _ _ _
    refine ⟨(t1, t2), rfl, ?_⟩
    have := hrow k le_rfl (by omega) (by omega)
    rw [show i - 1 = n by omega] at this
    exact this
  | succ left ih =>
    intro i t1 t2 hi hil hl1 hl2 hrow h2 h1 h10 h20
    rw [combOuter]
    set lo := max 1 ((i : ℤ) - n + k).toNat with hlo
    set hi' := min k (i - 1) with hhi
    have hlo1 : 1 ≤ lo := le_max_left _ _
    have hlole : lo ≤ hi' + 1 := by omega
    have hpas : ∀ m, 1 ≤ m → 2 ≤ i → (i - 1).choose m + (i - 1).choose (m - 1) = i.choose m := by
      intro m hm hi
      obtain ⟨a, rfl⟩ : ∃ a, i = a + 1 := ⟨i - 1, by omega⟩
      obtain ⟨b, rfl⟩ : ∃ b, m = b + 1 := ⟨m - 1, by omega⟩
      simp [Nat.choose_succ_succ, add_comm]
    obtain ⟨r, hr, hrl, hrv, hro⟩ := combInner_spec t2 (fun m => (i - 1).choose m) lo
      (hi' + 1 - lo) t1 (by omega) hlo1 (by omega)
      (by
        intro m hm1 hm2
        apply hrow m (by omega) ?_ (by omega)
        omega)
      (by
        intro m hm1 hm2
        rw [hpas m (by omega) hi]
        refine le_trans (choose_mono_both i m n k (by omega) (by omega) (by omega) ?_) hfit
        omega)
    simp -implicitDefEqProofs only [Option.bind_eq_bind, hr, Option.bind_some]
    apply ih (i + 1) t2 r (by omega) (by omega) hl2 (by omega)
    · intro j hjk hj1 hj2
      by_cases hj0 : j = 0
      · subst hj0
        rw [hro 0 (by omega), h10]; simp
      · by_cases hji : j = i
        · subst hji
          rw [hro j (by omega), h1 j hjk (by omega)]
          simp
        · rw [hrv j (by omega) (by omega), hpas j (by omega) hi]
          simp
    · intro j hjk hj
      rw [hro j (by omega), h1 j hjk (by omega)]
    · intro j hjk hj
      exact h2 j hjk (by omega)
    · exact h20
    · rw [hro 0 (by omega), h10]

/-- `CombinatorialTab(n,k)` is the binomial coefficient, for every `n >= 0` and every `k`, as long
as it and the allocation size fit in an `int`; no table access is out of bounds. -/
theorem C06_combinatorialTab (n k : ℕ) (h : n.choose k ≤ intMax)
    (halloc : 2 * (k + 1) ≤ intMax) : combinatorialTab n k = some (n.choose k : ℤ) := by
  unfold combinatorialTab
  by_cases h1 : (k : ℤ) = 0 ∨ (k : ℤ) = n
  · rw [if_pos h1]
    rcases h1 with h1 | h1
    · simp [show k = 0 by omega]
    · simp [show k = n by omega]
  · rw [if_neg h1]
    by_cases h2 : (k : ℤ) < 0 ∨ (k : ℤ) > n
    · rw [if_pos h2, Nat.choose_eq_zero_of_lt (by omega)]; rfl
    · rw [if_neg h2]
      have e1 : chk 32 ((k : ℤ) + 1) = some ((k + 1 : ℕ) : ℤ) := by
        have := chk_nat (k + 1) (by unfold intMax at *; omega)
        simpa using this
      have e2 : chk 32 (2 * ((k + 1 : ℕ) : ℤ)) = some ((2 * (k + 1) : ℕ) : ℤ) := by
        have := chk_nat (2 * (k + 1)) halloc
        push_cast at this ⊢
        exact this
      obtain ⟨r, hr, hrv⟩ := combOuter_spec n k (by omega) (by omega) h (n - 1) 2
        (List.replicate (k + 1) 1) (List.replicate (k + 1) 1) le_rfl (by omega) (by simp) (by simp)
        (by
          intro j hj _ hj2
          rw [List.getElem?_replicate, if_pos (by omega)]
          have : j = 0 ∨ j = 1 := by omega
          rcases this with rfl | rfl <;> simp)
        (by intro j hj _; rw [List.getElem?_replicate, if_pos (by omega)])
        (by intro j hj _; rw [List.getElem?_replicate, if_pos (by omega)])
        (by rw [List.getElem?_replicate, if_pos (by omega)])
        (by rw [List.getElem?_replicate, if_pos (by omega)])
      simp -implicitDefEqProofs only [Option.bind_eq_bind, e1, Option.bind_some, e2, Int.toNat_natCast, hr]
      exact hrv

example := C06_combinatorialTab 30 7 (by decide +kernel) (by decide +kernel)

/-- Both implementations agree for every `0 <= k <= n` whose value fits. -/
theorem C06_combinatorial_agree (n k : ℕ) (hk : k ≤ n) (h : n.choose k ≤ intMax)
    (halloc : 2 * (k + 1) ≤ intMax) : combinatorialRec n k = combinatorialTab n k := by
  rw [C06_combinatorialRec_partial n k hk h, C06_combinatorialTab n k h halloc]

example : Nat.choose 7 3 ≤ intMax ∧ 2 * (3 + 1) ≤ intMax ∧ combinatorialTab 7 3 = some 35 := by
  decide

/-! ### C07 integer powers -/

private theorem shr_pow (i : ℕ) (e : BitVec 32) (he : e.toNat = 2 ^ (i + 1)) :
    (e >>> 1).toNat = 2 ^ i := by
  rw [BitVec.toNat_ushiftRight, he, Nat.shiftRight_one, pow_succ]; omega

private theorem and_pow_ne (x e : BitVec 32) (i : ℕ) (he : e.toNat = 2 ^ i) :
    (x &&& e ≠ 0#32) ↔ x.toNat / 2 ^ i % 2 = 1 := by
  rw [ne_eq, ← BitVec.toNat_inj, BitVec.toNat_and, he, Nat.and_two_pow]
  rw [Nat.testBit_eq_decide_div_mod_eq]
  have : 0 < 2 ^ i := by positivity
  by_cases h : x.toNat / 2 ^ i % 2 = 1 <;> simp [h]

private theorem powLoop_eq {α : Type*} [CommMonoid α] (base : α) (x : BitVec 32) (i : ℕ) :
    ∀ (val : α) (e : BitVec 32), e.toNat = 2 ^ i →
      powLoop base x val e = val ^ (2 ^ (i + 1)) * base ^ (x.toNat % 2 ^ (i + 1)) := by
  induction i with
  | zero =>
    intro val e he
    have h0 : ¬ (e >>> 1 > 0#32) := by
      rw [gt_iff_lt, BitVec.lt_def, BitVec.toNat_ushiftRight, he]; simp
    rw [powLoop, dif_neg h0]
    have := and_pow_ne x e 0 he
    rw [pow_zero, Nat.div_one] at this
    by_cases hb : x &&& e ≠ 0#32
    · rw [if_pos hb, zero_add, pow_one, this.1 hb]; simp [pow_two]
    · have h1 : x.toNat % 2 = 0 := by
        have := mt this.2 hb; omega
      rw [if_neg hb, zero_add, pow_one, h1]; simp [pow_two]
  | succ i ih =>
    intro val e he
    have hs := shr_pow i e he
    have h0 : e >>> 1 > 0#32 := by
      rw [gt_iff_lt, BitVec.lt_def, hs]
      simp
    rw [powLoop, dif_pos h0, ih _ _ hs]
    have hmod : x.toNat % 2 ^ (i + 1 + 1)
        = 2 ^ (i + 1) * (x.toNat / 2 ^ (i + 1) % 2) + x.toNat % 2 ^ (i + 1) := by
      rw [pow_succ, Nat.mod_mul]; ring
    have := and_pow_ne x e (i + 1) he
    by_cases hb : x &&& e ≠ 0#32
    · rw [if_pos hb, hmod, this.1 hb, pow_add base, mul_one, mul_pow (val * val),
        ← pow_two, ← pow_mul, ← mul_assoc]
      congr 3
      rw [pow_succ 2 (i + 1)]; ring
    · have h1 : x.toNat / 2 ^ (i + 1) % 2 = 0 := by
        have := mt this.2 hb; omega
      rw [if_neg hb, hmod, h1, mul_zero, zero_add, mul_one, ← pow_two, ← pow_mul]
      congr 2
      rw [pow_succ 2 (i + 1)]; ring

private theorem powFindBit_eq (x : BitVec 32) (i : ℕ) : ∀ e : BitVec 32, e.toNat = 2 ^ i →
    x.toNat < 2 ^ (i + 1) →
    (x.toNat = 0 ∧ powFindBit x e = 0#32) ∨
    ∃ j, (powFindBit x e).toNat = 2 ^ j ∧ x.toNat < 2 ^ (j + 1) := by
  induction i with
  | zero =>
    intro e he hx
    rw [powFindBit]
    have h := and_pow_ne x e 0 he
    by_cases hb : x &&& e = 0#32
    · left
      have h1 : x.toNat = 0 := by
        have := mt h.2 (by simpa using hb); rw [pow_zero, Nat.div_one] at this; omega
      have h0 : e > 0#32 := by rw [gt_iff_lt, BitVec.lt_def, he]; simp
      rw [dif_pos ⟨hb, h0⟩]
      refine ⟨h1, ?_⟩
      have hz : e >>> 1 = 0#32 := by
        apply BitVec.eq_of_toNat_eq; rw [BitVec.toNat_ushiftRight, he]; rfl
      rw [hz, powFindBit, dif_neg (by simp)]
    · right
      rw [dif_neg (by tauto)]
      exact ⟨0, he, hx⟩
  | succ i ih =>
    intro e he hx
    rw [powFindBit]
    have h := and_pow_ne x e (i + 1) he
    by_cases hb : x &&& e = 0#32
    · have h1 : x.toNat / 2 ^ (i + 1) % 2 = 0 := by
        have := mt h.2 (by simpa using hb); omega
      have h0 : e > 0#32 := by
        rw [gt_iff_lt, BitVec.lt_def, he]
        simp
      rw [dif_pos ⟨hb, h0⟩]
      apply ih _ (shr_pow i e he)
      have h2 : x.toNat / 2 ^ (i + 1) < 2 := by
        rw [Nat.div_lt_iff_lt_mul (by positivity)]; rw [pow_succ 2 (i + 1), mul_comm] at hx; exact hx
      have h3 : x.toNat / 2 ^ (i + 1) = 0 := by
        generalize x.toNat / 2 ^ (i + 1) = q at h1 h2; omega
      rcases (Nat.div_eq_zero_iff).1 h3 with h4 | h4
      · have : 0 < 2 ^ (i + 1) := by positivity
        omega
      · exact h4
    · right
      rw [dif_neg (by tauto)]
      exact ⟨i + 1, he, hx⟩

/-- `PowUInt(b, e)` is the `e`-fold product of `b`, for all 2^32 exponents (exact arithmetic). -/
theorem C07_powUInt {α : Type*} [CommMonoid α] (b : α) (e : BitVec 32) :
    powUInt b e = b ^ e.toNat := by
  unfold powUInt
  rcases powFindBit_eq e 31 0x80000000#32 (by decide) e.isLt with ⟨h0, hf⟩ | ⟨j, hj, hx⟩
  · rw [hf, h0, powLoop]
    simp
  · rw [powLoop_eq b e j 1 _ hj, one_pow, one_mul, Nat.mod_eq_of_lt hx]

/-- `PowInt(b, e)` is `b^e` for every `int` exponent except the most negative one. -/
theorem C07_powInt {α : Type*} [Field α] (b : α) (e : BitVec 32) (he : e ≠ 0x80000000#32) :
    powInt b e = some (b ^ e.toInt) := by
  unfold powInt
  by_cases h0 : e.toInt = 0
  · rw [if_pos h0, h0, zpow_zero]
  · rw [if_neg h0]
    by_cases hn : e.toInt < 0
    · rw [if_pos hn, if_neg he, C07_powUInt]
      congr 1
      have h1 : ((-e).toNat : ℤ) = -e.toInt := by
        have := BitVec.toInt_eq_toNat_cond e
        have hlt := e.isLt
        rw [BitVec.toNat_neg]
        split at this
        · omega
        · omega
      rw [one_div, ← zpow_natCast, h1, zpow_neg, inv_inv]
    · rw [if_neg hn, C07_powUInt, ← zpow_natCast]
      congr 2
      have := BitVec.toInt_eq_toNat_cond e
      split at this
      · exact this.symm
      · have := e.isLt; omega

example := C07_powInt (3 / 2 : ℚ) (-5) (by decide)

/-- On the most negative exponent the C++ negation overflows. -/
theorem C07_powInt_min {α : Type*} [Field α] (b : α) : powInt b 0x80000000#32 = none := by
  unfold powInt
  rw [if_neg (by decide), if_pos (by decide), if_pos rfl]

example : powInt (2 : ℚ) (-3 : BitVec 32) = some (1 / 8) := by
  rw [C07_powInt _ _ (by decide), show (-3 : BitVec 32).toInt = -3 by decide]; norm_num

end MGL
