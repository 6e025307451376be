import Verif.Model.Bits
import Verif.Spec.Bits
import Mathlib.Data.Nat.Size
import Mathlib.Data.Nat.Bitwise
import Mathlib.Data.Nat.Factorization.Basic
import Mathlib.Tactic.Ring
import Mathlib.Tactic.Linarith

/-! Helper lemmas about the bit tricks. -/

namespace MGL

/-- Invariant of the smear loop: bit `i` of `y` says whether one of the bits `i .. i+n-1` of `x` is set. -/
def Smeared {w : ℕ} (n : ℕ) (x y : BitVec w) : Prop :=
  ∀ i, y.getLsbD i = true ↔ ∃ j < n, x.getLsbD (i + j) = true

theorem smeared_zero {w : ℕ} (x : BitVec w) : Smeared 1 x x := by
  intro i
  constructor
  · intro h; exact ⟨0, by omega, by simpa using h⟩
  · rintro ⟨j, hj, h⟩
    have : j = 0 := by omega
    subst this; simpa using h

theorem smeared_step {w n : ℕ} {x y : BitVec w} (h : Smeared n x y) :
    Smeared (n + n) x (y ||| (y >>> n)) := by
  intro i
  rw [BitVec.getLsbD_or, Bool.or_eq_true, BitVec.getLsbD_ushiftRight, h i, h (n + i)]
  constructor
  · rintro (⟨j, hj, hx⟩ | ⟨j, hj, hx⟩)
    · exact ⟨j, by omega, hx⟩
    · exact ⟨n + j, by omega, by rwa [show i + (n + j) = n + i + j by omega]⟩
  · rintro ⟨j, hj, hx⟩
    by_cases hjn : j < n
    · exact Or.inl ⟨j, hjn, hx⟩
    · exact Or.inr ⟨j - n, by omega, by rwa [show n + i + (j - n) = i + j by omega]⟩

theorem exists_testBit_iff_pow_le (x i : ℕ) : (∃ j, x.testBit (i + j) = true) ↔ 2 ^ i ≤ x := by
  constructor
  · rintro ⟨j, h⟩
    have h1 : 2 ^ (i + j) ≤ x := Nat.ge_two_pow_of_testBit h
    exact le_trans (Nat.pow_le_pow_right (by norm_num) (by omega)) h1
  · intro h
    obtain ⟨k, hk, hb⟩ := Nat.exists_ge_and_testBit_of_ge_two_pow h
    exact ⟨k - i, by rwa [show i + (k - i) = k by omega]⟩

theorem smeared_full {w : ℕ} {x y : BitVec w} (h : Smeared w x y) :
    y.toNat = 2 ^ (Nat.size x.toNat) - 1 := by
  apply Nat.eq_of_testBit_eq
  intro i
  rw [Nat.testBit_two_pow_sub_one, Bool.eq_iff_iff, decide_eq_true_iff, Nat.lt_size,
    ← exists_testBit_iff_pow_le]
  have := h i
  rw [← BitVec.testBit_toNat] at this
  rw [this]
  constructor
  · rintro ⟨j, _, hx⟩; exact ⟨j, by rwa [BitVec.testBit_toNat]⟩
  · rintro ⟨j, hx⟩
    rw [BitVec.testBit_toNat] at hx
    refine ⟨j, ?_, hx⟩
    have := BitVec.lt_of_getLsbD hx
    omega

theorem smear_u32_toNat (x : BitVec 32) : (smear_u32 x).toNat = 2 ^ (Nat.size x.toNat) - 1 := by
  apply smeared_full
  have h := smeared_step (smeared_step (smeared_step (smeared_step (smeared_step (smeared_zero x)))))
  exact h

theorem smear_u64_toNat (x : BitVec 64) : (smear_u64 x).toNat = 2 ^ (Nat.size x.toNat) - 1 := by
  apply smeared_full
  have h := smeared_step (smeared_step (smeared_step (smeared_step (smeared_step
    (smeared_step (smeared_zero x))))))
  exact h

theorem size_le_width {w : ℕ} (x : BitVec w) : Nat.size x.toNat ≤ w := Nat.size_le.2 x.isLt

theorem powTwo_pow_size_pred_isCeil (n : ℕ) (hn : 1 ≤ n) :
    Spec.IsPowTwoCeil n (2 ^ Nat.size (n - 1)) := by
  refine ⟨⟨⟨_, rfl⟩, ?_⟩, ?_⟩
  · have := Nat.lt_size_self (n - 1); omega
  · rintro p ⟨⟨k, rfl⟩, hk⟩
    apply Nat.pow_le_pow_right (by norm_num)
    rw [Nat.size_le]
    omega

theorem powTwo_pow_pred_size_isFloor (n : ℕ) (hn : 1 ≤ n) :
    Spec.IsPowTwoFloor n (2 ^ (Nat.size n - 1)) := by
  have hs : 0 < Nat.size n := Nat.size_pos.2 hn
  refine ⟨⟨⟨_, rfl⟩, ?_⟩, ?_⟩
  · exact Nat.lt_size.1 (by omega)
  · rintro p ⟨⟨k, rfl⟩, hk⟩
    apply Nat.pow_le_pow_right (by norm_num)
    have := Nat.lt_size.2 hk
    omega

/-- Removing the lowest set bit, over natural numbers. -/
theorem testBit_and_pred (n : ℕ) (hn : 0 < n) :
    ∃ k, n.testBit k = true ∧ ∀ i, (n &&& (n - 1)).testBit i = (n.testBit i && decide (i ≠ k)) := by
  obtain ⟨k, m, hm⟩ : ∃ k m, n = 2 ^ k * (2 * m + 1) := by
    obtain ⟨k, m, hodd, h⟩ := Nat.exists_eq_two_pow_mul_odd (n := n) (by omega)
    obtain ⟨r, rfl⟩ := hodd
    exact ⟨k, r, h⟩
  have h2 : 2 ^ k ≥ 1 := Nat.one_le_two_pow
  have hpred : n - 1 = 2 ^ k * (2 * m) + (2 ^ k - 1) := by
    rw [hm]
    have : 2 ^ k * (2 * m + 1) = 2 ^ k * (2 * m) + 2 ^ k := by ring
    omega
  have hlt : 2 ^ k - 1 < 2 ^ k := by omega
  have hn' : n = 2 ^ k * (2 * m + 1) + 0 := by omega
  refine ⟨k, ?_, ?_⟩
  · rw [hn', Nat.testBit_two_pow_mul_add _ (by omega)]
    simp [Nat.testBit_zero]
  · intro i
    rw [Nat.testBit_and, hpred, Nat.testBit_two_pow_mul_add _ hlt]
    rw [hn', Nat.testBit_two_pow_mul_add _ (by omega)]
    rcases Nat.lt_trichotomy i k with h | h | h
    · simp [h]
    · subst h; simp
    · have h3 : ¬ i < k := by omega
      have h4 : i ≠ k := by omega
      obtain ⟨d, hd⟩ : ∃ d, i - k = d + 1 := ⟨i - k - 1, by omega⟩
      have e1 : (2 * m + 1).testBit (d + 1) = m.testBit d := by
        rw [Nat.testBit_succ]; congr 1; omega
      have e2 : (2 * m).testBit (d + 1) = m.testBit d := by
        rw [Nat.testBit_succ]; congr 1; omega
      simp [h3, h4, hd, e1, e2]

theorem popcount_and_pred (v : BitVec 32) (h : v ≠ 0#32) :
    Spec.popcount v = Spec.popcount (v &&& (v - 1#32)) + 1 := by
  have hv : 0 < v.toNat := by
    rcases Nat.eq_zero_or_pos v.toNat with h0 | h0
    · exact absurd (BitVec.eq_of_toNat_eq (by simpa using h0)) h
    · exact h0
  have h1 : (v - 1#32).toNat = v.toNat - 1 := by
    have := v.isLt
    simp only [BitVec.toNat_sub, BitVec.toNat_ofNat]
    omega
  obtain ⟨k, hk, hb⟩ := testBit_and_pred v.toNat hv
  have hb' : ∀ i, (v &&& (v - 1#32)).getLsbD i = (v.getLsbD i && decide (i ≠ k)) := by
    intro i
    rw [← BitVec.testBit_toNat, BitVec.toNat_and, h1, hb, BitVec.testBit_toNat]
  rw [BitVec.testBit_toNat] at hk
  have hkw : k < 32 := BitVec.lt_of_getLsbD hk
  unfold Spec.popcount
  have : (Finset.range 32).filter (fun i => (v &&& (v - 1#32)).getLsbD i = true) =
      ((Finset.range 32).filter (fun i => v.getLsbD i = true)).erase k := by
    ext i
    simp only [Finset.mem_filter, Finset.mem_erase, hb', Bool.and_eq_true, decide_eq_true_iff]
    tauto
  rw [this, Finset.card_erase_of_mem (by simp [hk, hkw])]
  have : 0 < ((Finset.range 32).filter (fun i => v.getLsbD i = true)).card :=
    Finset.card_pos.2 ⟨k, by simp [hk, hkw]⟩
  omega

theorem one_shiftLeft_sub_one_getLsbD {w : ℕ} (n i : ℕ) (hn : n < w) :
    ((1#w <<< n) - 1#w).getLsbD i = decide (i < n) := by
  have h1 : (1#w <<< n).toNat = 2 ^ n := by
    rw [BitVec.toNat_shiftLeft, BitVec.toNat_ofNat, Nat.shiftLeft_eq,
      Nat.mod_eq_of_lt (a := 1) (Nat.one_lt_two_pow (by omega)), one_mul,
      Nat.mod_eq_of_lt (Nat.pow_lt_pow_right (by norm_num) hn)]
  have h2 : ((1#w <<< n) - 1#w).toNat = 2 ^ n - 1 := by
    have h3 : 1 < 2 ^ w := Nat.one_lt_two_pow (by omega)
    have h4 : 1 ≤ 2 ^ n := Nat.one_le_two_pow
    have h5 : 2 ^ n < 2 ^ w := Nat.pow_lt_pow_right (by norm_num) hn
    rw [BitVec.toNat_sub, h1, BitVec.toNat_ofNat, Nat.mod_eq_of_lt h3]
    rw [show 2 ^ w - 1 + 2 ^ n = 2 ^ n - 1 + 2 ^ w by omega, Nat.add_mod_right,
      Nat.mod_eq_of_lt (by omega)]
  rw [← BitVec.testBit_toNat, h2, Nat.testBit_two_pow_sub_one]

theorem LSB_getLsbD (bits : BitVec 32) (i : ℕ) :
    (LSB bits).getLsbD i = decide (i < bits.toNat ∧ i < 32) := by
  unfold LSB
  split
  · rename_i h
    have : (0xFFFFFFFF#32) = BitVec.allOnes 32 := by decide
    rw [this, BitVec.getLsbD_allOnes]
    rw [Bool.eq_iff_iff]; simp only [decide_eq_true_iff]; omega
  · rename_i h
    rw [one_shiftLeft_sub_one_getLsbD _ _ (by omega), Bool.eq_iff_iff]
    simp only [decide_eq_true_iff]; omega

theorem LSB64_getLsbD (bits : BitVec 64) (i : ℕ) :
    (LSB64 bits).getLsbD i = decide (i < bits.toNat ∧ i < 64) := by
  unfold LSB64
  split
  · rename_i h
    have : (0xFFFFFFFFFFFFFFFF#64) = BitVec.allOnes 64 := by decide
    rw [this, BitVec.getLsbD_allOnes]
    rw [Bool.eq_iff_iff]; simp only [decide_eq_true_iff]; omega
  · rename_i h
    rw [one_shiftLeft_sub_one_getLsbD _ _ (by omega), Bool.eq_iff_iff]
    simp only [decide_eq_true_iff]; omega

theorem bitMask_getLsbD (pos bits : ℕ) (i : ℕ) (h : pos + bits ≤ 32) :
    (bitMask (BitVec.ofNat 32 pos) (BitVec.ofNat 32 bits)).getLsbD i =
      decide (pos ≤ i ∧ i < pos + bits) := by
  unfold bitMask
  rw [BitVec.getLsbD_and, BitVec.getLsbD_not, LSB_getLsbD, LSB_getLsbD]
  have h1 : (BitVec.ofNat 32 pos + BitVec.ofNat 32 bits).toNat = pos + bits := by
    simp only [BitVec.toNat_add, BitVec.toNat_ofNat]; omega
  have h2 : (BitVec.ofNat 32 pos).toNat = pos := by
    simp only [BitVec.toNat_ofNat]; omega
  rw [h1, h2, Bool.eq_iff_iff]
  simp only [Bool.and_eq_true, decide_eq_true_iff, Bool.not_eq_true', decide_eq_false_iff_not]
  omega

theorem packField_getLsbD (pos bits : ℕ) (v : BitVec 32) (i : ℕ) (h : pos + bits ≤ 32) :
    (packField pos bits v).getLsbD i =
      (decide (pos ≤ i ∧ i < pos + bits) && v.getLsbD (i - pos)) := by
  unfold packField
  rw [BitVec.getLsbD_and, bitMask_getLsbD pos bits i h, BitVec.getLsbD_shiftLeft]
  by_cases hc : pos ≤ i ∧ i < pos + bits
  · have h1 : i < 32 := by omega
    have h2 : ¬ i < pos := by omega
    simp [hc, h1, h2]
  · simp [hc]

theorem extractBits_getLsbD (pos bits : ℕ) (v : BitVec 32) (i : ℕ) (h : pos + bits ≤ 32) :
    (extractBits pos bits v).getLsbD i = (decide (i < bits) && v.getLsbD (pos + i)) := by
  unfold extractBits
  have := bitMask_getLsbD 0 bits i (by omega)
  rw [BitVec.getLsbD_and, BitVec.getLsbD_ushiftRight,
    show (0#32) = BitVec.ofNat 32 0 from rfl, this, Bool.and_comm]
  simp

/-- Value of a reversed digit string, least significant digit first. -/
def revValue : List Char → ℕ
  | [] => 0
  | c :: cs => (if c = '1' then 1 else 0) + 2 * revValue cs

theorem binaryValue_append (s t : List Char) (acc : ℕ) :
    (s ++ t).foldl (fun acc c => 2 * acc + (if c = '1' then 1 else 0)) acc =
      t.foldl (fun acc c => 2 * acc + (if c = '1' then 1 else 0))
        (s.foldl (fun acc c => 2 * acc + (if c = '1' then 1 else 0)) acc) := by
  rw [List.foldl_append]

theorem revValue_reverse (s : List Char) : revValue s.reverse = Spec.binaryValue s := by
  induction s using List.reverseRecOn with
  | nil => rfl
  | append_singleton s c ih =>
    rw [List.reverse_append, List.reverse_singleton, List.singleton_append, revValue, ih]
    unfold Spec.binaryValue
    rw [List.foldl_append]
    simp only [List.foldl_cons, List.foldl_nil]
    omega

theorem binaryLoop_toNat (rev : List Char) (hd : ∀ c ∈ rev, c = '0' ∨ c = '1') :
    ∀ (i : ℕ) (val : BitVec 32), i ≤ 32 → val.toNat < 2 ^ i →
      (binaryLoop rev i val).toNat = (val.toNat + 2 ^ i * revValue rev) % 2 ^ 32 := by
  induction rev with
  | nil =>
    intro i val _ _
    simp only [binaryLoop, revValue, mul_zero, add_zero]
    exact (Nat.mod_eq_of_lt val.isLt).symm
  | cons c cs ih =>
    intro i val hi hv
    unfold binaryLoop
    split
    · rename_i hlt
      have hcs : ∀ c ∈ cs, c = '0' ∨ c = '1' := fun d hd' => hd d (List.mem_cons_of_mem _ hd')
      have hshift : (1#32 <<< i).toNat = 2 ^ i := by
        rw [BitVec.toNat_shiftLeft, BitVec.toNat_ofNat, Nat.shiftLeft_eq,
          Nat.mod_eq_of_lt (a := 1) (by norm_num), one_mul,
          Nat.mod_eq_of_lt (Nat.pow_lt_pow_right (by norm_num) hlt)]
      have hor : (val ||| (1#32 <<< i)).toNat = val.toNat + 2 ^ i := by
        rw [BitVec.toNat_or, hshift, Nat.or_comm]
        have := Nat.two_pow_add_eq_or_of_lt hv 1
        rw [mul_one] at this
        rw [← this]; omega
      rcases hd c (List.mem_cons_self) with h0 | h1
      · subst h0
        simp only [ne_eq, not_true_eq_false, if_false]
        rw [ih hcs (i + 1) val (by omega) (by rw [pow_succ]; omega)]
        simp only [revValue, show ('0' : Char) ≠ '1' by decide, if_false, zero_add]
        congr 1; ring
      · subst h1
        simp only [ne_eq, show ('1' : Char) ≠ '0' by decide, not_false_eq_true, if_true]
        rw [ih hcs (i + 1) _ (by omega) (by rw [hor, pow_succ]; omega), hor]
        simp only [revValue, if_true]
        congr 1; ring
    · rename_i hge
      have h32 : i = 32 := by omega
      subst h32
      rw [Nat.add_mul_mod_self_left, Nat.mod_eq_of_lt val.isLt]

end MGL
