import Verif.Model.Bits
import Verif.Spec.Bits
import Verif.Proofs.Bits
import Mathlib.Tactic.IntervalCases

/-! Properties C01 – C05: powers of two, bit counting, bit fields, binary literals. -/

namespace MGL

open Spec

/-! ### C01 powers of two -/

theorem C01_isPow2_u32 (x : BitVec 32) :
    isPow2_u32 x = true ↔ x.toNat = 0 ∨ PowTwo x.toNat := by
  unfold isPow2_u32
  rw [beq_iff_eq, ← BitVec.toNat_inj, BitVec.toNat_and]
  by_cases hx : x.toNat = 0
  · simp [hx]
  · have h1 : (x - 1#32).toNat = x.toNat - 1 := by
      have := x.isLt
      simp only [BitVec.toNat_sub, BitVec.toNat_ofNat]
      omega
    rw [h1]
    simp only [BitVec.toNat_ofNat, Nat.zero_mod]
    rw [Nat.and_sub_one_eq_zero_iff_isPowerOfTwo hx]
    simp only [hx, false_or]
    rfl

theorem C01_isPow2_u64 (x : BitVec 64) :
    isPow2_u64 x = true ↔ x.toNat = 0 ∨ PowTwo x.toNat := by
  unfold isPow2_u64
  rw [beq_iff_eq, ← BitVec.toNat_inj, BitVec.toNat_and]
  by_cases hx : x.toNat = 0
  · simp [hx]
  · have h1 : (x - 1#64).toNat = x.toNat - 1 := by
      have := x.isLt
      simp only [BitVec.toNat_sub, BitVec.toNat_ofNat]
      omega
    rw [h1]
    simp only [BitVec.toNat_ofNat, Nat.zero_mod]
    rw [Nat.and_sub_one_eq_zero_iff_isPowerOfTwo hx]
    simp only [hx, false_or]
    rfl

/-- `RoundUpPow2(u32)`: the smallest power of two at or above `x` when it is representable. -/
theorem C01_roundUpPow2_u32 (x : BitVec 32) (h1 : 1 ≤ x.toNat) (h2 : x.toNat ≤ 2 ^ 31) :
    IsPowTwoCeil x.toNat (roundUpPow2_u32 x).toNat := by
  have hp : (x - 1#32).toNat = x.toNat - 1 := by
    have := x.isLt
    simp only [BitVec.toNat_sub, BitVec.toNat_ofNat]
    omega
  have hs : Nat.size (x.toNat - 1) ≤ 31 := Nat.size_le.2 (by omega)
  have hpow : 2 ^ Nat.size (x.toNat - 1) ≤ 2 ^ 31 := Nat.pow_le_pow_right (by norm_num) hs
  have hpos : 1 ≤ 2 ^ Nat.size (x.toNat - 1) := Nat.one_le_two_pow
  have : (roundUpPow2_u32 x).toNat = 2 ^ Nat.size (x.toNat - 1) := by
    unfold roundUpPow2_u32
    rw [BitVec.toNat_add, smear_u32_toNat, hp]
    simp only [BitVec.toNat_ofNat]
    omega
  rw [this]
  exact powTwo_pow_size_pred_isCeil _ h1

example := C01_roundUpPow2_u32 1000#32 (by decide) (by decide)

/-- `RoundUpPow2(u32)` answers 0 for 0 and for arguments above the largest power of two. -/
theorem C01_roundUpPow2_u32_none (x : BitVec 32) (h : x.toNat = 0 ∨ 2 ^ 31 < x.toNat) :
    roundUpPow2_u32 x = 0#32 := by
  have hlt := x.isLt
  have hs : Nat.size (x - 1#32).toNat = 32 := by
    apply le_antisymm (size_le_width _)
    apply Nat.succ_le_of_lt (n := 31)
    rw [Nat.lt_size]
    simp only [BitVec.toNat_sub, BitVec.toNat_ofNat]
    omega
  apply BitVec.eq_of_toNat_eq
  unfold roundUpPow2_u32
  rw [BitVec.toNat_add, smear_u32_toNat, hs]
  rfl

example := C01_roundUpPow2_u32_none 0x80000001#32 (by decide)

theorem C01_roundUpPow2_u64 (x : BitVec 64) (h1 : 1 ≤ x.toNat) (h2 : x.toNat ≤ 2 ^ 63) :
    IsPowTwoCeil x.toNat (roundUpPow2_u64 x).toNat := by
  have hp : (x - 1#64).toNat = x.toNat - 1 := by
    have := x.isLt
    simp only [BitVec.toNat_sub, BitVec.toNat_ofNat]
    omega
  have hs : Nat.size (x.toNat - 1) ≤ 63 := Nat.size_le.2 (by omega)
  have hpow : 2 ^ Nat.size (x.toNat - 1) ≤ 2 ^ 63 := Nat.pow_le_pow_right (by norm_num) hs
  have hpos : 1 ≤ 2 ^ Nat.size (x.toNat - 1) := Nat.one_le_two_pow
  have : (roundUpPow2_u64 x).toNat = 2 ^ Nat.size (x.toNat - 1) := by
    unfold roundUpPow2_u64
    rw [BitVec.toNat_add, smear_u64_toNat, hp]
    simp only [BitVec.toNat_ofNat]
    omega
  rw [this]
  exact powTwo_pow_size_pred_isCeil _ h1

example := C01_roundUpPow2_u64 1000#64 (by decide) (by decide)

theorem C01_roundUpPow2_u64_none (x : BitVec 64) (h : x.toNat = 0 ∨ 2 ^ 63 < x.toNat) :
    roundUpPow2_u64 x = 0#64 := by
  have hlt := x.isLt
  have hs : Nat.size (x - 1#64).toNat = 64 := by
    apply le_antisymm (size_le_width _)
    apply Nat.succ_le_of_lt (n := 63)
    rw [Nat.lt_size]
    simp only [BitVec.toNat_sub, BitVec.toNat_ofNat]
    omega
  apply BitVec.eq_of_toNat_eq
  unfold roundUpPow2_u64
  rw [BitVec.toNat_add, smear_u64_toNat, hs]
  rfl

example := C01_roundUpPow2_u64_none 0x8000000000000001#64 (by decide)

private theorem ones_sub_half (s : ℕ) (hs : 1 ≤ s) :
    (2 ^ s - 1) - (2 ^ s - 1) / 2 = 2 ^ (s - 1) := by
  obtain ⟨t, rfl⟩ : ∃ t, s = t + 1 := ⟨s - 1, by omega⟩
  have : 1 ≤ 2 ^ t := Nat.one_le_two_pow
  rw [pow_succ, Nat.add_sub_cancel]
  omega

theorem C01_roundDownPow2_u32 (x : BitVec 32) (h1 : 1 ≤ x.toNat) :
    IsPowTwoFloor x.toNat (roundDownPow2_u32 x).toNat := by
  have hs : 1 ≤ Nat.size x.toNat := Nat.size_pos.2 h1
  have : (roundDownPow2_u32 x).toNat = 2 ^ (Nat.size x.toNat - 1) := by
    unfold roundDownPow2_u32
    rw [← ones_sub_half _ hs]
    simp only [BitVec.toNat_sub, BitVec.toNat_ushiftRight, smear_u32_toNat, Nat.shiftRight_one]
    have h32 : 2 ^ Nat.size x.toNat ≤ 2 ^ 32 := Nat.pow_le_pow_right (by norm_num) (size_le_width x)
    omega
  rw [this]
  exact powTwo_pow_pred_size_isFloor _ h1

example := C01_roundDownPow2_u32 1000#32 (by decide)

theorem C01_roundDownPow2_u64 (x : BitVec 64) (h1 : 1 ≤ x.toNat) :
    IsPowTwoFloor x.toNat (roundDownPow2_u64 x).toNat := by
  have hs : 1 ≤ Nat.size x.toNat := Nat.size_pos.2 h1
  have : (roundDownPow2_u64 x).toNat = 2 ^ (Nat.size x.toNat - 1) := by
    unfold roundDownPow2_u64
    rw [← ones_sub_half _ hs]
    simp only [BitVec.toNat_sub, BitVec.toNat_ushiftRight, smear_u64_toNat, Nat.shiftRight_one]
    have h64 : 2 ^ Nat.size x.toNat ≤ 2 ^ 64 := Nat.pow_le_pow_right (by norm_num) (size_le_width x)
    omega
  rw [this]
  exact powTwo_pow_pred_size_isFloor _ h1

example := C01_roundDownPow2_u64 1000#64 (by decide)

theorem C01_roundDownPow2_zero : roundDownPow2_u32 0#32 = 0#32 ∧ roundDownPow2_u64 0#64 = 0#64 := by
  decide

-- the hypotheses are met by ordinary values, and the answers are not trivial
example : (1 ≤ (77#32).toNat ∧ (77#32).toNat ≤ 2 ^ 31) ∧ roundUpPow2_u32 77#32 = 128#32 := by decide
example : roundUpPow2_u32 0x80000001#32 = 0#32 := by decide
example : roundDownPow2_u64 77#64 = 64#64 ∧ roundUpPow2_u64 0x100000001#64 = 0x200000000#64 := by
  decide

/-! ### C02 rounding up to a multiple of a power of two -/

/-- `RoundIntUpToMultipleOfPow2(x, n)` for `n = 2^k` representable and `x + n` representable:
no undefined behaviour, and the result is the least multiple of `n` at or above `x`
(`w = 32` is the `int` overload, `w = 64` the `s64` one). -/
theorem C02_roundIntUpToMultipleOfPow2 {w : ℕ} (x n : BitVec w) (k : ℕ) (hk : k + 1 < w)
    (hn : n.toInt = 2 ^ k) (hsum : x.toInt + n.toInt < 2 ^ (w - 1)) :
    ∃ r, roundIntUpToMultipleOfPow2 x n = .val r ∧ IsMultipleCeil x.toInt n.toInt r.toInt := by
  have hw : 0 < w := by omega
  have hxlo : -(2 ^ (w - 1) : ℤ) ≤ x.toInt := by
    have := @BitVec.le_toInt w x; simpa using this
  have hpos : (1 : ℤ) ≤ 2 ^ k := by exact_mod_cast Nat.one_le_two_pow
  have hpw : (2 : ℤ) ^ w = 2 * 2 ^ (w - 1) := by
    rw [← pow_succ']; congr 1; omega
  have hkw : (2 : ℤ) ^ (k + 1) ≤ 2 ^ (w - 1) := by
    apply pow_le_pow_right₀ (by norm_num); omega
  have hk2 : (2 : ℤ) ^ (k + 1) = 2 * 2 ^ k := by rw [pow_succ']
  have h1 : (1 : BitVec w).toInt = 1 := by
    rw [show (1 : BitVec w) = 1#w from rfl, BitVec.toInt_one (by omega)]
  -- the three signed operations do not overflow
  have hadd : BitVec.saddOverflow x n = false := by
    simp only [BitVec.saddOverflow, Bool.or_eq_false_iff, decide_eq_false_iff_not, not_le, not_lt,
      ge_iff_le]
    constructor <;> omega
  have hadd_toInt : (x + n).toInt = x.toInt + n.toInt :=
    BitVec.toInt_add_of_not_saddOverflow (by simp [hadd])
  have hsub : BitVec.ssubOverflow (x + n) 1 = false := by
    simp only [BitVec.ssubOverflow, Bool.or_eq_false_iff, decide_eq_false_iff_not, not_le, not_lt,
      ge_iff_le, h1, hadd_toInt]
    constructor <;> omega
  have hsub_toInt : (x + n - 1).toInt = x.toInt + n.toInt - 1 := by
    rw [BitVec.toInt_sub_of_not_ssubOverflow (by rw [hsub]; simp), hadd_toInt, h1]
  have hsub2 : BitVec.ssubOverflow n 1 = false := by
    simp only [BitVec.ssubOverflow, Bool.or_eq_false_iff, decide_eq_false_iff_not, not_le, not_lt,
      ge_iff_le, h1]
    constructor <;> omega
  have hnNat : n.toNat = 2 ^ k := by
    have hpk : (2 : ℤ) * 2 ^ k < 2 ^ w := by omega
    have hcases := BitVec.toInt_eq_toNat_cond n
    have hnlt := n.isLt
    have hcast : ((2 ^ w : ℕ) : ℤ) = 2 ^ w := by push_cast; rfl
    have : (n.toNat : ℤ) = 2 ^ k := by
      split at hcases
      · omega
      · have : (n.toNat : ℤ) < 2 ^ w := by exact_mod_cast hnlt
        omega
    exact_mod_cast this
  have hn1 : (n - 1).toNat = 2 ^ k - 1 := by
    have h3 : 1 < 2 ^ w := Nat.one_lt_two_pow (by omega)
    have h4 : 1 ≤ 2 ^ k := Nat.one_le_two_pow
    have h5 : 2 ^ k < 2 ^ w := Nat.pow_lt_pow_right (by norm_num) (by omega)
    rw [BitVec.toNat_sub, hnNat, show (1 : BitVec w) = 1#w from rfl, BitVec.toNat_ofNat,
      Nat.mod_eq_of_lt h3]
    rw [show 2 ^ w - 1 + 2 ^ k = 2 ^ k - 1 + 2 ^ w by omega, Nat.add_mod_right,
      Nat.mod_eq_of_lt (by omega)]
  refine ⟨(x + n - 1) &&& ~~~(n - 1), ?_, ?_⟩
  · simp only [roundIntUpToMultipleOfPow2, CInt.add, hadd, CInt.sub, hsub, hsub2, CInt.not,
      CInt.and, Bool.false_eq_true, if_false]
  · -- `y & ~(2^k-1)` is `y - y mod 2^k`
    set y := x + n - 1 with hy
    have hbits : y &&& ~~~(n - 1) = y - (y &&& (n - 1)) := by
      rw [eq_comm, BitVec.sub_eq_iff_eq_add]
      rw [BitVec.add_eq_or_of_and_eq_zero]
      · ext i hi
        rw [BitVec.getElem_or, BitVec.getElem_and, BitVec.getElem_and, BitVec.getElem_not]
        cases (n - 1)[i] <;> simp
      · ext i hi
        rw [BitVec.getElem_and, BitVec.getElem_and, BitVec.getElem_and, BitVec.getElem_not,
          BitVec.getElem_zero]
        cases (n - 1)[i] <;> simp
    have hmod : (y &&& (n - 1)).toNat = y.toNat % 2 ^ k := by
      rw [BitVec.toNat_and, hn1, Nat.and_two_pow_sub_one_eq_mod]
    have hmodInt : (y &&& (n - 1)).toInt = y.toInt % 2 ^ k := by
      have hlt : y.toNat % 2 ^ k < 2 ^ k := Nat.mod_lt _ (by positivity)
      have e1 : (y &&& (n - 1)).toInt = ((y.toNat % 2 ^ k : ℕ) : ℤ) := by
        rw [BitVec.toInt_eq_toNat_cond, hmod, if_pos]
        have : 2 * 2 ^ k < 2 ^ w := by
          have : (2 : ℤ) * 2 ^ k < 2 ^ w := by omega
          exact_mod_cast this
        omega
      rw [e1]
      have e2 : (2 : ℤ) ^ k ∣ 2 ^ w := pow_dvd_pow 2 (by omega)
      push_cast
      rw [BitVec.toInt_eq_toNat_cond]
      split
      · rfl
      · obtain ⟨c, hc⟩ := e2
        push_cast
        rw [hc, Int.sub_mul_emod_self_left]
    have hyInt : y.toInt = x.toInt + n.toInt - 1 := hsub_toInt
    have hemod0 : 0 ≤ y.toInt % 2 ^ k := Int.emod_nonneg _ (by positivity)
    have hemod1 : y.toInt % 2 ^ k < 2 ^ k := Int.emod_lt_of_pos _ (by positivity)
    have hylo : -(2 ^ (w - 1) : ℤ) ≤ y.toInt - y.toInt % 2 ^ k := by
      -- both `y` and `-2^(w-1)` are at least the multiple of `2^k`
      have hd : (2 : ℤ) ^ k ∣ 2 ^ (w - 1) := pow_dvd_pow 2 (by omega)
      obtain ⟨c, hc⟩ := hd
      have hy0 : -(2 ^ (w - 1) : ℤ) ≤ y.toInt := by
        have := @BitVec.le_toInt w y; simpa using this
      rw [hc] at hy0 ⊢
      have hdm := Int.mul_ediv_add_emod y.toInt (2 ^ k)
      have : -c ≤ y.toInt / 2 ^ k := by
        rw [Int.le_ediv_iff_mul_le (by positivity)]
        linarith [mul_comm c ((2:ℤ)^k)]
      nlinarith [mul_le_mul_of_nonneg_left this (show (0:ℤ) ≤ 2 ^ k by positivity)]
    have hssub : BitVec.ssubOverflow y (y &&& (n - 1)) = false := by
      simp only [BitVec.ssubOverflow, Bool.or_eq_false_iff, decide_eq_false_iff_not, not_le, not_lt,
        ge_iff_le, hmodInt]
      have := @BitVec.toInt_lt w y
      constructor <;> omega
    have hr : (y &&& ~~~(n - 1)).toInt = y.toInt - y.toInt % 2 ^ k := by
      rw [hbits, BitVec.toInt_sub_of_not_ssubOverflow (by rw [hssub]; simp), hmodInt]
    rw [hr, hn]
    refine ⟨⟨?_, ?_⟩, ?_⟩
    · exact Int.dvd_self_sub_emod
    · omega
    · rintro m ⟨⟨c, rfl⟩, hm⟩
      have hdm := Int.mul_ediv_add_emod y.toInt (2 ^ k)
      have : y.toInt / 2 ^ k ≤ c := by
        have h6 : y.toInt < 2 ^ k * (c + 1) := by rw [hyInt, hn]; nlinarith
        have := Int.ediv_lt_of_lt_mul (show (0:ℤ) < 2 ^ k by positivity)
          (by rwa [mul_comm] at h6 : y.toInt < (c + 1) * 2 ^ k)
        omega
      nlinarith [mul_le_mul_of_nonneg_left this (show (0:ℤ) ≤ 2 ^ k by positivity)]

-- hypotheses met, for a negative argument too
example : (3 + 1 < 32) ∧ (8#32).toInt = 2 ^ 3 ∧ ((-13 : BitVec 32)).toInt + (8#32).toInt < 2 ^ (32 - 1)
    ∧ roundIntUpToMultipleOfPow2 (-13 : BitVec 32) 8#32 = .val (-8 : BitVec 32) := by decide
-- the guard is needed: `x + n` overflowing is undefined behaviour
example : roundIntUpToMultipleOfPow2 0x7FFFFFFF#32 8#32 = .ub := by decide

/-! ### C03 population count -/

theorem C03_countBitsSet (v : BitVec 32) : countBitsSet v = popcount v := by
  induction v using countBitsSet.induct with
  | case1 => rw [countBitsSet]; simp [popcount]
  | case2 v h ih => rw [countBitsSet, dif_neg h, ih, popcount_and_pred v h]

example : countBitsSet 0xF00F0001#32 = 9 := by
  rw [C03_countBitsSet]; decide

/-! ### C04 bit masks and packing -/

/-- `LSB(n)` has exactly the low `n` bits set. -/
theorem C04_LSB (bits : BitVec 32) (i : ℕ) (hi : i < 32) :
    (LSB bits).getLsbD i = true ↔ i < bits.toNat := by
  rw [LSB_getLsbD, decide_eq_true_iff]; omega

example := C04_LSB 7#32 6 (by decide)

theorem C04_LSB64 (bits : BitVec 64) (i : ℕ) (hi : i < 64) :
    (LSB64 bits).getLsbD i = true ↔ i < bits.toNat := by
  rw [LSB64_getLsbD, decide_eq_true_iff]; omega

example := C04_LSB64 40#64 39 (by decide)

/-- The template version agrees with the run-time version on its whole documented domain. -/
theorem C04_LSBT (n : ℕ) (hn : n ≤ 32) : LSBT n = some (LSB (BitVec.ofNat 32 n)) := by
  unfold LSBT LSB
  have : (BitVec.ofNat 32 n).toNat = n := by simp only [BitVec.toNat_ofNat]; omega
  rw [this]
  by_cases h32 : n = 32
  · simp [h32]
  · by_cases h31 : n = 31
    · subst h31; decide
    · simp [h32, h31, show n ≤ 30 by omega, show ¬ 32 ≤ n by omega]

example := C04_LSBT 32 (by decide)

/-- `BitMask(pos, bits)` has exactly the bits `pos .. pos+bits-1` set. -/
theorem C04_bitMask (pos bits i : ℕ) (h : pos + bits ≤ 32) :
    (bitMask (BitVec.ofNat 32 pos) (BitVec.ofNat 32 bits)).getLsbD i = true ↔
      pos ≤ i ∧ i < pos + bits := by
  rw [bitMask_getLsbD pos bits i h, decide_eq_true_iff]

example := C04_bitMask 8 24 31 (by decide)

theorem C04_bitMask64 (pos bits i : ℕ) (h : pos + bits ≤ 64) :
    (bitMask64 (BitVec.ofNat 64 pos) (BitVec.ofNat 64 bits)).getLsbD i = true ↔ pos ≤ i ∧ i < pos + bits := by
  rw [bitMask64, BitVec.getLsbD_and, BitVec.getLsbD_not, LSB64_getLsbD, LSB64_getLsbD]
  have h1 : (BitVec.ofNat 64 pos + BitVec.ofNat 64 bits).toNat = pos + bits := by
    simp only [BitVec.toNat_add, BitVec.toNat_ofNat]; omega
  have h2 : (BitVec.ofNat 64 pos).toNat = pos := by
    simp only [BitVec.toNat_ofNat]; omega
  rw [h1, h2]
  simp only [Bool.and_eq_true, decide_eq_true_iff, Bool.not_eq_true', decide_eq_false_iff_not]
  omega

example := C04_bitMask64 40 24 63 (by decide)

theorem C04_bitMaskT (pos bits : ℕ) (h : pos + bits ≤ 32) :
    bitMaskT pos bits = some (bitMask (BitVec.ofNat 32 pos) (BitVec.ofNat 32 bits)) := by
  unfold bitMaskT bitMask
  rw [C04_LSBT _ h, C04_LSBT _ (by omega)]
  simp only [Option.some.injEq]
  congr 2
  apply BitVec.eq_of_toNat_eq
  simp only [BitVec.toNat_add, BitVec.toNat_ofNat]
  omega

example := C04_bitMaskT 8 24 (by decide)

/-- Two bit fields do not overlap. -/
def Spec.FieldsDisjoint (p1 n1 p2 n2 : ℕ) : Prop := p1 + n1 ≤ p2 ∨ p2 + n2 ≤ p1

/-- Unpacking after packing returns, for each of the four fields, the low bits of what was stored. -/
theorem C04_pack_extract (aPos aBits rPos rBits gPos gBits bPos bBits : ℕ) (a r g b : BitVec 32)
    (ha : aPos + aBits ≤ 32) (hr : rPos + rBits ≤ 32) (hg : gPos + gBits ≤ 32)
    (hb : bPos + bBits ≤ 32) (_ : aPos < 32) (_ : rPos < 32) (_ : gPos < 32) (_ : bPos < 32)
    (har : FieldsDisjoint aPos aBits rPos rBits) (hag : FieldsDisjoint aPos aBits gPos gBits)
    (hab : FieldsDisjoint aPos aBits bPos bBits) (hrg : FieldsDisjoint rPos rBits gPos gBits)
    (hrb : FieldsDisjoint rPos rBits bPos bBits) (hgb : FieldsDisjoint gPos gBits bPos bBits) :
    let packed := packBits aPos aBits rPos rBits gPos gBits bPos bBits a r g b
    (extractBits aPos aBits packed).toNat = a.toNat % 2 ^ aBits ∧
    (extractBits rPos rBits packed).toNat = r.toNat % 2 ^ rBits ∧
    (extractBits gPos gBits packed).toNat = g.toNat % 2 ^ gBits ∧
    (extractBits bPos bBits packed).toNat = b.toNat % 2 ^ bBits := by
  intro packed
  have key : ∀ (pos bits : ℕ) (v : BitVec 32), pos + bits ≤ 32 →
      (∀ i < bits, packed.getLsbD (pos + i) = v.getLsbD i) →
      (extractBits pos bits packed).toNat = v.toNat % 2 ^ bits := by
    intro pos bits v h hv
    apply Nat.eq_of_testBit_eq
    intro i
    rw [BitVec.testBit_toNat, extractBits_getLsbD _ _ _ _ h, Nat.testBit_mod_two_pow,
      BitVec.testBit_toNat]
    by_cases hi : i < bits
    · rw [hv i hi]
    · simp [hi]
  have hp : ∀ i, packed.getLsbD i =
      ((((decide (aPos ≤ i ∧ i < aPos + aBits) && a.getLsbD (i - aPos)) ||
      (decide (rPos ≤ i ∧ i < rPos + rBits) && r.getLsbD (i - rPos))) ||
      (decide (gPos ≤ i ∧ i < gPos + gBits) && g.getLsbD (i - gPos))) ||
      (decide (bPos ≤ i ∧ i < bPos + bBits) && b.getLsbD (i - bPos))) := by
    intro i
    simp only [packed, packBits, BitVec.getLsbD_or, packField_getLsbD _ _ _ _ ha,
      packField_getLsbD _ _ _ _ hr, packField_getLsbD _ _ _ _ hg, packField_getLsbD _ _ _ _ hb]
  unfold FieldsDisjoint at *
  refine ⟨key _ _ _ ha ?_, key _ _ _ hr ?_, key _ _ _ hg ?_, key _ _ _ hb ?_⟩
  · intro i hi
    rw [hp, decide_eq_true (show aPos ≤ aPos + i ∧ aPos + i < aPos + aBits by omega),
      decide_eq_false (show ¬(rPos ≤ aPos + i ∧ aPos + i < rPos + rBits) by omega),
      decide_eq_false (show ¬(gPos ≤ aPos + i ∧ aPos + i < gPos + gBits) by omega),
      decide_eq_false (show ¬(bPos ≤ aPos + i ∧ aPos + i < bPos + bBits) by omega)]
    simp
  · intro i hi
    rw [hp, decide_eq_true (show rPos ≤ rPos + i ∧ rPos + i < rPos + rBits by omega),
      decide_eq_false (show ¬(aPos ≤ rPos + i ∧ rPos + i < aPos + aBits) by omega),
      decide_eq_false (show ¬(gPos ≤ rPos + i ∧ rPos + i < gPos + gBits) by omega),
      decide_eq_false (show ¬(bPos ≤ rPos + i ∧ rPos + i < bPos + bBits) by omega)]
    simp
  · intro i hi
    rw [hp, decide_eq_true (show gPos ≤ gPos + i ∧ gPos + i < gPos + gBits by omega),
      decide_eq_false (show ¬(aPos ≤ gPos + i ∧ gPos + i < aPos + aBits) by omega),
      decide_eq_false (show ¬(rPos ≤ gPos + i ∧ gPos + i < rPos + rBits) by omega),
      decide_eq_false (show ¬(bPos ≤ gPos + i ∧ gPos + i < bPos + bBits) by omega)]
    simp
  · intro i hi
    rw [hp, decide_eq_true (show bPos ≤ bPos + i ∧ bPos + i < bPos + bBits by omega),
      decide_eq_false (show ¬(aPos ≤ bPos + i ∧ bPos + i < aPos + aBits) by omega),
      decide_eq_false (show ¬(rPos ≤ bPos + i ∧ bPos + i < rPos + rBits) by omega),
      decide_eq_false (show ¬(gPos ≤ bPos + i ∧ bPos + i < gPos + gBits) by omega)]
    simp

/-- Packing sets no bit outside the four fields. -/
theorem C04_pack_outside (aPos aBits rPos rBits gPos gBits bPos bBits : ℕ) (a r g b : BitVec 32)
    (ha : aPos + aBits ≤ 32) (hr : rPos + rBits ≤ 32) (hg : gPos + gBits ≤ 32)
    (hb : bPos + bBits ≤ 32) (i : ℕ)
    (ia : ¬(aPos ≤ i ∧ i < aPos + aBits)) (ir : ¬(rPos ≤ i ∧ i < rPos + rBits))
    (ig : ¬(gPos ≤ i ∧ i < gPos + gBits)) (ib : ¬(bPos ≤ i ∧ i < bPos + bBits)) :
    (packBits aPos aBits rPos rBits gPos gBits bPos bBits a r g b).getLsbD i = false := by
  simp only [packBits, BitVec.getLsbD_or, packField_getLsbD _ _ _ _ ha,
      packField_getLsbD _ _ _ _ hr, packField_getLsbD _ _ _ _ hg, packField_getLsbD _ _ _ _ hb,
      ia, ir, ig, ib]
  simp

-- the usual ARGB8888 and RGB565 layouts meet the hypotheses
example : FieldsDisjoint 24 8 16 8 ∧ FieldsDisjoint 24 8 8 8 ∧ FieldsDisjoint 24 8 0 8 ∧
    FieldsDisjoint 16 8 8 8 ∧ FieldsDisjoint 16 8 0 8 ∧ FieldsDisjoint 8 8 0 8 := by
  unfold FieldsDisjoint; omega
example : packBits 24 8 16 8 8 8 0 8 0x12#32 0x34#32 0x56#32 0x78#32 = 0x12345678#32 ∧
    extractBits 16 8 0x12345678#32 = 0x34#32 := by decide

/-! ### C05 binary strings -/

theorem C05_binaryStringToValue (s : List Char) (hd : ∀ c ∈ s, c = '0' ∨ c = '1') :
    (binaryStringToValue s).toNat = binaryValue s % 2 ^ 32 := by
  unfold binaryStringToValue
  rw [binaryLoop_toNat _ (by simpa using hd) 0 0#32 (by omega) (by simp), revValue_reverse]
  simp

example := C05_binaryStringToValue ['1', '0', '1', '1'] (by decide)

/-- At most 32 digits: exactly the number spelled. -/
theorem C05_binaryStringToValue_short (s : List Char) (hd : ∀ c ∈ s, c = '0' ∨ c = '1')
    (hl : s.length ≤ 32) : (binaryStringToValue s).toNat = binaryValue s := by
  rw [C05_binaryStringToValue s hd]
  apply Nat.mod_eq_of_lt
  have : ∀ (t : List Char) (acc : ℕ),
      t.foldl (fun acc c => 2 * acc + (if c = '1' then 1 else 0)) acc < (acc + 1) * 2 ^ t.length := by
    intro t
    induction t with
    | nil => intro acc; simp
    | cons c cs ih =>
      intro acc
      rw [List.foldl_cons, List.length_cons, pow_succ]
      refine lt_of_lt_of_le (ih _) ?_
      have : (2 * acc + (if c = '1' then 1 else 0) + 1) ≤ (acc + 1) * 2 := by split <;> omega
      calc _ ≤ (acc + 1) * 2 * 2 ^ cs.length := Nat.mul_le_mul_right _ this
        _ = _ := by ring
  have h := this s 0
  have h2 : (2 : ℕ) ^ s.length ≤ 2 ^ 32 := Nat.pow_le_pow_right (by norm_num) hl
  unfold binaryValue
  omega

example : (∀ c ∈ "010110".toList, c = '0' ∨ c = '1') ∧ binaryValue "010110".toList = 22 ∧
    binaryStringToValue "010110".toList = 22#32 := by decide

/-! ### C52 ExtractLSB -/

private theorem shl_se (i : ℕ) (hi : i < 31) : (1#32 <<< i).signExtend 64 = 1#64 <<< i := by
  interval_cases i <;> decide

private theorem not_shl_se (i : ℕ) (hi : i < 31) :
    (~~~(1#32 <<< i)).signExtend 64 = ~~~(1#64 <<< i) := by
  interval_cases i <;> decide

private theorem and_one_shl (v : BitVec 64) (i : ℕ) (hi : i < 64) :
    (v &&& (1#64 <<< i)) = 0#64 ↔ v.getLsbD i = false := by
  constructor
  · intro h
    have := congrArg (fun b => b.getLsbD i) h
    simpa [BitVec.getLsbD_and, BitVec.getLsbD_shiftLeft, hi] using this
  · intro h
    apply BitVec.eq_of_getLsbD_eq
    intro j hj
    simp only [BitVec.getLsbD_and, BitVec.getLsbD_shiftLeft, BitVec.getLsbD_zero,
      BitVec.getLsbD_one]
    by_cases hij : j = i
    · subst hij; simp [h]
    · by_cases h2 : j < i
      · simp [h2]
      · have : ¬ j - i = 0 := by omega
        simp [this]

private theorem extractLSBLoop_eq (v : BitVec 64) (j : ℕ) (hj : j < 31)
    (hset : v.getLsbD j = true) (d : ℕ) (hd : d ≤ j)
    (hlow : ∀ k < j, v.getLsbD k = false) :
    extractLSBLoop v (32 - j + d) = ((j : ℤ), v &&& ~~~(1#64 <<< j)) := by
  induction d with
  | zero =>
    rw [show 32 - j + 0 = (31 - j) + 1 by omega, extractLSBLoop]
    simp only [show 31 - (31 - j) = j by omega, shl_se j hj, not_shl_se j hj]
    rw [if_pos]
    intro h
    rw [and_one_shl v j (by omega)] at h
    simp [h] at hset
  | succ d ih =>
    rw [show 32 - j + (d + 1) = (32 - j + d) + 1 by omega, extractLSBLoop]
    simp only [shl_se (31 - (32 - j + d)) (by omega)]
    rw [if_neg]
    · exact ih (by omega)
    · rw [not_not, and_one_shl v _ (by omega)]
      exact hlow _ (by omega)

/-- Full claim (FALSE of the code on LP64, see `C52_extractLSB_wrong_bit`): `ExtractLSB` returns
the index of the lowest set bit and clears that bit only, or returns -1 on 0.
Proved part: the lowest set bit is below 31. Missing: bit 31 and, on a platform whose
`unsigned long` has 64 bits, the bits above. -/
theorem C52_extractLSB_partial (v : BitVec 64) (j : ℕ) (hj : j < 31) (hset : v.getLsbD j = true)
    (hlow : ∀ k < j, v.getLsbD k = false) :
    (extractLSB v).1 = j ∧
    ∀ k, (extractLSB v).2.getLsbD k = (v.getLsbD k && decide (k ≠ j)) := by
  unfold extractLSB
  rw [show 32 = 32 - j + j by omega, extractLSBLoop_eq v j hj hset j le_rfl hlow]
  refine ⟨rfl, fun k => ?_⟩
  simp only [BitVec.getLsbD_and, BitVec.getLsbD_not, BitVec.getLsbD_shiftLeft, BitVec.getLsbD_one]
  by_cases hk : k < 64
  · by_cases hkj : k = j
    · subst hkj; simp [hk]
    · by_cases h2 : k < j
      · simp [hk, h2, hkj]
      · have : ¬ k - j = 0 := by omega
        simp [hk, this, hkj]
  · rw [BitVec.getLsbD_of_ge v k (by omega)]; simp

example := C52_extractLSB_partial 0x50#64 4 (by decide) (by decide) (by decide)

/-- On zero the answer is -1 and the value is unchanged. -/
theorem C52_extractLSB_zero : extractLSB 0#64 = (-1, 0#64) := by decide

/-- The defect: with 64-bit `unsigned long`, a value whose only set bit is bit 40 is reported as
having bit 31 set, and bit 40 is cleared: the set bit is lost. -/
theorem C52_extractLSB_wrong_bit :
    (0x10000000000#64).getLsbD 31 = false ∧ extractLSB 0x10000000000#64 = (31, 0#64) := by decide

example : (12#64).getLsbD 2 = true ∧ (∀ k < 2, (12#64).getLsbD k = false) ∧
    extractLSB 12#64 = (2, 8#64) := by decide

end MGL
