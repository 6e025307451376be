import Verif.Model.Ulps
import Verif.Spec.Ulps
import Verif.Proofs.MiniFloat
import Mathlib.Order.Interval.Finset.Nat
import Mathlib.Data.Int.Interval
import Mathlib.Algebra.Order.Field.Power
import Mathlib.Algebra.Order.Field.Rat
import Mathlib.Data.Rat.Cast.Order
import Mathlib.Tactic.FieldSimp

/-! Floats in order: sign-magnitude ordinals. -/

namespace MGL

open Spec

/-- Magnitude in units of the smallest denormal. -/
def ulpUnits (k : ℕ) : ℕ :=
  if fExp 8 23 k = 0 then fMan 23 k else (2 ^ 23 + fMan 23 k) * 2 ^ (fExp 8 23 k - 1)

theorem fMag_eq_units (k : ℕ) : fMag 8 23 127 k = (ulpUnits k : ℚ) * 2 ^ (-149 : ℤ) := by
  unfold fMag ulpUnits
  by_cases h : fExp 8 23 k = 0
  · rw [if_pos h, if_pos h]
    norm_num; ring
  · rw [if_neg h, if_neg h]
    obtain ⟨e, he⟩ : ∃ e, fExp 8 23 k = e + 1 := ⟨fExp 8 23 k - 1, by omega⟩
    rw [he]
    push_cast
    rw [show (e : ℤ) + 1 - 127 = (e : ℤ) + (23 + (-149)) by ring,
      zpow_add₀ (by norm_num), zpow_add₀ (by norm_num), zpow_natCast]
    norm_num; ring

theorem ulpUnits_strictMono {k l : ℕ} (h : k < l) (hl : l < 2 ^ 31) : ulpUnits k < ulpUnits l := by
  have hk : fExp 8 23 k = k / 2 ^ 23 := by unfold fExp; omega
  have hl' : fExp 8 23 l = l / 2 ^ 23 := by unfold fExp; omega
  have hkm : fMan 23 k = k % 2 ^ 23 := rfl
  have hlm : fMan 23 l = l % 2 ^ 23 := rfl
  unfold ulpUnits
  rw [hk, hl', hkm, hlm]
  by_cases h0 : k / 2 ^ 23 = 0
  · rw [if_pos h0]
    by_cases h1 : l / 2 ^ 23 = 0
    · rw [if_pos h1]; omega
    · rw [if_neg h1]
      have : 1 ≤ 2 ^ (l / 2 ^ 23 - 1) := Nat.one_le_two_pow
      have h3 : 2 ^ 23 + l % 2 ^ 23 ≤ (2 ^ 23 + l % 2 ^ 23) * 2 ^ (l / 2 ^ 23 - 1) :=
        Nat.le_mul_of_pos_right _ (by omega)
      omega
  · have h1 : l / 2 ^ 23 ≠ 0 := by omega
    rw [if_neg h0, if_neg h1]
    by_cases heq : k / 2 ^ 23 = l / 2 ^ 23
    · rw [heq]
      apply Nat.mul_lt_mul_of_pos_right _ (by positivity)
      omega
    · obtain ⟨d, hd⟩ : ∃ d, l / 2 ^ 23 - 1 = (k / 2 ^ 23 - 1) + 1 + d := ⟨l / 2 ^ 23 - 1 - (k / 2 ^ 23 - 1) - 1, by omega⟩
      rw [hd, pow_add, pow_succ]
      have : 1 ≤ 2 ^ d := Nat.one_le_two_pow
      have hp : 0 < 2 ^ (k / 2 ^ 23 - 1) := by positivity
      have hm := Nat.mod_lt k (show 0 < 2 ^ 23 by norm_num)
      calc (2 ^ 23 + k % 2 ^ 23) * 2 ^ (k / 2 ^ 23 - 1)
          < (2 ^ 23 * 2) * 2 ^ (k / 2 ^ 23 - 1) := Nat.mul_lt_mul_of_pos_right (by omega) hp
        _ = 2 ^ 23 * (2 ^ (k / 2 ^ 23 - 1) * 2 * 1) := by ring
        _ ≤ (2 ^ 23 + l % 2 ^ 23) * (2 ^ (k / 2 ^ 23 - 1) * 2 * 2 ^ d) :=
            Nat.mul_le_mul (by omega) (Nat.mul_le_mul_left _ this)

theorem ulpUnits_zero : ulpUnits 0 = 0 := by decide

/-- The value of the `i`-th float counted from zero, in units of the smallest denormal. -/
def ordUnits (i : ℤ) : ℤ := if i < 0 then -(ulpUnits (-i).toNat : ℤ) else ulpUnits i.toNat

theorem ordUnits_strictMono {i j : ℤ} (h : i < j) (hi : -2 ^ 31 < i) (hj : j < 2 ^ 31) :
    ordUnits i < ordUnits j := by
  unfold ordUnits
  by_cases h0 : i < 0
  · rw [if_pos h0]
    by_cases h1 : j < 0
    · rw [if_pos h1]
      have := ulpUnits_strictMono (show (-j).toNat < (-i).toNat by omega) (by omega)
      omega
    · rw [if_neg h1]
      have := ulpUnits_strictMono (show 0 < (-i).toNat by omega) (by omega)
      rw [ulpUnits_zero] at this
      omega
  · rw [if_neg h0, if_neg (by omega)]
    have := ulpUnits_strictMono (show i.toNat < j.toNat by omega) (by omega)
    omega

theorem ordUnits_le_iff {i j : ℤ} (hi : -2 ^ 31 < i) (hi' : i < 2 ^ 31) (hj : -2 ^ 31 < j)
    (hj' : j < 2 ^ 31) : ordUnits i ≤ ordUnits j ↔ i ≤ j := by
  constructor
  · intro h
    by_contra hc
    exact absurd (ordUnits_strictMono (not_le.1 hc) hj hi') (not_lt.2 h)
  · intro h
    rcases eq_or_lt_of_le h with rfl | h
    · exact le_rfl
    · exact (ordUnits_strictMono h hi hj').le

/-- `ulpsInt` is the signed ordinal of the pattern. -/
theorem ulpsInt_eq (f : BitVec 32) :
    ulpsInt f = if f.toNat < 2 ^ 31 then (f.toNat : ℤ) else 2 ^ 31 - (f.toNat : ℤ) := by
  have hlt := f.isLt
  unfold ulpsInt
  have h1 := BitVec.toInt_eq_toNat_cond f
  by_cases h : f.toNat < 2 ^ 31
  · rw [if_pos (by omega)] at h1
    rw [if_neg (by omega), if_pos h, h1]
  · rw [if_neg (by omega)] at h1
    rw [if_pos (by omega), if_neg h, BitVec.toInt_eq_toNat_cond, BitVec.toNat_sub]
    simp only [BitVec.toNat_ofNat]
    split <;> omega

theorem ulpsInt_bounds (f : BitVec 32) : -2 ^ 31 < ulpsInt f ∧ ulpsInt f < 2 ^ 31 := by
  have hlt := f.isLt
  rw [ulpsInt_eq]; split <;> omega

theorem f32Value_eq_ord (f : BitVec 32) :
    f32Value f.toNat = (ordUnits (ulpsInt f) : ℚ) * 2 ^ (-149 : ℤ) := by
  have hlt := f.isLt
  unfold f32Value fValue
  rw [ulpsInt_eq, fMag_eq_units]
  have hper : ulpUnits f.toNat = ulpUnits (f.toNat % 2 ^ 31) := by
    unfold ulpUnits
    have h1 : fExp 8 23 (f.toNat % 2 ^ 31) = fExp 8 23 f.toNat := by unfold fExp; omega
    have h2 : fMan 23 (f.toNat % 2 ^ 31) = fMan 23 f.toNat := by unfold fMan; omega
    rw [h1, h2]
  by_cases h : f.toNat < 2 ^ 31
  · have hs : fSign 8 23 f.toNat = 0 := by unfold fSign; omega
    rw [hs, if_pos h]
    unfold ordUnits
    rw [if_neg (by omega)]
    simp
  · have hs : fSign 8 23 f.toNat = 1 := by unfold fSign; omega
    rw [hs, if_neg h, hper]
    unfold ordUnits
    by_cases h0 : f.toNat = 2 ^ 31
    · rw [h0]; norm_num [ulpUnits_zero]
    · rw [if_pos (by omega)]
      have : (-(2 ^ 31 - (f.toNat : ℤ))).toNat = f.toNat % 2 ^ 31 := by omega
      rw [this]; push_cast; ring

theorem two_zpow_pos (z : ℤ) : (0 : ℚ) < 2 ^ z := zpow_pos (by norm_num) z

theorem f32Value_le_iff (a b : BitVec 32) :
    f32Value a.toNat ≤ f32Value b.toNat ↔ ulpsInt a ≤ ulpsInt b := by
  have ha := ulpsInt_bounds a
  have hb := ulpsInt_bounds b
  rw [f32Value_eq_ord, f32Value_eq_ord, mul_le_mul_iff_left₀ (two_zpow_pos _), Int.cast_le,
    ordUnits_le_iff ha.1 ha.2 hb.1 hb.2]

theorem f32Value_lt_iff (a b : BitVec 32) :
    f32Value a.toNat < f32Value b.toNat ↔ ulpsInt a < ulpsInt b := by
  rw [← not_le, f32Value_le_iff, not_le]

/-- Ordinals of finite floats. -/
theorem finite_iff_ord (f : BitVec 32) :
    FFinite 8 23 f.toNat ↔ |ulpsInt f| < 255 * 2 ^ 23 := by
  have hlt := f.isLt
  rw [ulpsInt_eq, abs_lt]
  unfold FFinite fExp
  split <;> omega

/-- Every ordinal in range is the ordinal of a pattern. -/
theorem exists_pattern (i : ℤ) (h : -2 ^ 31 < i) (h' : i < 2 ^ 31) : ∃ f : BitVec 32, ulpsInt f = i := by
  by_cases h0 : 0 ≤ i
  · refine ⟨BitVec.ofNat 32 i.toNat, ?_⟩
    rw [ulpsInt_eq]
    simp only [BitVec.toNat_ofNat]
    rw [if_pos (by omega)]; omega
  · refine ⟨BitVec.ofNat 32 (2 ^ 31 + (-i).toNat), ?_⟩
    rw [ulpsInt_eq]
    simp only [BitVec.toNat_ofNat]
    rw [if_neg (by omega)]; omega

/-- The number of representable values above one finite float up to another. -/
theorem ncard_floatsBetween (a b : BitVec 32) (ha : FFinite 8 23 a.toNat)
    (hb : FFinite 8 23 b.toNat) :
    ((floatsBetween (f32Value a.toNat) (f32Value b.toNat)).ncard : ℤ) = |ulpsInt a - ulpsInt b| := by
  wlog hle : ulpsInt a ≤ ulpsInt b generalizing a b
  · have := this b a hb ha (by omega)
    rw [abs_sub_comm, ← this]
    unfold floatsBetween
    rw [min_comm, max_comm]
  have hval : f32Value a.toNat ≤ f32Value b.toNat := (f32Value_le_iff a b).2 hle
  have h1 := finite_iff_ord a
  have h2 := finite_iff_ord b
  have h3 := h1.1 ha
  have h4 := h2.1 hb
  rw [abs_lt] at h3 h4
  have himg : floatsBetween (f32Value a.toNat) (f32Value b.toNat) =
      (fun i : ℤ => (ordUnits i : ℚ) * 2 ^ (-149 : ℤ)) '' (↑(Finset.Ioc (ulpsInt a) (ulpsInt b)) : Set ℤ) := by
    ext r
    simp only [floatsBetween, min_eq_left hval, max_eq_right hval, Set.mem_ofPred_eq, Set.mem_image,
      Finset.coe_Ioc, Set.mem_Ioc]
    constructor
    · rintro ⟨⟨c, hc, hcf, rfl⟩, hlt, hle'⟩
      have hcn : (BitVec.ofNat 32 c).toNat = c := by simp only [BitVec.toNat_ofNat]; omega
      rw [← hcn] at hlt hle' ⊢
      exact ⟨ulpsInt (BitVec.ofNat 32 c), ⟨(f32Value_lt_iff _ _).1 hlt, (f32Value_le_iff _ _).1 hle'⟩,
        (f32Value_eq_ord _).symm⟩
    · rintro ⟨i, ⟨hi1, hi2⟩, rfl⟩
      obtain ⟨f, rfl⟩ := exists_pattern i (by omega) (by omega)
      rw [← f32Value_eq_ord]
      refine ⟨⟨f.toNat, f.isLt, (finite_iff_ord f).2 ?_, rfl⟩, (f32Value_lt_iff _ _).2 hi1,
        (f32Value_le_iff _ _).2 hi2⟩
      rw [abs_lt]; omega
  rw [himg, Set.InjOn.ncard_image, Set.ncard_coe_finset, Int.card_Ioc]
  · rw [abs_of_nonpos (by omega)]; omega
  · intro i hi j hj hij
    simp only [Finset.coe_Ioc, Set.mem_Ioc] at hi hj
    have hij' : ordUnits i = ordUnits j := by
      have := mul_right_cancel₀ (two_zpow_pos (-149)).ne' hij
      exact_mod_cast this
    apply le_antisymm
    · exact (ordUnits_le_iff (by omega) (by omega) (by omega) (by omega)).1 hij'.le
    · exact (ordUnits_le_iff (by omega) (by omega) (by omega) (by omega)).1 hij'.ge

end MGL
