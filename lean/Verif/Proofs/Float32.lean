import Verif.Spec.Float32
import Mathlib.Data.Set.Finite.Lemmas
import Mathlib.Data.Finite.Prod
import Mathlib.Order.Interval.Finset.Basic
import Mathlib.Data.Int.Interval
import Mathlib.Data.Rat.Floor
import Mathlib.Algebra.Order.Round
import Mathlib.Algebra.Order.Archimedean.Basic
import Mathlib.Tactic.Ring
import Mathlib.Tactic.FieldSimp
import Mathlib.Tactic.Linarith
import Mathlib.Tactic.Positivity
import Mathlib.Tactic.NormNum
import Mathlib.Tactic.LinearCombination

/-! Lemmas about round-to-nearest. -/

namespace MGL

open Spec

theorem isF32_int (m : ℤ) (h : |m| < 2 ^ 24) : IsF32 m :=
  ⟨m, 0, h, by norm_num, by norm_num, by simp⟩

theorem isF32_zero : IsF32 0 := by simpa using isF32_int 0 (by norm_num)
theorem isF32_one : IsF32 1 := by simpa using isF32_int 1 (by norm_num)

theorem isF32_neg {x : ℚ} (h : IsF32 x) : IsF32 (-x) := by
  obtain ⟨m, e, h1, h2, h3, rfl⟩ := h
  exact ⟨-m, e, by rwa [abs_neg], h2, h3, by push_cast; ring⟩

theorem isF32_abs_le {x : ℚ} (h : IsF32 x) : |x| ≤ maxF32 := by
  obtain ⟨m, e, h1, h2, h3, rfl⟩ := h
  rw [abs_mul, abs_of_pos (show (0 : ℚ) < 2 ^ e by positivity)]
  unfold maxF32
  have a : |(m : ℚ)| ≤ 2 ^ 24 - 1 := by
    have : |m| ≤ 2 ^ 24 - 1 := by omega
    exact_mod_cast this
  have b : (2 : ℚ) ^ e ≤ 2 ^ (104 : ℤ) := zpow_le_zpow_right₀ (by norm_num) h3
  have c : (2 : ℚ) ^ (104 : ℤ) = 2 ^ 104 := by norm_cast
  rw [c] at b
  exact mul_le_mul a b (by positivity) (by norm_num)

/-- Rounding is exact on representable numbers. -/
theorem rnd_fix {r : ℚ → ℚ} (hr : RoundsToNearest r) {x : ℚ} (h : IsF32 x) : r x = x := by
  have := (hr x (isF32_abs_le h)).2 x h
  simp only [sub_self, abs_zero, abs_nonpos_iff] at this
  linarith

/-- Rounding is monotone. -/
theorem rnd_mono {r : ℚ → ℚ} (hr : RoundsToNearest r) {x y : ℚ} (hx : |x| ≤ maxF32)
    (hy : |y| ≤ maxF32) (h : x ≤ y) : r x ≤ r y := by
  rcases h.eq_or_lt with rfl | h
  · exact le_rfl
  by_contra hc
  push Not at hc
  have h1 := (hr x hx).2 (r y) (hr y hy).1
  have h2 := (hr y hy).2 (r x) (hr x hx).1
  have e1 : (r x - x) ^ 2 ≤ (r y - x) ^ 2 := sq_le_sq.2 h1
  have e2 : (r y - y) ^ 2 ≤ (r x - y) ^ 2 := sq_le_sq.2 h2
  nlinarith

/-- The relative error of rounding a number in the normal range is at most `2^-24`. -/
theorem rnd_rel {r : ℚ → ℚ} (hr : RoundsToNearest r) {x : ℚ} (h1 : 2 ^ (-126 : ℤ) ≤ x)
    (h2 : x ≤ maxF32) : |r x - x| ≤ x * 2 ^ (-24 : ℤ) := by
  have hpos : 0 < x := lt_of_lt_of_le (by positivity) h1
  obtain ⟨k, hk1, hk2⟩ := exists_mem_Ico_zpow hpos (show (1 : ℚ) < 2 by norm_num)
  have hk126 : -126 ≤ k := by
    by_contra hc
    have : (2 : ℚ) ^ (k + 1) ≤ 2 ^ (-126 : ℤ) := zpow_le_zpow_right₀ (by norm_num) (by omega)
    linarith
  have hk127 : k ≤ 127 := by
    by_contra hc
    have : (2 : ℚ) ^ (128 : ℤ) ≤ 2 ^ k := zpow_le_zpow_right₀ (by norm_num) (by omega)
    have e : (2 : ℚ) ^ (128 : ℤ) = 2 ^ 128 := by norm_cast
    unfold maxF32 at h2
    rw [e] at this
    norm_num at this h2
    linarith
  set e := k - 23 with he
  have hE : (0 : ℚ) < 2 ^ e := by positivity
  have hk : (2 : ℚ) ^ k = 2 ^ 23 * 2 ^ e := by
    rw [show k = 23 + e by omega, zpow_add₀ (by norm_num)]; norm_cast
  have hk' : (2 : ℚ) ^ (k + 1) = 2 ^ 24 * 2 ^ e := by
    rw [show k + 1 = 24 + e by omega, zpow_add₀ (by norm_num)]; norm_cast
  set m := round (x / 2 ^ e) with hm
  have hmd : |x / 2 ^ e - m| ≤ 1 / 2 := abs_sub_round _
  have hy : IsF32 (m * 2 ^ e) := by
    have l1 : (2 : ℚ) ^ 23 ≤ x / 2 ^ e := by rw [le_div_iff₀ hE, ← hk]; exact hk1
    have l2 : x / 2 ^ e < 2 ^ 24 := by rw [div_lt_iff₀ hE, ← hk']; exact hk2
    rw [abs_le] at hmd
    have m1 : (0 : ℚ) < m := by linarith
    have m1' : 0 < m := by exact_mod_cast m1
    have m2 : (m : ℚ) < 2 ^ 24 + 1 := by linarith
    have m2' : m < 2 ^ 24 + 1 := by exact_mod_cast m2
    by_cases hm24 : m = 2 ^ 24
    · refine ⟨2 ^ 23, e + 1, by norm_num, by omega, ?_, ?_⟩
      · by_contra hc
        have : e = 104 := by omega
        rw [this] at hmd
        have e104 : (2 : ℚ) ^ (104 : ℤ) = 2 ^ 104 := by norm_cast
        rw [hm24, e104] at hmd
        have : x / 2 ^ 104 ≤ 2 ^ 24 - 1 := by
          rw [div_le_iff₀ (by positivity)]; exact h2
        push_cast at hmd
        linarith [hmd.1]
      · rw [hm24, zpow_add₀ (by norm_num)]; push_cast; ring
    · exact ⟨m, e, by rw [abs_of_pos m1']; omega, by omega, by omega, rfl⟩
  have hx : |x| ≤ maxF32 := by rwa [abs_of_pos hpos]
  refine le_trans ((hr x hx).2 _ hy) ?_
  have e1 : (m : ℚ) * 2 ^ e - x = -((x / 2 ^ e - m) * 2 ^ e) := by field_simp; ring
  rw [e1, abs_neg, abs_mul, abs_of_pos hE]
  have e2 : (2 : ℚ) ^ (-24 : ℤ) = 1 / 2 ^ 24 := by norm_num
  rw [e2]
  have : (2 : ℚ) ^ 23 * 2 ^ e ≤ x := by rw [← hk]; exact hk1
  nlinarith

theorem maxF32_pos : 0 < maxF32 := by unfold maxF32; norm_num

theorem isF32_maxF32 : IsF32 maxF32 :=
  ⟨2 ^ 24 - 1, 104, by norm_num, by norm_num, by norm_num, by unfold maxF32; norm_num⟩

/-- A difference of two binary32 numbers that is below the normal range is itself representable. -/
theorem isF32_small_sub {a b : ℚ} (ha : IsF32 a) (hb : IsF32 b) (h0 : |b - a| < 2 ^ (-125 : ℤ)) :
    IsF32 (b - a) := by
  obtain ⟨m, e, h1, h2, h3, rfl⟩ := ha
  obtain ⟨n, f, i1, i2, i3, rfl⟩ := hb
  have conv : ∀ (m e : ℤ), -149 ≤ e →
      (m : ℚ) * 2 ^ e = ((m * 2 ^ (e + 149).toNat : ℤ) : ℚ) * 2 ^ (-149 : ℤ) := by
    intro m e he
    have : (2 : ℚ) ^ e = 2 ^ (e + 149).toNat * 2 ^ (-149 : ℤ) := by
      rw [← zpow_natCast, ← zpow_add₀ (by norm_num)]
      congr 1
      omega
    rw [this]; push_cast; ring
  rw [conv m e h2, conv n f i2, ← sub_mul] at h0 ⊢
  have e0 : (2 : ℚ) ^ (-125 : ℤ) = 2 ^ 24 * 2 ^ (-149 : ℤ) := by
    rw [show (-125 : ℤ) = 24 + (-149) by norm_num, zpow_add₀ (by norm_num)]; norm_cast
  have hp : (0 : ℚ) < 2 ^ (-149 : ℤ) := by positivity
  rw [abs_mul, abs_of_pos hp, e0] at h0
  have h0' := lt_of_mul_lt_mul_right h0 hp.le
  refine ⟨n * 2 ^ (f + 149).toNat - m * 2 ^ (e + 149).toNat, -149, ?_, le_rfl, by norm_num, ?_⟩
  · exact_mod_cast h0'
  · push_cast; ring

theorem isF32_finite : {x : ℚ | IsF32 x}.Finite := by
  apply ((Set.finite_Icc (-(2 : ℤ) ^ 24) (2 ^ 24)).prod (Set.finite_Icc (-149 : ℤ) 104)
    |>.image (fun p : ℤ × ℤ => (p.1 : ℚ) * 2 ^ p.2)).subset
  rintro x ⟨m, e, h1, h2, h3, rfl⟩
  rw [abs_lt] at h1
  exact ⟨(m, e), ⟨⟨by omega, by omega⟩, h2, h3⟩, rfl⟩

/-- A round-to-nearest operation exists (so theorems about all of them are not vacuous). -/
theorem exists_rounding : ∃ r, RoundsToNearest r := by
  have : ∀ x : ℚ, ∃ y, IsF32 y ∧ ∀ z, IsF32 z → |y - x| ≤ |z - x| := by
    intro x
    obtain ⟨y, hy, h⟩ := Set.exists_min_image {x : ℚ | IsF32 x} (fun z => |z - x|) isF32_finite
      ⟨0, isF32_zero⟩
    exact ⟨y, hy, h⟩
  choose r h using this
  exact ⟨r, fun x _ => h x⟩

end MGL
