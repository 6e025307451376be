import Verif.Model.SinTable
import Mathlib.Analysis.SpecialFunctions.Trigonometric.Bounds
import Mathlib.Topology.MetricSpace.Lipschitz

/-! Property C51: the table-driven sine and cosine stay inside their table and are accurate. -/

namespace MGL

open Real

private theorem sinTable_mask (m : ℤ) : sinTable (maskAngle m) = some (sin (m * π / 32768)) := by
  unfold sinTable maskAngle
  rw [if_pos ⟨by omega, by omega⟩]
  congr 1
  have h : (m : ℝ) = ((m % 65536 : ℤ) : ℝ) + 65536 * ((m / 65536 : ℤ) : ℝ) := by
    have := Int.emod_add_mul_ediv m 65536
    exact_mod_cast this.symm
  rw [h, ← sin_add_int_mul_two_pi _ (m / 65536)]
  congr 1
  ring

private theorem chk_some {x : ℤ} (h1 : -(2 ^ 31) ≤ x) (h2 : x < 2 ^ 31) : chk 32 x = some x := by
  unfold chk; rw [if_pos ⟨by norm_num at *; omega, by norm_num at *; omega⟩]

/-- For every `int` index other than the most negative one, `Sin` reads inside the table, and what it
reads is the sine of the index angle. -/
theorem C51_sin_index (i : ℤ) (h1 : -(2 ^ 31) < i) (h2 : i < 2 ^ 31) :
    sinLookupIdx i = some (sin (i * π / 32768)) := by
  unfold sinLookupIdx
  by_cases h : i < 0
  · rw [if_pos h, chk_some (by omega) (by omega)]
    simp -implicitDefEqProofs only [Option.bind_eq_bind, Option.bind_some, sinTable_mask,
      Option.pure_def]
    rw [← sin_neg]
    congr 2
    push_cast; ring
  · rw [if_neg h, sinTable_mask]

example := C51_sin_index (-100000) (by norm_num) (by norm_num)

/-- For every index whose quarter shift does not overflow, `Cos` reads inside the table, and what it
reads is the cosine of the index angle. -/
theorem C51_cos_index (i : ℤ) (h1 : -(2 ^ 31 - 16384) < i) (h2 : i < 2 ^ 31 - 16384) :
    cosLookupIdx i = some (cos (i * π / 32768)) := by
  unfold cosLookupIdx
  by_cases h : i < 0
  · rw [if_pos h, chk_some (by omega) (by omega)]
    simp -implicitDefEqProofs only [Option.bind_eq_bind, Option.bind_some, sinTable_mask]
    rw [← cos_pi_div_two_sub]
    congr 2
    push_cast; ring
  · rw [if_neg h, chk_some (by omega) (by omega)]
    simp -implicitDefEqProofs only [Option.bind_eq_bind, Option.bind_some, sinTable_mask]
    rw [← cos_pi_div_two_sub, ← cos_neg (i * π / 32768)]
    congr 2
    push_cast; ring

example := C51_cos_index (-100000) (by norm_num) (by norm_num)

/-- `SinCos` reads inside the table and returns the right values unless the index is a negative
multiple of the table size. Full claim (all indices) is false: `C51_sincos_out_of_bounds`. -/
theorem C51_sincos_index_partial (i : ℤ) (h1 : -(2 ^ 31) < i)
    (h : 0 ≤ i ∨ i % 65536 ≠ 0) :
    sincosLookupIdx i = some (sin (i * π / 32768), cos (i * π / 32768)) := by
  unfold sincosLookupIdx
  have hsin : ∀ j : ℤ, (0 ≤ j ∧ j < 65536) → j % 65536 = i % 65536 →
      sinTable j = some (sin (i * π / 32768)) ∧
      sinTable (maskAngle (16384 + j)) = some (cos (i * π / 32768)) := by
    intro j hj hji
    have e1 : sinTable j = sinTable (maskAngle i) := by
      congr 1; unfold maskAngle; omega
    have e2 : maskAngle (16384 + j) = maskAngle (16384 + i) := by unfold maskAngle; omega
    refine ⟨by rw [e1, sinTable_mask], ?_⟩
    rw [e2, sinTable_mask, ← cos_pi_div_two_sub, ← cos_neg (i * π / 32768)]
    congr 2
    push_cast; ring
  by_cases hi : i ≥ 0
  · rw [if_pos hi]
    obtain ⟨a, b⟩ := hsin (maskAngle i) (by unfold maskAngle; omega) (by unfold maskAngle; omega)
    simp -implicitDefEqProofs only [Option.bind_eq_bind, Option.bind_some, a, b, Option.pure_def]
  · rw [if_neg hi, chk_some (by omega) (by omega)]
    have h' : i % 65536 ≠ 0 := by tauto
    obtain ⟨a, b⟩ := hsin (65536 - maskAngle (-i)) (by unfold maskAngle; omega)
      (by unfold maskAngle; omega)
    simp -implicitDefEqProofs only [Option.bind_eq_bind, Option.map_some, Option.bind_some, a, b,
      Option.pure_def]

example := C51_sincos_index_partial (-100000) (by norm_num) (by norm_num)

/-- The defect: for every negative multiple of the table size `SinCos` reads one element behind the
table (the model's `none`). -/
theorem C51_sincos_out_of_bounds (k : ℤ) (h1 : k < 0) (h2 : -(2 ^ 15) < k) :
    sincosLookupIdx (65536 * k) = none := by
  unfold sincosLookupIdx
  rw [if_neg (by omega), chk_some (by omega) (by omega)]
  have : 65536 - maskAngle (-(65536 * k)) = 65536 := by unfold maskAngle; omega
  simp -implicitDefEqProofs only [Option.bind_eq_bind, Option.map_some, Option.bind_some, this]
  unfold sinTable
  rw [if_neg (by omega)]
  rfl

example := C51_sincos_out_of_bounds (-3) (by norm_num) (by norm_num)

/-- The 16-bit angle version always stays inside the table. -/
theorem C51_sincos_u16 (a : BitVec 16) :
    sincosLookupU16 a = some (sin (a.toNat * π / 32768), cos (a.toNat * π / 32768)) := by
  have hlt := a.isLt
  have h1 : sinTable (a.toNat : ℤ) = some (sin (a.toNat * π / 32768)) := by
    have := sinTable_mask a.toNat
    unfold maskAngle at this
    rw [Int.emod_eq_of_lt (by omega) (by omega)] at this
    rw [this]; push_cast; rfl
  have e : ((BitVec.ofNat 16 16384 + a).toNat : ℤ) = maskAngle (16384 + a.toNat) := by
    unfold maskAngle
    rw [BitVec.toNat_add, BitVec.toNat_ofNat]
    omega
  have h2 : sinTable (((BitVec.ofNat 16 16384 + a).toNat : ℕ) : ℤ) =
      some (cos (a.toNat * π / 32768)) := by
    rw [e, sinTable_mask, ← cos_pi_div_two_sub, ← cos_neg]
    refine congrArg (fun t => some (cos t)) ?_
    push_cast; ring
  unfold sincosLookupU16
  simp -implicitDefEqProofs only [Option.bind_eq_bind, Option.bind_some, h1, h2, Option.pure_def]

private theorem trunc_close (x : ℝ) :
    |((if 0 ≤ x then ⌊x⌋ else ⌈x⌉ : ℤ) : ℝ) - x| ≤ 1 := by
  rw [abs_le]
  split
  · have := Int.floor_le x; have := Int.lt_floor_add_one x; constructor <;> linarith
  · have := Int.le_ceil x; have := Int.ceil_lt_add_one x; constructor <;> linarith

private theorem angle_close (n : ℝ) (i : ℤ) (h : |(i : ℝ) - n * (32768 / π)| ≤ 1) :
    |(i * π / 32768) - n| ≤ π / 32768 := by
  have hp := pi_pos
  have : (i * π / 32768) - n = ((i : ℝ) - n * (32768 / π)) * (π / 32768) := by
    field_simp
  rw [this, abs_mul, abs_of_pos (show 0 < π / 32768 by positivity)]
  nlinarith [show 0 < π / 32768 by positivity]

/-- Accuracy: for every angle below about 2^31 table steps the answers differ from the true sine and
cosine by at most one table step. -/
theorem C51_accuracy (n : ℝ) (hn : |n * (32768 / π)| < 2 ^ 31 - 16385) :
    (∃ s, sinLookup n = some s ∧ |s - sin n| ≤ π / 32768) ∧
    (∃ c, cosLookup n = some c ∧ |c - cos n| ≤ π / 32768) := by
  set x := n * (32768 / π) with hx
  set i : ℤ := if 0 ≤ x then ⌊x⌋ else ⌈x⌉ with hi
  have hc : |(i : ℝ) - x| ≤ 1 := trunc_close x
  rw [abs_lt] at hn
  rw [abs_le] at hc
  have b1 : -(2 ^ 31 - 16384 : ℝ) < i := by linarith [hn.1, hc.1]
  have b2 : (i : ℝ) < 2 ^ 31 - 16384 := by linarith [hn.2, hc.2]
  have b1' : -(2 ^ 31 - 16384) < i := by exact_mod_cast b1
  have b2' : i < 2 ^ 31 - 16384 := by exact_mod_cast b2
  have ht : cTruncInt x = some i := by
    unfold cTruncInt
    exact chk_some (by omega) (by omega)
  have ha := angle_close n i (abs_le.2 hc)
  constructor
  · refine ⟨sin (i * π / 32768), ?_, ?_⟩
    · unfold sinLookup
      rw [← hx, ht]
      exact C51_sin_index i (by omega) (by omega)
    · have := Real.lipschitzWith_sin.dist_le_mul (i * π / 32768) n
      rw [Real.dist_eq, Real.dist_eq] at this
      simp at this
      linarith
  · refine ⟨cos (i * π / 32768), ?_, ?_⟩
    · unfold cosLookup
      rw [← hx, ht]
      exact C51_cos_index i (by omega) (by omega)
    · have := Real.lipschitzWith_cos.dist_le_mul (i * π / 32768) n
      rw [Real.dist_eq, Real.dist_eq] at this
      simp at this
      linarith

-- the hypotheses are met by ordinary angles, and the defect by the angle -2 pi
example : |(1 : ℝ) * (32768 / π)| < 2 ^ 31 - 16385 := by
  have := Real.two_le_pi
  rw [abs_of_pos (by positivity), one_mul, div_lt_iff₀ (by positivity)]
  linarith
example : sincosLookup (-(2 * π)) = none := by
  have hp := pi_pos
  have h : -(2 * π) * (32768 / π) = ((-65536 : ℤ) : ℝ) := by push_cast; field_simp; norm_num
  unfold sincosLookup cTruncInt
  rw [h, if_neg (by norm_num), Int.ceil_intCast, chk_some (by norm_num) (by norm_num)]
  exact C51_sincos_out_of_bounds (-1) (by norm_num) (by norm_num)

end MGL
