import Verif.Proofs.Ulps

/-! Property C50: comparison in units of the last place. -/

namespace MGL

open Spec

/-- When the call has defined behaviour, `EqualUlps(a, b, n)` of finite floats answers true exactly
when at most `n` steps between neighbouring representable values lead from one to the other. Full
claim: no definedness hypothesis; see `C50_equalUlps_undefined`. -/
theorem C50_equalUlps_partial (a b : BitVec 32) (n : ℕ) (r : Bool) (ha : FFinite 8 23 a.toNat)
    (hb : FFinite 8 23 b.toNat) (hdef : equalUlps a b n = some r) :
    r = true ↔ (floatsBetween (f32Value a.toNat) (f32Value b.toNat)).ncard ≤ n := by
  have hc := ncard_floatsBetween a b ha hb
  unfold equalUlps chk absInt at hdef
  split at hdef
  · simp -implicitDefEqProofs only [Option.bind_eq_bind, Option.bind_some] at hdef
    split at hdef
    · rename_i h
      simp -implicitDefEqProofs only [Option.bind_some, Option.pure_def, Option.some.injEq] at hdef
      rw [← hdef, decide_eq_true_iff]
      rw [abs_of_nonneg h] at hc
      omega
    · rename_i h
      unfold chk at hdef
      split at hdef
      · simp -implicitDefEqProofs only [Option.bind_some, Option.pure_def, Option.some.injEq] at hdef
        rw [← hdef, decide_eq_true_iff]
        rw [abs_of_neg (by omega)] at hc
        omega
      · simp at hdef
  · simp at hdef

example := C50_equalUlps_partial 0x3F800000#32 0x3F800005#32 7 true (by unfold FFinite; decide) (by unfold FFinite; decide) (by decide)

/-- The call is defined exactly when fewer than 2^31 steps separate the two floats. -/
theorem C50_equalUlps_defined_iff (a b : BitVec 32) (n : ℕ) (ha : FFinite 8 23 a.toNat)
    (hb : FFinite 8 23 b.toNat) :
    (∃ r, equalUlps a b n = some r) ↔
      (floatsBetween (f32Value a.toNat) (f32Value b.toNat)).ncard < 2 ^ 31 := by
  have hc := ncard_floatsBetween a b ha hb
  have hiff : (floatsBetween (f32Value a.toNat) (f32Value b.toNat)).ncard < 2 ^ 31 ↔
      |ulpsInt a - ulpsInt b| < 2 ^ 31 := by rw [← hc]; norm_cast
  rw [hiff, abs_lt]
  unfold equalUlps absInt chk
  generalize ulpsInt a - ulpsInt b = d
  by_cases h1 : -(2 ^ (32 - 1)) ≤ d ∧ d < 2 ^ (32 - 1)
  · rw [if_pos h1]
    simp -implicitDefEqProofs only [Option.bind_eq_bind, Option.bind_some]
    by_cases h2 : d ≥ 0
    · rw [if_pos h2]
      simp -implicitDefEqProofs only [Option.bind_some, Option.pure_def]
      norm_num at h1 ⊢
      omega
    · rw [if_neg h2]
      by_cases h3 : -(2 ^ (32 - 1)) ≤ -d ∧ -d < 2 ^ (32 - 1)
      · rw [if_pos h3]
        simp -implicitDefEqProofs only [Option.bind_some, Option.pure_def]
        norm_num at h1 h3 ⊢
        omega
      · rw [if_neg h3]
        constructor
        · rintro ⟨r, hr⟩; simp at hr
        · intro h4; exact absurd ⟨by norm_num; omega, by norm_num; omega⟩ h3
  · rw [if_neg h1]
    constructor
    · rintro ⟨r, hr⟩; simp at hr
    · intro h2; exact absurd ⟨by norm_num; omega, by norm_num; omega⟩ h1

/-- `EqualUlps` is symmetric, also in being undefined. -/
theorem C50_equalUlps_symm (a b : BitVec 32) (n : ℕ) (ha : FFinite 8 23 a.toNat)
    (hb : FFinite 8 23 b.toNat) : equalUlps a b n = equalUlps b a n := by
  have hcomm : floatsBetween (f32Value a.toNat) (f32Value b.toNat) =
      floatsBetween (f32Value b.toNat) (f32Value a.toNat) := by
    unfold floatsBetween; rw [min_comm, max_comm]
  by_cases hd : (floatsBetween (f32Value a.toNat) (f32Value b.toNat)).ncard < 2 ^ 31
  · obtain ⟨r, hr⟩ := (C50_equalUlps_defined_iff a b n ha hb).2 hd
    obtain ⟨r', hr'⟩ := (C50_equalUlps_defined_iff b a n hb ha).2 (hcomm ▸ hd)
    have h1 := C50_equalUlps_partial a b n r ha hb hr
    have h2 := C50_equalUlps_partial b a n r' hb ha hr'
    rw [hcomm] at h1
    rw [hr, hr']
    cases r <;> cases r' <;> simp_all <;> omega
  · have h1 := mt (C50_equalUlps_defined_iff a b n ha hb).1 hd
    have h2 := mt (C50_equalUlps_defined_iff b a n hb ha).1 (hcomm ▸ hd)
    push Not at h1 h2
    rw [Option.eq_none_iff_forall_ne_some.2 h1, Option.eq_none_iff_forall_ne_some.2 h2]

/-- Plus zero and minus zero are equal. -/
theorem C50_equalUlps_zeros : equalUlps 0#32 0x80000000#32 0 = some true := by decide

/-- The defect: comparing the largest float with its negation overflows the signed subtraction. -/
theorem C50_equalUlps_undefined : FFinite 8 23 (0x7F7FFFFF#32).toNat ∧
    FFinite 8 23 (0xFF7FFFFF#32).toNat ∧ equalUlps 0x7F7FFFFF#32 0xFF7FFFFF#32 10 = none := by
  refine ⟨by unfold FFinite; decide, by unfold FFinite; decide, by decide⟩

-- 1.0f against the float three steps above, and across zero
example : equalUlps 0x3F800000#32 0x3F800003#32 3 = some true ∧
    equalUlps 0x3F800000#32 0x3F800003#32 2 = some false ∧
    equalUlps 0x00000002#32 0x80000001#32 3 = some true := by decide

end MGL
