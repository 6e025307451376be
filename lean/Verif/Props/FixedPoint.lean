import Verif.Model.FixedPoint
import Verif.Spec.FixedPoint
import Mathlib.Tactic.Ring
import Mathlib.Tactic.FieldSimp
import Mathlib.Tactic.Linarith
import Mathlib.Tactic.Positivity
import Mathlib.Tactic.NormNum
import Mathlib.Tactic.LinearCombination

/-! Property C12: fixed point arithmetic against exact rational arithmetic. -/

namespace MGL

open Spec

private theorem chk_eq_some {w : ℕ} {x r : ℤ} : chk w x = some r ↔ InRange w x ∧ r = x := by
  unfold chk InRange
  split <;> simp_all [eq_comm]

private theorem p2 (F : ℕ) : (0 : ℚ) < 2 ^ F := by positivity

private theorem pow_sub_q {F F2 : ℕ} (h : F2 ≤ F) : (2 : ℚ) ^ F = 2 ^ (F - F2) * 2 ^ F2 := by
  rw [← pow_add]; congr 1; omega

private theorem floor_div_pow (v : ℤ) (n : ℕ) : ⌊(v : ℚ) / 2 ^ n⌋ = v / 2 ^ n := by
  have := Rat.floor_intCast_div_natCast v (2 ^ n)
  push_cast at this
  exact this

/-- Constructing from an integer is exact. -/
theorem C12_ofInt {w F : ℕ} {v r : ℤ} (h : fpOfInt w F v = some r) : fixVal F r = v := by
  obtain ⟨-, rfl⟩ := chk_eq_some.1 h
  unfold fixVal
  have := p2 F
  push_cast
  field_simp

example := C12_ofInt (w := 32) (F := 8) (v := -3) (r := -768) (by decide)

/-- `FixedPoint(whole, frac)` is `whole + frac/2^F`. -/
theorem C12_ofPair {w F : ℕ} {a b r : ℤ} (h : fpOfPair w F a b = some r) :
    fixVal F r = a + b / 2 ^ F := by
  unfold fpOfPair at h
  simp only [Option.bind_eq_bind, Option.bind_eq_some_iff, chk_eq_some] at h
  obtain ⟨x, ⟨-, rfl⟩, -, rfl⟩ := h
  unfold fixVal
  have := p2 F
  push_cast
  field_simp

example := C12_ofPair (w := 32) (F := 8) (a := 3) (b := 5) (r := 773) (by decide)

/-- `FixedPoint(whole, n, d)` is `whole + n/d` with the fraction rounded towards zero: the error is
less than one unit in the last place. -/
theorem C12_ofRatio {w F : ℕ} {a n d r : ℤ} (h : fpOfRatio w F a n d = some r) :
    |fixVal F r - (a + n / d)| < 1 / 2 ^ F := by
  unfold fpOfRatio at h
  simp only [Option.bind_eq_bind, Option.bind_eq_some_iff, chk_eq_some] at h
  obtain ⟨x, ⟨-, rfl⟩, y, ⟨-, rfl⟩, q, hq, -, rfl⟩ := h
  split at hq
  · simp at hq
  rename_i hd
  obtain ⟨-, rfl⟩ := chk_eq_some.1 hq
  have hdq : (d : ℚ) ≠ 0 := by exact_mod_cast hd
  have hp := p2 F
  have key : ((n * 2 ^ F : ℤ) : ℚ) =
      d * ((n * 2 ^ F).tdiv d : ℤ) + ((n * 2 ^ F).tmod d : ℤ) := by
    exact_mod_cast (Int.mul_tdiv_add_tmod (n * 2 ^ F) d).symm
  have hm : |((n * 2 ^ F).tmod d : ℤ)| < |d| := by
    rw [Int.abs_eq_natAbs, Int.abs_eq_natAbs, Int.natAbs_tmod]
    exact_mod_cast Nat.mod_lt _ (by omega)
  have hmq : |(((n * 2 ^ F).tmod d : ℤ) : ℚ)| < |(d : ℚ)| := by exact_mod_cast hm
  have e : fixVal F (a * 2 ^ F + (n * 2 ^ F).tdiv d) - ((a : ℚ) + n / d) =
      -((((n * 2 ^ F).tmod d : ℤ) : ℚ) / d) / 2 ^ F := by
    unfold fixVal
    push_cast at key ⊢
    field_simp
    linear_combination (-1 : ℚ) * key
  rw [e, abs_div, abs_neg, abs_div, abs_of_pos hp]
  apply div_lt_div_of_pos_right _ hp
  rw [div_lt_one (abs_pos.2 hdq)]
  exact hmq

example := C12_ofRatio (w := 32) (F := 8) (a := 3) (n := 1) (d := 3) (r := 853) (by decide)

/-- `Int()` is the floor of the value, `Frac()` the rest, in units of `2^-F`. -/
theorem C12_int_frac (F : ℕ) (v : ℤ) :
    fpInt F v = ⌊fixVal F v⌋ ∧ (fpFrac F v : ℚ) / 2 ^ F = Int.fract (fixVal F v) := by
  have h1 : fpInt F v = ⌊fixVal F v⌋ := (floor_div_pow v F).symm
  refine ⟨h1, ?_⟩
  have hp := p2 F
  rw [Int.fract, ← h1]
  unfold fixVal fpInt fpFrac
  have : (v : ℚ) = (v % 2 ^ F : ℤ) + 2 ^ F * (v / 2 ^ F : ℤ) := by
    exact_mod_cast (Int.emod_add_mul_ediv v (2 ^ F)).symm
  field_simp
  linarith

/-- Addition with at most as many fraction bits on the right is exact; otherwise the right operand
is first rounded down to the precision of the left. -/
theorem C12_add {w F F2 : ℕ} {a b r : ℤ} (h : fpAdd w F F2 a b = some r) :
    fixVal F r = fixVal F a + (if F2 ≤ F then fixVal F2 b else roundDown F (fixVal F2 b)) := by
  unfold fpAdd at h
  have h1 := p2 F
  have h2 := p2 F2
  split at h
  · rename_i hF
    rw [if_pos (by omega)]
    simp only [Option.bind_eq_bind, Option.bind_eq_some_iff, chk_eq_some] at h
    obtain ⟨s, ⟨-, rfl⟩, -, rfl⟩ := h
    unfold fixVal
    have e := pow_sub_q (F := F) (F2 := F2) (by omega)
    push_cast
    rw [e]
    field_simp
  · split at h
    · rename_i hF
      rw [if_neg (by omega)]
      obtain ⟨-, rfl⟩ := chk_eq_some.1 h
      have e := pow_sub_q (F := F2) (F2 := F) (by omega)
      have h3 := p2 (F2 - F)
      have : fixVal F2 b * 2 ^ F = (b : ℚ) / 2 ^ (F2 - F) := by
        unfold fixVal; rw [e]; field_simp
      unfold roundDown
      rw [this, floor_div_pow]
      unfold fixVal
      push_cast
      ring
    · rename_i h3 h4
      have : F = F2 := by omega
      subst this
      rw [if_pos le_rfl]
      obtain ⟨-, rfl⟩ := chk_eq_some.1 h
      unfold fixVal; push_cast; ring

example := C12_add (w := 32) (F := 8) (F2 := 10) (a := 300) (b := 1027) (r := 556) (by decide)

/-- Subtraction, likewise. (The subtrahend is rounded down, so the difference is not.) -/
theorem C12_sub {w F F2 : ℕ} {a b r : ℤ} (h : fpSub w F F2 a b = some r) :
    fixVal F r = fixVal F a - (if F2 ≤ F then fixVal F2 b else roundDown F (fixVal F2 b)) := by
  unfold fpSub at h
  have h1 := p2 F
  have h2 := p2 F2
  split at h
  · rename_i hF
    rw [if_pos (by omega)]
    simp only [Option.bind_eq_bind, Option.bind_eq_some_iff, chk_eq_some] at h
    obtain ⟨s, ⟨-, rfl⟩, -, rfl⟩ := h
    unfold fixVal
    have e := pow_sub_q (F := F) (F2 := F2) (by omega)
    push_cast
    rw [e]
    field_simp
  · split at h
    · rename_i hF
      rw [if_neg (by omega)]
      obtain ⟨-, rfl⟩ := chk_eq_some.1 h
      have e := pow_sub_q (F := F2) (F2 := F) (by omega)
      have h3 := p2 (F2 - F)
      have : fixVal F2 b * 2 ^ F = (b : ℚ) / 2 ^ (F2 - F) := by
        unfold fixVal; rw [e]; field_simp
      unfold roundDown
      rw [this, floor_div_pow]
      unfold fixVal
      push_cast
      ring
    · rename_i h3 h4
      have : F = F2 := by omega
      subst this
      rw [if_pos le_rfl]
      obtain ⟨-, rfl⟩ := chk_eq_some.1 h
      unfold fixVal; push_cast; ring

example := C12_sub (w := 32) (F := 8) (F2 := 4) (a := 300) (b := 7) (r := 188) (by decide)

/-- Same-precision addition and subtraction are defined exactly when the exact result fits. -/
theorem C12_add_sub_defined (w F : ℕ) (a b : ℤ) :
    ((fpAdd w F F a b).isSome ↔ InRange w (a + b)) ∧
    ((fpSub w F F a b).isSome ↔ InRange w (a - b)) := by
  unfold fpAdd fpSub chk InRange
  simp only [gt_iff_lt, lt_irrefl, if_false]
  constructor <;> split <;> simp_all

/-- Adding an integer is exact. -/
theorem C12_addInt {w F : ℕ} {a b r : ℤ} (h : fpAddInt w F a b = some r) :
    fixVal F r = fixVal F a + b := by
  unfold fpAddInt at h
  simp only [Option.bind_eq_bind, Option.bind_eq_some_iff, chk_eq_some] at h
  obtain ⟨s, ⟨-, rfl⟩, -, rfl⟩ := h
  have h1 := p2 F
  unfold fixVal
  push_cast
  field_simp

example := C12_addInt (w := 32) (F := 8) (a := 300) (b := -7) (r := -1492) (by decide)

/-- Multiplying by an integer is exact. -/
theorem C12_mulInt {w F : ℕ} {a b r : ℤ} (h : fpMulInt w a b = some r) :
    fixVal F r = fixVal F a * b := by
  obtain ⟨-, rfl⟩ := chk_eq_some.1 h
  unfold fixVal; push_cast; ring

example := C12_mulInt (w := 32) (F := 8) (a := 300) (b := -7) (r := -2100) (by decide)

private theorem floor_mul (F : ℕ) (a b : ℤ) :
    roundDown F (fixVal F a * fixVal F b) = ((a * b / 2 ^ F : ℤ) : ℚ) / 2 ^ F := by
  have h1 := p2 F
  have : fixVal F a * fixVal F b * 2 ^ F = ((a * b : ℤ) : ℚ) / 2 ^ F := by
    unfold fixVal; push_cast; field_simp
  unfold roundDown
  rw [this, floor_div_pow]

/-- Both full-precision multiplications give the exact product rounded down, when no intermediate
overflows. -/
theorem C12_mul {w F : ℕ} {a b r : ℤ}
    (h : fpMulPrecise w F a b = some r ∨ fpMulExtraFast w F a b = some r) :
    fixVal F r = roundDown F (fixVal F a * fixVal F b) := by
  rw [floor_mul]
  unfold fixVal
  congr 2
  rcases h with h | h
  · unfold fpMulPrecise at h
    simp only [Option.bind_eq_bind, Option.bind_eq_some_iff, chk_eq_some] at h
    obtain ⟨_, ⟨-, rfl⟩, _, ⟨-, rfl⟩, _, ⟨-, rfl⟩, _, ⟨-, rfl⟩, _, ⟨-, rfl⟩, _, ⟨-, rfl⟩, _, ⟨-, rfl⟩,
      -, rfl⟩ := h
    unfold fpInt fpFrac
    have ha := (Int.emod_add_mul_ediv a (2 ^ F))
    have hb := (Int.emod_add_mul_ediv b (2 ^ F))
    generalize a % 2 ^ F = a0 at *
    generalize b % 2 ^ F = b0 at *
    generalize a / 2 ^ F = a1 at *
    generalize b / 2 ^ F = b1 at *
    subst ha hb
    have hne : (2 : ℤ) ^ F ≠ 0 := by positivity
    have : (a0 + 2 ^ F * a1) * (b0 + 2 ^ F * b1) =
      a0 * b0 + 2 ^ F * (a1 * b1 * 2 ^ F + (a1 * b0 + a0 * b1)) := by ring
    rw [this, Int.add_mul_ediv_left _ _ hne]
    ring
  · unfold fpMulExtraFast at h
    simp only [Option.bind_eq_bind, Option.bind_eq_some_iff, chk_eq_some, Option.pure_def,
      Option.some.injEq] at h
    obtain ⟨_, ⟨-, rfl⟩, rfl⟩ := h
    rfl

example := C12_mul (w := 32) (F := 8) (a := 300) (b := 700) (r := 820) (by decide)

/-- `MulPrecise` on non-negative values with at most `(w-1)/2` fraction bits never overflows in an
intermediate: it is defined whenever the product fits. Full claim of the comment in the source ("so
that overflowing in the intermediate range is not possible") fails in general:
`C12_mulPrecise_overflows`. -/
theorem C12_mulPrecise_defined_partial {w F : ℕ} {a b : ℤ} (hF : 2 * F ≤ w - 1)
    (ha : 0 ≤ a) (hb : 0 ≤ b) (hr : InRange w (a * b / 2 ^ F)) :
    (fpMulPrecise w F a b).isSome := by
  have hpos : (0 : ℤ) < 2 ^ F := by positivity
  have hw : (2 : ℤ) ^ F * 2 ^ F ≤ 2 ^ (w - 1) := by
    rw [← pow_add]; exact pow_le_pow_right₀ (by norm_num) (by omega)
  unfold fpMulPrecise fpInt fpFrac
  have ea := (Int.emod_add_mul_ediv a (2 ^ F))
  have eb := (Int.emod_add_mul_ediv b (2 ^ F))
  have a0n := Int.emod_nonneg a hpos.ne'
  have b0n := Int.emod_nonneg b hpos.ne'
  have a0l := Int.emod_lt_of_pos a hpos
  have b0l := Int.emod_lt_of_pos b hpos
  have a1n := Int.ediv_nonneg ha hpos.le
  have b1n := Int.ediv_nonneg hb hpos.le
  generalize a % 2 ^ F = a0 at *
  generalize b % 2 ^ F = b0 at *
  generalize a / 2 ^ F = a1 at *
  generalize b / 2 ^ F = b1 at *
  subst ea eb
  have e : (a0 + 2 ^ F * a1) * (b0 + 2 ^ F * b1) =
    a0 * b0 + 2 ^ F * (a1 * b1 * 2 ^ F + (a1 * b0 + a0 * b1)) := by ring
  rw [e, Int.add_mul_ediv_left _ _ hpos.ne'] at hr
  unfold InRange at hr
  have hq0 : 0 ≤ a0 * b0 / 2 ^ F := Int.ediv_nonneg (by positivity) hpos.le
  have p1 : 0 ≤ a1 * b1 := by positivity
  have p2 : 0 ≤ a1 * b0 := by positivity
  have p3 : 0 ≤ a0 * b1 := by positivity
  have p4 : 0 ≤ a0 * b0 := by positivity
  have p5 : a1 * b1 ≤ a1 * b1 * 2 ^ F := by nlinarith
  have p6 : a0 * b0 < 2 ^ F * 2 ^ F := by nlinarith
  have c : ∀ x : ℤ, 0 ≤ x → x < 2 ^ (w - 1) → chk w x = some x := by
    intro x h1 h2
    unfold chk
    rw [if_pos ⟨by have : (0 : ℤ) < 2 ^ (w - 1) := by positivity
                   omega, h2⟩]
  obtain ⟨-, hr⟩ := hr
  have p7 : 0 ≤ a1 * b1 * 2 ^ F := by positivity
  rw [c _ p1 (by linarith)]
  simp -implicitDefEqProofs only [Option.bind_eq_bind, Option.bind_some]
  rw [c _ p7 (by linarith)]
  simp -implicitDefEqProofs only [Option.bind_some]
  rw [c _ p2 (by linarith)]
  simp -implicitDefEqProofs only [Option.bind_some]
  rw [c _ p3 (by linarith)]
  simp -implicitDefEqProofs only [Option.bind_some]
  rw [c _ (by linarith) (by linarith)]
  simp -implicitDefEqProofs only [Option.bind_some]
  rw [c _ (by linarith) (by linarith)]
  simp -implicitDefEqProofs only [Option.bind_some]
  rw [c _ p4 (by linarith)]
  simp -implicitDefEqProofs only [Option.bind_some]
  rw [c _ (by linarith) (by linarith)]
  rfl

example := C12_mulPrecise_defined_partial (w := 32) (F := 8) (a := 300) (b := 700) (by decide) (by decide) (by decide) (by norm_num [InRange])

/-- The comment of `MulPrecise` is wrong twice: the product of the fractions overflows for 16
fraction bits in a 32-bit word (0.999.. * 0.999.. ), and with few fraction bits the product of the
rounded-down integer parts overflows for a negative operand although the result fits. -/
theorem C12_mulPrecise_overflows :
    (fpMulPrecise 32 16 65535 65535 = none ∧ InRange 32 (65535 * 65535 / 2 ^ 16)) ∧
    (fpMulPrecise 32 8 (-384) (5000000 * 256) = none ∧
      InRange 32 (-384 * (5000000 * 256) / 2 ^ 8)) := by
  refine ⟨⟨?_, ?_⟩, ?_, ?_⟩
  · decide +kernel
  · constructor <;> norm_num
  · decide +kernel
  · constructor <;> norm_num

/-- The shared-shift multiplication of non-negative values never exceeds the exact product, and is
below it by less than the stated bound. -/
theorem C12_mulFast {w F : ℕ} {a b r : ℤ} (ha : 0 ≤ a) (hb : 0 ≤ b)
    (h : fpMulFast w F a b = some r) :
    r * 2 ^ F ≤ a * b ∧ a * b ≤ r * 2 ^ F + a * 2 ^ (F / 2) + b * 2 ^ ((F + 1) / 2) := by
  unfold fpMulFast at h
  obtain ⟨-, rfl⟩ := chk_eq_some.1 h
  have eF : (2 : ℤ) ^ F = 2 ^ ((F + 1) / 2) * 2 ^ (F / 2) := by
    rw [← pow_add]; congr 1; omega
  rw [eF]
  have h1 : (0 : ℤ) < 2 ^ ((F + 1) / 2) := by positivity
  have h2 : (0 : ℤ) < 2 ^ (F / 2) := by positivity
  generalize (2 : ℤ) ^ ((F + 1) / 2) = P at *
  generalize (2 : ℤ) ^ (F / 2) = Q at *
  have ea := Int.emod_add_mul_ediv a P
  have eb := Int.emod_add_mul_ediv b Q
  have a0n := Int.emod_nonneg a h1.ne'
  have b0n := Int.emod_nonneg b h2.ne'
  have a0l := Int.emod_lt_of_pos a h1
  have b0l := Int.emod_lt_of_pos b h2
  have a1n := Int.ediv_nonneg ha h1.le
  have b1n := Int.ediv_nonneg hb h2.le
  generalize a % P = a0 at *
  generalize b % Q = b0 at *
  generalize a / P = a1 at *
  generalize b / Q = b1 at *
  have e : a1 * b1 * (P * Q) = (P * a1) * (Q * b1) := by ring
  have e1 : P * a1 = a - a0 := by linarith
  have e2 : Q * b1 = b - b0 := by linarith
  rw [e, e1, e2]
  have k1 : 0 ≤ a - a0 := by rw [← e1]; positivity
  have k2 : 0 ≤ b - b0 := by rw [← e2]; positivity
  constructor
  · nlinarith
  · nlinarith [mul_nonneg ha (sub_nonneg.2 b0l.le), mul_nonneg hb (sub_nonneg.2 a0l.le),
      mul_nonneg a0n b0n]

example := C12_mulFast (w := 32) (F := 8) (a := 300) (b := 700) (r := 774) (by decide) (by decide) (by decide)

/-- Division by an integer is exact division rounded towards zero. -/
theorem C12_divInt {w F : ℕ} {a b r : ℤ} (h : fpDivInt w a b = some r) :
    b ≠ 0 ∧ |fixVal F r - fixVal F a / b| < 1 / 2 ^ F ∧ |r * b| ≤ |a| := by
  unfold fpDivInt at h
  split at h
  · simp at h
  rename_i hd
  obtain ⟨-, rfl⟩ := chk_eq_some.1 h
  have hdq : (b : ℚ) ≠ 0 := by exact_mod_cast hd
  have hp := p2 F
  have key : (a : ℚ) = b * (a.tdiv b : ℤ) + (a.tmod b : ℤ) := by
    exact_mod_cast (Int.mul_tdiv_add_tmod a b).symm
  have hm : |(a.tmod b : ℤ)| < |b| := by
    rw [Int.abs_eq_natAbs, Int.abs_eq_natAbs, Int.natAbs_tmod]
    exact_mod_cast Nat.mod_lt _ (by omega)
  have hmq : |((a.tmod b : ℤ) : ℚ)| < |(b : ℚ)| := by exact_mod_cast hm
  refine ⟨hd, ?_, ?_⟩
  · have e : fixVal F (a.tdiv b) - fixVal F a / b = -(((a.tmod b : ℤ) : ℚ) / b) / 2 ^ F := by
      unfold fixVal
      push_cast at key ⊢
      field_simp
      linear_combination (-1 : ℚ) * key
    rw [e, abs_div, abs_neg, abs_div, abs_of_pos hp]
    apply div_lt_div_of_pos_right _ hp
    rw [div_lt_one (abs_pos.2 hdq)]
    exact hmq
  · rw [abs_mul, Int.abs_eq_natAbs, Int.abs_eq_natAbs, Int.abs_eq_natAbs, Int.natAbs_tdiv]
    exact_mod_cast Nat.div_mul_le_self _ _

example := C12_divInt (w := 32) (F := 8) (a := -300) (b := 7) (r := -42) (by decide)

/-- `DivExtraFast` is defined exactly when the divisor is not zero and neither the shifted dividend nor the quotient overflows;
it is then exact division rounded towards zero. -/
theorem C12_divExtraFast {w F F2 : ℕ} {a b : ℤ} :
    ((∃ r, fpDivExtraFast w F2 a b = some r) ↔ b ≠ 0 ∧ InRange w (a * 2 ^ F2) ∧ InRange w ((a * 2 ^ F2).tdiv b)) ∧
    ∀ r, fpDivExtraFast w F2 a b = some r → |fixVal F r - fixVal F a / fixVal F2 b| < 1 / 2 ^ F := by
  have hrun : ∀ r, fpDivExtraFast w F2 a b = some r ↔ b ≠ 0 ∧ InRange w (a * 2 ^ F2) ∧ InRange w ((a * 2 ^ F2).tdiv b) ∧ r = (a * 2 ^ F2).tdiv b := by
    intro r
    unfold fpDivExtraFast
    simp only [Option.bind_eq_bind, Option.bind_eq_some_iff]
    constructor
    · rintro ⟨n, hn, h⟩
      obtain ⟨h1, rfl⟩ := chk_eq_some.1 hn
      split at h
      · simp at h
      · rename_i hb
        obtain ⟨h2, rfl⟩ := chk_eq_some.1 h
        exact ⟨hb, h1, h2, rfl⟩
    · rintro ⟨hb, h1, h2, rfl⟩
      exact ⟨_, chk_eq_some.2 ⟨h1, rfl⟩, by rw [if_neg hb]; exact chk_eq_some.2 ⟨h2, rfl⟩⟩
  refine ⟨⟨fun ⟨r, h⟩ => ?_, fun ⟨h1, h2, h3⟩ => ⟨_, (hrun _).2 ⟨h1, h2, h3, rfl⟩⟩⟩, fun r h => ?_⟩
  · obtain ⟨h1, h2, h3, -⟩ := (hrun r).1 h
    exact ⟨h1, h2, h3⟩
  · obtain ⟨hb, -, h3, rfl⟩ := (hrun r).1 h
    obtain ⟨-, h4, -⟩ := C12_divInt (F := F) (w := w) (a := a * 2 ^ F2) (b := b) (r := (a * 2 ^ F2).tdiv b)
      (by rw [fpDivInt, if_neg hb]; exact chk_eq_some.2 ⟨h3, rfl⟩)
    have e : fixVal F (a * 2 ^ F2) / b = fixVal F a / fixVal F2 b := by
      have : (b : ℚ) ≠ 0 := by exact_mod_cast hb
      unfold fixVal
      push_cast
      field_simp
    rwa [← e]

example : fpDivExtraFast 32 8 300 1 = some 76800 ∧ fpDivExtraFast 32 8 (-300) 512 = some (-150) ∧ fpDivExtraFast 32 8 300 0 = none := by
  decide

/-- Comparisons of fixed point values are the comparisons of the rationals. -/
theorem C12_compare (F : ℕ) (a b : ℤ) :
    (fpLt a b = true ↔ fixVal F a < fixVal F b) ∧
    (fpEq a b = true ↔ fixVal F a = fixVal F b) ∧
    (fpLtInt F a b = true ↔ fixVal F a < b) := by
  have hp := p2 F
  refine ⟨?_, ?_, ?_⟩
  · unfold fpLt fixVal
    rw [div_lt_div_iff_of_pos_right hp]
    simp
  · unfold fpEq fixVal
    rw [div_left_inj' hp.ne']
    simp
  · unfold fpLtInt
    rw [(C12_int_frac F a).1]
    simp [Int.floor_lt]

/-- Comparison with an integer that can be shifted without overflow. -/
theorem C12_eqInt {w F : ℕ} {a b : ℤ} {r : Bool} (h : fpEqInt w F a b = some r) :
    r = true ↔ fixVal F a = b := by
  unfold fpEqInt at h
  simp only [Option.bind_eq_bind, Option.bind_eq_some_iff, chk_eq_some, Option.pure_def,
    Option.some.injEq] at h
  obtain ⟨_, ⟨-, rfl⟩, rfl⟩ := h
  have hp := p2 F
  unfold fixVal
  rw [div_eq_iff hp.ne', beq_iff_eq]
  exact_mod_cast Iff.rfl

example := C12_eqInt (w := 32) (F := 8) (a := 512) (b := 2) (r := true) (by decide)

/-- Printing does not determine the value: -0.5 prints like 0.5 (the sign is lost), and 0.05 prints
the decimal digits of 0.5 (leading zeros are lost). -/
theorem C12_print_loses_information :
    fpPrint 16 (-32768) = fpPrint 16 32768 ∧ fpPrint 16 32768 = "0.5000" ∧
    fpPrint 16 3277 = "0.500" := by
  refine ⟨?_, ?_, ?_⟩ <;> decide +kernel

-- 1.5 + 0.25, 1.5 * 2.5 = 3.75, -1.5 * 2.5 = -3.75 with 8 fraction bits
example : fpAdd 32 8 8 384 64 = some 448 := by decide +kernel
example : fpAdd 32 8 4 384 4 = some 448 := by decide +kernel
example : fpSub 32 4 8 24 (-5) = some 25 := by decide +kernel
example : fpMulPrecise 32 8 384 640 = some 960 := by decide +kernel
example : fpMulPrecise 32 8 (-384) 640 = some (-960) := by decide +kernel
example : fpOfRatio 32 8 2 1 3 = some 597 := by decide +kernel
example : fpDivInt 32 (-5) 2 = some (-2) := by decide +kernel
example : fpMulFast 32 8 384 640 = some 960 := by decide +kernel
example : fpEqInt 32 8 384 1 = some false := by decide +kernel

end MGL
