import Verif.Model.Scalar
import Verif.Proofs.Float32

/-! Property C15: the scalar helper functions. -/

namespace MGL

open Spec

section Order
variable {α : Type*} [LinearOrder α]

/-- `Clamp` lands in `[lo,hi]`, and leaves values inside alone. -/
theorem C15_clamp_range (v lo hi : α) (h : lo ≤ hi) :
    (lo ≤ clamp v lo hi ∧ clamp v lo hi ≤ hi) ∧ (lo ≤ v → v ≤ hi → clamp v lo hi = v) := by
  unfold clamp
  refine ⟨?_, fun h1 h2 => by rw [if_pos h2, if_pos h1]⟩
  split
  · split
    · exact ⟨by assumption, by assumption⟩
    · exact ⟨le_rfl, h⟩
  · exact ⟨h, le_rfl⟩

example := C15_clamp_range (5 : ℚ) 1 3 (by norm_num)

/-- `Min` and `Max` of two, three and four values return the least / greatest argument. -/
theorem C15_min_max (a b c d : α) :
    IsLeast {a, b} (min2 a b) ∧ IsGreatest {a, b} (max2 a b) ∧
    IsLeast {a, b, c} (min3 a b c) ∧ IsGreatest {a, b, c} (max3 a b c) ∧
    IsLeast {a, b, c, d} (min4 a b c d) ∧ IsGreatest {a, b, c, d} (max4 a b c d) := by
  have e1 : ∀ x y : α, min2 x y = min x y := fun x y => (min_def x y).symm
  have e2 : ∀ x y : α, max2 x y = max x y := by
    intro x y; unfold max2; rw [max_comm, max_def]
  refine ⟨⟨?_, ?_⟩, ⟨?_, ?_⟩, ⟨?_, ?_⟩, ⟨?_, ?_⟩, ⟨?_, ?_⟩, ⟨?_, ?_⟩⟩
  · unfold min2; split <;> simp
  · rw [e1]; rintro x (rfl | rfl) <;> simp
  · unfold max2; split <;> simp
  · rw [e2]; rintro x (rfl | rfl) <;> simp
  · unfold min3 min2; split_ifs <;> simp
  · unfold min3; simp only [e1]; rintro x (rfl | rfl | rfl) <;> simp
  · unfold max3 max2; split_ifs <;> simp
  · unfold max3; simp only [e2]; rintro x (rfl | rfl | rfl) <;> simp
  · unfold min4 min2; split_ifs <;> simp
  · unfold min4; simp only [e1]; rintro x (rfl | rfl | rfl | rfl) <;> simp
  · unfold max4 max2; split_ifs <;> simp
  · unfold max4; simp only [e2]; rintro x (rfl | rfl | rfl | rfl) <;> simp

end Order

section Field
variable {α : Type*} [Field α] [LinearOrder α] [IsStrictOrderedRing α]

/-- `Clamp` returns the point of `[lo,hi]` nearest to `v`. -/
theorem C15_clamp_nearest (v lo hi x : α) (h : lo ≤ hi) (h1 : lo ≤ x) (h2 : x ≤ hi) :
    |clamp v lo hi - v| ≤ |x - v| := by
  unfold clamp
  split
  · split
    · simp
    · rename_i a b
      push Not at b
      rw [abs_of_pos (by linarith), abs_of_pos (by linarith)]; linarith
  · rename_i a
    push Not at a
    rw [abs_of_neg (by linarith), abs_of_neg (by linarith)]; linarith

example := C15_clamp_nearest (5 : ℚ) 1 3 2 (by norm_num) (by norm_num) (by norm_num)

/-- `Abs` is the absolute value; `Sign` is the sign with `Sign(0) = 1`; `SignOrZero` has a dead
band. -/
theorem C15_abs_sign (x eps : α) :
    absF x = |x| ∧ sign x * |x| = x ∧ (sign x = 1 ∨ sign x = -1) ∧
    (signOrZero x eps = 0 ↔ |x| ≤ eps) ∧ (eps < |x| → signOrZero x eps = sign x) := by
  have ha : absF x = |x| := by
    unfold absF
    split
    · rename_i h; rw [abs_of_nonneg h]
    · rename_i h; rw [abs_of_neg (not_le.1 h)]
  have hs : sign x = 1 ∨ sign x = -1 := by unfold sign; split <;> simp
  refine ⟨ha, ?_, hs, ?_, ?_⟩
  · unfold sign
    split
    · rename_i h; rw [abs_of_nonneg h]; ring
    · rename_i h; rw [abs_of_neg (not_le.1 h)]; ring
  · unfold signOrZero
    rw [ha]
    split
    · rename_i h; simp [h]
    · rename_i h
      simp only [h, iff_false]
      rcases hs with e | e <;> rw [e] <;> norm_num
  · intro h
    unfold signOrZero
    rw [ha, if_neg (not_le.2 h)]

/-- `Lerp` hits both ends, stays between them for `t` in [0,1], and `InvLerp` is its inverse. -/
theorem C15_lerp (a b t x : α) :
    lerp a b 0 = a ∧ lerp a b 1 = b ∧
    (0 ≤ t → t ≤ 1 → min a b ≤ lerp a b t ∧ lerp a b t ≤ max a b) ∧
    (a ≠ b → invLerp a b (lerp a b t) = t ∧ lerp a b (invLerp a b x) = x) := by
  unfold lerp invLerp
  refine ⟨by ring, by ring, ?_, ?_⟩
  · intro h0 h1
    rcases le_total a b with h | h
    · rw [min_eq_left h, max_eq_right h]; constructor <;> nlinarith
    · rw [min_eq_right h, max_eq_left h]; constructor <;> nlinarith
  · intro h
    have : b - a ≠ 0 := sub_ne_zero.2 (Ne.symm h)
    constructor <;> field_simp <;> ring

example := (C15_lerp (2 : ℚ) 5 (1/3) 4).2.2.2 (by norm_num)

/-- `Step(y,x)` is the indicator of `x ≥ y`. -/
theorem C15_step (y x : α) : (step y x = 1 ↔ y ≤ x) ∧ (step y x = 0 ↔ x < y) := by
  unfold step
  split
  · rename_i h; simp [h, not_lt.2 h]
  · rename_i h; simp [h, not_le.1 h]

/-- `Ramp` is in [0,1], monotone, 0 up to `min` and 1 from `max` on, and linear between. -/
theorem C15_ramp (mn mx x y : α) (h : mn < mx) :
    (0 ≤ ramp mn mx x ∧ ramp mn mx x ≤ 1) ∧ (x ≤ y → ramp mn mx x ≤ ramp mn mx y) ∧
    (x ≤ mn → ramp mn mx x = 0) ∧ (mx ≤ x → ramp mn mx x = 1) ∧
    (mn ≤ x → x ≤ mx → lerp mn mx (ramp mn mx x) = x) := by
  have hd : 0 < mx - mn := sub_pos.2 h
  have e : ∀ z, ramp mn mx z = max 0 (min 1 ((z - mn) / (mx - mn))) := by
    intro z
    unfold ramp
    split
    · rename_i h1
      have : (z - mn) / (mx - mn) ≤ 0 := div_nonpos_of_nonpos_of_nonneg (by linarith) hd.le
      rw [min_eq_right (by linarith), max_eq_left this]
    · rename_i h1
      push Not at h1
      have h0 : 0 < (z - mn) / (mx - mn) := div_pos (by linarith) hd
      split
      · rename_i h2
        have : 1 ≤ (z - mn) / (mx - mn) := by rw [le_div_iff₀ hd]; linarith
        rw [min_eq_left this, max_eq_right (by norm_num)]
      · rename_i h2
        push Not at h2
        have : (z - mn) / (mx - mn) ≤ 1 := by rw [div_le_iff₀ hd]; linarith
        rw [min_eq_right this, max_eq_right h0.le]
  refine ⟨⟨?_, ?_⟩, ?_, ?_, ?_, ?_⟩
  · rw [e]; exact le_max_left _ _
  · rw [e]; exact max_le (by norm_num) (min_le_left _ _)
  · intro hxy
    rw [e, e]
    apply max_le_max le_rfl
    apply min_le_min le_rfl
    exact div_le_div_of_nonneg_right (by linarith) hd.le
  · intro hx; unfold ramp; rw [if_pos hx]
  · intro hx; unfold ramp; rw [if_neg (by linarith), if_pos hx]
  · intro h1 h2
    have h0 : 0 ≤ (x - mn) / (mx - mn) := div_nonneg (by linarith) hd.le
    have h3 : (x - mn) / (mx - mn) ≤ 1 := by rw [div_le_iff₀ hd]; linarith
    rw [e, min_eq_right h3, max_eq_right h0]
    unfold lerp
    field_simp
    ring

example := C15_ramp (2 : ℚ) 5 3 4 (by norm_num)

variable [FloorRing α]

/-- `Floor`, `Ceil`, `Round` and `Frac` relate as documented: integers below, above and nearest. -/
theorem C15_round (x : α) :
    (floorF x ≤ x ∧ x < floorF x + 1) ∧ (x ≤ ceilF x ∧ ceilF x < x + 1) ∧
    (∃ n : ℤ, roundF x = n) ∧ (|roundF x - x| ≤ 1 / 2) ∧
    (0 ≤ frac x ∧ frac x < 1) ∧ (∃ n : ℤ, x = n + frac x) := by
  unfold floorF ceilF roundF frac floorF
  refine ⟨⟨Int.floor_le x, Int.lt_floor_add_one x⟩, ⟨Int.le_ceil x, Int.ceil_lt_add_one x⟩,
    ⟨_, rfl⟩, ?_, ⟨?_, ?_⟩, ⌊x⌋, by ring⟩
  · have h1 := Int.floor_le (x + 1 / 2)
    have h2 := Int.lt_floor_add_one (x + 1 / 2)
    rw [abs_le]
    constructor <;> linarith
  · linarith [Int.floor_le x]
  · linarith [Int.lt_floor_add_one x]

private theorem fmod_spec (x m : α) (hm : 0 < m) :
    (∃ k : ℤ, x = fmod x m + k * m) ∧ (0 ≤ x → 0 ≤ fmod x m ∧ fmod x m < m) ∧
    (x ≤ 0 → -m < fmod x m ∧ fmod x m ≤ 0) := by
  unfold fmod
  refine ⟨?_, ?_, ?_⟩
  · split
    · exact ⟨⌊x / m⌋, by ring⟩
    · exact ⟨⌈x / m⌉, by ring⟩
  · intro hx
    rw [if_pos (by positivity)]
    have h1 := Int.floor_le (x / m)
    have h2 := Int.lt_floor_add_one (x / m)
    rw [le_div_iff₀ hm] at h1
    rw [div_lt_iff₀ hm] at h2
    constructor <;> linarith
  · intro hx
    rcases hx.eq_or_lt with rfl | hx
    · simp [hm]
    rw [if_neg (by have := div_neg_of_neg_of_pos hx hm; linarith)]
    have h1 := Int.le_ceil (x / m)
    have h2 := Int.ceil_lt_add_one (x / m)
    rw [div_le_iff₀ hm] at h1
    rw [← sub_lt_iff_lt_add, lt_div_iff₀ hm] at h2
    constructor <;> linarith

/-- `Mod` has the sign of `x`, magnitude below `m`, and is congruent to `x`. -/
theorem C15_mod (x m : α) (hm : 0 < m) :
    (∃ k : ℤ, x = fmod x m + k * m) ∧ |fmod x m| < m ∧ 0 ≤ fmod x m * x := by
  obtain ⟨h1, h2, h3⟩ := fmod_spec x m hm
  refine ⟨h1, ?_⟩
  rcases le_total 0 x with h | h
  · obtain ⟨a, b⟩ := h2 h
    exact ⟨by rwa [abs_of_nonneg a], mul_nonneg a h⟩
  · obtain ⟨a, b⟩ := h3 h
    exact ⟨by rw [abs_of_nonpos b]; linarith, mul_nonneg_of_nonpos_of_nonpos b h⟩

example := C15_mod (-7 : ℚ) (5/2) (by norm_num)

/-- `ModPos(x,m)` is in `[0,m)` and congruent to `x` modulo `m` (exact arithmetic). -/
theorem C15_modPos (x m : α) (hm : 0 < m) :
    0 ≤ modPos x m ∧ modPos x m < m ∧ ∃ k : ℤ, x = modPos x m + k * m := by
  obtain ⟨⟨k, h1⟩, h2, h3⟩ := fmod_spec x m hm
  unfold modPos
  rcases le_total 0 x with h | h
  · obtain ⟨a, b⟩ := h2 h
    rw [if_pos a]
    exact ⟨a, b, k, h1⟩
  · obtain ⟨a, b⟩ := h3 h
    split
    · rename_i c
      exact ⟨c, by linarith, k, h1⟩
    · rename_i c
      push Not at c
      exact ⟨by linarith, by linarith, k - 1, by push_cast; linarith⟩

example := C15_modPos (-7 : ℚ) (5/2) (by norm_num)

/-- With rounding the upper bound of `ModPos` fails: for the smallest negative float and `m = 1` the
result is `m` itself, under every round-to-nearest rule. -/
theorem C15_modPos_rounding (r : ℚ → ℚ) (hr : RoundsToNearest r) :
    modPosRnd r (-(2 : ℚ) ^ (-149 : ℤ)) 1 = 1 := by
  have hp : (0 : ℚ) < 2 ^ (-149 : ℤ) := by positivity
  have hp1 : (2 : ℚ) ^ (-149 : ℤ) ≤ 2 ^ (-26 : ℤ) := zpow_le_zpow_right₀ (by norm_num) (by norm_num)
  have e26 : (2 : ℚ) ^ (-26 : ℤ) = 1 / 2 ^ 26 := by norm_num
  rw [e26] at hp1
  generalize (2 : ℚ) ^ (-149 : ℤ) = p at *
  have hc : ⌈(-p) / 1⌉ = 0 := by
    rw [div_one, Int.ceil_eq_zero_iff]
    constructor <;> norm_num at hp1 ⊢ <;> linarith
  have hf : fmod (-p) 1 = -p := by
    unfold fmod
    rw [if_neg (by rw [div_one]; linarith), hc]
    simp
  unfold modPosRnd
  rw [hf, if_neg (by linarith)]
  -- the nearest float of 1 - 2^-149 is 1
  set x : ℚ := -p + 1 with hx
  have hx0 : |x| ≤ maxF32 := by
    rw [abs_of_pos (by norm_num at hp1; linarith)]; unfold maxF32; norm_num; linarith
  obtain ⟨⟨m, e, h1, h2, h3, h4⟩, h5⟩ := hr x hx0
  have h6 := h5 1 isF32_one
  have hx1 : |1 - x| = p := by
    rw [hx, abs_of_pos (by linarith)]; ring
  rw [hx1, abs_le] at h6
  have b1 : r x ≤ 1 := by
    have := rnd_mono hr hx0 (isF32_abs_le isF32_one) (by linarith)
    rwa [rnd_fix hr isF32_one] at this
  have b2 : 1 - 1 / 2 ^ 25 ≤ r x := by
    have := h6.1
    norm_num at hp1 ⊢
    linarith
  by_contra hne
  have b3 : r x < 1 := lt_of_le_of_ne b1 hne
  -- a float in [1 - 2^-25, 1) does not exist
  rw [h4] at b2 b3
  have hm24 : (m : ℚ) ≤ 2 ^ 24 - 1 := by
    rw [abs_lt] at h1
    have : m ≤ 2 ^ 24 - 1 := by omega
    exact_mod_cast this
  have hE : (0 : ℚ) < 2 ^ e := by positivity
  rcases le_or_gt e (-24) with he | he
  · have : (2 : ℚ) ^ e ≤ 2 ^ (-24 : ℤ) := zpow_le_zpow_right₀ (by norm_num) he
    have e24 : (2 : ℚ) ^ (-24 : ℤ) = 1 / 2 ^ 24 := by norm_num
    rw [e24] at this
    have : (m : ℚ) * 2 ^ e ≤ (2 ^ 24 - 1) * (1 / 2 ^ 24) := by
      by_cases h0 : (0 : ℚ) ≤ m
      · exact mul_le_mul hm24 this hE.le (by norm_num)
      · have := mul_neg_of_neg_of_pos (not_le.1 h0) hE
        norm_num
        linarith
    norm_num at b2 this
    linarith
  · -- 2^e is a multiple of 2^-23
    rcases le_or_gt e 0 with he0 | he0
    · obtain ⟨k, hk⟩ : ∃ k : ℕ, e = -(k : ℤ) := ⟨(-e).toNat, by omega⟩
      have hk23 : k ≤ 23 := by omega
      have hE2 : (2 : ℚ) ^ e * 2 ^ k = 1 := by rw [hk, zpow_neg, zpow_natCast]; field_simp
      have hlt : (m : ℚ) < 2 ^ k := by
        have := mul_lt_mul_of_pos_right b3 (show (0 : ℚ) < 2 ^ k by positivity)
        rw [mul_assoc, hE2] at this; linarith
      have hlt' : m < 2 ^ k := by exact_mod_cast hlt
      have hge : (1 - 1 / 2 ^ 25 : ℚ) * 2 ^ k ≤ m := by
        have := mul_le_mul_of_nonneg_right b2 (show (0 : ℚ) ≤ 2 ^ k by positivity)
        rw [mul_assoc, hE2] at this; linarith
      have hle : (m : ℚ) ≤ 2 ^ k - 1 := by exact_mod_cast Int.le_sub_one_of_lt hlt'
      have hk2 : (2 : ℚ) ^ k ≤ 2 ^ 23 := pow_le_pow_right₀ (by norm_num) hk23
      norm_num at hge hk2
      linarith
    · have : (1 : ℚ) ≤ 2 ^ e := by
        rw [show (1 : ℚ) = 2 ^ (0 : ℤ) by simp]
        exact zpow_le_zpow_right₀ (by norm_num) he0.le
      have hm0 : 0 < m := by
        by_contra hc
        have : (m : ℚ) ≤ 0 := by exact_mod_cast not_lt.1 hc
        have := mul_nonpos_of_nonpos_of_nonneg this hE.le
        norm_num at b2
        linarith
      have : (1 : ℚ) ≤ m := by exact_mod_cast hm0
      nlinarith

/-- `PingPongMod` stays in `[0,m]` for non-negative `x`. Full claim (all `x`) is false:
`C15_pingPong_negative`. -/
theorem C15_pingPong_partial (x m : α) (hm : 0 < m) (hx : 0 ≤ x) :
    0 ≤ pingPongMod x m ∧ pingPongMod x m ≤ m := by
  obtain ⟨-, h2, -⟩ := fmod_spec x (m * 2) (by linarith)
  obtain ⟨a, b⟩ := h2 hx
  unfold pingPongMod
  simp only
  split
  · constructor <;> linarith
  · rename_i c
    push Not at c
    exact ⟨a, c.le⟩

example := C15_pingPong_partial (7 : ℚ) (5/2) (by norm_num) (by norm_num)

/-- For negative `x` that is not a multiple of `2m`, `PingPongMod` is negative. -/
theorem C15_pingPong_negative (x m : α) (hm : 0 < m) (hx : x < 0)
    (hk : ∀ k : ℤ, x ≠ k * (m * 2)) : pingPongMod x m < 0 := by
  obtain ⟨⟨k, h1⟩, -, h3⟩ := fmod_spec x (m * 2) (by linarith)
  obtain ⟨a, b⟩ := h3 hx.le
  have hne : fmod x (m * 2) ≠ 0 := by
    intro hc
    rw [hc] at h1
    exact hk k (by linarith)
  have hlt : fmod x (m * 2) < 0 := lt_of_le_of_ne b hne
  unfold pingPongMod
  simp only
  rw [if_neg (by linarith)]
  exact hlt

example := C15_pingPong_negative (-7 : ℚ) (5/2) (by norm_num) (by norm_num) (fun k h => by
  have h2 : (-7 : ℤ) = k * 5 := by exact_mod_cast (by linarith : (-7 : ℚ) = k * 5)
  omega)

/-- `LerpMod` moves along the shorter way round: for `t` in [0,1] its value is congruent modulo `m`
to a point between `a` and some representative `b'` of `b` with `|b' - a| ≤ m/2`. -/
theorem C15_lerpMod (a b m t : α) (hm : 0 < m) :
    ∃ a' b' : α, (∃ k : ℤ, a = a' + k * m) ∧ (∃ k : ℤ, b = b' + k * m) ∧ |b' - a'| ≤ m / 2 ∧
      ∃ k : ℤ, lerp a' b' t = lerpMod a b m t + k * m := by
  obtain ⟨a0, a1, ka, ha⟩ := C15_modPos a m hm
  obtain ⟨b0, b1, kb, hb⟩ := C15_modPos b m hm
  unfold lerpMod
  simp only
  have habs : ∀ y : α, absF y = |y| := fun y => (C15_abs_sign y 0).1
  rw [habs]
  split
  · rename_i h
    exact ⟨_, _, ⟨ka, ha⟩, ⟨kb, hb⟩, by linarith, 0, by simp⟩
  · rename_i h
    push Not at h
    split
    · rename_i hlt
      rw [abs_of_pos (by linarith)] at h
      obtain ⟨-, -, k, hk⟩ := C15_modPos (lerp (modPos a m + m) (modPos b m) t) m hm
      refine ⟨modPos a m + m, _, ⟨ka - 1, by push_cast; linarith⟩, ⟨kb, hb⟩, ?_, k, hk⟩
      rw [abs_le]; constructor <;> linarith
    · rename_i hle
      push Not at hle
      rw [abs_of_nonpos (by linarith)] at h
      obtain ⟨-, -, k, hk⟩ := C15_modPos (lerp (modPos a m) (modPos b m + m) t) m hm
      refine ⟨modPos a m, modPos b m + m, ⟨ka, ha⟩, ⟨kb - 1, by push_cast; linarith⟩, ?_, k, hk⟩
      rw [abs_le]; constructor <;> linarith

end Field

-- concrete cases
example : clamp (7 : ℚ) 1 5 = 5 ∧ ramp (1 : ℚ) 3 2 = 1 / 2 ∧ modPos (-1 : ℚ) 3 = 2 ∧
    pingPongMod (5 : ℚ) 3 = 1 ∧ pingPongMod (-1 : ℚ) 3 = -1 ∧ lerpMod (1 : ℚ) 9 10 (1 / 2) = 0 := by
  refine ⟨?_, ?_, ?_, ?_, ?_, ?_⟩ <;> decide +kernel

end MGL
