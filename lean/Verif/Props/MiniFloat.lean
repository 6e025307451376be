import Verif.Proofs.MiniFloat
import Mathlib.Tactic.FieldSimp
import Mathlib.Algebra.Order.Field.Power
import Mathlib.Data.Rat.Cast.Order
import Mathlib.Algebra.Order.Field.Rat

/-! Properties C08 (half floats), C09 (mini-floats), C10 (classification). -/

namespace MGL

open Spec

/-! ### C10 classification -/

theorem C10_isFinite32 (f : BitVec 32) : isFinite32 f = true ↔ FFinite 8 23 f.toNat := by
  have := f.isLt
  simp only [isFinite32, FFinite, fExp, decide_eq_true_iff, BitVec.lt_def, BitVec.toNat_shiftLeft,
    Nat.shiftLeft_eq, BitVec.toNat_ofNat]
  omega

theorem C10_isInf32 (f : BitVec 32) : isInf32 f = true ↔ FInf 8 23 f.toNat := by
  have := f.isLt
  simp only [isInf32, FInf, fExp, fMan, beq_iff_eq, ← BitVec.toNat_inj, BitVec.toNat_shiftLeft,
    Nat.shiftLeft_eq, BitVec.toNat_ofNat]
  omega

theorem C10_isNan32 (f : BitVec 32) : isNan32 f = true ↔ FNan 8 23 f.toNat := by
  have := f.isLt
  simp only [isNan32, FNan, fExp, fMan, decide_eq_true_iff, gt_iff_lt, BitVec.lt_def,
    BitVec.toNat_shiftLeft, Nat.shiftLeft_eq, BitVec.toNat_ofNat]
  omega

theorem C10_isFinite64 (f : BitVec 64) : isFinite64 f = true ↔ FFinite 11 52 f.toNat := by
  have := f.isLt
  simp only [isFinite64, FFinite, fExp, decide_eq_true_iff, BitVec.lt_def, BitVec.toNat_shiftLeft,
    Nat.shiftLeft_eq, BitVec.toNat_ofNat]
  omega

theorem C10_isInf64 (f : BitVec 64) : isInf64 f = true ↔ FInf 11 52 f.toNat := by
  have := f.isLt
  simp only [isInf64, FInf, fExp, fMan, beq_iff_eq, ← BitVec.toNat_inj, BitVec.toNat_shiftLeft,
    Nat.shiftLeft_eq, BitVec.toNat_ofNat]
  omega

theorem C10_isNan64 (f : BitVec 64) : isNan64 f = true ↔ FNan 11 52 f.toNat := by
  have := f.isLt
  simp only [isNan64, FNan, fExp, fMan, decide_eq_true_iff, gt_iff_lt, BitVec.lt_def,
    BitVec.toNat_shiftLeft, Nat.shiftLeft_eq, BitVec.toNat_ofNat]
  omega

/-- Exactly one of the three predicates holds for every float pattern. -/
theorem C10_partition32 (f : BitVec 32) :
    (isFinite32 f = true ∧ isInf32 f = false ∧ isNan32 f = false) ∨
    (isFinite32 f = false ∧ isInf32 f = true ∧ isNan32 f = false) ∨
    (isFinite32 f = false ∧ isInf32 f = false ∧ isNan32 f = true) := by
  simp only [← Bool.not_eq_true, C10_isFinite32, C10_isInf32, C10_isNan32, FFinite, FInf, FNan]
  tauto

theorem C10_partition64 (f : BitVec 64) :
    (isFinite64 f = true ∧ isInf64 f = false ∧ isNan64 f = false) ∨
    (isFinite64 f = false ∧ isInf64 f = true ∧ isNan64 f = false) ∨
    (isFinite64 f = false ∧ isInf64 f = false ∧ isNan64 f = true) := by
  simp only [← Bool.not_eq_true, C10_isFinite64, C10_isInf64, C10_isNan64, FFinite, FInf, FNan]
  tauto

-- all three classes are inhabited
example : isFinite32 0x3F800000#32 = true ∧ isInf32 0xFF800000#32 = true ∧
    isNan32 0x7FC00001#32 = true ∧ isFinite32 0x807FFFFF#32 = true := by decide

/-! ### C08 half floats -/

/-- Encoding a decoded half gives the half back, for every half except the positive infinity and
the NaNs with a clear sign bit. Full claim (round trip for all 2^16 patterns) is false of the
code: see `C08_roundtrip_fails`. -/
theorem C08_roundtrip_partial (h : BitVec 16)
    (hok : FFinite 5 10 h.toNat ∨ fSign 5 10 h.toNat = 1) :
    float32ToFloat16 (float16ToFloat32 h) = h := by
  have hs := fSign_lt 5 10 h.toNat
  have he := fExp_lt 5 10 h.toNat
  have hm := fMan_lt 10 h.toNat
  have hun := fields_unpack 5 10 h.toNat h.isLt
  have hd := float16ToFloat32_toNat h
  unfold FFinite at hok
  generalize fSign 5 10 h.toNat = s at *
  generalize fExp 5 10 h.toNat = e at *
  generalize fMan 10 h.toNat = m at *
  norm_num at he hm hok
  have hde := decExp_lt e he
  have e1 : fSign 8 23 (float16ToFloat32 h).toNat = s := by
    rw [hd]; exact fSign_pack _ _ _ _ _ hs (by norm_num; omega) (by norm_num; omega)
  have e2 : fExp 8 23 (float16ToFloat32 h).toNat = decExp e := by
    rw [hd]; exact fExp_pack _ _ _ _ _ (by norm_num; omega) (by norm_num; omega)
  have e3 : fMan 23 (float16ToFloat32 h).toNat = m * 2 ^ 13 := by
    rw [hd]; exact fMan_pack _ _ _ _ _ (by norm_num; omega)
  apply BitVec.eq_of_toNat_eq
  by_cases h31 : e = 31
  · have hs1 : s = 1 := by tauto
    rw [float32ToFloat16_special_toNat _ (by rw [e2, h31]; rfl), e3, hun, hs1, h31,
      Nat.mul_div_cancel _ (by norm_num : 0 < 2 ^ 13)]
    rw [if_neg (by omega)]; norm_num
  · rw [float32ToFloat16_toNat _ (by rw [e2]; unfold decExp; split_ifs <;> omega), e1, e2, e3]
    have henc : encFields 31 15 10 (decExp e) (m * 2 ^ 13) = (e, m) := by
      unfold encFields decExp
      simp only [if_neg h31]
      by_cases h0 : e = 0
      · subst h0; simp
      · simp only [ne_eq, h0, not_false_iff, if_true]
        rw [if_neg (by omega), if_neg (by push_cast; omega), if_neg (by push_cast; omega)]
        simp only [Prod.mk.injEq]
        constructor
        · push_cast; omega
        · exact Nat.mul_div_cancel _ (by norm_num)
    rw [henc, hun]

example := C08_roundtrip_partial 0x3C01#16 (Or.inl (by unfold FFinite; decide))

/-- The defect: for every half that is +infinity or a NaN with sign bit 0, decoding and encoding
again sets the sign bit; in particular +infinity becomes -infinity. -/
theorem C08_roundtrip_fails (h : BitVec 16) (hsp : fExp 5 10 h.toNat = 31)
    (hs0 : fSign 5 10 h.toNat = 0) :
    (float32ToFloat16 (float16ToFloat32 h)).toNat = h.toNat + 2 ^ 15 := by
  have hm := fMan_lt 10 h.toNat
  have hun := fields_unpack 5 10 h.toNat h.isLt
  have hd := float16ToFloat32_toNat h
  rw [hsp, hs0] at hun hd
  generalize fMan 10 h.toNat = m at *
  norm_num at hm
  have e2 : fExp 8 23 (float16ToFloat32 h).toNat = decExp 31 := by
    rw [hd]; exact fExp_pack _ _ _ _ _ (by decide) (by norm_num; omega)
  have e3 : fMan 23 (float16ToFloat32 h).toNat = m * 2 ^ 13 := by
    rw [hd]; exact fMan_pack _ _ _ _ _ (by norm_num; omega)
  rw [float32ToFloat16_special_toNat _ (by rw [e2]; rfl), e3, hun,
      Nat.mul_div_cancel _ (by norm_num : 0 < 2 ^ 13)]
  rw [if_neg (by omega)]; norm_num; omega

example := C08_roundtrip_fails 0x7C00#16 (by decide) (by decide)

/-- Also visible on one pattern: +infinity comes back as -infinity. -/
theorem C08_infinity_flips : float32ToFloat16 0x7F800000#32 = 0xFC00#16 ∧
    FInf 5 10 (0x7C00#16).toNat ∧ float16ToFloat32 0x7C00#16 = 0x7F800000#32 ∧
    fSign 5 10 (0xFC00#16).toNat = 1 := by
  refine ⟨by decide, ⟨by decide, by decide⟩, by decide, by decide⟩

/-- Decoding is exact for zeros and normal halves. -/
theorem C08_decode_value_partial (h : BitVec 16) (hf : FFinite 5 10 h.toNat)
    (hn : fExp 5 10 h.toNat ≠ 0 ∨ fMan 10 h.toNat = 0) :
    f32Value (float16ToFloat32 h).toNat = f16Value h.toNat := by
  have hs := fSign_lt 5 10 h.toNat
  have he := fExp_lt 5 10 h.toNat
  have hm := fMan_lt 10 h.toNat
  have hd := float16ToFloat32_toNat h
  unfold f32Value f16Value fValue fMag
  unfold FFinite at hf
  rw [hd]
  generalize fSign 5 10 h.toNat = s at *
  generalize fExp 5 10 h.toNat = e at *
  generalize fMan 10 h.toNat = m at *
  norm_num at he hm hf
  have hde := decExp_lt e he
  rw [fSign_pack _ _ _ _ _ hs (by norm_num; omega) (by norm_num; omega),
    fExp_pack _ _ _ _ _ (by norm_num; omega) (by norm_num; omega),
    fMan_pack _ _ _ _ _ (by norm_num; omega)]
  congr 1
  by_cases h0 : e = 0
  · have : m = 0 := by tauto
    subst h0 this
    simp [decExp]
  · have : decExp e = e + 112 := by unfold decExp; rw [if_neg hf, if_pos h0]
    rw [this, if_neg (by omega), if_neg h0]
    congr 1
    · push_cast; ring
    · congr 1; push_cast; ring

example := C08_decode_value_partial 0x3C01#16 (by unfold FFinite; decide) (by decide)

/-- The defect: a denormal half is decoded to 2^-112 times its value. -/
theorem C08_decode_denormal_wrong (h : BitVec 16) (h0 : fExp 5 10 h.toNat = 0) :
    f32Value (float16ToFloat32 h).toNat = f16Value h.toNat * 2 ^ (-112 : ℤ) := by
  have hs := fSign_lt 5 10 h.toNat
  have hm := fMan_lt 10 h.toNat
  have hd := float16ToFloat32_toNat h
  unfold f32Value f16Value fValue fMag
  rw [hd, h0]
  generalize fSign 5 10 h.toNat = s at *
  generalize fMan 10 h.toNat = m at *
  norm_num at hm
  rw [fSign_pack _ _ _ _ _ hs (by decide) (by norm_num; omega),
    fExp_pack _ _ _ _ _ (by decide) (by norm_num; omega),
    fMan_pack _ _ _ _ _ (by norm_num; omega)]
  rw [show decExp 0 = 0 by decide, if_pos rfl, if_pos rfl]
  rw [show (1 - 127 : ℤ) = (1 - 15) + (-112) by norm_num, zpow_add₀ (by norm_num)]
  push_cast; ring

example := C08_decode_denormal_wrong 0x0001#16 (by decide)

/-- Decoding maps infinities to infinities and NaNs to NaNs, and always keeps the sign. -/
theorem C08_decode_class (h : BitVec 16) :
    fSign 8 23 (float16ToFloat32 h).toNat = fSign 5 10 h.toNat ∧
    (FInf 5 10 h.toNat ↔ FInf 8 23 (float16ToFloat32 h).toNat) ∧
    (FNan 5 10 h.toNat ↔ FNan 8 23 (float16ToFloat32 h).toNat) := by
  have hs := fSign_lt 5 10 h.toNat
  have he := fExp_lt 5 10 h.toNat
  have hm := fMan_lt 10 h.toNat
  have hd := float16ToFloat32_toNat h
  unfold FInf FNan
  rw [hd]
  generalize fSign 5 10 h.toNat = s at *
  generalize fExp 5 10 h.toNat = e at *
  generalize fMan 10 h.toNat = m at *
  norm_num at he hm
  have hde := decExp_lt e he
  rw [fSign_pack _ _ _ _ _ hs (by norm_num; omega) (by norm_num; omega),
    fExp_pack _ _ _ _ _ (by norm_num; omega) (by norm_num; omega),
    fMan_pack _ _ _ _ _ (by norm_num; omega)]
  have : decExp e = 2 ^ 8 - 1 ↔ e = 2 ^ 5 - 1 := by
    rw [show 2 ^ 8 - 1 = 255 by norm_num, show 2 ^ 5 - 1 = 31 by norm_num]
    unfold decExp
    by_cases h1 : e = 31
    · simp [h1]
    · by_cases h0 : e = 0
      · simp [h0]
      · rw [if_neg h1, if_pos h0]; omega
  rw [this]
  simp

/-- Encoding a float in the normal range of halves truncates towards zero: the sign is kept and
the magnitude loses less than one unit in the last place of the half. -/
theorem C08_encode_truncates (v : BitVec 32) (h1 : 113 ≤ fExp 8 23 v.toNat)
    (h2 : fExp 8 23 v.toNat ≤ 142) :
    fSign 5 10 (float32ToFloat16 v).toNat = fSign 8 23 v.toNat ∧
    FFinite 5 10 (float32ToFloat16 v).toNat ∧
    fMag 5 10 15 (float32ToFloat16 v).toNat ≤ fMag 8 23 127 v.toNat ∧
    fMag 8 23 127 v.toNat <
      fMag 5 10 15 (float32ToFloat16 v).toNat + 2 ^ ((fExp 8 23 v.toNat : ℤ) - 127 - 10) := by
  have hs := fSign_lt 8 23 v.toNat
  have hm := fMan_lt 23 v.toNat
  have hd := float32ToFloat16_toNat v (by omega)
  unfold fMag FFinite
  rw [hd]
  generalize fSign 8 23 v.toNat = s at *
  generalize fExp 8 23 v.toNat = e at *
  generalize fMan 23 v.toNat = m at *
  have henc : encFields 31 15 10 e m = (e - 112, m / 2 ^ 13) := by
    unfold encFields
    rw [if_neg (by omega), if_neg (by omega), if_neg (by omega)]
    simp only [Prod.mk.injEq, and_true]; omega
  rw [henc]
  simp only
  norm_num at hm
  have hm10 : m / 2 ^ 13 < 2 ^ 10 := by omega
  rw [fSign_pack _ _ _ _ _ hs (by norm_num; omega) hm10,
    fExp_pack _ _ _ _ _ (by norm_num; omega) hm10, fMan_pack _ _ _ _ _ hm10]
  rw [if_neg (by omega), if_neg (by omega)]
  have hexp : ((e - 112 : ℕ) : ℤ) - 15 = (e : ℤ) - 127 := by omega
  rw [hexp, show (e : ℤ) - 127 - 10 = (e : ℤ) - 127 + (-10) by ring,
    zpow_add₀ (by norm_num : (2 : ℚ) ≠ 0)]
  have hp : (0 : ℚ) < 2 ^ ((e : ℤ) - 127) := zpow_pos (by norm_num) _
  have hdm := Nat.div_add_mod m (2 ^ 13)
  have hml := Nat.mod_lt m (show 0 < 2 ^ 13 by norm_num)
  generalize m / 2 ^ 13 = q at *
  generalize m % 2 ^ 13 = r at *
  have hq1 : (m : ℚ) = 2 ^ 13 * (q : ℚ) + (r : ℚ) := by exact_mod_cast hdm.symm
  have hq2 : (r : ℚ) < 2 ^ 13 := by exact_mod_cast hml
  have hq3 : (0 : ℚ) ≤ (r : ℚ) := by positivity
  refine ⟨rfl, by norm_num; omega, ?_, ?_⟩
  · apply mul_le_mul_of_nonneg_right _ hp.le
    rw [hq1]; norm_num; linarith
  · rw [show (1 + (q : ℚ) / 2 ^ 10) * 2 ^ ((e : ℤ) - 127) +
        2 ^ ((e : ℤ) - 127) * 2 ^ (-10 : ℤ) =
        (1 + (q : ℚ) / 2 ^ 10 + 2 ^ (-10 : ℤ)) * 2 ^ ((e : ℤ) - 127) by ring]
    apply mul_lt_mul_of_pos_right _ hp
    rw [hq1]
    norm_num
    linarith

-- the hypotheses are met: 1.0, -3.1415, the largest half, a NaN with sign bit
example : FFinite 5 10 (0x3C00#16).toNat ∧ (fExp 5 10 (0x3C00#16).toNat ≠ 0) ∧
    float16ToFloat32 0x3C00#16 = 0x3F800000#32 ∧ float32ToFloat16 0xC0490FDB#32 = 0xC248#16 := by
  refine ⟨by unfold FFinite; decide, by decide, by decide, by decide⟩
example : 113 ≤ fExp 8 23 (0xC0490FDB#32).toNat ∧ fExp 8 23 (0xC0490FDB#32).toNat ≤ 142 := by decide
example : fExp 5 10 (0x0001#16).toNat = 0 ∧ f16Value (0x0001#16).toNat ≠ 0 := by
  refine ⟨by decide, ?_⟩
  norm_num [f16Value, fValue, fMag, fExp, fMan, fSign]

/-! ### C09 mini-floats -/

/-- Encoding after decoding is the identity on every encoding of the format whose exponent is not
all ones (or when the format has all 8 exponent bits), provided the decoded exponent is a normal
float exponent. Full claim (also infinities and NaNs of formats with fewer exponent bits) is false:
`C09_roundtrip_infinity_fails`. -/
theorem C09_roundtrip_partial (sb : Bool) (eb mb : ℕ) (bias : ℤ) (x : BitVec 32)
    (heb0 : 1 ≤ eb) (heb : eb ≤ 8) (hmb0 : 1 ≤ mb) (hmb : mb ≤ 23)
    (hx : x.toNat < 2 ^ (eb + mb + (if sb then 1 else 0)))
    (hfin : FFinite eb mb x.toNat ∨ eb = 8)
    (hrange : FFinite eb mb x.toNat → fExp eb mb x.toNat ≠ 0 →
      1 ≤ (fExp eb mb x.toNat : ℤ) - bias + 127 ∧ (fExp eb mb x.toNat : ℤ) - bias + 127 ≤ 254) :
    float32ToMiniFloat sb eb mb bias (miniFloatToFloat32 sb eb mb bias x) = x := by
  unfold FFinite at hfin hrange
  have hx1 : x.toNat < 2 ^ (eb + mb + 1) := lt_of_lt_of_le hx
    (Nat.pow_le_pow_right (by norm_num) (by split <;> omega))
  have hs := fSign_lt eb mb x.toNat
  have he := fExp_lt eb mb x.toNat
  have hm := fMan_lt mb x.toNat
  have hun := fields_unpack eb mb x.toNat hx1
  have hd := miniFloatToFloat32_toNat sb eb mb bias x heb hmb
    (fun a b => by have := hrange a b; omega)
  have hsb : (if sb then fSign eb mb x.toNat else 0) = fSign eb mb x.toNat := by
    cases sb
    · simp only [Bool.false_eq_true, if_false]
      unfold fSign
      rw [Nat.div_eq_of_lt (by simpa using hx)]
    · rfl
  rw [hsb] at hd
  have hsign : sb = true ∨ fSign eb mb x.toNat = 0 := by
    cases sb
    · right; simpa using hsb.symm
    · left; rfl
  have hpos : 1 ≤ 2 ^ eb := Nat.one_le_two_pow
  have hcast : ((2 ^ eb : ℕ) : ℤ) = 2 ^ eb := by push_cast; rfl
  have hm23 : fMan mb x.toNat * 2 ^ (23 - mb) < 2 ^ 23 := by
    calc fMan mb x.toNat * 2 ^ (23 - mb) < 2 ^ mb * 2 ^ (23 - mb) :=
          Nat.mul_lt_mul_of_pos_right hm (by positivity)
      _ = 2 ^ 23 := by rw [← pow_add]; congr 1; omega
  set v := miniFloatToFloat32 sb eb mb bias x
  generalize fSign eb mb x.toNat = s at *
  generalize fExp eb mb x.toNat = e at *
  generalize fMan mb x.toNat = m at *
  have hde : miniDecExp eb bias e < 256 := by
    unfold miniDecExp
    split_ifs with h1 h2
    · norm_num
    · have := hrange h1 h2; omega
    · norm_num
  have e1 : fSign 8 23 v.toNat = s := by
    rw [hd]; exact fSign_pack _ _ _ _ _ hs (by norm_num; omega) hm23
  have e2 : fExp 8 23 v.toNat = miniDecExp eb bias e := by
    rw [hd]; exact fExp_pack _ _ _ _ _ (by norm_num; omega) hm23
  have e3 : fMan 23 v.toNat = m * 2 ^ (23 - mb) := by
    rw [hd]; exact fMan_pack _ _ _ _ _ hm23
  apply BitVec.eq_of_toNat_eq
  by_cases hall : e = 2 ^ eb - 1
  · have h8 : eb = 8 := by tauto
    subst h8
    rw [float32ToMiniFloat_special_toNat sb mb bias v (by omega) hmb
      (by rw [e2]; unfold miniDecExp; rw [if_pos hall]) (by rw [e1]; exact hsign), e1, e3,
      Nat.mul_div_cancel _ (by positivity), hun, hall]
    have : 0 < 2 ^ (23 - mb) := by positivity
    rw [if_neg (by rintro ⟨ha, hb⟩; rw [hb] at ha; simp at ha)]
    norm_num
  · rw [float32ToMiniFloat_toNat sb eb mb bias v heb0 heb hmb
      (by
        rw [e2]; unfold miniDecExp; rw [if_neg hall]
        split_ifs with h2
        · have := hrange hall h2; omega
        · norm_num)
      (by rw [e1]; exact hsign), e1, e2, e3]
    have henc : encFields (2 ^ eb - 1) bias mb (miniDecExp eb bias e) (m * 2 ^ (23 - mb)) = (e, m) := by
      have hdiv : m * 2 ^ (23 - mb) / 2 ^ (23 - mb) = m := Nat.mul_div_cancel _ (by positivity)
      unfold encFields miniDecExp
      rw [if_neg hall, hdiv]
      by_cases h0 : e = 0
      · subst h0; simp
      · have hr := hrange hall h0
        have hc : (((e : ℤ) - bias + 127).toNat : ℤ) = (e : ℤ) - bias + 127 := by omega
        rw [if_pos h0, hc, if_neg (by omega), if_neg (by rw [← hcast]; omega), if_neg (by omega)]
        simp only [Prod.mk.injEq, and_true]
        omega
    rw [henc, hun]

/-- The defect: in the 5-bit-exponent, 10-bit-mantissa format the positive infinity 0x7C00 encodes
back as 0x3FC00, which has bits outside the format and decodes to minus infinity. -/
theorem C09_roundtrip_infinity_fails :
    FInf 5 10 0x7C00 ∧ miniFloatToFloat32 true 5 10 15 0x7C00#32 = 0x7F800000#32 ∧
    float32ToMiniFloat true 5 10 15 0x7F800000#32 = 0x3FC00#32 ∧
    miniFloatToFloat32 true 5 10 15 0x3FC00#32 = 0xFF800000#32 := by
  refine ⟨⟨by decide, by decide⟩, by decide, by decide, by decide⟩

/-- Encoding a normal float whose exponent fits truncates towards zero and keeps the sign. -/
theorem C09_encode_truncates (sb : Bool) (eb mb : ℕ) (bias : ℤ) (v : BitVec 32)
    (heb0 : 1 ≤ eb) (heb : eb ≤ 8) (hmb : mb ≤ 23)
    (hsign : sb = true ∨ fSign 8 23 v.toNat = 0)
    (hn0 : fExp 8 23 v.toNat ≠ 0) (hn1 : fExp 8 23 v.toNat ≠ 255)
    (hr1 : 1 ≤ (fExp 8 23 v.toNat : ℤ) - 127 + bias)
    (hr2 : (fExp 8 23 v.toNat : ℤ) - 127 + bias < 2 ^ eb - 1) :
    let x := float32ToMiniFloat sb eb mb bias v
    fSign eb mb x.toNat = fSign 8 23 v.toNat ∧ FFinite eb mb x.toNat ∧
    fMag eb mb bias x.toNat ≤ fMag 8 23 127 v.toNat ∧
    fMag 8 23 127 v.toNat < fMag eb mb bias x.toNat + 2 ^ ((fExp 8 23 v.toNat : ℤ) - 127 - mb) := by
  intro x
  have hs := fSign_lt 8 23 v.toNat
  have hm := fMan_lt 23 v.toNat
  have hd := float32ToMiniFloat_toNat sb eb mb bias v heb0 heb hmb hn1 hsign
  unfold fMag FFinite
  rw [show x.toNat = _ from hd]
  generalize fSign 8 23 v.toNat = s at *
  generalize fExp 8 23 v.toNat = e at *
  generalize fMan 23 v.toNat = m at *
  have henc : encFields (2 ^ eb - 1) bias mb e m =
      (((e : ℤ) - 127 + bias).toNat, m / 2 ^ (23 - mb)) := by
    unfold encFields
    rw [if_neg hn0, if_neg (by omega), if_neg (by omega)]
  rw [henc]
  simp only
  have hmm : m / 2 ^ (23 - mb) < 2 ^ mb := by
    rw [Nat.div_lt_iff_lt_mul (by positivity), ← pow_add, show mb + (23 - mb) = 23 by omega]
    exact hm
  have hcast : ((2 ^ eb : ℕ) : ℤ) = 2 ^ eb := by push_cast; rfl
  set E := ((e : ℤ) - 127 + bias).toNat with hE
  have hEc : (E : ℤ) = (e : ℤ) - 127 + bias := by omega
  have hEl : E < 2 ^ eb := by rw [← hcast] at hr2; omega
  rw [fSign_pack _ _ _ _ _ hs hEl hmm, fExp_pack _ _ _ _ _ hEl hmm, fMan_pack _ _ _ _ _ hmm]
  rw [if_neg (by omega), if_neg hn0]
  have hexp : (E : ℤ) - bias = (e : ℤ) - 127 := by omega
  rw [hexp, show (e : ℤ) - 127 - mb = (e : ℤ) - 127 + (-(mb : ℤ)) by ring,
    zpow_add₀ (by norm_num : (2 : ℚ) ≠ 0)]
  have hp : (0 : ℚ) < 2 ^ ((e : ℤ) - 127) := zpow_pos (by norm_num) _
  have hdm := Nat.div_add_mod m (2 ^ (23 - mb))
  have hml := Nat.mod_lt m (show 0 < 2 ^ (23 - mb) by positivity)
  set q := m / 2 ^ (23 - mb)
  set r := m % 2 ^ (23 - mb)
  have hq1 : (m : ℚ) = 2 ^ (23 - mb) * (q : ℚ) + (r : ℚ) := by exact_mod_cast hdm.symm
  have hq2 : (r : ℚ) < 2 ^ (23 - mb) := by exact_mod_cast hml
  have hq3 : (0 : ℚ) ≤ (r : ℚ) := by positivity
  have h23 : (2 : ℚ) ^ 23 = 2 ^ (23 - mb) * 2 ^ mb := by rw [← pow_add]; congr 1; omega
  have hA : (0 : ℚ) < 2 ^ (23 - mb) := by positivity
  have hB : (0 : ℚ) < 2 ^ mb := by positivity
  have hfrac : (m : ℚ) / 2 ^ 23 = q / 2 ^ mb + r / 2 ^ (23 - mb) * (1 / 2 ^ mb) := by
    rw [hq1, h23]; field_simp
  have hz : (2 : ℚ) ^ (-(mb : ℤ)) = 1 / 2 ^ mb := by rw [zpow_neg, zpow_natCast, one_div]
  have hr01 : (r : ℚ) / 2 ^ (23 - mb) < 1 := by rwa [div_lt_one hA]
  have hr00 : 0 ≤ (r : ℚ) / 2 ^ (23 - mb) := by positivity
  have hi : (0 : ℚ) < 1 / 2 ^ mb := by positivity
  refine ⟨rfl, ?_, ?_, ?_⟩
  · rw [← hcast] at hr2; omega
  · apply mul_le_mul_of_nonneg_right _ hp.le
    rw [hfrac]
    have := mul_nonneg hr00 hi.le
    linarith
  · rw [hz, show (1 + (q : ℚ) / 2 ^ mb) * 2 ^ ((e : ℤ) - 127) + 2 ^ ((e : ℤ) - 127) * (1 / 2 ^ mb) =
        (1 + (q : ℚ) / 2 ^ mb + 1 / 2 ^ mb) * 2 ^ ((e : ℤ) - 127) by ring]
    apply mul_lt_mul_of_pos_right _ hp
    rw [hfrac]
    have := mul_lt_mul_of_pos_right hr01 hi
    linarith

/-- The defect: an unsigned format turns a negative denormal into a positive number, although the
comment promises that negative numbers become +zero. -/
theorem C09_unsigned_negative_denormal :
    f32Value (0x80400000#32).toNat < 0 ∧ float32ToMiniFloat false 5 10 15 0x80400000#32 = 0x200#32 ∧
    0 < f16Value (0x200#32).toNat := by
  refine ⟨by norm_num [f32Value, fValue, fMag, fExp, fMan, fSign], by decide,
    by norm_num [f16Value, fValue, fMag, fExp, fMan, fSign]⟩

-- non-vacuity: a 1-4-3 format with bias 7
example : (0x5B#32).toNat < 2 ^ (4 + 3 + 1) ∧ FFinite 4 3 (0x5B#32).toNat ∧
    fExp 4 3 (0x5B#32).toNat = 11 ∧
    float32ToMiniFloat true 4 3 7 (miniFloatToFloat32 true 4 3 7 0x5B#32) = 0x5B#32 := by
  refine ⟨by decide, by unfold FFinite; decide, by decide, by decide⟩

end MGL
