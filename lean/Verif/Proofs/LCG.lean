import Verif.Model.LCG
import Verif.Proofs.Float32
import Mathlib.Data.Nat.Bitwise
import Mathlib.NumberTheory.LucasPrimality
import Mathlib.Tactic.NormNum.Prime

/-! Lemmas about the generator. -/

namespace MGL

open Spec

theorem lcg_int_spec (g : LCG) (h : g.modulus ≠ 0) :
    ∃ l : BitVec 32, g.int = some (l, { g with last := l }) ∧
      l.toNat = (g.last.toNat * g.mul.toNat + g.inc.toNat) % g.modulus.toNat := by
  unfold LCG.int
  rw [if_neg h]
  refine ⟨_, rfl, ?_⟩
  have h1 := g.last.isLt
  have h2 := g.mul.isLt
  have h3 := g.inc.isLt
  have h4 := g.modulus.isLt
  have h5 : 0 < g.modulus.toNat := by
    rcases Nat.eq_zero_or_pos g.modulus.toNat with hc | hc
    · exact absurd (BitVec.eq_of_toNat_eq (by simpa using hc)) h
    · exact hc
  have hm : g.last.toNat * g.mul.toNat ≤ (2 ^ 32 - 1) * (2 ^ 32 - 1) :=
    Nat.mul_le_mul (by omega) (by omega)
  have hlt := Nat.mod_lt (g.last.toNat * g.mul.toNat + g.inc.toNat) h5
  have e1 : (g.last.setWidth 64).toNat = g.last.toNat := by
    rw [BitVec.toNat_setWidth, Nat.mod_eq_of_lt (by omega)]
  have e2 : (g.mul.setWidth 64).toNat = g.mul.toNat := by
    rw [BitVec.toNat_setWidth, Nat.mod_eq_of_lt (by omega)]
  have e3 : (g.inc.setWidth 64).toNat = g.inc.toNat := by
    rw [BitVec.toNat_setWidth, Nat.mod_eq_of_lt (by omega)]
  have e4 : (g.modulus.setWidth 64).toNat = g.modulus.toNat := by
    rw [BitVec.toNat_setWidth, Nat.mod_eq_of_lt (by omega)]
  rw [BitVec.toNat_setWidth, BitVec.toNat_umod, BitVec.toNat_add, BitVec.toNat_mul, e1, e2, e3, e4,
    Nat.mod_eq_of_lt (a := g.last.toNat * g.mul.toNat) (by omega),
    Nat.mod_eq_of_lt (a := g.last.toNat * g.mul.toNat + g.inc.toNat) (by omega),
    Nat.mod_eq_of_lt (by omega)]

theorem f32Value_one_plus (m : ℕ) (hm : m < 2 ^ 23) :
    f32Value (0x3F800000 + m) = 1 + (m : ℚ) / 2 ^ 23 := by
  have a : fSign 8 23 (0x3F800000 + m) = 0 := by unfold fSign; omega
  have b : fExp 8 23 (0x3F800000 + m) = 127 := by unfold fExp; omega
  have c : fMan 23 (0x3F800000 + m) = m := by unfold fMan; omega
  unfold f32Value fValue fMag
  rw [a, b, c]
  norm_num

theorem f32Value_neg_one_plus (m : ℕ) (hm : m < 2 ^ 23) :
    f32Value (2 ^ 31 + 0x3F800000 + m) = -(1 + (m : ℚ) / 2 ^ 23) := by
  have a : fSign 8 23 (2 ^ 31 + 0x3F800000 + m) = 1 := by unfold fSign; omega
  have b : fExp 8 23 (2 ^ 31 + 0x3F800000 + m) = 127 := by unfold fExp; omega
  have c : fMan 23 (2 ^ 31 + 0x3F800000 + m) = m := by unfold fMan; omega
  unfold f32Value fValue fMag
  rw [a, b, c]
  norm_num

theorem bits_or (m : ℕ) (hm : m < 2 ^ 23) : m ||| 0x3F800000 = 0x3F800000 + m := by
  have := Nat.two_pow_add_eq_or_of_lt (i := 23) hm 127
  rw [Nat.or_comm, show 0x3F800000 = 2 ^ 23 * 127 by norm_num, this]

theorem bits_or_neg (m : ℕ) (hm : m < 2 ^ 23) :
    (2 ^ 31 + 0x3F800000) ||| m = 2 ^ 31 + 0x3F800000 + m := by
  have := Nat.two_pow_add_eq_or_of_lt (i := 23) hm (127 + 256)
  rw [show (2 ^ 31 + 0x3F800000) = 2 ^ 23 * (127 + 256) by norm_num, this]

theorem and_mant (i : BitVec 32) : (i &&& 0x007FFFFF).toNat = i.toNat % 2 ^ 23 := by
  rw [BitVec.toNat_and, show (0x007FFFFF : BitVec 32).toNat = 2 ^ 23 - 1 by decide,
    Nat.and_two_pow_sub_one_eq_mod]

theorem and_24 (i : BitVec 32) : (i &&& 0x00FFFFFF).toNat = i.toNat % 2 ^ 24 := by
  rw [BitVec.toNat_and, show (0x00FFFFFF : BitVec 32).toNat = 2 ^ 24 - 1 by decide,
    Nat.and_two_pow_sub_one_eq_mod]

/-- `Float()` is `(Int() mod 2^23) / 2^23`, exactly. -/
theorem lcg_float_spec (g : LCG) (h : g.modulus ≠ 0) :
    ∃ l : BitVec 32, g.int = some (l, { g with last := l }) ∧
      g.float = some (((l.toNat % 2 ^ 23 : ℕ) : ℚ) / 2 ^ 23, { g with last := l }) := by
  obtain ⟨l, h1, -⟩ := lcg_int_spec g h
  refine ⟨l, h1, ?_⟩
  unfold LCG.float
  rw [h1]
  simp only [Option.bind_eq_bind, Option.bind_some, Option.pure_def, Option.some.injEq,
    Prod.mk.injEq, and_true]
  rw [BitVec.toNat_or, and_mant, show (0x3F800000 : BitVec 32).toNat = 0x3F800000 by decide,
    bits_or _ (Nat.mod_lt _ (by norm_num)), f32Value_one_plus _ (Nat.mod_lt _ (by norm_num))]
  ring

theorem lcg_float_range (g : LCG) (h : g.modulus ≠ 0) :
    ∃ u l, g.float = some (u, { g with last := l }) ∧ 0 ≤ u ∧ u ≤ 1 - 2 ^ (-23 : ℤ) := by
  obtain ⟨l, -, h1⟩ := lcg_float_spec g h
  refine ⟨_, l, h1, by positivity, ?_⟩
  have := Nat.mod_lt l.toNat (show 2 ^ 23 > 0 by norm_num)
  have h2 : l.toNat % 2 ^ 23 ≤ 2 ^ 23 - 1 := by omega
  have h3 : ((l.toNat % 2 ^ 23 : ℕ) : ℚ) ≤ 2 ^ 23 - 1 := by
    have : ((l.toNat % 2 ^ 23 : ℕ) : ℚ) ≤ ((2 ^ 23 - 1 : ℕ) : ℚ) := by exact_mod_cast h2
    norm_num at this ⊢
    linarith
  rw [div_le_iff₀ (by norm_num)]
  norm_num at h3 ⊢
  linarith

/-- Rounded scaling of `u ∈ [0, 1-2^-23]` by a rounded length never exceeds the exact length. -/
theorem rnd_scale {r : ℚ → ℚ} (hr : RoundsToNearest r) {u d : ℚ} (h0 : 0 ≤ u)
    (h1 : u ≤ 1 - 2 ^ (-23 : ℤ)) (hd0 : 0 ≤ d) (hdm : d ≤ maxF32)
    (hsmall : d < 2 ^ (-125 : ℤ) → IsF32 d) :
    0 ≤ r (u * r d) ∧ r (u * r d) ≤ d ∧ (1 ≤ d → r (u * r d) < d) := by
  have hm := maxF32_pos
  have hd : |d| ≤ maxF32 := by rwa [abs_of_nonneg hd0]
  have hrd0 : 0 ≤ r d := by
    have := rnd_mono hr (by simpa using hm.le) hd hd0
    rwa [rnd_fix hr isF32_zero] at this
  have hrdm : r d ≤ maxF32 := by
    have := rnd_mono hr hd (by rw [abs_of_pos hm]) hdm
    rwa [rnd_fix hr isF32_maxF32] at this
  have e23 : (2 : ℚ) ^ (-23 : ℤ) = 1 / 2 ^ 23 := by norm_num
  have e24 : (2 : ℚ) ^ (-24 : ℤ) = 1 / 2 ^ 24 := by norm_num
  have hu1 : u ≤ 1 := by rw [e23] at h1; norm_num at h1; linarith
  have hx0 : 0 ≤ u * r d := mul_nonneg h0 hrd0
  have hxle : u * r d ≤ r d := mul_le_of_le_one_left hrd0 hu1
  have hxm : |u * r d| ≤ maxF32 := by rw [abs_of_nonneg hx0]; linarith
  have hy0 : 0 ≤ r (u * r d) := by
    have := rnd_mono hr (by simpa using hm.le) hxm hx0
    rwa [rnd_fix hr isF32_zero] at this
  refine ⟨hy0, ?_⟩
  by_cases hs : d < 2 ^ (-125 : ℤ)
  · have e := rnd_fix hr (hsmall hs)
    refine ⟨?_, ?_⟩
    · have := rnd_mono hr hxm hd (le_trans hxle e.le)
      exact le_trans this e.le
    · intro hd1
      have : (2 : ℚ) ^ (-125 : ℤ) ≤ 1 := by
        rw [show (1 : ℚ) = 2 ^ (0 : ℤ) by simp]
        exact zpow_le_zpow_right₀ (by norm_num) (by norm_num)
      linarith
  · push Not at hs
    have hn : (2 : ℚ) ^ (-126 : ℤ) ≤ 2 ^ (-125 : ℤ) :=
      zpow_le_zpow_right₀ (by norm_num) (by norm_num)
    have hrel := rnd_rel hr (le_trans hn hs) hdm
    rw [abs_le, e24] at hrel
    have hxd : u * r d ≤ d * ((1 - 1 / 2 ^ 23) * (1 + 1 / 2 ^ 24)) := by
      rw [e23] at h1
      have : u * r d ≤ (1 - 1 / 2 ^ 23) * (d * (1 + 1 / 2 ^ 24)) := by
        apply mul_le_mul h1 _ hrd0 (by norm_num)
        linarith [hrel.2]
      linarith
    by_cases hxs : u * r d < 2 ^ (-126 : ℤ)
    · have hF : IsF32 ((2 : ℚ) ^ (-126 : ℤ)) :=
        ⟨1, -126, by norm_num, by norm_num, by norm_num, by simp⟩
      have := rnd_mono hr hxm (isF32_abs_le hF) hxs.le
      rw [rnd_fix hr hF] at this
      refine ⟨by linarith, fun hd1 => ?_⟩
      have : (2 : ℚ) ^ (-126 : ℤ) < 1 := by
        rw [show (1 : ℚ) = 2 ^ (0 : ℤ) by simp]
        exact zpow_lt_zpow_right₀ (by norm_num) (by norm_num)
      linarith
    · push Not at hxs
      have hr2 := rnd_rel hr hxs (by linarith)
      rw [abs_le, e24] at hr2
      have hdpos : 0 < d := lt_of_lt_of_le (by positivity) hs
      have : r (u * r d) < d := by
        have k : r (u * r d) ≤ (u * r d) * (1 + 1 / 2 ^ 24) := by linarith [hr2.2]
        have k2 : (u * r d) * (1 + 1 / 2 ^ 24) ≤
            d * ((1 - 1 / 2 ^ 23) * (1 + 1 / 2 ^ 24)) * (1 + 1 / 2 ^ 24) :=
          mul_le_mul_of_nonneg_right hxd (by norm_num)
        have k3 : d * ((1 - 1 / 2 ^ 23) * (1 + 1 / 2 ^ 24)) * (1 + 1 / 2 ^ 24 : ℚ) < d := by
          norm_num
          linarith
        linarith
      exact ⟨this.le, fun _ => this⟩

/-! ### The default multiplier generates the multiplicative group -/

theorem p31_factors (q : ℕ) (hq : q.Prime) (h : q ∣ 2147483646) :
    q = 2 ∨ q = 3 ∨ q = 7 ∨ q = 11 ∨ q = 31 ∨ q = 151 ∨ q = 331 := by
  have e : 2147483646 = 2 * (3 * (3 * (7 * (11 * (31 * (151 * 331)))))) := by norm_num
  rw [e] at h
  have pr : ∀ p, p.Prime → q ∣ p → q = p := fun p hp hd => (Nat.prime_dvd_prime_iff_eq hq hp).1 hd
  rcases hq.dvd_mul.1 h with h | h
  · exact .inl (pr 2 (by norm_num) h)
  rcases hq.dvd_mul.1 h with h | h
  · exact .inr (.inl (pr 3 (by norm_num) h))
  rcases hq.dvd_mul.1 h with h | h
  · exact .inr (.inl (pr 3 (by norm_num) h))
  rcases hq.dvd_mul.1 h with h | h
  · exact .inr (.inr (.inl (pr 7 (by norm_num) h)))
  rcases hq.dvd_mul.1 h with h | h
  · exact .inr (.inr (.inr (.inl (pr 11 (by norm_num) h))))
  rcases hq.dvd_mul.1 h with h | h
  · exact .inr (.inr (.inr (.inr (.inl (pr 31 (by norm_num) h)))))
  rcases hq.dvd_mul.1 h with h | h
  · exact .inr (.inr (.inr (.inr (.inr (.inl (pr 151 (by norm_num) h))))))
  · exact .inr (.inr (.inr (.inr (.inr (.inr (pr 331 (by norm_num) h))))))

/-- `a^e mod m` by squaring, for exponents below `2^fuel`. -/
def powMod (a m : ℕ) : (fuel e : ℕ) → ℕ
  | 0, _ => 1 % m
  | fuel + 1, e =>
    let h := powMod a m fuel (e / 2)
    if e % 2 = 1 then h * h % m * a % m else h * h % m

theorem powMod_eq (a m : ℕ) : ∀ fuel e : ℕ, e < 2 ^ fuel → powMod a m fuel e = a ^ e % m
  | 0, e, h => by
    have : e = 0 := by simpa using h
    subst this; simp [powMod]
  | fuel + 1, e, h => by
    have ih := powMod_eq a m fuel (e / 2) (by rw [pow_succ] at h; omega)
    unfold powMod
    simp only [ih]
    have e2 : e = e / 2 + e / 2 + e % 2 := by omega
    split
    · rename_i h1
      conv_rhs => rw [e2, h1, pow_succ, pow_add]
      simp [Nat.mul_mod]
    · rename_i h1
      have h0 : e % 2 = 0 := by omega
      conv_rhs => rw [e2, h0, add_zero, pow_add]
      simp [Nat.mul_mod]

theorem p31_pow (e : ℕ) : (69621 : ZMod 2147483647) ^ e = ((69621 ^ e % 2147483647 : ℕ) : ZMod 2147483647) := by
  rw [ZMod.natCast_mod]; push_cast; rfl

theorem p31_pow_full : (69621 : ZMod 2147483647) ^ 2147483646 = 1 := by
  rw [p31_pow, ← powMod_eq _ _ 32 _ (by norm_num),
    show powMod 69621 2147483647 32 2147483646 = 1 by decide +kernel]; simp

theorem p31_pow_div (q : ℕ) (hq : q.Prime) (h : q ∣ 2147483646) :
    (69621 : ZMod 2147483647) ^ (2147483646 / q) ≠ 1 := by
  have key : ∀ e : ℕ, e < 2 ^ 32 → powMod 69621 2147483647 32 e ≠ 1 →
      (69621 : ZMod 2147483647) ^ e ≠ 1 := by
    intro e h1 h3 hc
    rw [powMod_eq _ _ _ _ h1] at h3
    rw [p31_pow] at hc
    have : ((69621 ^ e % 2147483647 : ℕ) : ZMod 2147483647) = ((1 : ℕ) : ZMod 2147483647) := by
      rw [hc]; simp
    rw [ZMod.natCast_eq_natCast_iff', Nat.mod_mod] at this
    exact h3 this
  rcases p31_factors q hq h with rfl | rfl | rfl | rfl | rfl | rfl | rfl
  all_goals exact key _ (by norm_num) (by decide +kernel)

theorem p31_prime : Nat.Prime 2147483647 :=
  lucas_primality _ 69621 p31_pow_full p31_pow_div

theorem p31_order : orderOf (69621 : ZMod 2147483647) = 2147483646 :=
  orderOf_eq_of_pow_and_pow_div_prime (by norm_num) p31_pow_full p31_pow_div

end MGL
