import Verif.Proofs.QuatRot

/-! C61: quaternion interpolation. -/

namespace MGL
open V3
namespace Quat

/-- C61: for unit quaternions and `t` in `[0, 1]`, `Lerp` returns a unit quaternion on the shorter arc
(a non-negative combination of `±q` and `r`, the sign chosen so that they are at most 90° apart in
quaternion space), equal to `±q` at 0 and to `r` at 1. -/
theorem C61_lerp (q r : Quat ℝ) (t : ℝ) (hq : normSq q = 1) (hr : normSq r = 1) (ht0 : 0 ≤ t) (ht1 : t ≤ 1) :
    normSq (lerp q r t) = 1 ∧
    (∃ a b : ℝ, 0 ≤ a ∧ 0 ≤ b ∧ lerp q r t = add (smul (near q r) a) (smul r b) ∧ a * t = b * (1 - t)) ∧
    lerp q r 0 = near q r ∧ lerp q r 1 = r := by
  obtain ⟨hn1, hn2⟩ := near_spec q r hq
  have hab : ∀ t : ℝ, 1 / 10000 ≤ 1 - t ∨ 1 / 10000 ≤ t := by
    intro t
    rcases le_total t (1 / 2) with h | h
    · left; linarith
    · right; linarith
  obtain ⟨k1, k2, k3, k, hk, k4⟩ := normalized_comb _ r hn1 hr hn2 (1 - t) t (by linarith) ht0 (hab t)
  rw [lerp_eq, lerp_eq, lerp_eq]
  refine ⟨k1, ⟨k * (1 - t), k * t, by nlinarith, by positivity, k4, by ring⟩, ?_, ?_⟩
  · exact (normalized_comb _ r hn1 hr hn2 (1 - 0) 0 (by norm_num) le_rfl (hab 0)).2.1 rfl
  · exact (normalized_comb _ r hn1 hr hn2 (1 - 1) 1 (by norm_num) (by norm_num) (hab 1)).2.2.1 (by ring)

example := C61_lerp ⟨0, 4/5, 0, 3/5⟩ ⟨1/2, 1/2, 1/2, 1/2⟩ (1/3) (by norm_num [normSq]) (by norm_num [normSq]) (by norm_num) (by norm_num)

/-- C61: for unit quaternions and `t` in `[0, 1]`, `Slerp` returns a unit quaternion on the shorter arc,
equal to `±q` at 0, to `r` at 1, and to the exact half-way rotation at 1/2 (equal weights). -/
theorem C61_slerp (q r : Quat ℝ) (t : ℝ) (hq : normSq q = 1) (hr : normSq r = 1) (ht0 : 0 ≤ t) (ht1 : t ≤ 1) :
    normSq (slerp q r t) = 1 ∧
    (∃ a b : ℝ, 0 ≤ a ∧ 0 ≤ b ∧ slerp q r t = add (smul (near q r) a) (smul r b) ∧ (t = 1 / 2 → a = b)) ∧
    slerp q r 0 = near q r ∧ slerp q r 1 = r := by
  obtain ⟨hn1, hn2⟩ := near_spec q r hq
  obtain ⟨a, b, ha, hb, hab, h0, h1, h2, e⟩ := slerp_eq q r t hq ht0 ht1
  obtain ⟨k1, k2, k3, k, hk, k4⟩ := normalized_comb _ r hn1 hr hn2 a b ha hb hab
  refine ⟨by rw [e]; exact k1, ⟨k * a, k * b, by positivity, by positivity, by rw [e]; exact k4, fun h => by rw [h2 h]⟩, ?_, ?_⟩
  · obtain ⟨a, b, ha, hb, hab, h0, h1, h2, e⟩ := slerp_eq q r 0 hq le_rfl (by norm_num)
    rw [e]; exact (normalized_comb _ r hn1 hr hn2 a b ha hb hab).2.1 (h0 rfl)
  · obtain ⟨a, b, ha, hb, hab, h0, h1, h2, e⟩ := slerp_eq q r 1 hq (by norm_num) le_rfl
    rw [e]; exact (normalized_comb _ r hn1 hr hn2 a b ha hb hab).2.2.1 (h1 rfl)

example : normSq (⟨0, 3 / 5, 0, 4 / 5⟩ : Quat ℝ) = 1 ∧ normSq (⟨0, -1, 0, 0⟩ : Quat ℝ) = 1 ∧
    inner (⟨0, 3 / 5, 0, 4 / 5⟩ : Quat ℝ) ⟨0, -1, 0, 0⟩ < 0 := by norm_num [normSq, inner]

/-- C61: when the two quaternions are at most 90° apart in quaternion space, `AngleBetween` is the angle
of the relative rotation, between 0 and π, with cosine `2 (q·r)² - 1`. -/
theorem C61_angleBetween_partial (q r : Quat ℝ) (hq : normSq q = 1) (hr : normSq r = 1) (h : 0 ≤ inner q r) :
    0 ≤ angleBetween q r ∧ angleBetween q r ≤ Real.pi ∧
    Real.cos (angleBetween q r) = 2 * (inner q r) ^ 2 - 1 := by
  have hd : normSq (div r q) = 1 := by
    have : normSq (div r q) = normSq r * normSq q := by simp only [normSq, div]; ring
    rw [this, hq, hr, one_mul]
  have e : angleBetween q r = Real.arccos (inner q r) * 2 := by
    unfold angleBetween
    rw [normalize_unit _ hd]
    unfold angle
    congr 2
    simp only [div, inner]; ring
  have hc : inner q r * inner q r ≤ 1 := by
    have : 0 ≤ normSq q * normSq r - inner q r * inner q r := by
      have : normSq q * normSq r - inner q r * inner q r =
          (q.x * r.y - q.y * r.x) ^ 2 + (q.x * r.z - q.z * r.x) ^ 2 + (q.x * r.w - q.w * r.x) ^ 2 +
          (q.y * r.z - q.z * r.y) ^ 2 + (q.y * r.w - q.w * r.y) ^ 2 + (q.z * r.w - q.w * r.z) ^ 2 := by
        simp only [normSq, inner]; ring
      rw [this]; positivity
    rw [hq, hr] at this; linarith
  have h1 : inner q r ≤ 1 := by nlinarith
  rw [e]
  refine ⟨by linarith [Real.arccos_nonneg (inner q r)], ?_, ?_⟩
  · have := (Real.arccos_le_pi_div_two (x := inner q r)).2 h
    linarith
  · rw [mul_comm, Real.cos_two_mul, Real.cos_arccos (by linarith) h1]

example := C61_angleBetween_partial ⟨0, 4/5, 0, 3/5⟩ ⟨1/2, 1/2, 1/2, 1/2⟩ (by norm_num [normSq]) (by norm_num [normSq]) (by norm_num [inner])

/-- C61: the angle is not that of the shortest route in general: a rotation and its negated quaternion
are the same orientation but `AngleBetween` returns 2π. -/
theorem C61_angleBetween_violation : ∃ q r : Quat ℝ, normSq q = 1 ∧ normSq r = 1 ∧
    toFloat3x3 q = toFloat3x3 r ∧ angleBetween q r = 2 * Real.pi := by
  have hq : normSq (⟨0, 0, 0, 1⟩ : Quat ℝ) = 1 := by norm_num [normSq]
  have hr : normSq (⟨0, 0, 0, -1⟩ : Quat ℝ) = 1 := by norm_num [normSq]
  refine ⟨⟨0, 0, 0, 1⟩, ⟨0, 0, 0, -1⟩, hq, hr, ?_, ?_⟩
  · ext i j; fin_cases i <;> fin_cases j <;> simp [toFloat3x3]
  · have e : div (⟨0, 0, 0, -1⟩ : Quat ℝ) ⟨0, 0, 0, 1⟩ = ⟨0, 0, 0, -1⟩ := by simp [div]
    unfold angleBetween
    rw [e, normalize_unit _ hr]
    show Real.arccos (-1) * 2 = _
    rw [Real.arccos_neg_one]; ring

end Quat
end MGL
