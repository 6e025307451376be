import Verif.Spec.Easing
import Verif.Model.Interpolate
import Mathlib.Analysis.Calculus.Deriv.MeanValue
import Mathlib.Analysis.SpecialFunctions.Trigonometric.Bounds
import Mathlib.Tactic.Linarith
import Mathlib.Tactic.Ring
import Mathlib.Tactic.LinearCombination
import Mathlib.Tactic.Positivity

/-! C89: the interpolation curves. -/

namespace MGL.Interpolate
open Spec Set

theorem easing_of {f f' : ℝ → ℝ} (h0 : f 0 = 0) (h1 : f 1 = 1) (hd : ∀ t, HasDerivAt f (f' t) t) (hp : ∀ t, 0 < t → t < 1 → 0 < f' t) :
    Easing f := by
  refine ⟨h0, h1, strictMonoOn_of_deriv_pos (convex_Icc 0 1) (fun t _ => (hd t).continuousAt.continuousWithinAt) fun t ht => ?_⟩
  rw [interior_Icc] at ht
  rw [(hd t).deriv]
  exact hp t ht.1 ht.2

theorem easing_pow (k : ℕ) (hk : 0 < k) : Easing fun t => t ^ k :=
  ⟨zero_pow hk.ne', one_pow _, fun a ha _ _ h => pow_lt_pow_left₀ h ha.1 hk.ne'⟩

theorem _root_.MGL.Spec.Easing.mirror {f : ℝ → ℝ} (h : Easing f) : Easing fun t => 1 - f (1 - t) := by
  refine ⟨by simp [h.stop], by simp [h.start], fun a ha b hb hab => ?_⟩
  have := h.rises (a := 1 - b) (b := 1 - a) ⟨by linarith [hb.2], by linarith [hb.1]⟩ ⟨by linarith [ha.2], by linarith [ha.1]⟩ (by linarith)
  show 1 - f (1 - a) < 1 - f (1 - b)
  linarith

theorem _root_.MGL.Spec.Easing.mem {f : ℝ → ℝ} (h : Easing f) {t : ℝ} (ht : t ∈ Icc (0 : ℝ) 1) : f t ∈ Icc (0 : ℝ) 1 := by
  refine ⟨?_, ?_⟩
  · rw [← h.start]; exact h.rises.monotoneOn ⟨le_refl _, zero_le_one⟩ ht ht.1
  · rw [← h.stop]; exact h.rises.monotoneOn ht ⟨zero_le_one, le_refl _⟩ ht.2

/-- C89: the `SmoothStart` curves are powers of their argument: they rise from 0 to 1 and the higher ones start the flatter. -/
theorem C89_smoothStart : (∀ t, smoothStart t = t ^ 2 ∧ smoothStart3 t = t ^ 3 ∧ smoothStart4 t = t ^ 4 ∧ smoothStart5 t = t ^ 5) ∧
    (Easing smoothStart ∧ Easing smoothStart3 ∧ Easing smoothStart4 ∧ Easing smoothStart5) ∧
    (FlatStart 2 smoothStart ∧ FlatStart 3 smoothStart3 ∧ FlatStart 4 smoothStart4 ∧ FlatStart 5 smoothStart5) ∧
    ∀ t ∈ Ioo (0 : ℝ) 1, smoothStart5 t < smoothStart4 t ∧ smoothStart4 t < smoothStart3 t ∧ smoothStart3 t < smoothStart t ∧ smoothStart t < t := by
  have e2 : smoothStart = fun t => t ^ 2 := by funext t; simp only [smoothStart]; ring
  have e3 : smoothStart3 = fun t => t ^ 3 := by funext t; simp only [smoothStart3]; ring
  have e4 : smoothStart4 = fun t => t ^ 4 := by funext t; simp only [smoothStart4]; ring
  have e5 : smoothStart5 = fun t => t ^ 5 := by funext t; simp only [smoothStart5]; ring
  have flat : ∀ k : ℕ, FlatStart k fun t => t ^ k := fun k => ⟨1, fun t ht => by rw [abs_of_nonneg (pow_nonneg ht.1 k), one_mul]⟩
  rw [e2, e3, e4, e5]
  refine ⟨fun t => ⟨rfl, rfl, rfl, rfl⟩, ⟨easing_pow 2 (by norm_num), easing_pow 3 (by norm_num), easing_pow 4 (by norm_num), easing_pow 5 (by norm_num)⟩,
    ⟨flat 2, flat 3, flat 4, flat 5⟩, fun t ht => ?_⟩
  have h : ∀ k, t ^ (k + 1) < t ^ k := fun k => pow_lt_pow_right_of_lt_one₀ ht.1 ht.2 (Nat.lt_succ_self k)
  exact ⟨h 4, h 3, h 2, by simpa using h 1⟩

/-- C89: the `SmoothStop` curves are the `SmoothStart` curves run backwards. -/
theorem C89_smoothStop : (∀ t, smoothStop t = 1 - smoothStart (1 - t) ∧ smoothStop3 t = 1 - smoothStart3 (1 - t) ∧
      smoothStop4 t = 1 - smoothStart4 (1 - t) ∧ smoothStop5 t = 1 - smoothStart5 (1 - t)) ∧
    (Easing smoothStop ∧ Easing smoothStop3 ∧ Easing smoothStop4 ∧ Easing smoothStop5) ∧
    (FlatStop 2 smoothStop ∧ FlatStop 3 smoothStop3 ∧ FlatStop 4 smoothStop4 ∧ FlatStop 5 smoothStop5) ∧
    ∀ t ∈ Ioo (0 : ℝ) 1, t < smoothStop t ∧ smoothStop t < smoothStop3 t ∧ smoothStop3 t < smoothStop4 t ∧ smoothStop4 t < smoothStop5 t := by
  obtain ⟨hp, ⟨e2, e3, e4, e5⟩, ⟨⟨c2, f2⟩, ⟨c3, f3⟩, ⟨c4, f4⟩, c5, f5⟩, hlt⟩ := C89_smoothStart
  have m : ∀ {t : ℝ}, t ∈ Icc (0 : ℝ) 1 → 1 - t ∈ Icc (0 : ℝ) 1 := fun ht => ⟨by linarith [ht.2], by linarith [ht.1]⟩
  have k : ∀ x : ℝ, 1 - (1 - x) = x := fun x => by ring
  refine ⟨fun t => ⟨rfl, rfl, rfl, rfl⟩, ⟨e2.mirror, e3.mirror, e4.mirror, e5.mirror⟩,
    ⟨⟨c2, fun t ht => ?_⟩, ⟨c3, fun t ht => ?_⟩, ⟨c4, fun t ht => ?_⟩, c5, fun t ht => ?_⟩, fun t ht => ?_⟩
  · show |1 - (1 - smoothStart (1 - t))| ≤ _
    rw [k]; exact f2 _ (m ht)
  · show |1 - (1 - smoothStart3 (1 - t))| ≤ _
    rw [k]; exact f3 _ (m ht)
  · show |1 - (1 - smoothStart4 (1 - t))| ≤ _
    rw [k]; exact f4 _ (m ht)
  · show |1 - (1 - smoothStart5 (1 - t))| ≤ _
    rw [k]; exact f5 _ (m ht)
  · obtain ⟨h1, h2, h3, h4⟩ := hlt (1 - t) ⟨by linarith [ht.2], by linarith [ht.1]⟩
    show t < 1 - smoothStart (1 - t) ∧ 1 - smoothStart (1 - t) < 1 - smoothStart3 (1 - t) ∧
      1 - smoothStart3 (1 - t) < 1 - smoothStart4 (1 - t) ∧ 1 - smoothStart4 (1 - t) < 1 - smoothStart5 (1 - t)
    exact ⟨by linarith, by linarith, by linarith, by linarith⟩

/-- C89: `SmoothStep` blends from `SmoothStart` to `SmoothStop` and `SharpStep` from `SmoothStop` to `SmoothStart`, linearly. Both are
symmetric curves from 0 to 1; `SmoothStep` is flat at both ends. -/
theorem C89_steps : (∀ t, smoothStep t = (1 - t) * smoothStart t + t * smoothStop t ∧ sharpStep t = (1 - t) * smoothStop t + t * smoothStart t) ∧
    (Easing smoothStep ∧ Symmetric smoothStep ∧ FlatStart 2 smoothStep ∧ FlatStop 2 smoothStep) ∧ Easing sharpStep ∧ Symmetric sharpStep := by
  have hs : Symmetric smoothStep := fun t => by simp only [smoothStep]; ring
  have hf : ∀ t ∈ Icc (0 : ℝ) 1, |smoothStep t| ≤ 3 * t ^ 2 := fun t ht => by
    have e : smoothStep t = t ^ 2 * (3 - 2 * t) := by simp only [smoothStep]; ring
    rw [e, abs_of_nonneg (mul_nonneg (sq_nonneg t) (by linarith [ht.2]))]
    nlinarith [sq_nonneg t, mul_nonneg (sq_nonneg t) ht.1]
  refine ⟨fun t => ⟨?_, ?_⟩, ⟨?_, hs, ⟨3, hf⟩, 3, fun t ht => ?_⟩, ?_, fun t => ?_⟩
  · simp only [smoothStep, smoothStart, smoothStop]; ring
  · simp only [sharpStep, smoothStart, smoothStop]; ring
  · refine easing_of (f' := fun t => 6 * t * (1 - t)) (by norm_num [smoothStep]) (by norm_num [smoothStep]) (fun t => ?_) fun t h0 h1 => ?_
    · have h := ((hasDerivAt_pow 2 t).const_mul 3).sub ((hasDerivAt_pow 3 t).const_mul 2)
      refine (h.congr_deriv (by norm_num; ring)).congr_of_eventuallyEq (Filter.Eventually.of_forall fun x => ?_)
      simp only [smoothStep, Pi.sub_apply]; ring
    · have : 0 < 1 - t := by linarith
      positivity
  · rw [← hs t]; exact hf (1 - t) ⟨by linarith [ht.2], by linarith [ht.1]⟩
  · refine easing_of (f' := fun t => 6 * t ^ 2 - 6 * t + 2) (by norm_num [sharpStep]) (by norm_num [sharpStep]) (fun t => ?_) fun t _ _ => ?_
    · have h := (((hasDerivAt_pow 3 t).const_mul 2).sub ((hasDerivAt_pow 2 t).const_mul 3)).add ((hasDerivAt_id t).const_mul 2)
      refine (h.congr_deriv (by norm_num; ring)).congr_of_eventuallyEq (Filter.Eventually.of_forall fun x => ?_)
      simp only [sharpStep, Pi.sub_apply, Pi.add_apply, id]; ring
    · show 0 < 6 * t ^ 2 - 6 * t + 2
      nlinarith [sq_nonneg (2 * t - 1)]
  · simp only [sharpStep]; ring

/-- C89: `SmoothStep5`, `SmoothStep7` and `CosineStep01` are symmetric curves from 0 to 1 whose first two, first three and first
derivatives vanish at both ends. -/
theorem C89_higher_steps :
    (Easing smoothStep5 ∧ Symmetric smoothStep5 ∧ FlatStart 3 smoothStep5 ∧ FlatStop 3 smoothStep5) ∧
    (Easing smoothStep7 ∧ Symmetric smoothStep7 ∧ FlatStart 4 smoothStep7 ∧ FlatStop 4 smoothStep7) ∧
    Easing cosineStep01 ∧ Symmetric cosineStep01 ∧ FlatStart 2 cosineStep01 ∧ FlatStop 2 cosineStep01 := by
  have hs5 : Symmetric smoothStep5 := fun t => by simp only [smoothStep5]; ring
  have hs7 : Symmetric smoothStep7 := fun t => by simp only [smoothStep7]; ring
  have hsc : Symmetric cosineStep01 := fun t => by
    simp only [cosineStep01]
    rw [show (1 - t) * Real.pi = Real.pi - t * Real.pi by ring, Real.cos_pi_sub]; ring
  have E5 : Easing smoothStep5 := by
    refine easing_of (f' := fun t => 30 * t ^ 2 * (1 - t) ^ 2) (by norm_num [smoothStep5]) (by norm_num [smoothStep5]) (fun t => ?_) fun t h0 h1 => ?_
    · have h := (((hasDerivAt_pow 5 t).const_mul 6).sub ((hasDerivAt_pow 4 t).const_mul 15)).add ((hasDerivAt_pow 3 t).const_mul 10)
      refine (h.congr_deriv (by norm_num; ring)).congr_of_eventuallyEq (Filter.Eventually.of_forall fun x => ?_)
      simp only [smoothStep5, Pi.sub_apply, Pi.add_apply]; ring
    · have : 0 < 1 - t := by linarith
      positivity
  have E7 : Easing smoothStep7 := by
    refine easing_of (f' := fun t => 140 * t ^ 3 * (1 - t) ^ 3) (by norm_num [smoothStep7]) (by norm_num [smoothStep7]) (fun t => ?_) fun t h0 h1 => ?_
    · have h := ((((hasDerivAt_pow 7 t).const_mul (-20)).add ((hasDerivAt_pow 6 t).const_mul 70)).sub ((hasDerivAt_pow 5 t).const_mul 84)).add
        ((hasDerivAt_pow 4 t).const_mul 35)
      refine (h.congr_deriv (by norm_num; ring)).congr_of_eventuallyEq (Filter.Eventually.of_forall fun x => ?_)
      simp only [smoothStep7, Pi.sub_apply, Pi.add_apply]; ring
    · have : 0 < 1 - t := by linarith
      positivity
  have Ec : Easing cosineStep01 := by
    refine ⟨by simp [cosineStep01], by simp only [cosineStep01, one_mul, Real.cos_pi]; norm_num, fun a ha b hb hab => ?_⟩
    have := Real.strictAntiOn_cos (a := a * Real.pi) (b := b * Real.pi) ⟨mul_nonneg ha.1 Real.pi_pos.le, by nlinarith [ha.2, Real.pi_pos]⟩
      ⟨mul_nonneg hb.1 Real.pi_pos.le, by nlinarith [hb.2, Real.pi_pos]⟩ (mul_lt_mul_of_pos_right hab Real.pi_pos)
    simp only [cosineStep01]
    linarith
  have stop : ∀ (k : ℕ) (f : ℝ → ℝ), Symmetric f → FlatStart k f → FlatStop k f := by
    rintro k f hs ⟨C, hC⟩
    exact ⟨C, fun t ht => by rw [← hs t]; exact hC (1 - t) ⟨by linarith [ht.2], by linarith [ht.1]⟩⟩
  have F5 : FlatStart 3 smoothStep5 := ⟨10, fun t ht => by
    rw [abs_of_nonneg (E5.mem ht).1]
    have h3 : 0 ≤ t ^ 3 := pow_nonneg ht.1 3
    have e : smoothStep5 t = t ^ 3 * (6 * t ^ 2 - 15 * t + 10) := by simp only [smoothStep5]; ring
    rw [e, mul_comm]
    exact mul_le_mul_of_nonneg_right (by nlinarith [ht.1, ht.2]) h3⟩
  have F7 : FlatStart 4 smoothStep7 := ⟨35, fun t ht => by
    rw [abs_of_nonneg (E7.mem ht).1]
    have h4 : 0 ≤ t ^ 4 := pow_nonneg ht.1 4
    have e : smoothStep7 t = t ^ 4 * (-20 * t ^ 3 + 70 * t ^ 2 - 84 * t + 35) := by simp only [smoothStep7]; ring
    rw [e, mul_comm]
    refine mul_le_mul_of_nonneg_right ?_ h4
    nlinarith [ht.1, ht.2, mul_nonneg ht.1 (sub_nonneg.2 ht.2), pow_nonneg ht.1 3]⟩
  have Fc : FlatStart 2 cosineStep01 := ⟨Real.pi ^ 2 / 4, fun t ht => by
    rw [abs_of_nonneg (Ec.mem ht).1]
    have := Real.one_sub_sq_div_two_le_cos (x := t * Real.pi)
    simp only [cosineStep01]
    nlinarith⟩
  exact ⟨⟨E5, hs5, F5, stop 3 _ hs5 F5⟩, ⟨E7, hs7, F7, stop 4 _ hs7 F7⟩, Ec, hsc, Fc, stop 2 _ hsc Fc⟩

/-- A point of the domain. -/
example : smoothStep (1 / 4) = 5 / 32 ∧ smoothStep7 (1 / 2) = 1 / 2 ∧ (1 / 4 : ℝ) ∈ Ioo (0 : ℝ) 1 := by
  norm_num [smoothStep, smoothStep7]

end MGL.Interpolate
