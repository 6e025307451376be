import Verif.Model.Euler
import Verif.Proofs.QuatRot
import Mathlib.Analysis.SpecialFunctions.Complex.Arg

/-! Helper lemmas for the Euler angles: one lemma per order and per branch. -/

namespace MGL
open V3

theorem atan2_sc {x y C : ℝ} (hC : 0 < C) (h : x * x + y * y = C * C) :
    Real.sin (atan2 y x) = y * (1 / C) ∧ Real.cos (atan2 y x) = x * (1 / C) := by
  have hn : ‖(⟨x, y⟩ : ℂ)‖ = C := by
    rw [Complex.norm_def, Complex.normSq_mk, h, Real.sqrt_mul_self hC.le]
  have h0 : (⟨x, y⟩ : ℂ) ≠ 0 := by
    intro h0; rw [h0, norm_zero] at hn; exact hC.ne hn
  constructor
  · unfold atan2; rw [Complex.sin_arg, hn]; ring
  · unfold atan2; rw [Complex.cos_arg h0, hn]; ring

theorem atan2_sc_one {x y : ℝ} (h : x * x + y * y = 1) :
    Real.sin (atan2 y x) = y ∧ Real.cos (atan2 y x) = x := by
  have := atan2_sc (C := 1) one_pos (by rw [h, mul_one]); simpa using this

theorem arcsin_sc {p : ℝ} (h1 : -1 < p) (h2 : p < 1) :
    Real.sin (Real.arcsin p) = p ∧ Real.cos (Real.arcsin p) = Real.sqrt (1 - p * p) := by
  refine ⟨Real.sin_arcsin h1.le h2.le, ?_⟩
  rw [Real.cos_arcsin, sq]

theorem arccos_sc {p : ℝ} (h1 : -1 < p) (h2 : p < 1) :
    Real.cos (Real.arccos p) = p ∧ Real.sin (Real.arccos p) = Real.sqrt (1 - p * p) := by
  refine ⟨Real.cos_arccos h1.le h2.le, ?_⟩
  rw [Real.sin_arccos, sq]

theorem mat9_eq (m : Mat3 ℝ) {a b c d e f g h i : ℝ} (h00 : a = m 0 0) (h01 : b = m 0 1) (h02 : c = m 0 2)
    (h10 : d = m 1 0) (h11 : e = m 1 1) (h12 : f = m 1 2) (h20 : g = m 2 0) (h21 : h = m 2 1) (h22 : i = m 2 2) :
    (!![a, b, c; d, e, f; g, h, i] : Mat3 ℝ) = m := by
  subst h00 h01 h02 h10 h11 h12 h20 h21 h22
  ext i j; fin_cases i <;> fin_cases j <;> rfl

theorem eulerXYZ_main (m : Mat3 ℝ) (E : RotEqs m) (k C x y z : ℝ) (hk : k * C = 1) (hC : C * C = 1 - m 0 2 * m 0 2)
    (hsy : Real.sin y = m 0 2) (hcy : Real.cos y = C)
    (hsx : Real.sin x = -m 1 2 * k) (hcx : Real.cos x = m 2 2 * k)
    (hsz : Real.sin z = -m 0 1 * k) (hcz : Real.cos z = m 0 0 * k) :
    Mat3.fromEulerXYZ x y z = m := by
  have hkk : k * k * (1 - m 0 2 * m 0 2) = 1 := by rw [← hC]; linear_combination (k * C + 1) * hk
  unfold Mat3.fromEulerXYZ
  rw [hsx, hcx, hsy, hcy, hsz, hcz]
  apply mat9_eq
  · linear_combination ((1) * m 0 0) * hk
  · linear_combination ((1) * m 0 1) * hk
  · ring
  · linear_combination k * k * (1 * m 1 0 * E.r00 + (-1) * m 1 0 * E.c00 + (-1) * m 1 2 * E.c02 + 1 * m 1 0 * E.r11 + (-1) * m 1 0 * E.c11 + 1 * m 1 0 * E.r22 + 1 * m 2 2 * E.k01) + m 1 0 * hkk
  · linear_combination k * k * (1 * m 1 1 * E.r00 + (-1) * m 1 1 * E.c00 + (-1) * m 0 1 * E.r01 + 1 * m 1 0 * E.c01 + (-1) * m 2 1 * E.r12 + 1 * m 1 1 * E.r22 + (-1) * m 2 2 * E.k00) + m 1 1 * hkk
  · linear_combination ((1) * m 1 2) * hk
  · linear_combination k * k * (1 * m 2 0 * E.r00 + 1 * m 2 1 * E.c01 + (-1) * m 0 0 * E.r02 + 1 * m 2 0 * E.r11 + (-1) * m 2 0 * E.c11 + (-1) * m 1 0 * E.r12 + (-1) * m 1 2 * E.k01) + m 2 0 * hkk
  · linear_combination k * k * (1 * m 2 1 * E.r00 + (-1) * m 2 1 * E.c00 + 1 * m 2 0 * E.c01 + (-1) * m 0 1 * E.r02 + 1 * m 2 1 * E.r11 + (-1) * m 1 1 * E.r12 + 1 * m 1 2 * E.k00) + m 2 1 * hkk
  · linear_combination ((1) * m 2 2) * hk

theorem eulerXYZ_neg (m : Mat3 ℝ) (E : RotEqs m) (x y z : ℝ) (hp : m 0 2 = -1) (z00 : m 0 0 = 0) (z01 : m 0 1 = 0) (z12 : m 1 2 = 0) (z22 : m 2 2 = 0)
    (hsy : Real.sin y = -1) (hcy : Real.cos y = 0) (hsz : Real.sin z = 0) (hcz : Real.cos z = 1)
    (hsx : Real.sin x = -m 1 0) (hcx : Real.cos x = m 1 1) :
    Mat3.fromEulerXYZ x y z = m := by
  unfold Mat3.fromEulerXYZ
  rw [hsx, hcx, hsy, hcy, hsz, hcz]
  apply mat9_eq
  · linear_combination (-1) * z00
  · linear_combination (-1) * z01
  · linear_combination (-1) * hp
  · linear_combination (0 : ℝ) * E.r00
  · linear_combination (0 : ℝ) * E.r00
  · linear_combination (-1) * z12
  · linear_combination 1 * m 2 1 * E.r12 + (-1) * m 1 1 * E.r22 + 1 * m 2 2 * E.k00 + (-1) * m 2 0 * E.k02 + (-1) * m 2 0 * hp + 1 * m 2 2 * z00
  · linear_combination 1 * m 2 1 * E.r11 + (-1) * m 1 1 * E.r12 + 1 * m 1 2 * E.k00 + (-1) * m 1 0 * E.k02 + (-1) * m 1 0 * hp + 1 * m 1 2 * z00
  · linear_combination (-1) * z22

theorem eulerXYZ_pos (m : Mat3 ℝ) (E : RotEqs m) (x y z : ℝ) (hp : m 0 2 = 1) (z00 : m 0 0 = 0) (z01 : m 0 1 = 0) (z12 : m 1 2 = 0) (z22 : m 2 2 = 0)
    (hsy : Real.sin y = 1) (hcy : Real.cos y = 0) (hsz : Real.sin z = 0) (hcz : Real.cos z = 1)
    (hsx : Real.sin x = m 1 0) (hcx : Real.cos x = m 1 1) :
    Mat3.fromEulerXYZ x y z = m := by
  unfold Mat3.fromEulerXYZ
  rw [hsx, hcx, hsy, hcy, hsz, hcz]
  apply mat9_eq
  · linear_combination (-1) * z00
  · linear_combination (-1) * z01
  · linear_combination (-1) * hp
  · linear_combination (0 : ℝ) * E.r00
  · linear_combination (0 : ℝ) * E.r00
  · linear_combination (-1) * z12
  · linear_combination (-1) * m 2 1 * E.r12 + 1 * m 1 1 * E.r22 + (-1) * m 2 2 * E.k00 + 1 * m 2 0 * E.k02 + 1 * m 2 0 * hp + (-1) * m 2 2 * z00
  · linear_combination 1 * m 2 1 * E.r11 + (-1) * m 1 1 * E.r12 + 1 * m 1 2 * E.k00 + (-1) * m 1 0 * E.k02 + (-1) * m 1 0 * hp + 1 * m 1 2 * z00
  · linear_combination (-1) * z22

theorem eulerXYZ_roundtrip (m : Mat3 ℝ) (hm : Spec.IsRotation m) :
    Mat3.fromEulerXYZ (Mat3.toEulerXYZ m).x (Mat3.toEulerXYZ m).y (Mat3.toEulerXYZ m).z = m := by
  have E := rotEqs hm
  have hr : m 0 0 * m 0 0 + m 0 1 * m 0 1 + m 0 2 * m 0 2 = 1 := by linear_combination E.r00
  have hc : m 1 2 * m 1 2 + m 2 2 * m 2 2 + m 0 2 * m 0 2 = 1 := by linear_combination E.c22
  by_cases h1 : m 0 2 < 1
  · by_cases h2 : m 0 2 > -1
    · have hpos : 0 < 1 - m 0 2 * m 0 2 := by nlinarith
      have hC := Real.mul_self_sqrt hpos.le
      have hC0 := Real.sqrt_pos.2 hpos
      obtain ⟨s1, c1⟩ := arcsin_sc h2 h1
      obtain ⟨sa0, ca0⟩ := atan2_sc (x := (m 2 2)) (y := -(m 1 2)) hC0 (by rw [hC]; linear_combination E.c22)
      obtain ⟨sa2, ca2⟩ := atan2_sc (x := (m 0 0)) (y := -(m 0 1)) hC0 (by rw [hC]; linear_combination E.r00)
      have e : Mat3.toEulerXYZ m = ⟨atan2 (-m 1 2) (m 2 2), Real.arcsin (m 0 2), atan2 (-m 0 1) (m 0 0)⟩ := by
        unfold Mat3.toEulerXYZ; rw [if_pos h1, if_pos h2]
      rw [e]
      exact eulerXYZ_main m E (1 / Real.sqrt (1 - m 0 2 * m 0 2)) _ _ _ _ (one_div_mul_cancel (ne_of_gt hC0)) hC s1 c1 sa0 ca0 sa2 ca2
    · have hp : m 0 2 = -1 := by nlinarith [not_lt.1 h2]
      rw [hp] at hr hc
      have z00 : m 0 0 = 0 := by nlinarith
      have z01 : m 0 1 = 0 := by nlinarith
      have z12 : m 1 2 = 0 := by nlinarith
      have z22 : m 2 2 = 0 := by nlinarith
      obtain ⟨sa, ca⟩ := atan2_sc_one (x := m 1 1) (y := (m 1 0)) (by linear_combination 1 * E.r11 + (-1) * m 1 2 * z12)
      have e : Mat3.toEulerXYZ m = ⟨-atan2 (m 1 0) (m 1 1), -Real.pi/2, 0⟩ := by
        unfold Mat3.toEulerXYZ; rw [if_pos h1, if_neg h2]
      rw [e]
      exact eulerXYZ_neg m E _ _ _ hp z00 z01 z12 z22 (by rw [neg_div, Real.sin_neg, Real.sin_pi_div_two]) (by rw [neg_div, Real.cos_neg, Real.cos_pi_div_two]) (by simp) (by simp) (by rw [Real.sin_neg, sa]) (by rw [Real.cos_neg, ca])
  · have hp : m 0 2 = 1 := by nlinarith [not_lt.1 h1]
    rw [hp] at hr hc
    have z00 : m 0 0 = 0 := by nlinarith
    have z01 : m 0 1 = 0 := by nlinarith
    have z12 : m 1 2 = 0 := by nlinarith
    have z22 : m 2 2 = 0 := by nlinarith
    obtain ⟨sa, ca⟩ := atan2_sc_one (x := m 1 1) (y := (m 1 0)) (by linear_combination 1 * E.r11 + (-1) * m 1 2 * z12)
    have e : Mat3.toEulerXYZ m = ⟨atan2 (m 1 0) (m 1 1), Real.pi/2, 0⟩ := by
      unfold Mat3.toEulerXYZ; rw [if_neg h1]
    rw [e]
    exact eulerXYZ_pos m E _ _ _ hp z00 z01 z12 z22 Real.sin_pi_div_two Real.cos_pi_div_two (by simp) (by simp) sa ca

theorem eulerXZY_main (m : Mat3 ℝ) (E : RotEqs m) (k C x z y : ℝ) (hk : k * C = 1) (hC : C * C = 1 - m 0 1 * m 0 1)
    (hsz : Real.sin z = -m 0 1) (hcz : Real.cos z = C)
    (hsx : Real.sin x = m 2 1 * k) (hcx : Real.cos x = m 1 1 * k)
    (hsy : Real.sin y = m 0 2 * k) (hcy : Real.cos y = m 0 0 * k) :
    Mat3.fromEulerXZY x z y = m := by
  have hkk : k * k * (1 - m 0 1 * m 0 1) = 1 := by rw [← hC]; linear_combination (k * C + 1) * hk
  unfold Mat3.fromEulerXZY
  rw [hsx, hcx, hsz, hcz, hsy, hcy]
  apply mat9_eq
  · linear_combination ((1) * m 0 0) * hk
  · ring
  · linear_combination ((1) * m 0 2) * hk
  · linear_combination k * k * ((-1) * m 1 1 * E.c01 + 1 * m 1 0 * E.c11 + (-1) * m 2 1 * E.k02) + m 1 0 * hkk
  · linear_combination ((1) * m 1 1) * hk
  · linear_combination k * k * (1 * m 1 2 * E.c11 + (-1) * m 1 1 * E.c12 + 1 * m 2 1 * E.k00) + m 1 2 * hkk
  · linear_combination k * k * ((-1) * m 2 1 * E.c01 + 1 * m 2 0 * E.c11 + 1 * m 1 1 * E.k02) + m 2 0 * hkk
  · linear_combination ((1) * m 2 1) * hk
  · linear_combination k * k * (1 * m 2 2 * E.r00 + (-1) * m 2 2 * E.c00 + (-1) * m 0 2 * E.r02 + 1 * m 2 0 * E.c02 + 1 * m 2 2 * E.r11 + (-1) * m 1 2 * E.r12 + (-1) * m 1 1 * E.k00) + m 2 2 * hkk

theorem eulerXZY_neg (m : Mat3 ℝ) (E : RotEqs m) (x z y : ℝ) (hp : m 0 1 = -1) (z00 : m 0 0 = 0) (z11 : m 1 1 = 0) (z02 : m 0 2 = 0) (z21 : m 2 1 = 0)
    (hsz : Real.sin z = 1) (hcz : Real.cos z = 0) (hsy : Real.sin y = 0) (hcy : Real.cos y = 1)
    (hsx : Real.sin x = m 2 0) (hcx : Real.cos x = m 2 2) :
    Mat3.fromEulerXZY x z y = m := by
  unfold Mat3.fromEulerXZY
  rw [hsx, hcx, hsz, hcz, hsy, hcy]
  apply mat9_eq
  · linear_combination (-1) * z00
  · linear_combination (-1) * hp
  · linear_combination (-1) * z02
  · linear_combination (-1) * m 2 2 * E.r11 + 1 * m 1 2 * E.r12 + 1 * m 1 1 * E.k00 + (-1) * m 1 0 * E.k01 + (-1) * m 1 0 * hp + 1 * m 1 1 * z00
  · linear_combination (-1) * z11
  · linear_combination (-1) * m 1 2 * E.r00 + 1 * m 1 2 * E.c00 + 1 * m 0 2 * E.r01 + (-1) * m 1 0 * E.c02 + 1 * m 1 2 * E.c11 + (-1) * m 1 1 * E.c12 + 1 * m 2 1 * E.k00 + (-1) * m 2 0 * E.k01 + (-1) * m 2 0 * hp + 1 * m 2 1 * z00
  · linear_combination (0 : ℝ) * E.r00
  · linear_combination (-1) * z21
  · linear_combination (0 : ℝ) * E.r00

theorem eulerXZY_pos (m : Mat3 ℝ) (E : RotEqs m) (x z y : ℝ) (hp : m 0 1 = 1) (z00 : m 0 0 = 0) (z11 : m 1 1 = 0) (z02 : m 0 2 = 0) (z21 : m 2 1 = 0)
    (hsz : Real.sin z = -1) (hcz : Real.cos z = 0) (hsy : Real.sin y = 0) (hcy : Real.cos y = 1)
    (hsx : Real.sin x = -m 2 0) (hcx : Real.cos x = m 2 2) :
    Mat3.fromEulerXZY x z y = m := by
  unfold Mat3.fromEulerXZY
  rw [hsx, hcx, hsz, hcz, hsy, hcy]
  apply mat9_eq
  · linear_combination (-1) * z00
  · linear_combination (-1) * hp
  · linear_combination (-1) * z02
  · linear_combination 1 * m 2 2 * E.r11 + (-1) * m 1 2 * E.r12 + (-1) * m 1 1 * E.k00 + 1 * m 1 0 * E.k01 + 1 * m 1 0 * hp + (-1) * m 1 1 * z00
  · linear_combination (-1) * z11
  · linear_combination (-1) * m 1 2 * E.r00 + 1 * m 1 2 * E.c00 + 1 * m 0 2 * E.r01 + (-1) * m 1 0 * E.c02 + 1 * m 1 2 * E.c11 + (-1) * m 1 1 * E.c12 + 1 * m 2 1 * E.k00 + (-1) * m 2 0 * E.k01 + (-1) * m 2 0 * hp + 1 * m 2 1 * z00
  · linear_combination (0 : ℝ) * E.r00
  · linear_combination (-1) * z21
  · linear_combination (0 : ℝ) * E.r00

theorem eulerXZY_roundtrip (m : Mat3 ℝ) (hm : Spec.IsRotation m) :
    Mat3.fromEulerXZY (Mat3.toEulerXZY m).x (Mat3.toEulerXZY m).y (Mat3.toEulerXZY m).z = m := by
  have E := rotEqs hm
  have hr : m 0 0 * m 0 0 + m 0 2 * m 0 2 + m 0 1 * m 0 1 = 1 := by linear_combination E.r00
  have hc : m 1 1 * m 1 1 + m 2 1 * m 2 1 + m 0 1 * m 0 1 = 1 := by linear_combination E.c11
  by_cases h1 : m 0 1 < 1
  · by_cases h2 : m 0 1 > -1
    · have hpos : 0 < 1 - m 0 1 * m 0 1 := by nlinarith
      have hC := Real.mul_self_sqrt hpos.le
      have hC0 := Real.sqrt_pos.2 hpos
      obtain ⟨s1, c1⟩ := arcsin_sc (p := -(m 0 1)) (by linarith) (by linarith)
      rw [neg_mul_neg] at c1
      obtain ⟨sa0, ca0⟩ := atan2_sc (x := (m 1 1)) (y := (m 2 1)) hC0 (by rw [hC]; linear_combination E.c11)
      obtain ⟨sa2, ca2⟩ := atan2_sc (x := (m 0 0)) (y := (m 0 2)) hC0 (by rw [hC]; linear_combination E.r00)
      have e : Mat3.toEulerXZY m = ⟨atan2 (m 2 1) (m 1 1), Real.arcsin (-(m 0 1)), atan2 (m 0 2) (m 0 0)⟩ := by
        unfold Mat3.toEulerXZY; rw [if_pos h1, if_pos h2]
      rw [e]
      exact eulerXZY_main m E (1 / Real.sqrt (1 - m 0 1 * m 0 1)) _ _ _ _ (one_div_mul_cancel (ne_of_gt hC0)) hC s1 c1 sa0 ca0 sa2 ca2
    · have hp : m 0 1 = -1 := by nlinarith [not_lt.1 h2]
      rw [hp] at hr hc
      have z00 : m 0 0 = 0 := by nlinarith
      have z02 : m 0 2 = 0 := by nlinarith
      have z11 : m 1 1 = 0 := by nlinarith
      have z21 : m 2 1 = 0 := by nlinarith
      obtain ⟨sa, ca⟩ := atan2_sc_one (x := m 2 2) (y := -(m 2 0)) (by linear_combination (-1) * E.c11 + 1 * E.r22 + (-1) * hp + 1 * m 0 1 * hp + 1 * m 1 1 * z11)
      have e : Mat3.toEulerXZY m = ⟨-atan2 (-m 2 0) (m 2 2), Real.pi/2, 0⟩ := by
        unfold Mat3.toEulerXZY; rw [if_pos h1, if_neg h2]
      rw [e]
      exact eulerXZY_neg m E _ _ _ hp z00 z11 z02 z21 Real.sin_pi_div_two Real.cos_pi_div_two (by simp) (by simp) (by rw [Real.sin_neg, sa]; ring) (by rw [Real.cos_neg, ca])
  · have hp : m 0 1 = 1 := by nlinarith [not_lt.1 h1]
    rw [hp] at hr hc
    have z00 : m 0 0 = 0 := by nlinarith
    have z02 : m 0 2 = 0 := by nlinarith
    have z11 : m 1 1 = 0 := by nlinarith
    have z21 : m 2 1 = 0 := by nlinarith
    obtain ⟨sa, ca⟩ := atan2_sc_one (x := m 2 2) (y := -(m 2 0)) (by linear_combination (-1) * E.c11 + 1 * E.r22 + 1 * hp + 1 * m 0 1 * hp + 1 * m 1 1 * z11)
    have e : Mat3.toEulerXZY m = ⟨atan2 (-m 2 0) (m 2 2), -Real.pi/2, 0⟩ := by
      unfold Mat3.toEulerXZY; rw [if_neg h1]
    rw [e]
    exact eulerXZY_pos m E _ _ _ hp z00 z11 z02 z21 (by rw [neg_div, Real.sin_neg, Real.sin_pi_div_two]) (by rw [neg_div, Real.cos_neg, Real.cos_pi_div_two]) (by simp) (by simp) sa ca

theorem eulerYXZ_main (m : Mat3 ℝ) (E : RotEqs m) (k C y x z : ℝ) (hk : k * C = 1) (hC : C * C = 1 - m 1 2 * m 1 2)
    (hsx : Real.sin x = -m 1 2) (hcx : Real.cos x = C)
    (hsy : Real.sin y = m 0 2 * k) (hcy : Real.cos y = m 2 2 * k)
    (hsz : Real.sin z = m 1 0 * k) (hcz : Real.cos z = m 1 1 * k) :
    Mat3.fromEulerYXZ y x z = m := by
  have hkk : k * k * (1 - m 1 2 * m 1 2) = 1 := by rw [← hC]; linear_combination (k * C + 1) * hk
  unfold Mat3.fromEulerYXZ
  rw [hsy, hcy, hsx, hcx, hsz, hcz]
  apply mat9_eq
  · linear_combination k * k * ((-1) * m 1 0 * E.r01 + 1 * m 0 1 * E.c01 + (-1) * m 2 0 * E.r02 + 1 * m 0 0 * E.r11 + (-1) * m 0 0 * E.c11 + 1 * m 0 0 * E.r22 + (-1) * m 2 2 * E.k11) + m 0 0 * hkk
  · linear_combination k * k * ((-1) * m 0 1 * E.c00 + (-1) * m 1 1 * E.r01 + 1 * m 0 0 * E.c01 + (-1) * m 2 1 * E.r02 + 1 * m 0 1 * E.r11 + 1 * m 0 1 * E.r22 + 1 * m 2 2 * E.k10) + m 0 1 * hkk
  · linear_combination ((1) * m 0 2) * hk
  · linear_combination ((1) * m 1 0) * hk
  · linear_combination ((1) * m 1 1) * hk
  · ring
  · linear_combination k * k * (1 * m 2 0 * E.r11 + (-1) * m 1 0 * E.r12 + 1 * m 1 1 * E.k02) + m 2 0 * hkk
  · linear_combination k * k * (1 * m 2 1 * E.r11 + (-1) * m 1 1 * E.r12 + (-1) * m 1 0 * E.k02) + m 2 1 * hkk
  · linear_combination ((1) * m 2 2) * hk

theorem eulerYXZ_neg (m : Mat3 ℝ) (E : RotEqs m) (y x z : ℝ) (hp : m 1 2 = -1) (z10 : m 1 0 = 0) (z02 : m 0 2 = 0) (z11 : m 1 1 = 0) (z22 : m 2 2 = 0)
    (hsx : Real.sin x = 1) (hcx : Real.cos x = 0) (hsz : Real.sin z = 0) (hcz : Real.cos z = 1)
    (hsy : Real.sin y = m 0 1) (hcy : Real.cos y = m 0 0) :
    Mat3.fromEulerYXZ y x z = m := by
  unfold Mat3.fromEulerYXZ
  rw [hsy, hcy, hsx, hcx, hsz, hcz]
  apply mat9_eq
  · linear_combination (0 : ℝ) * E.r00
  · linear_combination (0 : ℝ) * E.r00
  · linear_combination (-1) * z02
  · linear_combination (-1) * z10
  · linear_combination (-1) * z11
  · linear_combination (-1) * hp
  · linear_combination 1 * E.k01 + (-1) * m 2 0 * hp + 1 * m 2 2 * z10
  · linear_combination 1 * m 2 1 * E.r11 + (-1) * m 1 1 * E.r12 + 1 * m 1 2 * E.k00 + (-1) * m 1 0 * E.k02 + 1 * m 0 0 * hp + (-1) * m 0 2 * z10
  · linear_combination (-1) * z22

theorem eulerYXZ_pos (m : Mat3 ℝ) (E : RotEqs m) (y x z : ℝ) (hp : m 1 2 = 1) (z10 : m 1 0 = 0) (z02 : m 0 2 = 0) (z11 : m 1 1 = 0) (z22 : m 2 2 = 0)
    (hsx : Real.sin x = -1) (hcx : Real.cos x = 0) (hsz : Real.sin z = 0) (hcz : Real.cos z = 1)
    (hsy : Real.sin y = -m 0 1) (hcy : Real.cos y = m 0 0) :
    Mat3.fromEulerYXZ y x z = m := by
  unfold Mat3.fromEulerYXZ
  rw [hsy, hcy, hsx, hcx, hsz, hcz]
  apply mat9_eq
  · linear_combination (0 : ℝ) * E.r00
  · linear_combination (0 : ℝ) * E.r00
  · linear_combination (-1) * z02
  · linear_combination (-1) * z10
  · linear_combination (-1) * z11
  · linear_combination (-1) * hp
  · linear_combination (-1) * E.k01 + 1 * m 2 0 * hp + (-1) * m 2 2 * z10
  · linear_combination 1 * m 2 1 * E.r11 + (-1) * m 1 1 * E.r12 + 1 * m 1 2 * E.k00 + (-1) * m 1 0 * E.k02 + 1 * m 0 0 * hp + (-1) * m 0 2 * z10
  · linear_combination (-1) * z22

theorem eulerYXZ_roundtrip (m : Mat3 ℝ) (hm : Spec.IsRotation m) :
    Mat3.fromEulerYXZ (Mat3.toEulerYXZ m).x (Mat3.toEulerYXZ m).y (Mat3.toEulerYXZ m).z = m := by
  have E := rotEqs hm
  have hr : m 1 0 * m 1 0 + m 1 1 * m 1 1 + m 1 2 * m 1 2 = 1 := by linear_combination E.r11
  have hc : m 0 2 * m 0 2 + m 2 2 * m 2 2 + m 1 2 * m 1 2 = 1 := by linear_combination E.c22
  by_cases h1 : m 1 2 < 1
  · by_cases h2 : m 1 2 > -1
    · have hpos : 0 < 1 - m 1 2 * m 1 2 := by nlinarith
      have hC := Real.mul_self_sqrt hpos.le
      have hC0 := Real.sqrt_pos.2 hpos
      obtain ⟨s1, c1⟩ := arcsin_sc (p := -(m 1 2)) (by linarith) (by linarith)
      rw [neg_mul_neg] at c1
      obtain ⟨sa0, ca0⟩ := atan2_sc (x := (m 2 2)) (y := (m 0 2)) hC0 (by rw [hC]; linear_combination E.c22)
      obtain ⟨sa2, ca2⟩ := atan2_sc (x := (m 1 1)) (y := (m 1 0)) hC0 (by rw [hC]; linear_combination E.r11)
      have e : Mat3.toEulerYXZ m = ⟨atan2 (m 0 2) (m 2 2), Real.arcsin (-(m 1 2)), atan2 (m 1 0) (m 1 1)⟩ := by
        unfold Mat3.toEulerYXZ; rw [if_pos h1, if_pos h2]
      rw [e]
      exact eulerYXZ_main m E (1 / Real.sqrt (1 - m 1 2 * m 1 2)) _ _ _ _ (one_div_mul_cancel (ne_of_gt hC0)) hC s1 c1 sa0 ca0 sa2 ca2
    · have hp : m 1 2 = -1 := by nlinarith [not_lt.1 h2]
      rw [hp] at hr hc
      have z10 : m 1 0 = 0 := by nlinarith
      have z11 : m 1 1 = 0 := by nlinarith
      have z02 : m 0 2 = 0 := by nlinarith
      have z22 : m 2 2 = 0 := by nlinarith
      obtain ⟨sa, ca⟩ := atan2_sc_one (x := m 0 0) (y := -(m 0 1)) (by linear_combination 1 * E.r00 + (-1) * m 0 2 * z02)
      have e : Mat3.toEulerYXZ m = ⟨-atan2 (-m 0 1) (m 0 0), Real.pi/2, 0⟩ := by
        unfold Mat3.toEulerYXZ; rw [if_pos h1, if_neg h2]
      rw [e]
      exact eulerYXZ_neg m E _ _ _ hp z10 z02 z11 z22 Real.sin_pi_div_two Real.cos_pi_div_two (by simp) (by simp) (by rw [Real.sin_neg, sa]; ring) (by rw [Real.cos_neg, ca])
  · have hp : m 1 2 = 1 := by nlinarith [not_lt.1 h1]
    rw [hp] at hr hc
    have z10 : m 1 0 = 0 := by nlinarith
    have z11 : m 1 1 = 0 := by nlinarith
    have z02 : m 0 2 = 0 := by nlinarith
    have z22 : m 2 2 = 0 := by nlinarith
    obtain ⟨sa, ca⟩ := atan2_sc_one (x := m 0 0) (y := -(m 0 1)) (by linear_combination 1 * E.r00 + (-1) * m 0 2 * z02)
    have e : Mat3.toEulerYXZ m = ⟨atan2 (-m 0 1) (m 0 0), -Real.pi/2, 0⟩ := by
      unfold Mat3.toEulerYXZ; rw [if_neg h1]
    rw [e]
    exact eulerYXZ_pos m E _ _ _ hp z10 z02 z11 z22 (by rw [neg_div, Real.sin_neg, Real.sin_pi_div_two]) (by rw [neg_div, Real.cos_neg, Real.cos_pi_div_two]) (by simp) (by simp) sa ca

theorem eulerYZX_main (m : Mat3 ℝ) (E : RotEqs m) (k C y z x : ℝ) (hk : k * C = 1) (hC : C * C = 1 - m 1 0 * m 1 0)
    (hsz : Real.sin z = m 1 0) (hcz : Real.cos z = C)
    (hsy : Real.sin y = -m 2 0 * k) (hcy : Real.cos y = m 0 0 * k)
    (hsx : Real.sin x = -m 1 2 * k) (hcx : Real.cos x = m 1 1 * k) :
    Mat3.fromEulerYZX y z x = m := by
  have hkk : k * k * (1 - m 1 0 * m 1 0) = 1 := by rw [← hC]; linear_combination (k * C + 1) * hk
  unfold Mat3.fromEulerYZX
  rw [hsy, hcy, hsz, hcz, hsx, hcx]
  apply mat9_eq
  · linear_combination ((1) * m 0 0) * hk
  · linear_combination k * k * (1 * m 0 1 * E.c00 + (-1) * m 0 0 * E.c01 + 1 * m 2 1 * E.r02 + (-1) * m 0 1 * E.r22 + 1 * E.k01 + (-1) * m 2 2 * E.k10) + m 0 1 * hkk
  · linear_combination k * k * ((-1) * m 1 2 * E.r01 + 1 * m 0 2 * E.r11 + (-1) * m 0 2 * E.c11 + 1 * m 0 1 * E.c12 + 1 * E.k02 + 1 * m 2 1 * E.k10) + m 0 2 * hkk
  · ring
  · linear_combination ((1) * m 1 1) * hk
  · linear_combination ((1) * m 1 2) * hk
  · linear_combination ((1) * m 2 0) * hk
  · linear_combination k * k * (1 * m 2 1 * E.r11 + (-1) * m 1 1 * E.r12 + 1 * m 1 2 * E.k00) + m 2 1 * hkk
  · linear_combination k * k * (1 * m 2 2 * E.r11 + (-1) * m 1 2 * E.r12 + (-1) * m 1 1 * E.k00) + m 2 2 * hkk

theorem eulerYZX_neg (m : Mat3 ℝ) (E : RotEqs m) (y z x : ℝ) (hp : m 1 0 = -1) (z00 : m 0 0 = 0) (z11 : m 1 1 = 0) (z12 : m 1 2 = 0) (z20 : m 2 0 = 0)
    (hsz : Real.sin z = -1) (hcz : Real.cos z = 0) (hsx : Real.sin x = 0) (hcx : Real.cos x = 1)
    (hsy : Real.sin y = -m 2 1) (hcy : Real.cos y = m 2 2) :
    Mat3.fromEulerYZX y z x = m := by
  unfold Mat3.fromEulerYZX
  rw [hsy, hcy, hsz, hcz, hsx, hcx]
  apply mat9_eq
  · linear_combination (-1) * z00
  · linear_combination (-1) * m 2 2 * E.r11 + 1 * m 1 2 * E.r12 + 1 * m 1 1 * E.k00 + (-1) * m 1 0 * E.k01 + (-1) * m 0 1 * hp + 1 * m 1 1 * z00
  · linear_combination 1 * m 2 1 * E.r11 + (-1) * m 1 1 * E.r12 + 1 * m 1 2 * E.k00 + (-1) * m 1 0 * E.k02 + (-1) * m 0 2 * hp + 1 * m 1 2 * z00
  · linear_combination (-1) * hp
  · linear_combination (-1) * z11
  · linear_combination (-1) * z12
  · linear_combination (-1) * z20
  · linear_combination (0 : ℝ) * E.r00
  · linear_combination (0 : ℝ) * E.r00

theorem eulerYZX_pos (m : Mat3 ℝ) (E : RotEqs m) (y z x : ℝ) (hp : m 1 0 = 1) (z00 : m 0 0 = 0) (z11 : m 1 1 = 0) (z12 : m 1 2 = 0) (z20 : m 2 0 = 0)
    (hsz : Real.sin z = 1) (hcz : Real.cos z = 0) (hsx : Real.sin x = 0) (hcx : Real.cos x = 1)
    (hsy : Real.sin y = m 2 1) (hcy : Real.cos y = m 2 2) :
    Mat3.fromEulerYZX y z x = m := by
  unfold Mat3.fromEulerYZX
  rw [hsy, hcy, hsz, hcz, hsx, hcx]
  apply mat9_eq
  · linear_combination (-1) * z00
  · linear_combination 1 * m 2 2 * E.r11 + (-1) * m 1 2 * E.r12 + (-1) * m 1 1 * E.k00 + 1 * m 1 0 * E.k01 + 1 * m 0 1 * hp + (-1) * m 1 1 * z00
  · linear_combination (-1) * m 2 1 * E.r11 + 1 * m 1 1 * E.r12 + (-1) * m 1 2 * E.k00 + 1 * m 1 0 * E.k02 + 1 * m 0 2 * hp + (-1) * m 1 2 * z00
  · linear_combination (-1) * hp
  · linear_combination (-1) * z11
  · linear_combination (-1) * z12
  · linear_combination (-1) * z20
  · linear_combination (0 : ℝ) * E.r00
  · linear_combination (0 : ℝ) * E.r00

theorem eulerYZX_roundtrip (m : Mat3 ℝ) (hm : Spec.IsRotation m) :
    Mat3.fromEulerYZX (Mat3.toEulerYZX m).x (Mat3.toEulerYZX m).y (Mat3.toEulerYZX m).z = m := by
  have E := rotEqs hm
  have hr : m 1 1 * m 1 1 + m 1 2 * m 1 2 + m 1 0 * m 1 0 = 1 := by linear_combination E.r11
  have hc : m 0 0 * m 0 0 + m 2 0 * m 2 0 + m 1 0 * m 1 0 = 1 := by linear_combination E.c00
  by_cases h1 : m 1 0 < 1
  · by_cases h2 : m 1 0 > -1
    · have hpos : 0 < 1 - m 1 0 * m 1 0 := by nlinarith
      have hC := Real.mul_self_sqrt hpos.le
      have hC0 := Real.sqrt_pos.2 hpos
      obtain ⟨s1, c1⟩ := arcsin_sc h2 h1
      obtain ⟨sa0, ca0⟩ := atan2_sc (x := (m 0 0)) (y := -(m 2 0)) hC0 (by rw [hC]; linear_combination E.c00)
      obtain ⟨sa2, ca2⟩ := atan2_sc (x := (m 1 1)) (y := -(m 1 2)) hC0 (by rw [hC]; linear_combination E.r11)
      have e : Mat3.toEulerYZX m = ⟨atan2 (-m 2 0) (m 0 0), Real.arcsin (m 1 0), atan2 (-m 1 2) (m 1 1)⟩ := by
        unfold Mat3.toEulerYZX; rw [if_pos h1, if_pos h2]
      rw [e]
      exact eulerYZX_main m E (1 / Real.sqrt (1 - m 1 0 * m 1 0)) _ _ _ _ (one_div_mul_cancel (ne_of_gt hC0)) hC s1 c1 sa0 ca0 sa2 ca2
    · have hp : m 1 0 = -1 := by nlinarith [not_lt.1 h2]
      rw [hp] at hr hc
      have z11 : m 1 1 = 0 := by nlinarith
      have z12 : m 1 2 = 0 := by nlinarith
      have z00 : m 0 0 = 0 := by nlinarith
      have z20 : m 2 0 = 0 := by nlinarith
      obtain ⟨sa, ca⟩ := atan2_sc_one (x := m 2 2) (y := (m 2 1)) (by linear_combination (-1) * E.c00 + 1 * E.r22 + (-1) * hp + 1 * m 1 0 * hp + 1 * m 0 0 * z00)
      have e : Mat3.toEulerYZX m = ⟨-atan2 (m 2 1) (m 2 2), -Real.pi/2, 0⟩ := by
        unfold Mat3.toEulerYZX; rw [if_pos h1, if_neg h2]
      rw [e]
      exact eulerYZX_neg m E _ _ _ hp z00 z11 z12 z20 (by rw [neg_div, Real.sin_neg, Real.sin_pi_div_two]) (by rw [neg_div, Real.cos_neg, Real.cos_pi_div_two]) (by simp) (by simp) (by rw [Real.sin_neg, sa]) (by rw [Real.cos_neg, ca])
  · have hp : m 1 0 = 1 := by nlinarith [not_lt.1 h1]
    rw [hp] at hr hc
    have z11 : m 1 1 = 0 := by nlinarith
    have z12 : m 1 2 = 0 := by nlinarith
    have z00 : m 0 0 = 0 := by nlinarith
    have z20 : m 2 0 = 0 := by nlinarith
    obtain ⟨sa, ca⟩ := atan2_sc_one (x := m 2 2) (y := (m 2 1)) (by linear_combination (-1) * E.c00 + 1 * E.r22 + 1 * hp + 1 * m 1 0 * hp + 1 * m 0 0 * z00)
    have e : Mat3.toEulerYZX m = ⟨atan2 (m 2 1) (m 2 2), Real.pi/2, 0⟩ := by
      unfold Mat3.toEulerYZX; rw [if_neg h1]
    rw [e]
    exact eulerYZX_pos m E _ _ _ hp z00 z11 z12 z20 Real.sin_pi_div_two Real.cos_pi_div_two (by simp) (by simp) sa ca

theorem eulerZXY_main (m : Mat3 ℝ) (E : RotEqs m) (k C z x y : ℝ) (hk : k * C = 1) (hC : C * C = 1 - m 2 1 * m 2 1)
    (hsx : Real.sin x = m 2 1) (hcx : Real.cos x = C)
    (hsz : Real.sin z = -m 0 1 * k) (hcz : Real.cos z = m 1 1 * k)
    (hsy : Real.sin y = -m 2 0 * k) (hcy : Real.cos y = m 2 2 * k) :
    Mat3.fromEulerZXY z x y = m := by
  have hkk : k * k * (1 - m 2 1 * m 2 1) = 1 := by rw [← hC]; linear_combination (k * C + 1) * hk
  unfold Mat3.fromEulerZXY
  rw [hsz, hcz, hsx, hcx, hsy, hcy]
  apply mat9_eq
  · linear_combination k * k * ((-1) * m 2 0 * E.r02 + 1 * m 0 0 * E.r22 + (-1) * m 2 2 * E.k11) + m 0 0 * hkk
  · linear_combination ((1) * m 0 1) * hk
  · linear_combination k * k * (1 * E.k02 + 1 * m 2 1 * E.k10) + m 0 2 * hkk
  · linear_combination k * k * ((-1) * m 1 0 * E.c00 + 1 * m 0 0 * E.r01 + (-1) * m 1 1 * E.c01 + (-1) * m 1 2 * E.c02 + 1 * m 1 0 * E.r11 + 1 * m 1 0 * E.r22 + 1 * m 2 2 * E.k01) + m 1 0 * hkk
  · linear_combination ((1) * m 1 1) * hk
  · linear_combination k * k * ((-1) * m 1 2 * E.r00 + 1 * m 1 2 * E.c00 + 1 * m 0 2 * E.r01 + (-1) * m 1 0 * E.c02 + 1 * m 1 2 * E.c11 + (-1) * m 1 1 * E.c12 + (-1) * m 2 0 * E.k01) + m 1 2 * hkk
  · linear_combination ((1) * m 2 0) * hk
  · ring
  · linear_combination ((1) * m 2 2) * hk

theorem eulerZXY_neg (m : Mat3 ℝ) (E : RotEqs m) (z x y : ℝ) (hp : m 2 1 = -1) (z20 : m 2 0 = 0) (z01 : m 0 1 = 0) (z11 : m 1 1 = 0) (z22 : m 2 2 = 0)
    (hsx : Real.sin x = -1) (hcx : Real.cos x = 0) (hsy : Real.sin y = 0) (hcy : Real.cos y = 1)
    (hsz : Real.sin z = -m 0 2) (hcz : Real.cos z = m 0 0) :
    Mat3.fromEulerZXY z x y = m := by
  unfold Mat3.fromEulerZXY
  rw [hsz, hcz, hsx, hcx, hsy, hcy]
  apply mat9_eq
  · linear_combination (0 : ℝ) * E.r00
  · linear_combination (-1) * z01
  · linear_combination (0 : ℝ) * E.r00
  · linear_combination 1 * E.k02 + (-1) * m 1 0 * hp + 1 * m 1 1 * z20
  · linear_combination (-1) * z11
  · linear_combination (-1) * m 1 2 * E.r00 + 1 * m 1 2 * E.c00 + 1 * m 0 2 * E.r01 + (-1) * m 1 0 * E.c02 + 1 * m 1 2 * E.c11 + (-1) * m 1 1 * E.c12 + 1 * m 2 1 * E.k00 + (-1) * m 2 0 * E.k01 + 1 * m 0 0 * hp + (-1) * m 0 1 * z20
  · linear_combination (-1) * z20
  · linear_combination (-1) * hp
  · linear_combination (-1) * z22

theorem eulerZXY_pos (m : Mat3 ℝ) (E : RotEqs m) (z x y : ℝ) (hp : m 2 1 = 1) (z20 : m 2 0 = 0) (z01 : m 0 1 = 0) (z11 : m 1 1 = 0) (z22 : m 2 2 = 0)
    (hsx : Real.sin x = 1) (hcx : Real.cos x = 0) (hsy : Real.sin y = 0) (hcy : Real.cos y = 1)
    (hsz : Real.sin z = m 0 2) (hcz : Real.cos z = m 0 0) :
    Mat3.fromEulerZXY z x y = m := by
  unfold Mat3.fromEulerZXY
  rw [hsz, hcz, hsx, hcx, hsy, hcy]
  apply mat9_eq
  · linear_combination (0 : ℝ) * E.r00
  · linear_combination (-1) * z01
  · linear_combination (0 : ℝ) * E.r00
  · linear_combination (-1) * E.k02 + 1 * m 1 0 * hp + (-1) * m 1 1 * z20
  · linear_combination (-1) * z11
  · linear_combination (-1) * m 1 2 * E.r00 + 1 * m 1 2 * E.c00 + 1 * m 0 2 * E.r01 + (-1) * m 1 0 * E.c02 + 1 * m 1 2 * E.c11 + (-1) * m 1 1 * E.c12 + 1 * m 2 1 * E.k00 + (-1) * m 2 0 * E.k01 + 1 * m 0 0 * hp + (-1) * m 0 1 * z20
  · linear_combination (-1) * z20
  · linear_combination (-1) * hp
  · linear_combination (-1) * z22

theorem eulerZXY_roundtrip (m : Mat3 ℝ) (hm : Spec.IsRotation m) :
    Mat3.fromEulerZXY (Mat3.toEulerZXY m).x (Mat3.toEulerZXY m).y (Mat3.toEulerZXY m).z = m := by
  have E := rotEqs hm
  have hr : m 2 0 * m 2 0 + m 2 2 * m 2 2 + m 2 1 * m 2 1 = 1 := by linear_combination E.r22
  have hc : m 0 1 * m 0 1 + m 1 1 * m 1 1 + m 2 1 * m 2 1 = 1 := by linear_combination E.c11
  by_cases h1 : m 2 1 < 1
  · by_cases h2 : m 2 1 > -1
    · have hpos : 0 < 1 - m 2 1 * m 2 1 := by nlinarith
      have hC := Real.mul_self_sqrt hpos.le
      have hC0 := Real.sqrt_pos.2 hpos
      obtain ⟨s1, c1⟩ := arcsin_sc h2 h1
      obtain ⟨sa0, ca0⟩ := atan2_sc (x := (m 1 1)) (y := -(m 0 1)) hC0 (by rw [hC]; linear_combination E.c11)
      obtain ⟨sa2, ca2⟩ := atan2_sc (x := (m 2 2)) (y := -(m 2 0)) hC0 (by rw [hC]; linear_combination E.r22)
      have e : Mat3.toEulerZXY m = ⟨atan2 (-m 0 1) (m 1 1), Real.arcsin (m 2 1), atan2 (-m 2 0) (m 2 2)⟩ := by
        unfold Mat3.toEulerZXY; rw [if_pos h1, if_pos h2]
      rw [e]
      exact eulerZXY_main m E (1 / Real.sqrt (1 - m 2 1 * m 2 1)) _ _ _ _ (one_div_mul_cancel (ne_of_gt hC0)) hC s1 c1 sa0 ca0 sa2 ca2
    · have hp : m 2 1 = -1 := by nlinarith [not_lt.1 h2]
      rw [hp] at hr hc
      have z20 : m 2 0 = 0 := by nlinarith
      have z22 : m 2 2 = 0 := by nlinarith
      have z01 : m 0 1 = 0 := by nlinarith
      have z11 : m 1 1 = 0 := by nlinarith
      obtain ⟨sa, ca⟩ := atan2_sc_one (x := m 0 0) (y := (m 0 2)) (by linear_combination 1 * E.r00 + (-1) * m 0 1 * z01)
      have e : Mat3.toEulerZXY m = ⟨-atan2 (m 0 2) (m 0 0), -Real.pi/2, 0⟩ := by
        unfold Mat3.toEulerZXY; rw [if_pos h1, if_neg h2]
      rw [e]
      exact eulerZXY_neg m E _ _ _ hp z20 z01 z11 z22 (by rw [neg_div, Real.sin_neg, Real.sin_pi_div_two]) (by rw [neg_div, Real.cos_neg, Real.cos_pi_div_two]) (by simp) (by simp) (by rw [Real.sin_neg, sa]) (by rw [Real.cos_neg, ca])
  · have hp : m 2 1 = 1 := by nlinarith [not_lt.1 h1]
    rw [hp] at hr hc
    have z20 : m 2 0 = 0 := by nlinarith
    have z22 : m 2 2 = 0 := by nlinarith
    have z01 : m 0 1 = 0 := by nlinarith
    have z11 : m 1 1 = 0 := by nlinarith
    obtain ⟨sa, ca⟩ := atan2_sc_one (x := m 0 0) (y := (m 0 2)) (by linear_combination 1 * E.r00 + (-1) * m 0 1 * z01)
    have e : Mat3.toEulerZXY m = ⟨atan2 (m 0 2) (m 0 0), Real.pi/2, 0⟩ := by
      unfold Mat3.toEulerZXY; rw [if_neg h1]
    rw [e]
    exact eulerZXY_pos m E _ _ _ hp z20 z01 z11 z22 Real.sin_pi_div_two Real.cos_pi_div_two (by simp) (by simp) sa ca

theorem eulerZYX_main (m : Mat3 ℝ) (E : RotEqs m) (k C z y x : ℝ) (hk : k * C = 1) (hC : C * C = 1 - m 2 0 * m 2 0)
    (hsy : Real.sin y = -m 2 0) (hcy : Real.cos y = C)
    (hsz : Real.sin z = m 1 0 * k) (hcz : Real.cos z = m 0 0 * k)
    (hsx : Real.sin x = m 2 1 * k) (hcx : Real.cos x = m 2 2 * k) :
    Mat3.fromEulerZYX z y x = m := by
  have hkk : k * k * (1 - m 2 0 * m 2 0) = 1 := by rw [← hC]; linear_combination (k * C + 1) * hk
  unfold Mat3.fromEulerZYX
  rw [hsz, hcz, hsy, hcy, hsx, hcx]
  apply mat9_eq
  · linear_combination ((1) * m 0 0) * hk
  · linear_combination k * k * ((-1) * m 2 1 * E.r02 + 1 * m 0 1 * E.r22 + 1 * m 2 2 * E.k10) + m 0 1 * hkk
  · linear_combination k * k * (1 * m 0 2 * E.c00 + 1 * m 1 2 * E.r01 + (-1) * m 0 0 * E.c02 + (-1) * m 0 2 * E.r11 + 1 * m 0 2 * E.c11 + (-1) * m 0 1 * E.c12 + (-1) * m 2 1 * E.k10) + m 0 2 * hkk
  · linear_combination ((1) * m 1 0) * hk
  · linear_combination k * k * ((-1) * m 2 1 * E.r12 + 1 * m 1 1 * E.r22 + (-1) * m 2 2 * E.k00) + m 1 1 * hkk
  · linear_combination k * k * ((-1) * m 1 2 * E.r00 + 1 * m 1 2 * E.c00 + 1 * m 0 2 * E.r01 + (-1) * m 1 0 * E.c02 + 1 * m 1 2 * E.c11 + (-1) * m 1 1 * E.c12 + 1 * m 2 1 * E.k00) + m 1 2 * hkk
  · ring
  · linear_combination ((1) * m 2 1) * hk
  · linear_combination ((1) * m 2 2) * hk

theorem eulerZYX_neg (m : Mat3 ℝ) (E : RotEqs m) (z y x : ℝ) (hp : m 2 0 = -1) (z00 : m 0 0 = 0) (z21 : m 2 1 = 0) (z10 : m 1 0 = 0) (z22 : m 2 2 = 0)
    (hsy : Real.sin y = 1) (hcy : Real.cos y = 0) (hsx : Real.sin x = 0) (hcx : Real.cos x = 1)
    (hsz : Real.sin z = m 1 2) (hcz : Real.cos z = m 1 1) :
    Mat3.fromEulerZYX z y x = m := by
  unfold Mat3.fromEulerZYX
  rw [hsz, hcz, hsy, hcy, hsx, hcx]
  apply mat9_eq
  · linear_combination (-1) * z00
  · linear_combination (-1) * m 1 2 * E.r00 + 1 * m 1 2 * E.c00 + 1 * m 0 2 * E.r01 + (-1) * m 1 0 * E.c02 + 1 * m 1 2 * E.c11 + (-1) * m 1 1 * E.c12 + 1 * m 2 1 * E.k00 + (-1) * m 2 0 * E.k01 + (-1) * m 0 1 * hp + 1 * m 2 1 * z00
  · linear_combination 1 * m 2 1 * E.r12 + (-1) * m 1 1 * E.r22 + 1 * m 2 2 * E.k00 + (-1) * m 2 0 * E.k02 + (-1) * m 0 2 * hp + 1 * m 2 2 * z00
  · linear_combination (-1) * z10
  · linear_combination (0 : ℝ) * E.r00
  · linear_combination (0 : ℝ) * E.r00
  · linear_combination (-1) * hp
  · linear_combination (-1) * z21
  · linear_combination (-1) * z22

theorem eulerZYX_pos (m : Mat3 ℝ) (E : RotEqs m) (z y x : ℝ) (hp : m 2 0 = 1) (z00 : m 0 0 = 0) (z21 : m 2 1 = 0) (z10 : m 1 0 = 0) (z22 : m 2 2 = 0)
    (hsy : Real.sin y = -1) (hcy : Real.cos y = 0) (hsx : Real.sin x = 0) (hcx : Real.cos x = 1)
    (hsz : Real.sin z = -m 1 2) (hcz : Real.cos z = m 1 1) :
    Mat3.fromEulerZYX z y x = m := by
  unfold Mat3.fromEulerZYX
  rw [hsz, hcz, hsy, hcy, hsx, hcx]
  apply mat9_eq
  · linear_combination (-1) * z00
  · linear_combination 1 * m 1 2 * E.r00 + (-1) * m 1 2 * E.c00 + (-1) * m 0 2 * E.r01 + 1 * m 1 0 * E.c02 + (-1) * m 1 2 * E.c11 + 1 * m 1 1 * E.c12 + (-1) * m 2 1 * E.k00 + 1 * m 2 0 * E.k01 + 1 * m 0 1 * hp + (-1) * m 2 1 * z00
  · linear_combination (-1) * m 2 1 * E.r12 + 1 * m 1 1 * E.r22 + (-1) * m 2 2 * E.k00 + 1 * m 2 0 * E.k02 + 1 * m 0 2 * hp + (-1) * m 2 2 * z00
  · linear_combination (-1) * z10
  · linear_combination (0 : ℝ) * E.r00
  · linear_combination (0 : ℝ) * E.r00
  · linear_combination (-1) * hp
  · linear_combination (-1) * z21
  · linear_combination (-1) * z22

theorem eulerZYX_roundtrip (m : Mat3 ℝ) (hm : Spec.IsRotation m) :
    Mat3.fromEulerZYX (Mat3.toEulerZYX m).x (Mat3.toEulerZYX m).y (Mat3.toEulerZYX m).z = m := by
  have E := rotEqs hm
  have hr : m 2 1 * m 2 1 + m 2 2 * m 2 2 + m 2 0 * m 2 0 = 1 := by linear_combination E.r22
  have hc : m 0 0 * m 0 0 + m 1 0 * m 1 0 + m 2 0 * m 2 0 = 1 := by linear_combination E.c00
  by_cases h1 : m 2 0 < 1
  · by_cases h2 : m 2 0 > -1
    · have hpos : 0 < 1 - m 2 0 * m 2 0 := by nlinarith
      have hC := Real.mul_self_sqrt hpos.le
      have hC0 := Real.sqrt_pos.2 hpos
      obtain ⟨s1, c1⟩ := arcsin_sc (p := -(m 2 0)) (by linarith) (by linarith)
      rw [neg_mul_neg] at c1
      obtain ⟨sa0, ca0⟩ := atan2_sc (x := (m 0 0)) (y := (m 1 0)) hC0 (by rw [hC]; linear_combination E.c00)
      obtain ⟨sa2, ca2⟩ := atan2_sc (x := (m 2 2)) (y := (m 2 1)) hC0 (by rw [hC]; linear_combination E.r22)
      have e : Mat3.toEulerZYX m = ⟨atan2 (m 1 0) (m 0 0), Real.arcsin (-(m 2 0)), atan2 (m 2 1) (m 2 2)⟩ := by
        unfold Mat3.toEulerZYX; rw [if_pos h1, if_pos h2]
      rw [e]
      exact eulerZYX_main m E (1 / Real.sqrt (1 - m 2 0 * m 2 0)) _ _ _ _ (one_div_mul_cancel (ne_of_gt hC0)) hC s1 c1 sa0 ca0 sa2 ca2
    · have hp : m 2 0 = -1 := by nlinarith [not_lt.1 h2]
      rw [hp] at hr hc
      have z21 : m 2 1 = 0 := by nlinarith
      have z22 : m 2 2 = 0 := by nlinarith
      have z00 : m 0 0 = 0 := by nlinarith
      have z10 : m 1 0 = 0 := by nlinarith
      obtain ⟨sa, ca⟩ := atan2_sc_one (x := m 1 1) (y := -(m 1 2)) (by linear_combination (-1) * E.c00 + 1 * E.r11 + (-1) * hp + 1 * m 2 0 * hp + 1 * m 0 0 * z00)
      have e : Mat3.toEulerZYX m = ⟨-atan2 (-m 1 2) (m 1 1), Real.pi/2, 0⟩ := by
        unfold Mat3.toEulerZYX; rw [if_pos h1, if_neg h2]
      rw [e]
      exact eulerZYX_neg m E _ _ _ hp z00 z21 z10 z22 Real.sin_pi_div_two Real.cos_pi_div_two (by simp) (by simp) (by rw [Real.sin_neg, sa]; ring) (by rw [Real.cos_neg, ca])
  · have hp : m 2 0 = 1 := by nlinarith [not_lt.1 h1]
    rw [hp] at hr hc
    have z21 : m 2 1 = 0 := by nlinarith
    have z22 : m 2 2 = 0 := by nlinarith
    have z00 : m 0 0 = 0 := by nlinarith
    have z10 : m 1 0 = 0 := by nlinarith
    obtain ⟨sa, ca⟩ := atan2_sc_one (x := m 1 1) (y := -(m 1 2)) (by linear_combination (-1) * E.c00 + 1 * E.r11 + 1 * hp + 1 * m 2 0 * hp + 1 * m 0 0 * z00)
    have e : Mat3.toEulerZYX m = ⟨atan2 (-m 1 2) (m 1 1), -Real.pi/2, 0⟩ := by
      unfold Mat3.toEulerZYX; rw [if_neg h1]
    rw [e]
    exact eulerZYX_pos m E _ _ _ hp z00 z21 z10 z22 (by rw [neg_div, Real.sin_neg, Real.sin_pi_div_two]) (by rw [neg_div, Real.cos_neg, Real.cos_pi_div_two]) (by simp) (by simp) sa ca

theorem eulerXYX_main (m : Mat3 ℝ) (E : RotEqs m) (k C x2 y x1 : ℝ) (hk : k * C = 1) (hC : C * C = 1 - m 0 0 * m 0 0)
    (hsy : Real.sin y = C) (hcy : Real.cos y = m 0 0)
    (hsx2 : Real.sin x2 = m 1 0 * k) (hcx2 : Real.cos x2 = -m 2 0 * k)
    (hsx1 : Real.sin x1 = m 0 1 * k) (hcx1 : Real.cos x1 = m 0 2 * k) :
    Mat3.fromEulerXYX x2 y x1 = m := by
  have hkk : k * k * (1 - m 0 0 * m 0 0) = 1 := by rw [← hC]; linear_combination (k * C + 1) * hk
  unfold Mat3.fromEulerXYX
  rw [hsx2, hcx2, hsy, hcy, hsx1, hcx1]
  apply mat9_eq
  · ring
  · linear_combination ((1) * m 0 1) * hk
  · linear_combination ((1) * m 0 2) * hk
  · linear_combination ((1) * m 1 0) * hk
  · linear_combination k * k * (1 * m 1 1 * E.c00 + (-1) * m 1 0 * E.c01 + 1 * m 2 0 * E.k02) + m 1 1 * hkk
  · linear_combination k * k * (1 * m 1 2 * E.c00 + (-1) * m 1 0 * E.c02 + (-1) * m 2 0 * E.k01) + m 1 2 * hkk
  · linear_combination ((1) * m 2 0) * hk
  · linear_combination k * k * (1 * m 2 1 * E.c00 + (-1) * m 2 0 * E.c01 + (-1) * m 1 0 * E.k02) + m 2 1 * hkk
  · linear_combination k * k * (1 * m 2 2 * E.c00 + (-1) * m 2 0 * E.c02 + 1 * m 1 0 * E.k01) + m 2 2 * hkk

theorem eulerXYX_neg (m : Mat3 ℝ) (E : RotEqs m) (x2 y x1 : ℝ) (hp : m 0 0 = -1) (z01 : m 0 1 = 0) (z10 : m 1 0 = 0) (z02 : m 0 2 = 0) (z20 : m 2 0 = 0)
    (hsy : Real.sin y = 0) (hcy : Real.cos y = -1) (hsx1 : Real.sin x1 = 0) (hcx1 : Real.cos x1 = 1)
    (hsx2 : Real.sin x2 = m 1 2) (hcx2 : Real.cos x2 = m 1 1) :
    Mat3.fromEulerXYX x2 y x1 = m := by
  unfold Mat3.fromEulerXYX
  rw [hsx2, hcx2, hsy, hcy, hsx1, hcx1]
  apply mat9_eq
  · linear_combination (-1) * hp
  · linear_combination (-1) * z01
  · linear_combination (-1) * z02
  · linear_combination (-1) * z10
  · linear_combination (0 : ℝ) * E.r00
  · linear_combination (0 : ℝ) * E.r00
  · linear_combination (-1) * z20
  · linear_combination 1 * m 1 2 * E.r00 + (-1) * m 1 2 * E.c00 + (-1) * m 0 2 * E.r01 + 1 * m 1 0 * E.c02 + (-1) * m 1 2 * E.c11 + 1 * m 1 1 * E.c12 + (-1) * m 2 1 * E.k00 + 1 * m 2 0 * E.k01 + (-1) * m 2 1 * hp + 1 * m 2 0 * z01
  · linear_combination 1 * m 2 2 * E.r11 + (-1) * m 1 2 * E.r12 + (-1) * m 1 1 * E.k00 + 1 * m 1 0 * E.k01 + (-1) * m 1 1 * hp + 1 * m 1 0 * z01

theorem eulerXYX_pos (m : Mat3 ℝ) (E : RotEqs m) (x2 y x1 : ℝ) (hp : m 0 0 = 1) (z01 : m 0 1 = 0) (z10 : m 1 0 = 0) (z02 : m 0 2 = 0) (z20 : m 2 0 = 0)
    (hsy : Real.sin y = 0) (hcy : Real.cos y = 1) (hsx1 : Real.sin x1 = 0) (hcx1 : Real.cos x1 = 1)
    (hsx2 : Real.sin x2 = -m 1 2) (hcx2 : Real.cos x2 = m 1 1) :
    Mat3.fromEulerXYX x2 y x1 = m := by
  unfold Mat3.fromEulerXYX
  rw [hsx2, hcx2, hsy, hcy, hsx1, hcx1]
  apply mat9_eq
  · linear_combination (-1) * hp
  · linear_combination (-1) * z01
  · linear_combination (-1) * z02
  · linear_combination (-1) * z10
  · linear_combination (0 : ℝ) * E.r00
  · linear_combination (0 : ℝ) * E.r00
  · linear_combination (-1) * z20
  · linear_combination (-1) * m 1 2 * E.r00 + 1 * m 1 2 * E.c00 + 1 * m 0 2 * E.r01 + (-1) * m 1 0 * E.c02 + 1 * m 1 2 * E.c11 + (-1) * m 1 1 * E.c12 + 1 * m 2 1 * E.k00 + (-1) * m 2 0 * E.k01 + 1 * m 2 1 * hp + (-1) * m 2 0 * z01
  · linear_combination 1 * m 2 2 * E.r11 + (-1) * m 1 2 * E.r12 + (-1) * m 1 1 * E.k00 + 1 * m 1 0 * E.k01 + (-1) * m 1 1 * hp + 1 * m 1 0 * z01

theorem eulerXYX_roundtrip (m : Mat3 ℝ) (hm : Spec.IsRotation m) :
    Mat3.fromEulerXYX (Mat3.toEulerXYX m).x (Mat3.toEulerXYX m).y (Mat3.toEulerXYX m).z = m := by
  have E := rotEqs hm
  have hr : m 0 1 * m 0 1 + m 0 2 * m 0 2 + m 0 0 * m 0 0 = 1 := by linear_combination E.r00
  have hc : m 1 0 * m 1 0 + m 2 0 * m 2 0 + m 0 0 * m 0 0 = 1 := by linear_combination E.c00
  by_cases h1 : m 0 0 < 1
  · by_cases h2 : m 0 0 > -1
    · have hpos : 0 < 1 - m 0 0 * m 0 0 := by nlinarith
      have hC := Real.mul_self_sqrt hpos.le
      have hC0 := Real.sqrt_pos.2 hpos
      obtain ⟨c1, s1⟩ := arccos_sc h2 h1
      obtain ⟨sa0, ca0⟩ := atan2_sc (x := -(m 2 0)) (y := (m 1 0)) hC0 (by rw [hC]; linear_combination E.c00)
      obtain ⟨sa2, ca2⟩ := atan2_sc (x := (m 0 2)) (y := (m 0 1)) hC0 (by rw [hC]; linear_combination E.r00)
      have e : Mat3.toEulerXYX m = ⟨atan2 (m 1 0) (-m 2 0), Real.arccos (m 0 0), atan2 (m 0 1) (m 0 2)⟩ := by
        unfold Mat3.toEulerXYX; rw [if_pos h1, if_pos h2]
      rw [e]
      exact eulerXYX_main m E (1 / Real.sqrt (1 - m 0 0 * m 0 0)) _ _ _ _ (one_div_mul_cancel (ne_of_gt hC0)) hC s1 c1 sa0 ca0 sa2 ca2
    · have hp : m 0 0 = -1 := by nlinarith [not_lt.1 h2]
      rw [hp] at hr hc
      have z01 : m 0 1 = 0 := by nlinarith
      have z02 : m 0 2 = 0 := by nlinarith
      have z10 : m 1 0 = 0 := by nlinarith
      have z20 : m 2 0 = 0 := by nlinarith
      obtain ⟨sa, ca⟩ := atan2_sc_one (x := m 1 1) (y := -(m 1 2)) (by linear_combination 1 * E.r11 + (-1) * m 1 0 * z10)
      have e : Mat3.toEulerXYX m = ⟨-atan2 (-m 1 2) (m 1 1), Real.pi, 0⟩ := by
        unfold Mat3.toEulerXYX; rw [if_pos h1, if_neg h2]
      rw [e]
      exact eulerXYX_neg m E _ _ _ hp z01 z10 z02 z20 (by simp) (by simp) (by simp) (by simp) (by rw [Real.sin_neg, sa]; ring) (by rw [Real.cos_neg, ca])
  · have hp : m 0 0 = 1 := by nlinarith [not_lt.1 h1]
    rw [hp] at hr hc
    have z01 : m 0 1 = 0 := by nlinarith
    have z02 : m 0 2 = 0 := by nlinarith
    have z10 : m 1 0 = 0 := by nlinarith
    have z20 : m 2 0 = 0 := by nlinarith
    obtain ⟨sa, ca⟩ := atan2_sc_one (x := m 1 1) (y := -(m 1 2)) (by linear_combination 1 * E.r11 + (-1) * m 1 0 * z10)
    have e : Mat3.toEulerXYX m = ⟨atan2 (-m 1 2) (m 1 1), 0, 0⟩ := by
      unfold Mat3.toEulerXYX; rw [if_neg h1]
    rw [e]
    exact eulerXYX_pos m E _ _ _ hp z01 z10 z02 z20 (by simp) (by simp) (by simp) (by simp) sa ca

theorem eulerXZX_main (m : Mat3 ℝ) (E : RotEqs m) (k C x2 z x1 : ℝ) (hk : k * C = 1) (hC : C * C = 1 - m 0 0 * m 0 0)
    (hsz : Real.sin z = C) (hcz : Real.cos z = m 0 0)
    (hsx2 : Real.sin x2 = m 2 0 * k) (hcx2 : Real.cos x2 = m 1 0 * k)
    (hsx1 : Real.sin x1 = m 0 2 * k) (hcx1 : Real.cos x1 = -m 0 1 * k) :
    Mat3.fromEulerXZX x2 z x1 = m := by
  have hkk : k * k * (1 - m 0 0 * m 0 0) = 1 := by rw [← hC]; linear_combination (k * C + 1) * hk
  unfold Mat3.fromEulerXZX
  rw [hsx2, hcx2, hsz, hcz, hsx1, hcx1]
  apply mat9_eq
  · ring
  · linear_combination ((1) * m 0 1) * hk
  · linear_combination ((1) * m 0 2) * hk
  · linear_combination ((1) * m 1 0) * hk
  · linear_combination k * k * (1 * m 1 1 * E.c00 + (-1) * m 1 0 * E.c01 + 1 * m 2 0 * E.k02) + m 1 1 * hkk
  · linear_combination k * k * (1 * m 1 2 * E.c00 + (-1) * m 1 0 * E.c02 + (-1) * m 2 0 * E.k01) + m 1 2 * hkk
  · linear_combination ((1) * m 2 0) * hk
  · linear_combination k * k * (1 * m 2 1 * E.c00 + (-1) * m 2 0 * E.c01 + (-1) * m 1 0 * E.k02) + m 2 1 * hkk
  · linear_combination k * k * (1 * m 2 2 * E.c00 + (-1) * m 2 0 * E.c02 + 1 * m 1 0 * E.k01) + m 2 2 * hkk

theorem eulerXZX_neg (m : Mat3 ℝ) (E : RotEqs m) (x2 z x1 : ℝ) (hp : m 0 0 = -1) (z01 : m 0 1 = 0) (z10 : m 1 0 = 0) (z02 : m 0 2 = 0) (z20 : m 2 0 = 0)
    (hsz : Real.sin z = 0) (hcz : Real.cos z = -1) (hsx1 : Real.sin x1 = 0) (hcx1 : Real.cos x1 = 1)
    (hsx2 : Real.sin x2 = -m 2 1) (hcx2 : Real.cos x2 = m 2 2) :
    Mat3.fromEulerXZX x2 z x1 = m := by
  unfold Mat3.fromEulerXZX
  rw [hsx2, hcx2, hsz, hcz, hsx1, hcx1]
  apply mat9_eq
  · linear_combination (-1) * hp
  · linear_combination (-1) * z01
  · linear_combination (-1) * z02
  · linear_combination (-1) * z10
  · linear_combination 1 * m 2 2 * E.r11 + (-1) * m 1 2 * E.r12 + (-1) * m 1 1 * E.k00 + 1 * m 1 0 * E.k01 + (-1) * m 1 1 * hp + 1 * m 1 0 * z01
  · linear_combination (-1) * m 1 2 * E.r00 + 1 * m 1 2 * E.c00 + 1 * m 0 2 * E.r01 + (-1) * m 1 0 * E.c02 + 1 * m 1 2 * E.c11 + (-1) * m 1 1 * E.c12 + 1 * m 2 1 * E.k00 + (-1) * m 2 0 * E.k01 + 1 * m 2 1 * hp + (-1) * m 2 0 * z01
  · linear_combination (-1) * z20
  · linear_combination (0 : ℝ) * E.r00
  · linear_combination (0 : ℝ) * E.r00

theorem eulerXZX_pos (m : Mat3 ℝ) (E : RotEqs m) (x2 z x1 : ℝ) (hp : m 0 0 = 1) (z01 : m 0 1 = 0) (z10 : m 1 0 = 0) (z02 : m 0 2 = 0) (z20 : m 2 0 = 0)
    (hsz : Real.sin z = 0) (hcz : Real.cos z = 1) (hsx1 : Real.sin x1 = 0) (hcx1 : Real.cos x1 = 1)
    (hsx2 : Real.sin x2 = m 2 1) (hcx2 : Real.cos x2 = m 2 2) :
    Mat3.fromEulerXZX x2 z x1 = m := by
  unfold Mat3.fromEulerXZX
  rw [hsx2, hcx2, hsz, hcz, hsx1, hcx1]
  apply mat9_eq
  · linear_combination (-1) * hp
  · linear_combination (-1) * z01
  · linear_combination (-1) * z02
  · linear_combination (-1) * z10
  · linear_combination (-1) * m 2 2 * E.r11 + 1 * m 1 2 * E.r12 + 1 * m 1 1 * E.k00 + (-1) * m 1 0 * E.k01 + 1 * m 1 1 * hp + (-1) * m 1 0 * z01
  · linear_combination (-1) * m 1 2 * E.r00 + 1 * m 1 2 * E.c00 + 1 * m 0 2 * E.r01 + (-1) * m 1 0 * E.c02 + 1 * m 1 2 * E.c11 + (-1) * m 1 1 * E.c12 + 1 * m 2 1 * E.k00 + (-1) * m 2 0 * E.k01 + 1 * m 2 1 * hp + (-1) * m 2 0 * z01
  · linear_combination (-1) * z20
  · linear_combination (0 : ℝ) * E.r00
  · linear_combination (0 : ℝ) * E.r00

theorem eulerXZX_roundtrip (m : Mat3 ℝ) (hm : Spec.IsRotation m) :
    Mat3.fromEulerXZX (Mat3.toEulerXZX m).x (Mat3.toEulerXZX m).y (Mat3.toEulerXZX m).z = m := by
  have E := rotEqs hm
  have hr : m 0 1 * m 0 1 + m 0 2 * m 0 2 + m 0 0 * m 0 0 = 1 := by linear_combination E.r00
  have hc : m 1 0 * m 1 0 + m 2 0 * m 2 0 + m 0 0 * m 0 0 = 1 := by linear_combination E.c00
  by_cases h1 : m 0 0 < 1
  · by_cases h2 : m 0 0 > -1
    · have hpos : 0 < 1 - m 0 0 * m 0 0 := by nlinarith
      have hC := Real.mul_self_sqrt hpos.le
      have hC0 := Real.sqrt_pos.2 hpos
      obtain ⟨c1, s1⟩ := arccos_sc h2 h1
      obtain ⟨sa0, ca0⟩ := atan2_sc (x := (m 1 0)) (y := (m 2 0)) hC0 (by rw [hC]; linear_combination E.c00)
      obtain ⟨sa2, ca2⟩ := atan2_sc (x := -(m 0 1)) (y := (m 0 2)) hC0 (by rw [hC]; linear_combination E.r00)
      have e : Mat3.toEulerXZX m = ⟨atan2 (m 2 0) (m 1 0), Real.arccos (m 0 0), atan2 (m 0 2) (-m 0 1)⟩ := by
        unfold Mat3.toEulerXZX; rw [if_pos h1, if_pos h2]
      rw [e]
      exact eulerXZX_main m E (1 / Real.sqrt (1 - m 0 0 * m 0 0)) _ _ _ _ (one_div_mul_cancel (ne_of_gt hC0)) hC s1 c1 sa0 ca0 sa2 ca2
    · have hp : m 0 0 = -1 := by nlinarith [not_lt.1 h2]
      rw [hp] at hr hc
      have z01 : m 0 1 = 0 := by nlinarith
      have z02 : m 0 2 = 0 := by nlinarith
      have z10 : m 1 0 = 0 := by nlinarith
      have z20 : m 2 0 = 0 := by nlinarith
      obtain ⟨sa, ca⟩ := atan2_sc_one (x := m 2 2) (y := (m 2 1)) (by linear_combination (-1) * E.c00 + 1 * E.r22 + (-1) * hp + 1 * m 0 0 * hp + 1 * m 1 0 * z10)
      have e : Mat3.toEulerXZX m = ⟨-atan2 (m 2 1) (m 2 2), Real.pi, 0⟩ := by
        unfold Mat3.toEulerXZX; rw [if_pos h1, if_neg h2]
      rw [e]
      exact eulerXZX_neg m E _ _ _ hp z01 z10 z02 z20 (by simp) (by simp) (by simp) (by simp) (by rw [Real.sin_neg, sa]) (by rw [Real.cos_neg, ca])
  · have hp : m 0 0 = 1 := by nlinarith [not_lt.1 h1]
    rw [hp] at hr hc
    have z01 : m 0 1 = 0 := by nlinarith
    have z02 : m 0 2 = 0 := by nlinarith
    have z10 : m 1 0 = 0 := by nlinarith
    have z20 : m 2 0 = 0 := by nlinarith
    obtain ⟨sa, ca⟩ := atan2_sc_one (x := m 2 2) (y := (m 2 1)) (by linear_combination (-1) * E.c00 + 1 * E.r22 + 1 * hp + 1 * m 0 0 * hp + 1 * m 1 0 * z10)
    have e : Mat3.toEulerXZX m = ⟨atan2 (m 2 1) (m 2 2), 0, 0⟩ := by
      unfold Mat3.toEulerXZX; rw [if_neg h1]
    rw [e]
    exact eulerXZX_pos m E _ _ _ hp z01 z10 z02 z20 (by simp) (by simp) (by simp) (by simp) sa ca

theorem eulerYXY_main (m : Mat3 ℝ) (E : RotEqs m) (k C y2 x y1 : ℝ) (hk : k * C = 1) (hC : C * C = 1 - m 1 1 * m 1 1)
    (hsx : Real.sin x = C) (hcx : Real.cos x = m 1 1)
    (hsy2 : Real.sin y2 = m 0 1 * k) (hcy2 : Real.cos y2 = m 2 1 * k)
    (hsy1 : Real.sin y1 = m 1 0 * k) (hcy1 : Real.cos y1 = -m 1 2 * k) :
    Mat3.fromEulerYXY y2 x y1 = m := by
  have hkk : k * k * (1 - m 1 1 * m 1 1) = 1 := by rw [← hC]; linear_combination (k * C + 1) * hk
  unfold Mat3.fromEulerYXY
  rw [hsy2, hcy2, hsx, hcx, hsy1, hcy1]
  apply mat9_eq
  · linear_combination k * k * ((-1) * m 0 1 * E.c01 + 1 * m 2 0 * E.r02 + 1 * m 0 0 * E.c11 + (-1) * m 0 0 * E.r22 + 1 * E.k00 + 1 * m 2 2 * E.k11) + m 0 0 * hkk
  · linear_combination ((1) * m 0 1) * hk
  · linear_combination k * k * (1 * m 0 2 * E.c11 + (-1) * m 0 1 * E.c12 + (-1) * m 2 1 * E.k10) + m 0 2 * hkk
  · linear_combination ((1) * m 1 0) * hk
  · ring
  · linear_combination ((1) * m 1 2) * hk
  · linear_combination k * k * (1 * m 2 0 * E.r11 + (-1) * m 1 0 * E.r12 + (-1) * m 1 2 * E.k01) + m 2 0 * hkk
  · linear_combination ((1) * m 2 1) * hk
  · linear_combination k * k * (1 * m 2 2 * E.r11 + (-1) * m 1 2 * E.r12 + 1 * m 1 0 * E.k01) + m 2 2 * hkk

theorem eulerYXY_neg (m : Mat3 ℝ) (E : RotEqs m) (y2 x y1 : ℝ) (hp : m 1 1 = -1) (z10 : m 1 0 = 0) (z01 : m 0 1 = 0) (z12 : m 1 2 = 0) (z21 : m 2 1 = 0)
    (hsx : Real.sin x = 0) (hcx : Real.cos x = -1) (hsy1 : Real.sin y1 = 0) (hcy1 : Real.cos y1 = 1)
    (hsy2 : Real.sin y2 = -m 0 2) (hcy2 : Real.cos y2 = m 0 0) :
    Mat3.fromEulerYXY y2 x y1 = m := by
  unfold Mat3.fromEulerYXY
  rw [hsy2, hcy2, hsx, hcx, hsy1, hcy1]
  apply mat9_eq
  · linear_combination (0 : ℝ) * E.r00
  · linear_combination (-1) * z01
  · linear_combination (0 : ℝ) * E.r00
  · linear_combination (-1) * z10
  · linear_combination (-1) * hp
  · linear_combination (-1) * z12
  · linear_combination (-1) * E.k02 + (-1) * m 2 0 * hp + 1 * m 2 1 * z10
  · linear_combination (-1) * z21
  · linear_combination 1 * m 2 2 * E.r11 + (-1) * m 1 2 * E.r12 + (-1) * m 1 1 * E.k00 + 1 * m 1 0 * E.k01 + (-1) * m 0 0 * hp + 1 * m 0 1 * z10

theorem eulerYXY_pos (m : Mat3 ℝ) (E : RotEqs m) (y2 x y1 : ℝ) (hp : m 1 1 = 1) (z10 : m 1 0 = 0) (z01 : m 0 1 = 0) (z12 : m 1 2 = 0) (z21 : m 2 1 = 0)
    (hsx : Real.sin x = 0) (hcx : Real.cos x = 1) (hsy1 : Real.sin y1 = 0) (hcy1 : Real.cos y1 = 1)
    (hsy2 : Real.sin y2 = m 0 2) (hcy2 : Real.cos y2 = m 0 0) :
    Mat3.fromEulerYXY y2 x y1 = m := by
  unfold Mat3.fromEulerYXY
  rw [hsy2, hcy2, hsx, hcx, hsy1, hcy1]
  apply mat9_eq
  · linear_combination (0 : ℝ) * E.r00
  · linear_combination (-1) * z01
  · linear_combination (0 : ℝ) * E.r00
  · linear_combination (-1) * z10
  · linear_combination (-1) * hp
  · linear_combination (-1) * z12
  · linear_combination 1 * E.k02 + 1 * m 2 0 * hp + (-1) * m 2 1 * z10
  · linear_combination (-1) * z21
  · linear_combination 1 * m 2 2 * E.r11 + (-1) * m 1 2 * E.r12 + (-1) * m 1 1 * E.k00 + 1 * m 1 0 * E.k01 + (-1) * m 0 0 * hp + 1 * m 0 1 * z10

theorem eulerYXY_roundtrip (m : Mat3 ℝ) (hm : Spec.IsRotation m) :
    Mat3.fromEulerYXY (Mat3.toEulerYXY m).x (Mat3.toEulerYXY m).y (Mat3.toEulerYXY m).z = m := by
  have E := rotEqs hm
  have hr : m 1 0 * m 1 0 + m 1 2 * m 1 2 + m 1 1 * m 1 1 = 1 := by linear_combination E.r11
  have hc : m 0 1 * m 0 1 + m 2 1 * m 2 1 + m 1 1 * m 1 1 = 1 := by linear_combination E.c11
  by_cases h1 : m 1 1 < 1
  · by_cases h2 : m 1 1 > -1
    · have hpos : 0 < 1 - m 1 1 * m 1 1 := by nlinarith
      have hC := Real.mul_self_sqrt hpos.le
      have hC0 := Real.sqrt_pos.2 hpos
      obtain ⟨c1, s1⟩ := arccos_sc h2 h1
      obtain ⟨sa0, ca0⟩ := atan2_sc (x := (m 2 1)) (y := (m 0 1)) hC0 (by rw [hC]; linear_combination E.c11)
      obtain ⟨sa2, ca2⟩ := atan2_sc (x := -(m 1 2)) (y := (m 1 0)) hC0 (by rw [hC]; linear_combination E.r11)
      have e : Mat3.toEulerYXY m = ⟨atan2 (m 0 1) (m 2 1), Real.arccos (m 1 1), atan2 (m 1 0) (-m 1 2)⟩ := by
        unfold Mat3.toEulerYXY; rw [if_pos h1, if_pos h2]
      rw [e]
      exact eulerYXY_main m E (1 / Real.sqrt (1 - m 1 1 * m 1 1)) _ _ _ _ (one_div_mul_cancel (ne_of_gt hC0)) hC s1 c1 sa0 ca0 sa2 ca2
    · have hp : m 1 1 = -1 := by nlinarith [not_lt.1 h2]
      rw [hp] at hr hc
      have z10 : m 1 0 = 0 := by nlinarith
      have z12 : m 1 2 = 0 := by nlinarith
      have z01 : m 0 1 = 0 := by nlinarith
      have z21 : m 2 1 = 0 := by nlinarith
      obtain ⟨sa, ca⟩ := atan2_sc_one (x := m 0 0) (y := (m 0 2)) (by linear_combination 1 * E.r00 + (-1) * m 0 1 * z01)
      have e : Mat3.toEulerYXY m = ⟨-atan2 (m 0 2) (m 0 0), Real.pi, 0⟩ := by
        unfold Mat3.toEulerYXY; rw [if_pos h1, if_neg h2]
      rw [e]
      exact eulerYXY_neg m E _ _ _ hp z10 z01 z12 z21 (by simp) (by simp) (by simp) (by simp) (by rw [Real.sin_neg, sa]) (by rw [Real.cos_neg, ca])
  · have hp : m 1 1 = 1 := by nlinarith [not_lt.1 h1]
    rw [hp] at hr hc
    have z10 : m 1 0 = 0 := by nlinarith
    have z12 : m 1 2 = 0 := by nlinarith
    have z01 : m 0 1 = 0 := by nlinarith
    have z21 : m 2 1 = 0 := by nlinarith
    obtain ⟨sa, ca⟩ := atan2_sc_one (x := m 0 0) (y := (m 0 2)) (by linear_combination 1 * E.r00 + (-1) * m 0 1 * z01)
    have e : Mat3.toEulerYXY m = ⟨atan2 (m 0 2) (m 0 0), 0, 0⟩ := by
      unfold Mat3.toEulerYXY; rw [if_neg h1]
    rw [e]
    exact eulerYXY_pos m E _ _ _ hp z10 z01 z12 z21 (by simp) (by simp) (by simp) (by simp) sa ca

theorem eulerYZY_main (m : Mat3 ℝ) (E : RotEqs m) (k C y2 z y1 : ℝ) (hk : k * C = 1) (hC : C * C = 1 - m 1 1 * m 1 1)
    (hsz : Real.sin z = C) (hcz : Real.cos z = m 1 1)
    (hsy2 : Real.sin y2 = m 2 1 * k) (hcy2 : Real.cos y2 = -m 0 1 * k)
    (hsy1 : Real.sin y1 = m 1 2 * k) (hcy1 : Real.cos y1 = m 1 0 * k) :
    Mat3.fromEulerYZY y2 z y1 = m := by
  have hkk : k * k * (1 - m 1 1 * m 1 1) = 1 := by rw [← hC]; linear_combination (k * C + 1) * hk
  unfold Mat3.fromEulerYZY
  rw [hsy2, hcy2, hsz, hcz, hsy1, hcy1]
  apply mat9_eq
  · linear_combination k * k * ((-1) * m 0 1 * E.c01 + 1 * m 2 0 * E.r02 + 1 * m 0 0 * E.c11 + (-1) * m 0 0 * E.r22 + 1 * E.k00 + 1 * m 2 2 * E.k11) + m 0 0 * hkk
  · linear_combination ((1) * m 0 1) * hk
  · linear_combination k * k * (1 * m 0 2 * E.c11 + (-1) * m 0 1 * E.c12 + (-1) * m 2 1 * E.k10) + m 0 2 * hkk
  · linear_combination ((1) * m 1 0) * hk
  · ring
  · linear_combination ((1) * m 1 2) * hk
  · linear_combination k * k * (1 * m 2 0 * E.r11 + (-1) * m 1 0 * E.r12 + (-1) * m 1 2 * E.k01) + m 2 0 * hkk
  · linear_combination ((1) * m 2 1) * hk
  · linear_combination k * k * (1 * m 2 2 * E.r11 + (-1) * m 1 2 * E.r12 + 1 * m 1 0 * E.k01) + m 2 2 * hkk

theorem eulerYZY_neg (m : Mat3 ℝ) (E : RotEqs m) (y2 z y1 : ℝ) (hp : m 1 1 = -1) (z10 : m 1 0 = 0) (z01 : m 0 1 = 0) (z12 : m 1 2 = 0) (z21 : m 2 1 = 0)
    (hsz : Real.sin z = 0) (hcz : Real.cos z = -1) (hsy1 : Real.sin y1 = 0) (hcy1 : Real.cos y1 = 1)
    (hsy2 : Real.sin y2 = m 2 0) (hcy2 : Real.cos y2 = m 2 2) :
    Mat3.fromEulerYZY y2 z y1 = m := by
  unfold Mat3.fromEulerYZY
  rw [hsy2, hcy2, hsz, hcz, hsy1, hcy1]
  apply mat9_eq
  · linear_combination 1 * m 2 2 * E.r11 + (-1) * m 1 2 * E.r12 + (-1) * m 1 1 * E.k00 + 1 * m 1 0 * E.k01 + (-1) * m 0 0 * hp + 1 * m 0 1 * z10
  · linear_combination (-1) * z01
  · linear_combination 1 * E.k02 + 1 * m 2 0 * hp + (-1) * m 2 1 * z10
  · linear_combination (-1) * z10
  · linear_combination (-1) * hp
  · linear_combination (-1) * z12
  · linear_combination (0 : ℝ) * E.r00
  · linear_combination (-1) * z21
  · linear_combination (0 : ℝ) * E.r00

theorem eulerYZY_pos (m : Mat3 ℝ) (E : RotEqs m) (y2 z y1 : ℝ) (hp : m 1 1 = 1) (z10 : m 1 0 = 0) (z01 : m 0 1 = 0) (z12 : m 1 2 = 0) (z21 : m 2 1 = 0)
    (hsz : Real.sin z = 0) (hcz : Real.cos z = 1) (hsy1 : Real.sin y1 = 0) (hcy1 : Real.cos y1 = 1)
    (hsy2 : Real.sin y2 = -m 2 0) (hcy2 : Real.cos y2 = m 2 2) :
    Mat3.fromEulerYZY y2 z y1 = m := by
  unfold Mat3.fromEulerYZY
  rw [hsy2, hcy2, hsz, hcz, hsy1, hcy1]
  apply mat9_eq
  · linear_combination (-1) * m 2 2 * E.r11 + 1 * m 1 2 * E.r12 + 1 * m 1 1 * E.k00 + (-1) * m 1 0 * E.k01 + 1 * m 0 0 * hp + (-1) * m 0 1 * z10
  · linear_combination (-1) * z01
  · linear_combination 1 * E.k02 + 1 * m 2 0 * hp + (-1) * m 2 1 * z10
  · linear_combination (-1) * z10
  · linear_combination (-1) * hp
  · linear_combination (-1) * z12
  · linear_combination (0 : ℝ) * E.r00
  · linear_combination (-1) * z21
  · linear_combination (0 : ℝ) * E.r00

theorem eulerYZY_roundtrip (m : Mat3 ℝ) (hm : Spec.IsRotation m) :
    Mat3.fromEulerYZY (Mat3.toEulerYZY m).x (Mat3.toEulerYZY m).y (Mat3.toEulerYZY m).z = m := by
  have E := rotEqs hm
  have hr : m 1 0 * m 1 0 + m 1 2 * m 1 2 + m 1 1 * m 1 1 = 1 := by linear_combination E.r11
  have hc : m 0 1 * m 0 1 + m 2 1 * m 2 1 + m 1 1 * m 1 1 = 1 := by linear_combination E.c11
  by_cases h1 : m 1 1 < 1
  · by_cases h2 : m 1 1 > -1
    · have hpos : 0 < 1 - m 1 1 * m 1 1 := by nlinarith
      have hC := Real.mul_self_sqrt hpos.le
      have hC0 := Real.sqrt_pos.2 hpos
      obtain ⟨c1, s1⟩ := arccos_sc h2 h1
      obtain ⟨sa0, ca0⟩ := atan2_sc (x := -(m 0 1)) (y := (m 2 1)) hC0 (by rw [hC]; linear_combination E.c11)
      obtain ⟨sa2, ca2⟩ := atan2_sc (x := (m 1 0)) (y := (m 1 2)) hC0 (by rw [hC]; linear_combination E.r11)
      have e : Mat3.toEulerYZY m = ⟨atan2 (m 2 1) (-m 0 1), Real.arccos (m 1 1), atan2 (m 1 2) (m 1 0)⟩ := by
        unfold Mat3.toEulerYZY; rw [if_pos h1, if_pos h2]
      rw [e]
      exact eulerYZY_main m E (1 / Real.sqrt (1 - m 1 1 * m 1 1)) _ _ _ _ (one_div_mul_cancel (ne_of_gt hC0)) hC s1 c1 sa0 ca0 sa2 ca2
    · have hp : m 1 1 = -1 := by nlinarith [not_lt.1 h2]
      rw [hp] at hr hc
      have z10 : m 1 0 = 0 := by nlinarith
      have z12 : m 1 2 = 0 := by nlinarith
      have z01 : m 0 1 = 0 := by nlinarith
      have z21 : m 2 1 = 0 := by nlinarith
      obtain ⟨sa, ca⟩ := atan2_sc_one (x := m 2 2) (y := -(m 2 0)) (by linear_combination (-1) * E.c11 + 1 * E.r22 + (-1) * hp + 1 * m 1 1 * hp + 1 * m 0 1 * z01)
      have e : Mat3.toEulerYZY m = ⟨-atan2 (-m 2 0) (m 2 2), Real.pi, 0⟩ := by
        unfold Mat3.toEulerYZY; rw [if_pos h1, if_neg h2]
      rw [e]
      exact eulerYZY_neg m E _ _ _ hp z10 z01 z12 z21 (by simp) (by simp) (by simp) (by simp) (by rw [Real.sin_neg, sa]; ring) (by rw [Real.cos_neg, ca])
  · have hp : m 1 1 = 1 := by nlinarith [not_lt.1 h1]
    rw [hp] at hr hc
    have z10 : m 1 0 = 0 := by nlinarith
    have z12 : m 1 2 = 0 := by nlinarith
    have z01 : m 0 1 = 0 := by nlinarith
    have z21 : m 2 1 = 0 := by nlinarith
    obtain ⟨sa, ca⟩ := atan2_sc_one (x := m 2 2) (y := -(m 2 0)) (by linear_combination (-1) * E.c11 + 1 * E.r22 + 1 * hp + 1 * m 1 1 * hp + 1 * m 0 1 * z01)
    have e : Mat3.toEulerYZY m = ⟨atan2 (-m 2 0) (m 2 2), 0, 0⟩ := by
      unfold Mat3.toEulerYZY; rw [if_neg h1]
    rw [e]
    exact eulerYZY_pos m E _ _ _ hp z10 z01 z12 z21 (by simp) (by simp) (by simp) (by simp) sa ca

theorem eulerZXZ_main (m : Mat3 ℝ) (E : RotEqs m) (k C z2 x z1 : ℝ) (hk : k * C = 1) (hC : C * C = 1 - m 2 2 * m 2 2)
    (hsx : Real.sin x = C) (hcx : Real.cos x = m 2 2)
    (hsz2 : Real.sin z2 = m 0 2 * k) (hcz2 : Real.cos z2 = -m 1 2 * k)
    (hsz1 : Real.sin z1 = m 2 0 * k) (hcz1 : Real.cos z1 = m 2 1 * k) :
    Mat3.fromEulerZXZ z2 x z1 = m := by
  have hkk : k * k * (1 - m 2 2 * m 2 2) = 1 := by rw [← hC]; linear_combination (k * C + 1) * hk
  unfold Mat3.fromEulerZXZ
  rw [hsz2, hcz2, hsx, hcx, hsz1, hcz1]
  apply mat9_eq
  · linear_combination k * k * (1 * E.k00 + 1 * m 2 2 * E.k11) + m 0 0 * hkk
  · linear_combination k * k * (1 * E.k01 + (-1) * m 2 2 * E.k10) + m 0 1 * hkk
  · linear_combination ((1) * m 0 2) * hk
  · linear_combination k * k * ((-1) * m 1 0 * E.c00 + 1 * m 0 0 * E.r01 + (-1) * m 1 1 * E.c01 + (-1) * m 1 2 * E.c02 + 1 * m 1 0 * E.r11 + 1 * m 1 0 * E.r22 + (-1) * m 2 1 * E.k02) + m 1 0 * hkk
  · linear_combination k * k * ((-1) * m 2 1 * E.r12 + 1 * m 1 1 * E.r22 + 1 * m 2 0 * E.k02) + m 1 1 * hkk
  · linear_combination ((1) * m 1 2) * hk
  · linear_combination ((1) * m 2 0) * hk
  · linear_combination ((1) * m 2 1) * hk
  · ring

theorem eulerZXZ_neg (m : Mat3 ℝ) (E : RotEqs m) (z2 x z1 : ℝ) (hp : m 2 2 = -1) (z20 : m 2 0 = 0) (z02 : m 0 2 = 0) (z21 : m 2 1 = 0) (z12 : m 1 2 = 0)
    (hsx : Real.sin x = 0) (hcx : Real.cos x = -1) (hsz1 : Real.sin z1 = 0) (hcz1 : Real.cos z1 = 1)
    (hsz2 : Real.sin z2 = m 0 1) (hcz2 : Real.cos z2 = m 0 0) :
    Mat3.fromEulerZXZ z2 x z1 = m := by
  unfold Mat3.fromEulerZXZ
  rw [hsz2, hcz2, hsx, hcx, hsz1, hcz1]
  apply mat9_eq
  · linear_combination (0 : ℝ) * E.r00
  · linear_combination (0 : ℝ) * E.r00
  · linear_combination (-1) * z02
  · linear_combination (-1) * E.k01 + (-1) * m 1 0 * hp + 1 * m 1 2 * z20
  · linear_combination (-1) * m 2 1 * E.r12 + 1 * m 1 1 * E.r22 + (-1) * m 2 2 * E.k00 + 1 * m 2 0 * E.k02 + (-1) * m 0 0 * hp + 1 * m 0 2 * z20
  · linear_combination (-1) * z12
  · linear_combination (-1) * z20
  · linear_combination (-1) * z21
  · linear_combination (-1) * hp

theorem eulerZXZ_pos (m : Mat3 ℝ) (E : RotEqs m) (z2 x z1 : ℝ) (hp : m 2 2 = 1) (z20 : m 2 0 = 0) (z02 : m 0 2 = 0) (z21 : m 2 1 = 0) (z12 : m 1 2 = 0)
    (hsx : Real.sin x = 0) (hcx : Real.cos x = 1) (hsz1 : Real.sin z1 = 0) (hcz1 : Real.cos z1 = 1)
    (hsz2 : Real.sin z2 = -m 0 1) (hcz2 : Real.cos z2 = m 0 0) :
    Mat3.fromEulerZXZ z2 x z1 = m := by
  unfold Mat3.fromEulerZXZ
  rw [hsz2, hcz2, hsx, hcx, hsz1, hcz1]
  apply mat9_eq
  · linear_combination (0 : ℝ) * E.r00
  · linear_combination (0 : ℝ) * E.r00
  · linear_combination (-1) * z02
  · linear_combination 1 * E.k01 + 1 * m 1 0 * hp + (-1) * m 1 2 * z20
  · linear_combination (-1) * m 2 1 * E.r12 + 1 * m 1 1 * E.r22 + (-1) * m 2 2 * E.k00 + 1 * m 2 0 * E.k02 + (-1) * m 0 0 * hp + 1 * m 0 2 * z20
  · linear_combination (-1) * z12
  · linear_combination (-1) * z20
  · linear_combination (-1) * z21
  · linear_combination (-1) * hp

theorem eulerZXZ_roundtrip (m : Mat3 ℝ) (hm : Spec.IsRotation m) :
    Mat3.fromEulerZXZ (Mat3.toEulerZXZ m).x (Mat3.toEulerZXZ m).y (Mat3.toEulerZXZ m).z = m := by
  have E := rotEqs hm
  have hr : m 2 0 * m 2 0 + m 2 1 * m 2 1 + m 2 2 * m 2 2 = 1 := by linear_combination E.r22
  have hc : m 0 2 * m 0 2 + m 1 2 * m 1 2 + m 2 2 * m 2 2 = 1 := by linear_combination E.c22
  by_cases h1 : m 2 2 < 1
  · by_cases h2 : m 2 2 > -1
    · have hpos : 0 < 1 - m 2 2 * m 2 2 := by nlinarith
      have hC := Real.mul_self_sqrt hpos.le
      have hC0 := Real.sqrt_pos.2 hpos
      obtain ⟨c1, s1⟩ := arccos_sc h2 h1
      obtain ⟨sa0, ca0⟩ := atan2_sc (x := -(m 1 2)) (y := (m 0 2)) hC0 (by rw [hC]; linear_combination E.c22)
      obtain ⟨sa2, ca2⟩ := atan2_sc (x := (m 2 1)) (y := (m 2 0)) hC0 (by rw [hC]; linear_combination E.r22)
      have e : Mat3.toEulerZXZ m = ⟨atan2 (m 0 2) (-m 1 2), Real.arccos (m 2 2), atan2 (m 2 0) (m 2 1)⟩ := by
        unfold Mat3.toEulerZXZ; rw [if_pos h1, if_pos h2]
      rw [e]
      exact eulerZXZ_main m E (1 / Real.sqrt (1 - m 2 2 * m 2 2)) _ _ _ _ (one_div_mul_cancel (ne_of_gt hC0)) hC s1 c1 sa0 ca0 sa2 ca2
    · have hp : m 2 2 = -1 := by nlinarith [not_lt.1 h2]
      rw [hp] at hr hc
      have z20 : m 2 0 = 0 := by nlinarith
      have z21 : m 2 1 = 0 := by nlinarith
      have z02 : m 0 2 = 0 := by nlinarith
      have z12 : m 1 2 = 0 := by nlinarith
      obtain ⟨sa, ca⟩ := atan2_sc_one (x := m 0 0) (y := -(m 0 1)) (by linear_combination 1 * E.r00 + (-1) * m 0 2 * z02)
      have e : Mat3.toEulerZXZ m = ⟨-atan2 (-m 0 1) (m 0 0), Real.pi, 0⟩ := by
        unfold Mat3.toEulerZXZ; rw [if_pos h1, if_neg h2]
      rw [e]
      exact eulerZXZ_neg m E _ _ _ hp z20 z02 z21 z12 (by simp) (by simp) (by simp) (by simp) (by rw [Real.sin_neg, sa]; ring) (by rw [Real.cos_neg, ca])
  · have hp : m 2 2 = 1 := by nlinarith [not_lt.1 h1]
    rw [hp] at hr hc
    have z20 : m 2 0 = 0 := by nlinarith
    have z21 : m 2 1 = 0 := by nlinarith
    have z02 : m 0 2 = 0 := by nlinarith
    have z12 : m 1 2 = 0 := by nlinarith
    obtain ⟨sa, ca⟩ := atan2_sc_one (x := m 0 0) (y := -(m 0 1)) (by linear_combination 1 * E.r00 + (-1) * m 0 2 * z02)
    have e : Mat3.toEulerZXZ m = ⟨atan2 (-m 0 1) (m 0 0), 0, 0⟩ := by
      unfold Mat3.toEulerZXZ; rw [if_neg h1]
    rw [e]
    exact eulerZXZ_pos m E _ _ _ hp z20 z02 z21 z12 (by simp) (by simp) (by simp) (by simp) sa ca

theorem eulerZYZ_main (m : Mat3 ℝ) (E : RotEqs m) (k C z2 y z1 : ℝ) (hk : k * C = 1) (hC : C * C = 1 - m 2 2 * m 2 2)
    (hsy : Real.sin y = C) (hcy : Real.cos y = m 2 2)
    (hsz2 : Real.sin z2 = m 1 2 * k) (hcz2 : Real.cos z2 = m 0 2 * k)
    (hsz1 : Real.sin z1 = m 2 1 * k) (hcz1 : Real.cos z1 = -m 2 0 * k) :
    Mat3.fromEulerZYZ z2 y z1 = m := by
  have hkk : k * k * (1 - m 2 2 * m 2 2) = 1 := by rw [← hC]; linear_combination (k * C + 1) * hk
  unfold Mat3.fromEulerZYZ
  rw [hsz2, hcz2, hsy, hcy, hsz1, hcz1]
  apply mat9_eq
  · linear_combination k * k * (1 * E.k00 + 1 * m 2 2 * E.k11) + m 0 0 * hkk
  · linear_combination k * k * (1 * E.k01 + (-1) * m 2 2 * E.k10) + m 0 1 * hkk
  · linear_combination ((1) * m 0 2) * hk
  · linear_combination k * k * ((-1) * m 1 0 * E.c00 + 1 * m 0 0 * E.r01 + (-1) * m 1 1 * E.c01 + (-1) * m 1 2 * E.c02 + 1 * m 1 0 * E.r11 + 1 * m 1 0 * E.r22 + (-1) * m 2 1 * E.k02) + m 1 0 * hkk
  · linear_combination k * k * ((-1) * m 2 1 * E.r12 + 1 * m 1 1 * E.r22 + 1 * m 2 0 * E.k02) + m 1 1 * hkk
  · linear_combination ((1) * m 1 2) * hk
  · linear_combination ((1) * m 2 0) * hk
  · linear_combination ((1) * m 2 1) * hk
  · ring

theorem eulerZYZ_neg (m : Mat3 ℝ) (E : RotEqs m) (z2 y z1 : ℝ) (hp : m 2 2 = -1) (z20 : m 2 0 = 0) (z02 : m 0 2 = 0) (z21 : m 2 1 = 0) (z12 : m 1 2 = 0)
    (hsy : Real.sin y = 0) (hcy : Real.cos y = -1) (hsz1 : Real.sin z1 = 0) (hcz1 : Real.cos z1 = 1)
    (hsz2 : Real.sin z2 = -m 1 0) (hcz2 : Real.cos z2 = m 1 1) :
    Mat3.fromEulerZYZ z2 y z1 = m := by
  unfold Mat3.fromEulerZYZ
  rw [hsz2, hcz2, hsy, hcy, hsz1, hcz1]
  apply mat9_eq
  · linear_combination (-1) * m 2 1 * E.r12 + 1 * m 1 1 * E.r22 + (-1) * m 2 2 * E.k00 + 1 * m 2 0 * E.k02 + (-1) * m 0 0 * hp + 1 * m 0 2 * z20
  · linear_combination 1 * E.k01 + 1 * m 1 0 * hp + (-1) * m 1 2 * z20
  · linear_combination (-1) * z02
  · linear_combination (0 : ℝ) * E.r00
  · linear_combination (0 : ℝ) * E.r00
  · linear_combination (-1) * z12
  · linear_combination (-1) * z20
  · linear_combination (-1) * z21
  · linear_combination (-1) * hp

theorem eulerZYZ_pos (m : Mat3 ℝ) (E : RotEqs m) (z2 y z1 : ℝ) (hp : m 2 2 = 1) (z20 : m 2 0 = 0) (z02 : m 0 2 = 0) (z21 : m 2 1 = 0) (z12 : m 1 2 = 0)
    (hsy : Real.sin y = 0) (hcy : Real.cos y = 1) (hsz1 : Real.sin z1 = 0) (hcz1 : Real.cos z1 = 1)
    (hsz2 : Real.sin z2 = m 1 0) (hcz2 : Real.cos z2 = m 1 1) :
    Mat3.fromEulerZYZ z2 y z1 = m := by
  unfold Mat3.fromEulerZYZ
  rw [hsz2, hcz2, hsy, hcy, hsz1, hcz1]
  apply mat9_eq
  · linear_combination 1 * m 2 1 * E.r12 + (-1) * m 1 1 * E.r22 + 1 * m 2 2 * E.k00 + (-1) * m 2 0 * E.k02 + 1 * m 0 0 * hp + (-1) * m 0 2 * z20
  · linear_combination 1 * E.k01 + 1 * m 1 0 * hp + (-1) * m 1 2 * z20
  · linear_combination (-1) * z02
  · linear_combination (0 : ℝ) * E.r00
  · linear_combination (0 : ℝ) * E.r00
  · linear_combination (-1) * z12
  · linear_combination (-1) * z20
  · linear_combination (-1) * z21
  · linear_combination (-1) * hp

theorem eulerZYZ_roundtrip (m : Mat3 ℝ) (hm : Spec.IsRotation m) :
    Mat3.fromEulerZYZ (Mat3.toEulerZYZ m).x (Mat3.toEulerZYZ m).y (Mat3.toEulerZYZ m).z = m := by
  have E := rotEqs hm
  have hr : m 2 0 * m 2 0 + m 2 1 * m 2 1 + m 2 2 * m 2 2 = 1 := by linear_combination E.r22
  have hc : m 0 2 * m 0 2 + m 1 2 * m 1 2 + m 2 2 * m 2 2 = 1 := by linear_combination E.c22
  by_cases h1 : m 2 2 < 1
  · by_cases h2 : m 2 2 > -1
    · have hpos : 0 < 1 - m 2 2 * m 2 2 := by nlinarith
      have hC := Real.mul_self_sqrt hpos.le
      have hC0 := Real.sqrt_pos.2 hpos
      obtain ⟨c1, s1⟩ := arccos_sc h2 h1
      obtain ⟨sa0, ca0⟩ := atan2_sc (x := (m 0 2)) (y := (m 1 2)) hC0 (by rw [hC]; linear_combination E.c22)
      obtain ⟨sa2, ca2⟩ := atan2_sc (x := -(m 2 0)) (y := (m 2 1)) hC0 (by rw [hC]; linear_combination E.r22)
      have e : Mat3.toEulerZYZ m = ⟨atan2 (m 1 2) (m 0 2), Real.arccos (m 2 2), atan2 (m 2 1) (-m 2 0)⟩ := by
        unfold Mat3.toEulerZYZ; rw [if_pos h1, if_pos h2]
      rw [e]
      exact eulerZYZ_main m E (1 / Real.sqrt (1 - m 2 2 * m 2 2)) _ _ _ _ (one_div_mul_cancel (ne_of_gt hC0)) hC s1 c1 sa0 ca0 sa2 ca2
    · have hp : m 2 2 = -1 := by nlinarith [not_lt.1 h2]
      rw [hp] at hr hc
      have z20 : m 2 0 = 0 := by nlinarith
      have z21 : m 2 1 = 0 := by nlinarith
      have z02 : m 0 2 = 0 := by nlinarith
      have z12 : m 1 2 = 0 := by nlinarith
      obtain ⟨sa, ca⟩ := atan2_sc_one (x := m 1 1) (y := (m 1 0)) (by linear_combination (-1) * E.r00 + 1 * E.c00 + 1 * E.c11 + (-1) * E.r22 + (-1) * hp + 1 * m 2 2 * hp + 1 * m 0 2 * z02)
      have e : Mat3.toEulerZYZ m = ⟨-atan2 (m 1 0) (m 1 1), Real.pi, 0⟩ := by
        unfold Mat3.toEulerZYZ; rw [if_pos h1, if_neg h2]
      rw [e]
      exact eulerZYZ_neg m E _ _ _ hp z20 z02 z21 z12 (by simp) (by simp) (by simp) (by simp) (by rw [Real.sin_neg, sa]) (by rw [Real.cos_neg, ca])
  · have hp : m 2 2 = 1 := by nlinarith [not_lt.1 h1]
    rw [hp] at hr hc
    have z20 : m 2 0 = 0 := by nlinarith
    have z21 : m 2 1 = 0 := by nlinarith
    have z02 : m 0 2 = 0 := by nlinarith
    have z12 : m 1 2 = 0 := by nlinarith
    obtain ⟨sa, ca⟩ := atan2_sc_one (x := m 1 1) (y := (m 1 0)) (by linear_combination (-1) * E.r00 + 1 * E.c00 + 1 * E.c11 + (-1) * E.r22 + 1 * hp + 1 * m 2 2 * hp + 1 * m 0 2 * z02)
    have e : Mat3.toEulerZYZ m = ⟨atan2 (m 1 0) (m 1 1), 0, 0⟩ := by
      unfold Mat3.toEulerZYZ; rw [if_neg h1]
    rw [e]
    exact eulerZYZ_pos m E _ _ _ hp z20 z02 z21 z12 (by simp) (by simp) (by simp) (by simp) sa ca

end MGL
