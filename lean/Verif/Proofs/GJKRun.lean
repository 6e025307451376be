import Verif.Proofs.GJK
import Mathlib.Analysis.Convex.StdSimplex
import Mathlib.Topology.Order.Compact
import Mathlib.Tactic.FunProp

/-! The steps and the loop of GJK over the real numbers. -/

set_option linter.unusedSectionVars false

namespace MGL.GJK
open V3 Spec

/-- The point of a tetrahedron closest to the origin. -/
def mix (s0 s1 s2 s3 : V3 ℝ) (l : Fin 4 → ℝ) : V3 ℝ := l 0 • s0 + l 1 • s1 + l 2 • s2 + l 3 • s3

theorem dot_variation {c v : V3 ℝ} (h : ∀ t : ℝ, 0 < t → t < 1 → lenSq c ≤ lenSq (c + t • v)) : 0 ≤ dot c v := by
  by_contra hc
  push Not at hc
  have hv : 0 ≤ lenSq v := lenSq_nonneg v
  have hd : 0 < lenSq v - dot c v := by linarith
  have h1 := h (-dot c v / (lenSq v - dot c v)) (div_pos (by linarith) hd) (by
    rw [div_lt_one hd]
    rcases hv.lt_or_eq with h | h
    · linarith
    · have := lenSq_eq_zero h.symm
      rw [this] at hc; simp [dot] at hc)
  have e : ∀ t : ℝ, lenSq (c + t • v) = lenSq c + t * (2 * dot c v + t * lenSq v) := by
    intro t; simp only [lenSq, dot, add_x, add_y, add_z, smul_x, smul_y, smul_z]; ring
  rw [e] at h1
  have ht : 0 < -dot c v / (lenSq v - dot c v) := div_pos (by linarith) hd
  have h2 : 0 ≤ 2 * dot c v + -dot c v / (lenSq v - dot c v) * lenSq v := by
    by_contra hn
    have := mul_neg_of_pos_of_neg ht (not_le.1 hn)
    linarith
  have h3 : -dot c v / (lenSq v - dot c v) * lenSq v ≤ -dot c v := by
    rw [div_mul_eq_mul_div, div_le_iff₀ hd]
    nlinarith [mul_nonneg (show 0 ≤ -dot c v by linarith) (show 0 ≤ -dot c v by linarith)]
  linarith

theorem closest_mix (s0 s1 s2 s3 : V3 ℝ) : ∃ l0 l1 l2 l3 : ℝ, 0 ≤ l0 ∧ 0 ≤ l1 ∧ 0 ≤ l2 ∧ 0 ≤ l3 ∧ l0 + l1 + l2 + l3 = 1 ∧
    ∃ c : V3 ℝ, c = l0 • s0 + l1 • s1 + l2 • s2 + l3 • s3 ∧ lenSq c ≤ dot c s0 ∧ lenSq c ≤ dot c s1 ∧ lenSq c ≤ dot c s2 ∧ lenSq c ≤ dot c s3 := by
  have hne : (stdSimplex ℝ (Fin 4)).Nonempty := ⟨_, single_mem_stdSimplex ℝ (0 : Fin 4)⟩
  have hcont : Continuous fun l : Fin 4 → ℝ => lenSq (mix s0 s1 s2 s3 l) := by
    simp only [mix, lenSq, dot, add_x, add_y, add_z, smul_x, smul_y, smul_z]
    fun_prop
  obtain ⟨l, hl, hmin⟩ := (isCompact_stdSimplex (𝕜 := ℝ) (Fin 4)).exists_isMinOn hne hcont.continuousOn
  have hs : l 0 + l 1 + l 2 + l 3 = 1 := by have := hl.2; simpa [Fin.sum_univ_four] using this
  have hvar : ∀ i : Fin 4, 0 ≤ dot (mix s0 s1 s2 s3 l) (![s0, s1, s2, s3] i - mix s0 s1 s2 s3 l) := by
    intro i
    refine dot_variation fun t h0 h1 => ?_
    have hm : (fun j => (1 - t) * l j + t * (if j = i then 1 else 0)) ∈ stdSimplex ℝ (Fin 4) := by
      refine ⟨fun j => ?_, ?_⟩
      · have := mul_nonneg (show (0 : ℝ) ≤ 1 - t by linarith) (hl.1 j)
        dsimp only
        split <;> linarith
      · rw [Finset.sum_add_distrib, ← Finset.mul_sum, ← Finset.mul_sum, hl.2]; simp
    have h2 := hmin hm
    have h2' : lenSq (mix s0 s1 s2 s3 l) ≤ lenSq (mix s0 s1 s2 s3 fun j => (1 - t) * l j + t * (if j = i then 1 else 0)) := h2
    refine h2'.trans_eq ?_
    congr 1
    fin_cases i <;> ext <;> simp [mix] <;> ring
  have e : ∀ s : V3 ℝ, dot (mix s0 s1 s2 s3 l) (s - mix s0 s1 s2 s3 l) = dot (mix s0 s1 s2 s3 l) s - lenSq (mix s0 s1 s2 s3 l) := by
    intro s; simp only [dot, lenSq, sub_x, sub_y, sub_z]; ring
  refine ⟨l 0, l 1, l 2, l 3, hl.1 0, hl.1 1, hl.1 2, hl.1 3, hs, mix s0 s1 s2 s3 l, rfl, ?_, ?_, ?_, ?_⟩
  · have := hvar 0; rw [e] at this; simpa using this
  · have := hvar 1; rw [e] at this; simpa using this
  · have := hvar 2; rw [e] at this; simpa using this
  · have := hvar 3; rw [e] at this; simpa using this

/-! ### Where the closest point is -/

theorem edge_pass {c sk sj s3 : V3 ℝ} {lk l3 : ℝ} (hl : lk + l3 = 1) (hc : c = lk • sk + l3 • s3) (hk : dot c sk = lenSq c)
    (h3 : dot c s3 = lenSq c) (hj : lenSq c ≤ dot c sj) : edgeTest sk sj s3 ≤ 0 := by
  have e : edgeTest sk sj s3 = -(lenSq (s3 - sk) * (dot c sj - dot c sk)) + dot (sj - sk) (s3 - sk) * (dot c s3 - dot c sk) := by
    have : l3 = 1 - lk := by linear_combination hl
    rw [hc, this]
    simp only [edgeTest, dot, lenSq, smul_x, smul_y, smul_z, add_x, add_y, add_z, sub_x, sub_y, sub_z]; ring
  rw [e, hk, h3, sub_self, mul_zero, add_zero]
  have := mul_nonneg (lenSq_nonneg (s3 - sk)) (show 0 ≤ dot c sj - lenSq c by linarith)
  linarith

theorem face_pass {c s0 s1 s2 s3 : V3 ℝ} {l0 l1 l3 : ℝ} (hl : l0 + l1 + l3 = 1) (hc : c = l0 • s0 + l1 • s1 + l3 • s3)
    (hl0 : 0 ≤ l0) (hl1 : 0 ≤ l1) (hq : 0 < lenSq c) (h0 : dot c s0 = lenSq c) (h1 : dot c s1 = lenSq c) (h3 : dot c s3 = lenSq c)
    (h2 : lenSq c ≤ dot c s2) (hdet : 0 < dot (cross (s2 - s0) (s2 - s1)) (s3 - s0)) :
    dot s3 (cross (s1 - s0) (s3 - s0)) < 0 ∧ 0 ≤ edgeTest s1 s0 s3 ∧ 0 ≤ edgeTest s0 s1 s3 := by
  have hl3 : l3 = 1 - l0 - l1 := by linear_combination hl
  have p1 : dot c (s1 - s0) = 0 := by
    have : dot c (s1 - s0) = dot c s1 - dot c s0 := by simp only [dot, sub_x, sub_y, sub_z]; ring
    rw [this, h0, h1]; ring
  have p3 : dot c (s3 - s0) = 0 := by
    have : dot c (s3 - s0) = dot c s3 - dot c s0 := by simp only [dot, sub_x, sub_y, sub_z]; ring
    rw [this, h0, h3]; ring
  have p2 : 0 ≤ dot c (s2 - s0) := by
    have : dot c (s2 - s0) = dot c s2 - dot c s0 := by simp only [dot, sub_x, sub_y, sub_z]; ring
    rw [this, h0]; linarith
  have es : s3 = c + (l0 + l1) • (s3 - s0) - l1 • (s1 - s0) := by
    rw [hc, hl3]
    ext <;> simp only [smul_x, smul_y, smul_z, add_x, add_y, add_z, sub_x, sub_y, sub_z] <;> ring
  refine ⟨?_, ?_, ?_⟩
  · have hn2 : dot (cross (s1 - s0) (s3 - s0)) (s2 - s0) = -dot (cross (s2 - s0) (s2 - s1)) (s3 - s0) := by
      simp only [dot, cross, sub_x, sub_y, sub_z]; ring
    have en : dot s3 (cross (s1 - s0) (s3 - s0)) = dot (cross (s1 - s0) (s3 - s0)) c := by
      rw [hc, hl3]
      simp only [dot, cross, sub_x, sub_y, sub_z, smul_x, smul_y, smul_z, add_x, add_y, add_z]; ring
    rw [en]
    generalize s1 - s0 = x at *
    generalize s3 - s0 = y at *
    generalize s2 - s0 = z at *
    have par : ∀ k : V3 ℝ, lenSq (cross x y) * dot c k = dot (cross x y) c * dot (cross x y) k := by
      intro k
      have : lenSq (cross x y) * dot c k = dot (cross x y) c * dot (cross x y) k + dot c x * (lenSq y * dot x k - dot x y * dot y k) +
          dot c y * (lenSq x * dot y k - dot x y * dot x k) := by
        simp only [dot, lenSq, cross]; ring
      rw [this, p1, p3]; ring
    have hnn : dot (cross x y) z < 0 := by rw [hn2]; linarith
    have k1 := par z
    have hL := lenSq_nonneg (cross x y)
    have k2 : 0 ≤ dot (cross x y) c * dot (cross x y) z := by rw [← k1]; exact mul_nonneg hL p2
    have k3 : dot (cross x y) c ≤ 0 := by
      by_contra hcon
      have := mul_neg_of_pos_of_neg (not_le.1 hcon) hnn
      linarith
    rcases k3.lt_or_eq with h | h
    · exact h
    · exfalso
      have k4 := par c
      rw [h, zero_mul] at k4
      rcases mul_eq_zero.1 k4 with h5 | h5
      · have := lenSq_eq_zero h5
        rw [this] at hnn
        simp [dot] at hnn
      · exact absurd h5 hq.ne'
  · have e : edgeTest s1 s0 s3 = l0 * lenSq (cross (s1 - s0) (s3 - s0)) + (dot c (s3 - s0) - dot c (s1 - s0)) * (-dot (s1 - s0) (s3 - s1)) + lenSq (s3 - s1) * dot c (s1 - s0) := by
      rw [lenSq_cross, hc, hl3]
      simp only [edgeTest, dot, lenSq, smul_x, smul_y, smul_z, add_x, add_y, add_z, sub_x, sub_y, sub_z]; ring
    rw [e, p1, p3]
    have := mul_nonneg hl0 (lenSq_nonneg (cross (s1 - s0) (s3 - s0)))
    linarith
  · have e : edgeTest s0 s1 s3 = l1 * lenSq (cross (s1 - s0) (s3 - s0)) + dot c (s3 - s0) * dot (s1 - s0) (s3 - s0) - lenSq (s3 - s0) * dot c (s1 - s0) := by
      rw [lenSq_cross, hc, hl3]
      simp only [edgeTest, dot, lenSq, smul_x, smul_y, smul_z, add_x, add_y, add_z, sub_x, sub_y, sub_z]; ring
    rw [e, p1, p3]
    have := mul_nonneg hl1 (lenSq_nonneg (cross (s1 - s0) (s3 - s0)))
    linarith

theorem Inv3.pos {s0 s1 s2 d : V3 ℝ} (h : Inv3 s0 s1 s2 d) : 0 < lenSq d := by
  rcases (lenSq_nonneg d).lt_or_eq with h' | h'
  · exact h'
  · have := lenSq_eq_zero h'.symm
    have hk := h.2.1
    rw [this] at hk; simp [dot] at hk

theorem Inv3.det {s0 s1 s2 s3 d : V3 ℝ} (h : Inv3 s0 s1 s2 d) (h3 : 0 ≤ dot d s3) : 0 < dot (cross (s2 - s0) (s2 - s1)) (s3 - s0) := by
  rw [← h.1]
  have : dot d (s3 - s0) = dot d s3 - dot d s0 := by simp only [dot, sub_x, sub_y, sub_z]; ring
  rw [this]; linarith [h.2.1]

/-- When none of the tests for four points passes, the origin is in the tetrahedron. -/
theorem tetra_inside {s0 s1 s2 s3 d : V3 ℝ} (h : Inv3 s0 s1 s2 d) (h3 : 0 ≤ dot d s3)
    (n03 : ¬ (edgeTest s0 s1 s3 ≤ 0 ∧ edgeTest s0 s2 s3 ≤ 0)) (n13 : ¬ (edgeTest s1 s0 s3 ≤ 0 ∧ edgeTest s1 s2 s3 ≤ 0))
    (n23 : ¬ (edgeTest s2 s0 s3 ≤ 0 ∧ edgeTest s2 s1 s3 ≤ 0))
    (n013 : ¬ (dot s3 (cross (s1 - s0) (s3 - s0)) < 0 ∧ 0 ≤ edgeTest s1 s0 s3 ∧ 0 ≤ edgeTest s0 s1 s3))
    (n023 : ¬ (dot s3 (cross (s0 - s2) (s3 - s2)) < 0 ∧ 0 ≤ edgeTest s0 s2 s3 ∧ 0 ≤ edgeTest s2 s0 s3))
    (n123 : ¬ (dot s3 (cross (s2 - s1) (s3 - s1)) < 0 ∧ 0 ≤ edgeTest s2 s1 s3 ∧ 0 ≤ edgeTest s1 s2 s3)) :
    ∃ l0 l1 l2 l3 : ℝ, 0 ≤ l0 ∧ 0 ≤ l1 ∧ 0 ≤ l2 ∧ 0 ≤ l3 ∧ l0 + l1 + l2 + l3 = 1 ∧ l0 • s0 + l1 • s1 + l2 • s2 + l3 • s3 = 0 := by
  obtain ⟨l0, l1, l2, l3, p0, p1, p2, p3, hs, c, hc, k0, k1, k2, k3⟩ := closest_mix s0 s1 s2 s3
  refine ⟨l0, l1, l2, l3, p0, p1, p2, p3, hs, ?_⟩
  rw [← hc]
  by_contra hne
  have hq : 0 < lenSq c := by
    rcases (lenSq_nonneg c).lt_or_eq with h | h
    · exact h
    · exact absurd (lenSq_eq_zero h.symm) hne
  -- complementary slackness
  have hsum : l0 * (dot c s0 - lenSq c) + l1 * (dot c s1 - lenSq c) + l2 * (dot c s2 - lenSq c) + l3 * (dot c s3 - lenSq c) = 0 := by
    have e1 : l0 * dot c s0 + l1 * dot c s1 + l2 * dot c s2 + l3 * dot c s3 = dot c (l0 • s0 + l1 • s1 + l2 • s2 + l3 • s3) := by
      simp only [dot, add_x, add_y, add_z, smul_x, smul_y, smul_z]; ring
    rw [← hc] at e1
    have e2 : dot c c = lenSq c := rfl
    linear_combination e1 + e2 - lenSq c * hs
  have m0 := mul_nonneg p0 (sub_nonneg.2 k0)
  have m1 := mul_nonneg p1 (sub_nonneg.2 k1)
  have m2 := mul_nonneg p2 (sub_nonneg.2 k2)
  have m3 := mul_nonneg p3 (sub_nonneg.2 k3)
  have z0 : l0 ≠ 0 → dot c s0 = lenSq c := fun hl => by
    have : l0 * (dot c s0 - lenSq c) = 0 := by linarith
    linarith [(mul_eq_zero.1 this).resolve_left hl]
  have z1 : l1 ≠ 0 → dot c s1 = lenSq c := fun hl => by
    have : l1 * (dot c s1 - lenSq c) = 0 := by linarith
    linarith [(mul_eq_zero.1 this).resolve_left hl]
  have z2 : l2 ≠ 0 → dot c s2 = lenSq c := fun hl => by
    have : l2 * (dot c s2 - lenSq c) = 0 := by linarith
    linarith [(mul_eq_zero.1 this).resolve_left hl]
  have z3 : l3 ≠ 0 → dot c s3 = lenSq c := fun hl => by
    have : l3 * (dot c s3 - lenSq c) = 0 := by linarith
    linarith [(mul_eq_zero.1 this).resolve_left hl]
  -- the foot of the origin on the old triangle
  have hd0 := h.pos
  have hdet := h.det h3
  obtain ⟨hd, hk, u, v, w, hu, hv, hw, huvw, hf⟩ := id h
  have hcf : lenSq c * lenSq d ≤ dot d s0 * dot c d := by
    have e1 : dot d s0 * dot c d = lenSq d * (u * dot c s0 + v * dot c s1 + w * dot c s2) := by
      have : dot c (dot d s0 • d) = dot d s0 * dot c d := by simp only [dot, smul_x, smul_y, smul_z]; ring
      rw [← this, ← hf]
      simp only [dot, add_x, add_y, add_z, smul_x, smul_y, smul_z]; ring
    have e2 : lenSq c ≤ u * dot c s0 + v * dot c s1 + w * dot c s2 := by
      have := mul_le_mul_of_nonneg_left k0 hu
      have := mul_le_mul_of_nonneg_left k1 hv
      have := mul_le_mul_of_nonneg_left k2 hw
      have : u * lenSq c + v * lenSq c + w * lenSq c = lenSq c := by linear_combination lenSq c * huvw
      linarith
    rw [e1]
    have := mul_le_mul_of_nonneg_left e2 hd0.le
    linarith
  have d1 : dot d s1 = dot d s0 := by rw [hd]; simp only [cross, dot, sub_x, sub_y, sub_z]; ring
  have d2 : dot d s2 = dot d s0 := by rw [hd]; simp only [cross, dot, sub_x, sub_y, sub_z]; ring
  have dcc : dot c d = (l0 + l1 + l2) * dot d s0 + l3 * dot d s3 := by
    have : dot c d = l0 * dot d s0 + l1 * dot d s1 + l2 * dot d s2 + l3 * dot d s3 := by
      rw [hc]; simp only [dot, add_x, add_y, add_z, smul_x, smul_y, smul_z]; ring
    rw [this, d1, d2]; ring
  by_cases h30 : l3 = 0
  · -- in the old triangle: then it is the foot, and the new point is beyond it
    have e1 : dot c d = dot d s0 := by rw [dcc, h30]; rw [h30] at hs; linear_combination dot d s0 * hs
    rw [e1] at hcf
    have e2 : lenSq (lenSq d • c - dot d s0 • d) ≤ 0 := by
      have : lenSq (lenSq d • c - dot d s0 • d) = lenSq d * (lenSq d * lenSq c - 2 * dot d s0 * dot c d + dot d s0 * dot d s0) := by
        simp only [lenSq, dot, sub_x, sub_y, sub_z, smul_x, smul_y, smul_z]; ring
      rw [this, e1]
      refine mul_nonpos_of_nonneg_of_nonpos hd0.le ?_
      linarith
    have e3 := lenSq_eq_zero (le_antisymm e2 (lenSq_nonneg _))
    have e4 : lenSq d * dot c s3 = dot d s0 * dot d s3 := by
      have : dot (lenSq d • c - dot d s0 • d) s3 = lenSq d * dot c s3 - dot d s0 * dot d s3 := by
        simp only [dot, sub_x, sub_y, sub_z, smul_x, smul_y, smul_z]; ring
      rw [e3] at this
      have h0 : dot (0 : V3 ℝ) s3 = 0 := by simp [dot]
      linarith
    have e5 : dot d s0 * dot d s3 ≤ 0 := mul_nonpos_of_nonpos_of_nonneg hk.le h3
    have := mul_pos hd0 (hq.trans_le k3)
    linarith
  have y3 := z3 h30
  by_cases h00 : l0 = 0
  · by_cases h10 : l1 = 0
    · by_cases h20 : l2 = 0
      · -- the new point itself
        have hl : l3 = 1 := by rw [h00, h10, h20] at hs; linarith
        rw [h00, h10, h20, hl] at dcc
        have e1 : dot d s0 * dot c d ≤ 0 := by
          rw [dcc]
          have := mul_nonpos_of_nonpos_of_nonneg hk.le h3
          linarith
        have := mul_pos hq hd0
        linarith
      · refine n23 ⟨edge_pass (lk := l2) (l3 := l3) ?_ ?_ (z2 h20) y3 k0, edge_pass (lk := l2) (l3 := l3) ?_ ?_ (z2 h20) y3 k1⟩
        · rw [h00, h10] at hs; linarith
        · rw [hc, h00, h10]; ext <;> simp
        · rw [h00, h10] at hs; linarith
        · rw [hc, h00, h10]; ext <;> simp
    · by_cases h20 : l2 = 0
      · refine n13 ⟨edge_pass (lk := l1) (l3 := l3) ?_ ?_ (z1 h10) y3 k0, edge_pass (lk := l1) (l3 := l3) ?_ ?_ (z1 h10) y3 k2⟩
        · rw [h00, h20] at hs; linarith
        · rw [hc, h00, h20]; ext <;> simp
        · rw [h00, h20] at hs; linarith
        · rw [hc, h00, h20]; ext <;> simp
      · refine n123 (face_pass (l0 := l1) (l1 := l2) (l3 := l3) ?_ ?_ p1 p2 hq (z1 h10) (z2 h20) y3 k0 (h.rot.det h3))
        · rw [h00] at hs; linarith
        · rw [hc, h00]; ext <;> simp
  · by_cases h10 : l1 = 0
    · by_cases h20 : l2 = 0
      · refine n03 ⟨edge_pass (lk := l0) (l3 := l3) ?_ ?_ (z0 h00) y3 k1, edge_pass (lk := l0) (l3 := l3) ?_ ?_ (z0 h00) y3 k2⟩
        · rw [h10, h20] at hs; linarith
        · rw [hc, h10, h20]; ext <;> simp
        · rw [h10, h20] at hs; linarith
        · rw [hc, h10, h20]; ext <;> simp
      · refine n023 (face_pass (l0 := l2) (l1 := l0) (l3 := l3) ?_ ?_ p2 p0 hq (z2 h20) (z0 h00) y3 k1 (h.rot.rot.det h3))
        · rw [h10] at hs; linarith
        · rw [hc, h10]; ext <;> simp <;> ring
    · by_cases h20 : l2 = 0
      · refine n013 (face_pass (l0 := l0) (l1 := l1) (l3 := l3) ?_ ?_ p0 p1 hq (z0 h00) (z1 h10) y3 k2 hdet)
        · rw [h20] at hs; linarith
        · rw [hc, h20]; ext <;> simp
      · -- all four: the closest point is perpendicular to three independent directions
        have q1 : dot c (s1 - s0) = 0 := by
          have : dot c (s1 - s0) = dot c s1 - dot c s0 := by simp only [dot, sub_x, sub_y, sub_z]; ring
          rw [this, z0 h00, z1 h10]; ring
        have q2 : dot c (s2 - s0) = 0 := by
          have : dot c (s2 - s0) = dot c s2 - dot c s0 := by simp only [dot, sub_x, sub_y, sub_z]; ring
          rw [this, z0 h00, z2 h20]; ring
        have q3 : dot c (s3 - s0) = 0 := by
          have : dot c (s3 - s0) = dot c s3 - dot c s0 := by simp only [dot, sub_x, sub_y, sub_z]; ring
          rw [this, z0 h00, y3]; ring
        have e0 : cross (s2 - s0) (s2 - s1) = cross (s1 - s0) (s2 - s0) := by
          ext <;> simp only [cross, sub_x, sub_y, sub_z] <;> ring
        rw [e0] at hdet
        generalize s1 - s0 = x at *
        generalize s2 - s0 = y at *
        generalize s3 - s0 = z at *
        have e1 : dot (cross x y) z * lenSq c = dot c x * dot (cross y z) c + dot c y * dot (cross z x) c + dot c z * dot (cross x y) c := by
          simp only [dot, cross, lenSq]; ring
        rw [q1, q2, q3] at e1
        have := mul_pos hdet hq
        linarith

/-- The state of the loop before a new point is added. -/
def Good (K : Set (V3 ℝ)) (s : List (V3 ℝ)) (d : V3 ℝ) : Prop :=
  (∀ x ∈ s, x ∈ K) ∧
  ((∃ s0, s = [s0] ∧ d = -s0 ∧ 0 < lenSq s0) ∨ (∃ s0 s1, s = [s0, s1] ∧ Inv2 s0 s1 d) ∨ ∃ s0 s1 s2, s = [s0, s1, s2] ∧ Inv3 s0 s1 s2 d)

theorem mem2 {K : Set (V3 ℝ)} (hK : Convex3 K) {p q : V3 ℝ} (hp : p ∈ K) (hq : q ∈ K) {a b : ℝ} (ha : 0 ≤ a) (hb : 0 ≤ b) (h : a + b = 1) :
    a • p + b • q ∈ K := hK p hp q hq a b ha hb h

theorem mem3 {K : Set (V3 ℝ)} (hK : Convex3 K) {p q r : V3 ℝ} (hp : p ∈ K) (hq : q ∈ K) (hr : r ∈ K) {a b c : ℝ} (ha : 0 ≤ a) (hb : 0 ≤ b)
    (hc : 0 ≤ c) (h : a + b + c = 1) : a • p + b • q + c • r ∈ K := by
  by_cases h0 : a + b = 0
  · have ea : a = 0 := by linarith
    have eb : b = 0 := by linarith
    have ec : c = 1 := by linarith
    have : a • p + b • q + c • r = r := by rw [ea, eb, ec]; ext <;> simp
    rw [this]; exact hr
  · have hpos : 0 < a + b := lt_of_le_of_ne (by linarith) (Ne.symm h0)
    have hm := mem2 hK (mem2 hK hp hq (a := a / (a + b)) (b := b / (a + b)) (by positivity) (by positivity) (by field_simp)) hr
      (a := a + b) (b := c) hpos.le hc h
    have e : (a + b) • ((a / (a + b)) • p + (b / (a + b)) • q) + c • r = a • p + b • q + c • r := by
      ext <;> simp only [add_x, add_y, add_z, smul_x, smul_y, smul_z] <;> field_simp
    rw [← e]; exact hm

theorem mem4 {K : Set (V3 ℝ)} (hK : Convex3 K) {p q r t : V3 ℝ} (hp : p ∈ K) (hq : q ∈ K) (hr : r ∈ K) (ht : t ∈ K) {a b c d : ℝ}
    (ha : 0 ≤ a) (hb : 0 ≤ b) (hc : 0 ≤ c) (hd : 0 ≤ d) (h : a + b + c + d = 1) : a • p + b • q + c • r + d • t ∈ K := by
  by_cases h0 : a + b + c = 0
  · have ea : a = 0 := by linarith
    have eb : b = 0 := by linarith
    have ec : c = 0 := by linarith
    have ed : d = 1 := by linarith
    have : a • p + b • q + c • r + d • t = t := by rw [ea, eb, ec, ed]; ext <;> simp
    rw [this]; exact ht
  · have hpos : 0 < a + b + c := lt_of_le_of_ne (by linarith) (Ne.symm h0)
    have hm := mem2 hK (mem3 hK hp hq hr (a := a / (a + b + c)) (b := b / (a + b + c)) (c := c / (a + b + c)) (by positivity) (by positivity)
      (by positivity) (by field_simp)) ht (a := a + b + c) (b := d) hpos.le hd h
    have e : (a + b + c) • ((a / (a + b + c)) • p + (b / (a + b + c)) • q + (c / (a + b + c)) • r) + d • t = a • p + b • q + c • r + d • t := by
      ext <;> simp only [add_x, add_y, add_z, smul_x, smul_y, smul_z] <;> field_simp
    rw [← e]; exact hm

/-- What a step leads to. -/
def Next (K : Set (V3 ℝ)) (r : List (V3 ℝ) × V3 ℝ) : Prop :=
  (r.1 ≠ [] ∧ Good K r.1 r.2) ∨ (r.1 = [] ∧ ∃ c ∈ K, lenSq c ^ 3 ≤ 1 / 10000000)

theorem step1 {K : Set (V3 ℝ)} (hK : Convex3 K) {s0 s1 : V3 ℝ} (m0 : s0 ∈ K) (m1 : s1 ∈ K) (hs : 0 < lenSq s0)
    (hd : 0 ≤ dot (-s0) s1) : Next K (update2 s0 s1) := by
  have e1 : dot (-s0) s1 = -dot s0 s1 := by simp only [dot, neg_x, neg_y, neg_z]; ring
  rw [e1] at hd
  have a0 : dot s0 (s1 - s0) ≤ 0 := by
    have : dot s0 (s1 - s0) = dot s0 s1 - lenSq s0 := by simp only [lenSq, dot, sub_x, sub_y, sub_z]; ring
    rw [this]; linarith
  have a1 : 0 ≤ dot s1 (s1 - s0) := by
    have : dot s1 (s1 - s0) = lenSq s1 - dot s0 s1 := by simp only [lenSq, dot, sub_x, sub_y, sub_z]; ring
    rw [this]; linarith [lenSq_nonneg s1]
  have a2 : lenSq s0 ≤ lenSq (s1 - s0) := by
    have : lenSq (s1 - s0) = lenSq s0 + lenSq s1 - 2 * dot s0 s1 := by simp only [lenSq, dot, sub_x, sub_y, sub_z]; ring
    rw [this]; linarith [lenSq_nonneg s1]
  obtain ⟨a, b, ha, hb, hab, q1, q2⟩ := seg_foot a0 a1 (hs.trans_le a2)
  have mc : b • s0 + a • s1 ∈ K := mem2 hK m0 m1 hb ha (by linarith)
  unfold Next update2
  simp only
  split_ifs with ht
  · refine Or.inl ⟨by simp, ⟨by simp [m0, m1], Or.inr (Or.inl ⟨s0, s1, rfl, a0, a1, rfl, ?_⟩)⟩⟩
    rcases (lenSq_nonneg (cross (s1 - s0) s1)).lt_or_eq with h | h
    · exact h
    · rw [lenSq_eq_zero h.symm] at ht
      have : lenSq (cross (s1 - s0) (0 : V3 ℝ)) = 0 := by simp [lenSq, dot, cross]
      rw [this] at ht; norm_num at ht
  · refine Or.inr ⟨rfl, _, mc, ?_⟩
    have e2 : lenSq (cross (s1 - s0) (cross (s1 - s0) s1)) = lenSq (s1 - s0) * lenSq (cross (s1 - s0) s1) := by
      simp only [lenSq, dot, cross]; ring
    rw [e2, ← q2] at ht
    push Not at ht
    -- the foot is no longer than the first point
    have e3 : lenSq (b • s0 + a • s1) ≤ lenSq s0 := by
      have h1 : dot (b • s0 + a • s1) s0 = lenSq (b • s0 + a • s1) := by
        have : lenSq (b • s0 + a • s1) = dot (b • s0 + a • s1) s0 + a * dot (b • s0 + a • s1) (s1 - s0) := by
          have eb : b = 1 - a := by linarith
          rw [eb]; simp only [lenSq, dot, sub_x, sub_y, sub_z, add_x, add_y, add_z, smul_x, smul_y, smul_z]; ring
        rw [this, q1]; ring
      have h2 := lenSq_nonneg (s0 - (b • s0 + a • s1))
      have h3 : lenSq (s0 - (b • s0 + a • s1)) = lenSq s0 - 2 * dot (b • s0 + a • s1) s0 + lenSq (b • s0 + a • s1) := by
        simp only [lenSq, dot, sub_x, sub_y, sub_z, add_x, add_y, add_z, smul_x, smul_y, smul_z]; ring
      rw [h3, h1] at h2; linarith
    have hn := lenSq_nonneg (b • s0 + a • s1)
    have h4 : lenSq (b • s0 + a • s1) ≤ lenSq (s1 - s0) := e3.trans a2
    have h5 : lenSq (b • s0 + a • s1) * lenSq (b • s0 + a • s1) ≤ lenSq (s1 - s0) * lenSq (s1 - s0) := mul_self_le_mul_self hn h4
    have h6 := mul_le_mul_of_nonneg_left h5 hn
    calc lenSq (b • s0 + a • s1) ^ 3 = lenSq (b • s0 + a • s1) * (lenSq (b • s0 + a • s1) * lenSq (b • s0 + a • s1)) := by ring
      _ ≤ _ := h6
      _ = lenSq (s1 - s0) * (lenSq (b • s0 + a • s1) * lenSq (s1 - s0)) := by ring
      _ ≤ _ := ht

theorem step2 {K : Set (V3 ℝ)} (hK : Convex3 K) {s0 s1 s2 d : V3 ℝ} (m0 : s0 ∈ K) (m1 : s1 ∈ K) (m2 : s2 ∈ K)
    (h : Inv2 s0 s1 d) (h2 : 0 ≤ dot d s2) : Next K (update3 s0 s1 s2) := by
  unfold Next update3
  simp only
  split_ifs with c1 c2 c3 c4
  · exact Or.inl ⟨by simp, by simp [m1, m2], Or.inr (Or.inl ⟨_, _, rfl, tri_edge h h2 c1⟩)⟩
  · exact Or.inl ⟨by simp, by simp [m0, m2], Or.inr (Or.inl ⟨_, _, rfl, tri_edge' h h2 c2⟩)⟩
  · obtain ⟨hn, u, v, w, hu, hv, hw, hs, hf⟩ := tri_in h h2 (not_lt.1 c1) (not_lt.1 c2)
    have e : dot (cross (s2 - s0) (s2 - s1)) s2 = dot (cross (s2 - s0) (s2 - s1)) s0 := by
      simp only [cross, dot, sub_x, sub_y, sub_z]; ring
    refine Or.inl ⟨by simp, by simp [m0, m1, m2], Or.inr (Or.inr ⟨_, _, _, rfl, rfl, ?_, u, v, w, hu, hv, hw, hs, hf⟩)⟩
    rw [e] at c3 c4
    rcases c4.lt_or_eq with h | h
    · exact h
    · rw [h] at c3
      have : (1 : ℝ) / 1000000 * lenSq (cross (s2 - s0) (s2 - s1)) > 0 := by positivity
      linarith
  · obtain ⟨hn, u, v, w, hu, hv, hw, hs, hf⟩ := tri_in h h2 (not_lt.1 c1) (not_lt.1 c2)
    have e : dot (cross (s2 - s0) (s2 - s1)) s2 = dot (cross (s2 - s0) (s2 - s1)) s0 := by
      simp only [cross, dot, sub_x, sub_y, sub_z]; ring
    have e' : dot (cross (s2 - s0) (s2 - s1)) s1 = dot (cross (s2 - s0) (s2 - s1)) s0 := by
      simp only [cross, dot, sub_x, sub_y, sub_z]; ring
    have en : -cross (s2 - s0) (s2 - s1) = cross (s2 - s1) (s2 - s0) := by
      ext <;> simp only [cross, sub_x, sub_y, sub_z, neg_x, neg_y, neg_z] <;> ring
    have ed : ∀ x y : V3 ℝ, dot (-x) y = -dot x y := fun x y => by simp only [dot, neg_x, neg_y, neg_z]; ring
    have el : ∀ x : V3 ℝ, lenSq (-x) = lenSq x := fun x => by simp only [lenSq, dot, neg_x, neg_y, neg_z]; ring
    refine Or.inl ⟨by simp, by simp [m0, m1, m2], Or.inr (Or.inr ⟨_, _, _, rfl, en, ?_, v, u, w, hv, hu, hw, by linarith, ?_⟩)⟩
    · rw [ed, e', ← e]; linarith
    · rw [ed, el, e', show v • s1 + u • s0 + w • s2 = u • s0 + v • s1 + w • s2 by
        ext <;> simp only [add_x, add_y, add_z, smul_x, smul_y, smul_z] <;> ring, hf]
      ext <;> simp only [smul_x, smul_y, smul_z, neg_x, neg_y, neg_z] <;> ring
  · obtain ⟨hn, u, v, w, hu, hv, hw, hs, hf⟩ := tri_in h h2 (not_lt.1 c1) (not_lt.1 c2)
    have e : dot (cross (s2 - s0) (s2 - s1)) s2 = dot (cross (s2 - s0) (s2 - s1)) s0 := by
      simp only [cross, dot, sub_x, sub_y, sub_z]; ring
    refine Or.inr ⟨rfl, _, mem3 hK m0 m1 m2 hu hv hw hs, ?_⟩
    rw [e] at c3
    generalize cross (s2 - s0) (s2 - s1) = n at *
    generalize u • s0 + v • s1 + w • s2 = c at *
    have e1 : lenSq n * (lenSq n * lenSq c) = lenSq n * (dot n s0 * dot n s0) := by
      have h1 : lenSq (lenSq n • c) = lenSq n * (lenSq n * lenSq c) := by simp only [lenSq, dot, smul_x, smul_y, smul_z]; ring
      rw [← h1, hf]; simp only [lenSq, dot, smul_x, smul_y, smul_z]; ring
    have e2 := mul_left_cancel₀ hn.ne' e1
    rw [← e2] at c3
    push Not at c3
    have e3 : lenSq c ≤ 1 / 1000000 := by
      by_contra hc
      push Not at hc
      have := mul_lt_mul_of_pos_left hc hn
      linarith
    have hn' := lenSq_nonneg c
    calc lenSq c ^ 3 ≤ (1 / 1000000) ^ 3 := pow_le_pow_left₀ hn' e3 3
      _ ≤ _ := by norm_num

theorem edge_next {K : Set (V3 ℝ)} (hK : Convex3 K) (h0 : (0 : V3 ℝ) ∉ K) {s0 s1 s2 s3 d : V3 ℝ} (m0 : s0 ∈ K) (m3 : s3 ∈ K)
    (h : Inv3 s0 s1 s2 d) (h3 : 0 ≤ dot d s3) (t1 : edgeTest s0 s1 s3 ≤ 0) (t2 : edgeTest s0 s2 s3 ≤ 0) :
    Inv2 s0 s3 (cross (s3 - s0) (cross (s3 - s0) s3)) := by
  obtain ⟨a0, a1, a2⟩ := edge_case h h3 t1 t2
  refine ⟨a0, a1, rfl, ?_⟩
  rcases (lenSq_nonneg (cross (s3 - s0) s3)).lt_or_eq with hc | hc
  · exact hc
  · obtain ⟨a, b, ha, hb, hab, q1, q2⟩ := seg_foot a0 a1 a2
    rw [← hc] at q2
    have := lenSq_eq_zero ((mul_eq_zero.1 q2).resolve_right a2.ne')
    exact absurd (this ▸ mem2 hK m0 m3 hb ha (by linarith)) h0

theorem step3 {K : Set (V3 ℝ)} (hK : Convex3 K) (h0 : (0 : V3 ℝ) ∉ K) {s0 s1 s2 s3 d : V3 ℝ} (m0 : s0 ∈ K) (m1 : s1 ∈ K) (m2 : s2 ∈ K)
    (m3 : s3 ∈ K) (h : Inv3 s0 s1 s2 d) (h3 : 0 ≤ dot d s3) : Next K (update4 s0 s1 s2 s3) := by
  have e031 : dot (cross (cross (s1 - s0) (s3 - s0)) (s3 - s0)) s3 = edgeTest s0 s1 s3 := by
    simp only [edgeTest, lenSq, cross, dot, sub_x, sub_y, sub_z]; ring
  have e032 : dot (cross (s3 - s0) (cross (s3 - s0) (s2 - s0))) s3 = edgeTest s0 s2 s3 := by
    simp only [edgeTest, lenSq, cross, dot, sub_x, sub_y, sub_z]; ring
  have e130 : dot (cross (s3 - s1) (cross (s1 - s0) (s3 - s0))) s3 = edgeTest s1 s0 s3 := by
    simp only [edgeTest, lenSq, cross, dot, sub_x, sub_y, sub_z]; ring
  have e132 : dot (cross (cross (s2 - s1) (s3 - s1)) (s3 - s1)) s3 = edgeTest s1 s2 s3 := by
    simp only [edgeTest, lenSq, cross, dot, sub_x, sub_y, sub_z]; ring
  have e230 : dot (cross (cross (s3 - s0) (s2 - s0)) (s3 - s2)) s3 = edgeTest s2 s0 s3 := by
    simp only [edgeTest, lenSq, cross, dot, sub_x, sub_y, sub_z]; ring
  have e231 : dot (cross (s3 - s2) (cross (s2 - s1) (s3 - s1))) s3 = edgeTest s2 s1 s3 := by
    simp only [edgeTest, lenSq, cross, dot, sub_x, sub_y, sub_z]; ring
  have f0 : ∀ x y z : V3 ℝ, dot y (cross (z - y) (cross (z - x) (z - y))) = edgeTest y x z := by
    intro x y z; simp only [edgeTest, lenSq, cross, dot, sub_x, sub_y, sub_z]; ring
  have f1 : ∀ x y z : V3 ℝ, dot x (cross (cross (z - x) (z - y)) (z - x)) = edgeTest x y z := by
    intro x y z; simp only [edgeTest, lenSq, cross, dot, sub_x, sub_y, sub_z]; ring
  have n023 : cross (s3 - s0) (s2 - s0) = cross (s0 - s2) (s3 - s2) := by
    ext <;> simp only [cross, sub_x, sub_y, sub_z] <;> ring
  unfold Next update4
  simp only [e031, e032, e130, e132, e230, e231]
  split_ifs with c1 c2 c3 c4 c5 c6
  · exact Or.inl ⟨by simp, by simp [m0, m3], Or.inr (Or.inl ⟨_, _, rfl, edge_next hK h0 m0 m3 h h3 c1.1 c1.2⟩)⟩
  · exact Or.inl ⟨by simp, by simp [m1, m3], Or.inr (Or.inl ⟨_, _, rfl, edge_next hK h0 m1 m3 h.rot h3 c2.2 c2.1⟩)⟩
  · exact Or.inl ⟨by simp, by simp [m2, m3], Or.inr (Or.inl ⟨_, _, rfl, edge_next hK h0 m2 m3 h.rot.rot h3 c3.1 c3.2⟩)⟩
  · exact Or.inl ⟨by simp, by simp [m0, m1, m3], Or.inr (Or.inr ⟨_, _, _, rfl,
      face_case h h3 c4.1 (by rw [f0]; exact c4.2.1) (by rw [f1]; exact c4.2.2)⟩)⟩
  · rw [n023] at c5 ⊢
    exact Or.inl ⟨by simp, by simp [m0, m2, m3], Or.inr (Or.inr ⟨_, _, _, rfl,
      face_case h.rot.rot h3 c5.1 (by rw [f0]; exact c5.2.2) (by rw [f1]; exact c5.2.1)⟩)⟩
  · exact Or.inl ⟨by simp, by simp [m1, m2, m3], Or.inr (Or.inr ⟨_, _, _, rfl,
      face_case h.rot h3 c6.1 (by rw [f0]; exact c6.2.2) (by rw [f1]; exact c6.2.1)⟩)⟩
  · rw [n023] at c5
    obtain ⟨l0, l1, l2, l3, p0, p1, p2, p3, hs, he⟩ := tetra_inside h h3 c1 c2 c3 c4 (fun h => c5 ⟨h.1, h.2.2, h.2.1⟩)
      (fun h => c6 ⟨h.1, h.2.2, h.2.1⟩)
    exact absurd (he ▸ mem4 hK m0 m1 m2 m3 p0 p1 p2 p3 hs) h0

/-- One step of the loop. -/
theorem step {K : Set (V3 ℝ)} (hK : Convex3 K) (h0 : (0 : V3 ℝ) ∉ K) {s : List (V3 ℝ)} {d x : V3 ℝ} (h : Good K s d) (hx : x ∈ K)
    (hd : 0 ≤ dot d x) : ∃ r, updateSimplex (s ++ [x]) = some r ∧ Next K r := by
  obtain ⟨hm, ⟨s0, rfl, rfl, hs⟩ | ⟨s0, s1, rfl, hi⟩ | ⟨s0, s1, s2, rfl, hi⟩⟩ := h
  · exact ⟨_, rfl, step1 hK (hm _ (by simp)) hx hs hd⟩
  · exact ⟨_, rfl, step2 hK (hm _ (by simp)) (hm _ (by simp)) hx hi hd⟩
  · exact ⟨_, rfl, step3 hK h0 (hm _ (by simp)) (hm _ (by simp)) (hm _ (by simp)) hx hi hd⟩

/-- The functions the code calls on an object are right for the set `A`: `AnyPointFast` is a point of it, and `ExtremePoint`
gives a farthest point of it with its distance along the direction. For the direction zero it may give NaN. -/
def Describes (a : Support ℝ) (A : Set (V3 ℝ)) : Prop :=
  a.any ∈ A ∧ (∀ d q v, a.ext d = some (q, v) → v = dot d q ∧ IsExtreme A d q) ∧ ∀ d, d ≠ 0 → (a.ext d).isSome

/-- The Minkowski difference. -/
def diff (A B : Set (V3 ℝ)) : Set (V3 ℝ) := {x | ∃ p ∈ A, ∃ q ∈ B, x = p - q}

theorem diff_convex {A B : Set (V3 ℝ)} (hA : Convex3 A) (hB : Convex3 B) : Convex3 (diff A B) := by
  rintro _ ⟨p, hp, q, hq, rfl⟩ _ ⟨p', hp', q', hq', rfl⟩ s t hs ht hst
  refine ⟨_, hA p hp p' hp' s t hs ht hst, _, hB q hq q' hq' s t hs ht hst, ?_⟩
  ext <;> simp only [add_x, add_y, add_z, sub_x, sub_y, sub_z, smul_x, smul_y, smul_z] <;> ring

theorem dot_neg_left' (d q : V3 ℝ) : dot (-d) q = -dot d q := by simp only [dot, neg_x, neg_y, neg_z]; ring

theorem apart_loop {a b : Support ℝ} {A B : Set (V3 ℝ)} (ha : Describes a A) (hb : Describes b B) :
    ∀ (k : ℕ) (s : List (V3 ℝ)) (d : V3 ℝ), loop a b k s d = some .apart → ∀ x ∈ A, x ∉ B := by
  intro k
  induction k with
  | zero => intro s d h; simp [loop] at h
  | succ k ih =>
    intro s d h
    rw [loop] at h
    split at h
    · rename_i pa ma pb mb e1 e2
      split_ifs at h with hc
      · obtain ⟨v1, -, x1⟩ := ha.2.1 d pa ma e1
        obtain ⟨v2, -, x2⟩ := hb.2.1 (-d) pb mb e2
        intro x hx hx'
        have h1 := x1 x hx
        have h2 := x2 x hx'
        rw [dot_neg_left', dot_neg_left'] at h2
        rw [v1, v2, dot_neg_left'] at hc
        linarith
      · split at h
        · simp at h
        · simp at h
        · exact ih _ _ h
    · simp at h

theorem Good.ne_zero {K : Set (V3 ℝ)} {s : List (V3 ℝ)} {d : V3 ℝ} (h : Good K s d) : d ≠ 0 := by
  obtain ⟨-, ⟨s0, rfl, rfl, hs⟩ | ⟨s0, s1, rfl, hi⟩ | ⟨s0, s1, s2, rfl, hi⟩⟩ := h
  · intro h
    have : s0 = 0 := by
      ext
      · have := congrArg V3.x h; simpa using this
      · have := congrArg V3.y h; simpa using this
      · have := congrArg V3.z h; simpa using this
    rw [this] at hs; simp [lenSq, dot] at hs
  · intro h
    obtain ⟨p, e, a, b, -, -, -, -, -, -, hp, he, hd⟩ := hi.coords
    rw [h] at hd
    have h1 := congrArg (fun v => dot v p) hd
    have h2 : dot (-lenSq e • p) p = -(lenSq e * lenSq p) := by simp only [lenSq, dot, smul_x, smul_y, smul_z]; ring
    have h3 : dot (0 : V3 ℝ) p = 0 := by simp [dot]
    simp only [h2, h3] at h1
    have := mul_pos he hp
    linarith
  · intro h
    have := hi.2.1
    rw [h] at this; simp [dot] at this

theorem meet_loop {a b : Support ℝ} {A B : Set (V3 ℝ)} (ha : Describes a A) (hb : Describes b B) (hA : Convex3 A) (hB : Convex3 B)
    (h0 : (0 : V3 ℝ) ∉ diff A B) : ∀ (k : ℕ) (s : List (V3 ℝ)) (d : V3 ℝ), Good (diff A B) s d → loop a b k s d = some .meet →
    ∃ c ∈ diff A B, lenSq c ^ 3 ≤ 1 / 10000000 := by
  intro k
  induction k with
  | zero => intro s d _ h; simp [loop] at h
  | succ k ih =>
    intro s d hg h
    have hd := hg.ne_zero
    have hd' : -d ≠ 0 := by
      intro h
      apply hd
      ext
      · have := congrArg V3.x h; simpa using this
      · have := congrArg V3.y h; simpa using this
      · have := congrArg V3.z h; simpa using this
    rw [loop] at h
    split at h
    · rename_i pa ma pb mb e1 e2
      by_cases hc : mb + ma < 0
      · rw [if_pos hc] at h; cases h
      rw [if_neg hc] at h
      obtain ⟨v1, m1, -⟩ := ha.2.1 d pa ma e1
      obtain ⟨v2, m2, -⟩ := hb.2.1 (-d) pb mb e2
      have hx : pa - pb ∈ diff A B := ⟨pa, m1, pb, m2, rfl⟩
      have hp : 0 ≤ dot d (pa - pb) := by
        have : dot d (pa - pb) = mb + ma := by rw [v1, v2, dot_neg_left']; simp only [dot, sub_x, sub_y, sub_z]; ring
        rw [this]; exact not_lt.1 hc
      obtain ⟨r, hr, hn⟩ := step (diff_convex hA hB) h0 hg hx hp
      rw [hr] at h
      split at h
      · simp at h
      · rename_i heq
        cases Option.some.inj heq
        rcases hn with hn | hn
        · exact absurd rfl hn.1
        · exact hn.2
      · rename_i heq
        cases Option.some.inj heq
        rcases hn with hn | hn
        · exact ih _ _ hn.2 h
        · simp at hn
    · rename_i hno
      obtain ⟨⟨q, v⟩, e1⟩ := Option.isSome_iff_exists.1 (ha.2.2 d hd)
      obtain ⟨⟨q', v'⟩, e2⟩ := Option.isSome_iff_exists.1 (hb.2.2 (-d) hd')
      exact absurd e2 (hno _ _ _ _ e1)

theorem safe_loop {α : Type*} [Field α] [LinearOrder α] (a b : Support α) : ∀ (k : ℕ) (s : List (V3 α)) (d : V3 α),
    1 ≤ s.length → s.length ≤ 3 → loop a b k s d ≠ none := by
  intro k
  induction k with
  | zero => intro s d _ _; simp [loop]
  | succ k ih =>
    intro s d h1 h3
    rw [loop]
    split
    · split_ifs
      · simp
      · have hu : ∀ x : V3 α, ∃ r, updateSimplex (s ++ [x]) = some r ∧ r.1.length ≤ 3 := by
          intro x
          rcases s with _ | ⟨s0, _ | ⟨s1, _ | ⟨s2, _ | ⟨s3, s⟩⟩⟩⟩
          · simp at h1
          · refine ⟨_, rfl, ?_⟩
            unfold update2; dsimp only; split_ifs <;> simp
          · refine ⟨_, rfl, ?_⟩
            unfold update3; dsimp only; split_ifs <;> simp
          · refine ⟨_, rfl, ?_⟩
            unfold update4; dsimp only; split_ifs <;> simp
          · simp only [List.length_cons] at h3; omega
        rename_i pa ma pb mb e1 e2 _
        obtain ⟨r, hr, hl⟩ := hu (pa - pb)
        rw [hr]
        split
        · rename_i heq; cases heq
        · simp
        · rename_i heq
          cases Option.some.inj heq
          exact ih _ _ (by simp) hl
    · simp

end MGL.GJK
