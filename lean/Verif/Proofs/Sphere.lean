import Verif.Model.Sphere
import Verif.Proofs.SetDist
import Verif.Proofs.Scalar
import Mathlib.Tactic.Positivity
import Mathlib.Tactic.NormNum
import Mathlib.Tactic.LinearCombination

/-! Facts about balls. -/

namespace MGL
open V3

theorem mem_ball_iff {c p : V3 ℝ} {r : ℝ} (hr : 0 ≤ r) : p ∈ Spec.ball c r ↔ V3.dist p c ≤ r := (dist_le_iff hr).symm

theorem center_mem_ball {c : V3 ℝ} {r : ℝ} : c ∈ Spec.ball c r := by
  show distSq c c ≤ r * r
  rw [distSq_self]; exact mul_self_nonneg r

/-- A unit vector pointing from `c` to `o`. -/
theorem unit_toward (c o : V3 ℝ) : ∃ u : V3 ℝ, lenSq u = 1 ∧ o - c = V3.dist o c • u := by
  by_cases h : o = c
  · refine ⟨⟨1, 0, 0⟩, by norm_num [lenSq, dot], ?_⟩
    rw [h, dist_self]; ext <;> simp
  · have hd : V3.dist o c ≠ 0 := fun e => h (dist_eq_zero.1 e)
    refine ⟨(1 / V3.dist o c) • (o - c), ?_, ?_⟩
    · show dot _ _ = _
      rw [dot_smul, smul_dot]
      have : dot (o - c) (o - c) = V3.dist o c * V3.dist o c := (dist_mul_self o c).symm
      rw [this]; field_simp
    · ext <;> simp <;> field_simp

theorem len_unit {u : V3 ℝ} (h : lenSq u = 1) : V3.len u = 1 := by unfold V3.len; rw [h, Real.sqrt_one]

theorem dist_move (c u : V3 ℝ) (t : ℝ) (h : lenSq u = 1) : V3.dist (c + t • u) c = |t| := by
  rw [dist_eq_len, show c + t • u - c = t • u by ext <;> simp, len_smul, len_unit h, mul_one]

/-- A ball is inside another iff centre distance plus radius fits. -/
theorem ball_subset_ball {c o : V3 ℝ} {r R : ℝ} (hr : 0 ≤ r) (hR : 0 ≤ R) :
    Spec.ball o r ⊆ Spec.ball c R ↔ V3.dist c o + r ≤ R := by
  constructor
  · intro h
    obtain ⟨u, hu, e⟩ := unit_toward c o
    have h1 : o + r • u ∈ Spec.ball c R := h ((mem_ball_iff hr).2 (by rw [dist_move _ _ _ hu, abs_of_nonneg hr]))
    rw [mem_ball_iff hR, dist_eq_len, show o + r • u - c = (V3.dist o c + r) • u by
      rw [show o + r • u - c = (o - c) + r • u by ext <;> simp <;> ring, e]; ext <;> simp <;> ring,
      len_smul, len_unit hu, mul_one, abs_of_nonneg (add_nonneg (dist_nonneg _ _) hr)] at h1
    rwa [V3.dist_comm]
  · intro h x hx
    rw [mem_ball_iff hr] at hx
    rw [mem_ball_iff hR]
    have := dist_triangle x o c
    rw [V3.dist_comm c o] at h
    linarith

theorem setDist_ball_ball (c o : V3 ℝ) (r R : ℝ) (hr : 0 ≤ r) (hR : 0 ≤ R) :
    Spec.IsSetDist (Spec.ball c r) (Spec.ball o R) (max 0 (V3.dist c o - r - R)) := by
  have h0 : Spec.IsSetDist ({o} : Set (V3 ℝ)) {c} (V3.dist o c) :=
    ⟨by rintro _ rfl _ rfl; exact le_rfl, o, rfl, c, rfl, rfl⟩
  have h1 := setDist_thicken h0 hr
  rw [← ball_eq_thicken] at h1
  have h2 := setDist_thicken (setDist_symm h1) hR
  rw [← ball_eq_thicken] at h2
  rw [V3.dist_comm c o]
  convert h2 using 1
  rcases le_total (V3.dist o c - r) 0 with h | h
  · rw [max_eq_left h, max_eq_left (by linarith), max_eq_left (by linarith)]
  · rw [max_eq_right h]

end MGL
