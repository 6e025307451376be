import Verif.Model.Quadratic

/-! Property C42: the quadratic solver. -/

namespace MGL

/-- The set of roots reported. -/
def QuadRoots.toSet : QuadRoots → Set ℝ
  | .zero => ∅
  | .one r => {r}
  | .two r s => {r, s}

private theorem four_a (a b c x : ℝ) :
    4 * a * (a * x ^ 2 + b * x + c) = (2 * a * x + b) ^ 2 - (b * b - 4 * a * c) := by ring

/-- Outside the tolerance band the reported roots are exactly the real roots, and when two are
reported they are different. -/
theorem C42_outside_band (a b c : ℝ) (ha : a ≠ 0)
    (h : b ^ 2 - 4 * a * c < -(1 / 10 ^ 6) ∨ 1 / 10 ^ 6 ≤ b ^ 2 - 4 * a * c) :
    (∀ x, x ∈ (solveQuadratic a b c).toSet ↔ a * x ^ 2 + b * x + c = 0) ∧
    (∀ r s, solveQuadratic a b c = .two r s → r ≠ s) := by
  have e : b * b - 4 * a * c = b ^ 2 - 4 * a * c := by ring
  unfold solveQuadratic
  simp only [e]
  norm_num at h ⊢
  have key : ∀ x, a * x ^ 2 + b * x + c = 0 ↔ (2 * a * x + b) ^ 2 = b ^ 2 - 4 * a * c := by
    intro x
    have := four_a a b c x
    rw [e] at this
    constructor
    · intro h0; rw [h0] at this; linarith
    · intro h0
      have : 4 * a * (a * x ^ 2 + b * x + c) = 0 := by rw [this]; linarith
      rcases mul_eq_zero.1 this with h1 | h1
      · exact absurd h1 (by simpa using ha)
      · exact h1
  rcases h with h | h
  · rw [if_pos h]
    refine ⟨fun x => ?_, fun r s hc => by cases hc⟩
    simp only [QuadRoots.toSet, Set.mem_empty_iff_false, false_iff]
    rw [key]
    intro hc
    nlinarith [sq_nonneg (2 * a * x + b)]
  · rw [if_neg (by linarith), if_neg (by linarith)]
    set q := b ^ 2 - 4 * a * c with hq
    have hq0 : 0 < q := by linarith
    have hs := Real.sq_sqrt hq0.le
    have hsp := Real.sqrt_pos.2 hq0
    refine ⟨fun x => ?_, ?_⟩
    · simp only [QuadRoots.toSet, Set.mem_insert_iff, Set.mem_singleton_iff]
      have hk : (2 * a * x + b) ^ 2 = q ↔ 2 * a * x + b = √q ∨ 2 * a * x + b = -√q := by
        conv_lhs => rw [← hs]
        exact sq_eq_sq_iff_eq_or_eq_neg
      rw [key, hk]
      constructor
      · rintro (rfl | rfl)
        · left; field_simp; ring
        · right; field_simp; ring
      · rintro (h1 | h1)
        · left; field_simp; linarith
        · right; field_simp; linarith
    · intro r s hc hrs
      simp only [QuadRoots.two.injEq] at hc
      obtain ⟨h1, h2⟩ := hc
      rw [← h1, ← h2] at hrs
      field_simp at hrs
      linarith

example := C42_outside_band 1 (-3) 2 (by norm_num) (by norm_num)

/-- Inside the band one value is reported, and the polynomial is close to zero there. -/
theorem C42_inside_band (a b c : ℝ) (ha : a ≠ 0)
    (h1 : -(1 / 10 ^ 6) ≤ b ^ 2 - 4 * a * c) (h2 : b ^ 2 - 4 * a * c < 1 / 10 ^ 6) :
    ∃ r, solveQuadratic a b c = .one r ∧ |a * r ^ 2 + b * r + c| ≤ 1 / (4 * 10 ^ 6 * |a|) := by
  have e : b * b - 4 * a * c = b ^ 2 - 4 * a * c := by ring
  refine ⟨-b * (1 / (2 * a)), ?_, ?_⟩
  · unfold solveQuadratic
    simp only [e]
    norm_num at h1 h2 ⊢
    rw [if_neg (by linarith), if_pos h2]
  · have : a * (-b * (1 / (2 * a))) ^ 2 + b * (-b * (1 / (2 * a))) + c =
        -(b ^ 2 - 4 * a * c) / (4 * a) := by field_simp; ring
    rw [this, abs_div, abs_neg, abs_mul]
    have h3 : |b ^ 2 - 4 * a * c| ≤ 1 / 10 ^ 6 := abs_le.2 ⟨h1, h2.le⟩
    have ha' := abs_pos.2 ha
    rw [div_le_div_iff₀ (by norm_num; exact ha) (by positivity)]
    norm_num at h3 ⊢
    nlinarith

example := C42_inside_band 1 2 1 (by norm_num) (by norm_num) (by norm_num)

/-- Inside the band the reported value need not be a root, and real roots may be missed: small
coefficients fall into the band whatever the shape of the parabola. -/
theorem C42_band_misses_roots :
    ∃ a b c x y r : ℝ, a * x ^ 2 + b * x + c = 0 ∧ a * y ^ 2 + b * y + c = 0 ∧ 1 ≤ |x - y| ∧
      solveQuadratic a b c = .one r ∧ a * r ^ 2 + b * r + c ≠ 0 := by
  -- (x^2 - x) / 10000
  refine ⟨1 / 10000, -(1 / 10000), 0, 0, 1, 1 / 2, by norm_num, by norm_num, by norm_num, ?_,
    by norm_num⟩
  unfold solveQuadratic
  norm_num

example : (1 : ℝ) / 10 ^ 6 ≤ (-3) ^ 2 - 4 * 1 * 2 := by norm_num
example : (0 : ℝ) ^ 2 - 4 * 1 * 1 < -(1 / 10 ^ 6) := by norm_num

end MGL
