import Verif.Proofs.Mat3

/-! C37: `float3x3::SolveAxb`. -/

namespace MGL
variable {α : Type*} [Field α] [LinearOrder α] [IsStrictOrderedRing α]

theorem equalAbs_zero_ne {a : α} (h : ¬ equalAbs a 0 = true) : a ≠ 0 := by
  intro h0; apply h; simp [equalAbs, absF_eq, h0]

theorem Mat3.solveTail_spec (r0 r1 r2 : Mat3.AugRow α) (x : V3 α) (h : Mat3.solveTail r0 r1 r2 = some x) :
    x.x + r0.v1 * x.y + r0.v2 * x.z = r0.b ∧ r1.v1 * x.y + r1.v2 * x.z = r1.b ∧
    r2.v1 * x.y + r2.v2 * x.z = r2.b ∧ r1.v1 * r2.v2 - r1.v2 * r2.v1 ≠ 0 := by
  unfold Mat3.solveTail at h
  simp only at h
  split_ifs at h with h1 h2
  have e1 := equalAbs_zero_ne h1
  have e2 := equalAbs_zero_ne h2
  simp only [Option.some.injEq] at h
  subst h
  have e3 : r1.v1 * r2.v2 - r1.v2 * r2.v1 ≠ 0 := by
    intro h0; apply e2; field_simp; linear_combination h0
  have e4 : r2.v2 - r2.v1 * (r1.v2 * (1 / r1.v1)) = (r1.v1 * r2.v2 - r1.v2 * r2.v1) / r1.v1 := by
    field_simp
  refine ⟨by ring, ?_, ?_, e3⟩
  · field_simp; ring
  · simp only
    rw [e4]
    generalize hq : r1.v1 * r2.v2 - r1.v2 * r2.v1 = q at *
    field_simp
    rw [← hq]; ring

theorem Mat3.elim_spec (A B C : Mat3.AugRow α) (x : V3 α) (hA : A.v0 ≠ 0)
    (h : Mat3.solveTail ⟨A.v0, A.v1 * (1 / A.v0), A.v2 * (1 / A.v0), A.b * (1 / A.v0)⟩
      ⟨B.v0, B.v1 - B.v0 * (A.v1 * (1 / A.v0)), B.v2 - B.v0 * (A.v2 * (1 / A.v0)), B.b - B.v0 * (A.b * (1 / A.v0))⟩
      ⟨C.v0, C.v1 - C.v0 * (A.v1 * (1 / A.v0)), C.v2 - C.v0 * (A.v2 * (1 / A.v0)), C.b - C.v0 * (A.b * (1 / A.v0))⟩
      = some x) :
    A.v0 * x.x + A.v1 * x.y + A.v2 * x.z = A.b ∧ B.v0 * x.x + B.v1 * x.y + B.v2 * x.z = B.b ∧
    C.v0 * x.x + C.v1 * x.y + C.v2 * x.z = C.b ∧
    A.v0 * (B.v1 * C.v2 - B.v2 * C.v1) - A.v1 * (B.v0 * C.v2 - B.v2 * C.v0) +
      A.v2 * (B.v0 * C.v1 - B.v1 * C.v0) ≠ 0 := by
  obtain ⟨a1, a2, a3, a4⟩ := Mat3.solveTail_spec _ _ _ _ h
  have hk : A.v0 * (1 / A.v0) = 1 := by field_simp
  simp only at a1 a2 a3 a4
  generalize 1 / A.v0 = k at *
  refine ⟨?_, ?_, ?_, ?_⟩
  · linear_combination A.v0 * a1 - (A.v1 * x.y + A.v2 * x.z - A.b) * hk
  · linear_combination a2 + B.v0 * a1
  · linear_combination a3 + C.v0 * a1
  · intro h0
    apply a4
    apply mul_left_cancel₀ hA
    linear_combination h0 + (A.v1 * (B.v2 * C.v0 - B.v0 * C.v2) + A.v2 * (B.v0 * C.v1 - B.v1 * C.v0)) * hk

/-- C37. When `SolveAxb(b, x)` returns true, `M * x = b`, and `M` is not singular so that `x` is the
only solution. -/
theorem C37_solveAxb (m : Mat3 α) (b x : V3 α) (h : Mat3.solveAxb m b = some x) :
    Mat3.mulVec m x = b ∧ Matrix.det m ≠ 0 ∧ ∀ y, Mat3.mulVec m y = b → y = x := by
  have main : Mat3.mulVec m x = b ∧ Matrix.det m ≠ 0 := by
    unfold Mat3.solveAxb Mat3.pivot1 at h
    rw [Matrix.det_fin_three]
    split_ifs at h with h1 h2
    all_goals
      simp only at h
      split_ifs at h with h3 h4
      all_goals
        obtain ⟨a1, a2, a3, a4⟩ := Mat3.elim_spec ⟨_, _, _, _⟩ ⟨_, _, _, _⟩ ⟨_, _, _, _⟩ x (equalAbs_zero_ne h3) h
        simp only at a1 a2 a3 a4
        refine ⟨?_, fun h0 => a4 (by first | linear_combination h0 | linear_combination -h0)⟩
        ext <;> simp only [Mat3.mulVec] <;> first | exact a1 | exact a2 | exact a3
  refine ⟨main.1, main.2, fun y hy => ?_⟩
  apply V3.toFun_inj
  have e := congrArg V3.toFun (hy.trans main.1.symm)
  rw [Mat3.mulVec_eq, Mat3.mulVec_eq] at e
  exact Matrix.mulVec_injective_of_isUnit ((Matrix.isUnit_iff_isUnit_det _).2 (isUnit_iff_ne_zero.2 main.2)) e

example : Mat3.solveAxb (!![0, 2, 0; 1, 0, 3; 0, 1, 4] : Mat3 ℚ) ⟨4, 10, 14⟩ = some ⟨1, 2, 3⟩ := by decide +kernel

theorem equalAbs_zero_iff {a : α} : equalAbs a 0 = true ↔ |a| < 1 / 10000 := by
  unfold equalAbs; rw [absF_eq, sub_zero, decide_eq_true_iff]

theorem Mat3.solveTail_isSome (r0 r1 r2 : Mat3.AugRow α) (hle : |r2.v1| ≤ |r1.v1|)
    (h : ∀ y z : α, 1 ≤ |y| ∨ 1 ≤ |z| → 1 / 10000 ≤ |r1.v1 * y + r1.v2 * z| ∨ 1 / 10000 ≤ |r2.v1 * y + r2.v2 * z|) :
    ∃ x, Mat3.solveTail r0 r1 r2 = some x := by
  have h1 : 1 / 10000 ≤ |r1.v1| := by
    have := h 1 0 (Or.inl (by simp))
    simp only [mul_one, mul_zero, add_zero] at this
    rcases this with h | h
    · exact h
    · exact h.trans hle
  have hne : r1.v1 ≠ 0 := by
    intro h0; rw [h0] at h1; norm_num at h1
  have h2 : 1 / 10000 ≤ |r2.v2 - r2.v1 * (r1.v2 * (1 / r1.v1))| := by
    have := h (-(r1.v2 * (1 / r1.v1))) 1 (Or.inr (by simp))
    have e : r1.v1 * -(r1.v2 * (1 / r1.v1)) + r1.v2 * 1 = 0 := by field_simp; ring
    rw [e] at this
    rcases this with h | h
    · norm_num at h
    · rw [show r2.v1 * -(r1.v2 * (1 / r1.v1)) + r2.v2 * 1 = r2.v2 - r2.v1 * (r1.v2 * (1 / r1.v1)) by ring] at h
      exact h
  unfold Mat3.solveTail
  rw [if_neg (by rw [equalAbs_zero_iff]; exact not_lt.2 h1)]
  simp only
  rw [if_neg (by rw [equalAbs_zero_iff]; exact not_lt.2 h2)]
  exact ⟨_, rfl⟩

/-- C37. `SolveAxb` succeeds on every matrix that does not shrink vectors by more than 1/10000, both lengths measured
by the largest coordinate. -/
theorem C37_solveAxb_success (m : Mat3 α) (b : V3 α)
    (hM : ∀ v : V3 α, 1 ≤ |v.x| ∨ 1 ≤ |v.y| ∨ 1 ≤ |v.z| → 1 / 10000 ≤ |(Mat3.mulVec m v).x| ∨
      1 / 10000 ≤ |(Mat3.mulVec m v).y| ∨ 1 / 10000 ≤ |(Mat3.mulVec m v).z|) :
    ∃ x, Mat3.solveAxb m b = some x := by
  have key : ∀ A B C : Mat3.AugRow α, |B.v0| ≤ |A.v0| → |C.v0| ≤ |A.v0| →
      (∀ x y z : α, 1 ≤ |x| ∨ 1 ≤ |y| ∨ 1 ≤ |z| → 1 / 10000 ≤ |A.v0 * x + A.v1 * y + A.v2 * z| ∨
        1 / 10000 ≤ |B.v0 * x + B.v1 * y + B.v2 * z| ∨ 1 / 10000 ≤ |C.v0 * x + C.v1 * y + C.v2 * z|) →
      ∃ x, (if equalAbs A.v0 0 then none
        else
          let denom := 1 / A.v0
          let r0 : Mat3.AugRow α := ⟨A.v0, A.v1 * denom, A.v2 * denom, A.b * denom⟩
          let r1 : Mat3.AugRow α := ⟨B.v0, B.v1 - B.v0 * r0.v1, B.v2 - B.v0 * r0.v2, B.b - B.v0 * r0.b⟩
          let r2 : Mat3.AugRow α := ⟨C.v0, C.v1 - C.v0 * r0.v1, C.v2 - C.v0 * r0.v2, C.b - C.v0 * r0.b⟩
          if absF r2.v1 > absF r1.v1 then Mat3.solveTail r0 r2 r1 else Mat3.solveTail r0 r1 r2) = some x := by
    intro A B C hB hC h
    have hA : 1 / 10000 ≤ |A.v0| := by
      have := h 1 0 0 (Or.inl (by simp))
      simp only [mul_one, mul_zero, add_zero] at this
      rcases this with h | h | h
      · exact h
      · exact h.trans hB
      · exact h.trans hC
    have hne : A.v0 ≠ 0 := by
      intro h0; rw [h0] at hA; norm_num at hA
    rw [if_neg (by rw [equalAbs_zero_iff]; exact not_lt.2 hA)]
    have red : ∀ y z : α, 1 ≤ |y| ∨ 1 ≤ |z| →
        1 / 10000 ≤ |(B.v1 - B.v0 * (A.v1 * (1 / A.v0))) * y + (B.v2 - B.v0 * (A.v2 * (1 / A.v0))) * z| ∨
        1 / 10000 ≤ |(C.v1 - C.v0 * (A.v1 * (1 / A.v0))) * y + (C.v2 - C.v0 * (A.v2 * (1 / A.v0))) * z| := by
      intro y z hyz
      have := h (-(A.v1 * (1 / A.v0) * y + A.v2 * (1 / A.v0) * z)) y z (Or.inr hyz)
      have e : A.v0 * -(A.v1 * (1 / A.v0) * y + A.v2 * (1 / A.v0) * z) + A.v1 * y + A.v2 * z = 0 := by field_simp; ring
      rw [e] at this
      rcases this with h | h | h
      · norm_num at h
      · left
        rw [show (B.v1 - B.v0 * (A.v1 * (1 / A.v0))) * y + (B.v2 - B.v0 * (A.v2 * (1 / A.v0))) * z =
          B.v0 * -(A.v1 * (1 / A.v0) * y + A.v2 * (1 / A.v0) * z) + B.v1 * y + B.v2 * z by ring]
        exact h
      · right
        rw [show (C.v1 - C.v0 * (A.v1 * (1 / A.v0))) * y + (C.v2 - C.v0 * (A.v2 * (1 / A.v0))) * z =
          C.v0 * -(A.v1 * (1 / A.v0) * y + A.v2 * (1 / A.v0) * z) + C.v1 * y + C.v2 * z by ring]
        exact h
    simp only [absF_eq]
    split_ifs with hp
    · exact Mat3.solveTail_isSome _ _ _ hp.le (fun y z hyz => (red y z hyz).symm)
    · exact Mat3.solveTail_isSome _ _ _ (not_lt.1 hp) red
  have hM' : ∀ x y z : α, 1 ≤ |x| ∨ 1 ≤ |y| ∨ 1 ≤ |z| → 1 / 10000 ≤ |m 0 0 * x + m 0 1 * y + m 0 2 * z| ∨
      1 / 10000 ≤ |m 1 0 * x + m 1 1 * y + m 1 2 * z| ∨ 1 / 10000 ≤ |m 2 0 * x + m 2 1 * y + m 2 2 * z| :=
    fun x y z h => hM ⟨x, y, z⟩ h
  unfold Mat3.solveAxb Mat3.pivot1
  simp only [absF_eq] at key ⊢
  by_cases h1 : |m 1 0| ≥ |m 0 0| ∧ |m 1 0| ≥ |m 2 0|
  · rw [if_pos h1]
    exact key ⟨m 1 0, m 1 1, m 1 2, b.y⟩ ⟨m 0 0, m 0 1, m 0 2, b.x⟩ ⟨m 2 0, m 2 1, m 2 2, b.z⟩ h1.1 h1.2
      (fun x y z h => by rcases hM' x y z h with h | h | h <;> tauto)
  by_cases h2 : |m 2 0| ≥ |m 0 0|
  · rw [if_neg h1, if_pos h2]
    have h3 : |m 1 0| ≤ |m 2 0| := by
      by_contra hc
      exact h1 ⟨h2.trans (not_le.1 hc).le, (not_le.1 hc).le⟩
    exact key ⟨m 2 0, m 2 1, m 2 2, b.z⟩ ⟨m 1 0, m 1 1, m 1 2, b.y⟩ ⟨m 0 0, m 0 1, m 0 2, b.x⟩ h3 h2
      (fun x y z h => by rcases hM' x y z h with h | h | h <;> tauto)
  · rw [if_neg h1, if_neg h2]
    have h2 := not_le.1 h2
    have h3 : |m 1 0| ≤ |m 0 0| := by
      by_contra hc
      exact h1 ⟨(not_le.1 hc).le, h2.le.trans (not_le.1 hc).le⟩
    exact key ⟨m 0 0, m 0 1, m 0 2, b.x⟩ ⟨m 1 0, m 1 1, m 1 2, b.y⟩ ⟨m 2 0, m 2 1, m 2 2, b.z⟩ h3 h2.le hM'

/-- The hypothesis holds for instance for a matrix that permutes and scales the axes. -/
example : ∀ v : V3 ℚ, 1 ≤ |v.x| ∨ 1 ≤ |v.y| ∨ 1 ≤ |v.z| → 1 / 10000 ≤ |(Mat3.mulVec !![0, 2, 0; 0, 0, 1/2; 1/3, 0, 0] v).x| ∨
      1 / 10000 ≤ |(Mat3.mulVec !![0, 2, 0; 0, 0, 1/2; 1/3, 0, 0] v).y| ∨
      1 / 10000 ≤ |(Mat3.mulVec !![0, 2, 0; 0, 0, 1/2; 1/3, 0, 0] v).z| := by
  intro v h
  simp only [Mat3.mulVec]
  simp [abs_mul]
  rcases h with h | h | h
  · right; right; linarith
  · left; linarith
  · right; left; linarith

end MGL
