import Verif.Model.Plane
import Verif.Proofs.SetDist
import Verif.Proofs.LinePair
import Mathlib.Tactic.NormNum
import Mathlib.Tactic.FieldSimp

/-! Helper lemmas about planes. -/

set_option linter.unusedSectionVars false

namespace MGL
open V3

section Field
variable {α : Type*} [Field α] [LinearOrder α] [IsStrictOrderedRing α]

theorem Plane.sd_seg (p : Plane α) (a b : V3 α) (t : α) :
    p.signedDistance (a + t • (b - a)) = p.signedDistance a + t * (p.signedDistance b - p.signedDistance a) := by
  simp only [Plane.signedDistance, dot_add, dot_smul, dot_sub]; ring

theorem Plane.sd_add_normal (p : Plane α) (h : lenSq p.normal = 1) (x : V3 α) (t : α) :
    p.signedDistance (x + t • p.normal) = p.signedDistance x + t := by
  have : dot p.normal p.normal = 1 := h
  simp only [Plane.signedDistance, dot_add, dot_smul, this]; ring

theorem Plane.sd_sub_normal (p : Plane α) (h : lenSq p.normal = 1) (x : V3 α) (t : α) :
    p.signedDistance (x - t • p.normal) = p.signedDistance x - t := by
  have : dot p.normal p.normal = 1 := h
  simp only [Plane.signedDistance, dot_sub, dot_smul, this]; ring

theorem Plane.mem_iff (p : Plane α) (x : V3 α) : x ∈ Spec.plane p.normal p.d ↔ p.signedDistance x = 0 := by
  show dot p.normal x = p.d ↔ _
  unfold Plane.signedDistance
  exact sub_eq_zero.symm

/-- Moving along the unit normal by `k` costs `k²`. -/
theorem Plane.distSq_move (p : Plane α) (h : lenSq p.normal = 1) (x : V3 α) (k : α) :
    distSq x (x - k • p.normal) = k * k := by
  have : dot p.normal p.normal = 1 := h
  have e : x - (x - k • p.normal) = k • p.normal := by abel
  show lenSq (x - (x - k • p.normal)) = _
  rw [e]; show dot _ _ = _
  rw [dot_smul, smul_dot, this]; ring

/-- The signed distances of two points differ by no more than the points do. -/
theorem Plane.sd_lipschitz (p : Plane α) (h : lenSq p.normal = 1) (x y : V3 α) :
    (p.signedDistance x - p.signedDistance y) * (p.signedDistance x - p.signedDistance y) ≤ distSq x y := by
  have := cauchy p.normal (x - y)
  rw [h, one_mul, dot_sub] at this
  unfold Plane.signedDistance
  have e : dot p.normal x - p.d - (dot p.normal y - p.d) = dot p.normal x - dot p.normal y := by ring
  rw [e]; exact this

theorem subseg_left (a b : V3 α) (t : α) (h0 : 0 ≤ t) (h1 : t ≤ 1) :
    Spec.seg a (a + t • (b - a)) = {x | ∃ s, 0 ≤ s ∧ s ≤ t ∧ x = a + s • (b - a)} := by
  ext x; constructor
  · rintro ⟨s, hs0, hs1, rfl⟩
    refine ⟨s * t, mul_nonneg hs0 h0, by nlinarith, ?_⟩
    ext <;> simp <;> ring
  · rintro ⟨s, hs0, hs1, rfl⟩
    rcases h0.lt_or_eq with h | h
    · refine ⟨s / t, div_nonneg hs0 h0, (div_le_one h).2 hs1, ?_⟩
      have e : s / t * t = s := div_mul_cancel₀ _ h.ne'
      ext <;> simp <;> rw [← mul_assoc, e]
    · subst h
      have : s = 0 := le_antisymm hs1 hs0
      subst this
      exact ⟨0, le_rfl, zero_le_one, by ext <;> simp⟩

theorem subseg_right (a b : V3 α) (t : α) (h0 : 0 ≤ t) (h1 : t ≤ 1) :
    Spec.seg (a + t • (b - a)) b = {x | ∃ s, t ≤ s ∧ s ≤ 1 ∧ x = a + s • (b - a)} := by
  ext x; constructor
  · rintro ⟨s, hs0, hs1, rfl⟩
    refine ⟨t + s * (1 - t), by nlinarith, by nlinarith, ?_⟩
    ext <;> simp <;> ring
  · rintro ⟨s, hs0, hs1, rfl⟩
    rcases h1.lt_or_eq with h | h
    · have hp : 0 < 1 - t := by linarith
      refine ⟨(s - t) / (1 - t), div_nonneg (by linarith) hp.le, (div_le_one hp).2 (by linarith), ?_⟩
      have e : (s - t) / (1 - t) * (1 - t) = s - t := div_mul_cancel₀ _ hp.ne'
      ext <;> simp
      · linear_combination (-(b.x - a.x)) * e
      · linear_combination (-(b.y - a.y)) * e
      · linear_combination (-(b.z - a.z)) * e
    · subst h
      have : s = 1 := le_antisymm hs1 hs0
      subst this
      exact ⟨0, le_rfl, zero_le_one, by ext <;> simp⟩

/-- What `IntersectLinePlane` returns: an exact crossing, or, when it gives up, the line is parallel to
the plane or crosses it only at a parameter of at least 1e4. -/
theorem intersectLinePlane_cases (n : V3 α) (d : α) (pos dir : V3 α) :
    (dot n dir ≠ 0 ∧ (Plane.intersectLinePlane n d pos dir) = (true, (d - dot n pos) / dot n dir)) ∨
    ((Plane.intersectLinePlane n d pos dir).2 = 0 ∧
      (dot n dir = 0 ∨ (|dot n dir| ≤ 1 / 10000 ∧ 10000 ≤ |(d - dot n pos) / dot n dir|)) ∧
      ((Plane.intersectLinePlane n d pos dir).1 = true ↔ |dot n pos - d| < 1 / 1000)) := by
  unfold Plane.intersectLinePlane
  simp only [absF_eq]
  by_cases h1 : |dot n dir| > 1 / 10000
  · left
    rw [if_pos h1]
    refine ⟨?_, rfl⟩
    intro h; rw [h, abs_zero] at h1; norm_num at h1
  · rw [if_neg h1]
    by_cases h2 : dot n dir ≠ 0 ∧ |(d - dot n pos) / dot n dir| < 10000
    · left; rw [if_pos h2]; exact ⟨h2.1, rfl⟩
    · right; rw [if_neg h2]
      refine ⟨rfl, ?_, by simp [equalAbs, absF_eq]⟩
      by_cases h0 : dot n dir = 0
      · exact Or.inl h0
      · right
        refine ⟨not_lt.1 h1, ?_⟩
        by_contra hc; exact h2 ⟨h0, not_le.1 hc⟩

end Field
end MGL
