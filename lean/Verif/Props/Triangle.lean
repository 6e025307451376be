import Verif.Model.Triangle
import Verif.Proofs.Vec3
import Verif.Proofs.Scalar
import Verif.Proofs.SetDist
import Verif.Proofs.AABBEnclose
import Mathlib.Tactic.LinearCombination
import Mathlib.Tactic.FieldSimp

/-! C31, C32: closest points of triangles and barycentric coordinates. -/

namespace MGL
open V3
variable {α : Type*} [Field α] [LinearOrder α] [IsStrictOrderedRing α]

set_option linter.unusedSectionVars false

/-! ### C31 -/

/-- A point of a triangle from which no vertex lies in the direction of `p` is the closest point. -/
theorem closest_of_vertices {a b c p q : V3 α} (hq : q ∈ Spec.tri a b c) (ha : dot (p - q) (a - q) ≤ 0)
    (hb : dot (p - q) (b - q) ≤ 0) (hc : dot (p - q) (c - q) ≤ 0) : Spec.IsClosestPoint (Spec.tri a b c) p q := by
  refine ⟨hq, ?_⟩
  rintro s ⟨u, v, w, hu, hv, hw, h1, rfl⟩
  apply distSq_le_of_dot
  have : dot (p - q) (u • a + v • b + w • c - q) = u * dot (p - q) (a - q) + v * dot (p - q) (b - q) + w * dot (p - q) (c - q) := by
    obtain rfl : u = 1 - v - w := by linarith
    simp only [dot]; simp; ring
  rw [this]
  nlinarith [mul_nonneg hu (neg_nonneg.2 ha), mul_nonneg hv (neg_nonneg.2 hb), mul_nonneg hw (neg_nonneg.2 hc)]

/-- Beyond the end of an edge line on the outer side, one of the other regions applies. -/
theorem region_lemma {A B C d1 d2 : α} (hA : 0 < A) (hD : 0 ≤ A * C - B * B) (h1 : d1 < 0) (h2 : 0 < d2)
    (hv : A * d2 ≤ B * d1) (hb : ¬ (C * d1 - B * d2 ≤ 0 ∧ 0 ≤ d2 ∧ d2 ≤ C)) (hc : ¬ (d2 - C ≥ 0 ∧ d1 - B ≤ d2 - C)) : False := by
  have hB : B < 0 := by
    by_contra hB
    push Not at hB
    nlinarith [mul_pos hA h2, mul_nonneg hB (neg_nonneg.2 h1.le)]
  have hvb : C * d1 - B * d2 ≤ 0 := by
    have h : A * (C * d1 - B * d2) ≤ 0 := by
      have e1 : -B * (A * d2) ≤ -B * (B * d1) := mul_le_mul_of_nonneg_left hv (by linarith)
      have e2 : (A * C - B * B) * d1 ≤ 0 := mul_nonpos_of_nonneg_of_nonpos hD h1.le
      nlinarith
    by_contra hcon
    push Not at hcon
    linarith [mul_pos hA hcon]
  have hd2 : C < d2 := by
    by_contra hcon
    push Not at hcon
    exact hb ⟨hvb, h2.le, hcon⟩
  have hd1 : d2 - C < d1 - B := by
    by_contra hcon
    push Not at hcon
    exact hc ⟨by linarith, hcon⟩
  have e1 : B * d1 < B * B := by nlinarith
  have e2 : A * C < A * d2 := mul_lt_mul_of_pos_left hd2 hA
  linarith

/-- When all six outer regions are excluded the three face coordinates are positive. -/
theorem face_pos {A B C d1 d2 : α} (hA : 0 < A) (hC : 0 < C) (hE : 0 < A + C - 2 * B) (hD : 0 ≤ A * C - B * B)
    (h1 : ¬ (d1 ≤ 0 ∧ d2 ≤ 0)) (h2 : ¬ (d1 - A ≥ 0 ∧ d2 - B ≤ d1 - A))
    (h3 : ¬ (A * d2 - B * d1 ≤ 0 ∧ d1 ≥ 0 ∧ d1 - A ≤ 0)) (h4 : ¬ (d2 - C ≥ 0 ∧ d1 - B ≤ d2 - C))
    (h5 : ¬ (C * d1 - B * d2 ≤ 0 ∧ d2 ≥ 0 ∧ d2 - C ≤ 0))
    (h6 : ¬ ((d1 - A) * (d2 - C) - (d1 - B) * (d2 - B) ≤ 0 ∧ d2 - B - (d1 - A) ≥ 0 ∧ d1 - B - (d2 - C) ≥ 0)) :
    0 < (d1 - A) * (d2 - C) - (d1 - B) * (d2 - B) ∧ 0 < C * d1 - B * d2 ∧ 0 < A * d2 - B * d1 := by
  refine ⟨?_, ?_, ?_⟩
  · by_contra hcon
    push Not at hcon
    by_cases ha : d2 - B - (d1 - A) ≥ 0
    · have hb : d1 - B - (d2 - C) < 0 := by
        by_contra h; push Not at h; exact h6 ⟨hcon, ha, h⟩
      refine region_lemma (A := A + C - 2 * B) (B := C - B) (C := C) (d1 := d1 - B - (d2 - C)) (d2 := C - d2) hE
        (by nlinarith) hb ?_ (by nlinarith) ?_ ?_
      · by_contra h; push Not at h; exact h4 ⟨by linarith, by linarith⟩
      · rintro ⟨g1, g2, g3⟩; exact h5 ⟨by nlinarith, by linarith, by linarith⟩
      · rintro ⟨g1, g2⟩; exact h1 ⟨by linarith, by linarith⟩
    · push Not at ha
      refine region_lemma (A := A + C - 2 * B) (B := A - B) (C := A) (d1 := d2 - B - (d1 - A)) (d2 := A - d1) hE
        (by nlinarith) ha ?_ (by nlinarith) ?_ ?_
      · by_contra h; push Not at h; exact h2 ⟨by linarith, by linarith⟩
      · rintro ⟨g1, g2, g3⟩; exact h3 ⟨by nlinarith, by linarith, by linarith⟩
      · rintro ⟨g1, g2⟩; exact h1 ⟨by linarith, by linarith⟩
  · by_contra hcon
    push Not at hcon
    by_cases ha : d2 ≥ 0
    · have hb : C < d2 := by
        by_contra h; push Not at h; exact h5 ⟨hcon, ha, by linarith⟩
      refine region_lemma (A := C) (B := C - B) (C := A + C - 2 * B) (d1 := C - d2) (d2 := d1 - B - (d2 - C)) hC
        (by nlinarith) (by linarith) ?_ (by nlinarith) ?_ ?_
      · by_contra h; push Not at h; exact h4 ⟨by linarith, by linarith⟩
      · rintro ⟨g1, g2, g3⟩; exact h6 ⟨by nlinarith, by linarith, by linarith⟩
      · rintro ⟨g1, g2⟩; exact h2 ⟨by linarith, by linarith⟩
    · push Not at ha
      refine region_lemma (A := C) (B := B) (C := A) (d1 := d2) (d2 := d1) hC (by nlinarith) ha ?_ (by nlinarith) ?_ ?_
      · by_contra h; push Not at h; exact h1 ⟨h, ha.le⟩
      · rintro ⟨g1, g2, g3⟩; exact h3 ⟨by nlinarith, by linarith, by linarith⟩
      · rintro ⟨g1, g2⟩; exact h2 ⟨by linarith, by linarith⟩
  · by_contra hcon
    push Not at hcon
    by_cases ha : d1 ≥ 0
    · have hb : A < d1 := by
        by_contra h; push Not at h; exact h3 ⟨hcon, ha, by linarith⟩
      refine region_lemma (A := A) (B := A - B) (C := A + C - 2 * B) (d1 := A - d1) (d2 := d2 - B - (d1 - A)) hA
        (by nlinarith) (by linarith) ?_ (by nlinarith) ?_ ?_
      · by_contra h; push Not at h; exact h2 ⟨by linarith, by linarith⟩
      · rintro ⟨g1, g2, g3⟩; exact h6 ⟨by nlinarith, by linarith, by linarith⟩
      · rintro ⟨g1, g2⟩; exact h4 ⟨by linarith, by linarith⟩
    · push Not at ha
      refine region_lemma (A := A) (B := B) (C := C) (d1 := d1) (d2 := d2) hA hD ha ?_ (by nlinarith) ?_ ?_
      · by_contra h; push Not at h; exact h1 ⟨ha.le, h⟩
      · rintro ⟨g1, g2, g3⟩; exact h5 ⟨by nlinarith, by linarith, by linarith⟩
      · rintro ⟨g1, g2⟩; exact h4 ⟨by linarith, by linarith⟩

/-- The face region. -/
theorem face_closest {a b c p : V3 α} {A B C d1 d2 va vb vc S : α} (hA : lenSq (b - a) = A) (hB : dot (b - a) (c - a) = B)
    (hC : lenSq (c - a) = C) (hd1 : dot (b - a) (p - a) = d1) (hd2 : dot (c - a) (p - a) = d2)
    (eb : vb = C * d1 - B * d2) (ec : vc = A * d2 - B * d1) (eS : S = va + vb + vc) (hSD : S = A * C - B * B)
    (p1 : 0 < va) (p2 : 0 < vb) (p3 : 0 < vc) :
    Spec.IsClosestPoint (Spec.tri a b c) p (a + (vb * (1 / S)) • (b - a) + (vc * (1 / S)) • (c - a)) := by
  have hSp : 0 < S := by linarith
  have g7 := hSp.ne'
  have hpos : 0 < 1 / S := one_div_pos.2 hSp
  obtain ⟨v, hv⟩ : ∃ v, v = vb * (1 / S) := ⟨_, rfl⟩
  obtain ⟨w, hw⟩ : ∃ w, w = vc * (1 / S) := ⟨_, rfl⟩
  have hu : 1 - v - w = va * (1 / S) := by
    have : va = S - vb - vc := by linarith
    rw [this, hv, hw]; field_simp
  have k1 : v * A + w * B = d1 := by
    rw [hv, hw, eb, ec]
    have : (C * d1 - B * d2) * (1 / S) * A + (A * d2 - B * d1) * (1 / S) * B = d1 * ((A * C - B * B) / S) := by ring
    rw [this, ← hSD, div_self g7, mul_one]
  have k2 : v * B + w * C = d2 := by
    rw [hv, hw, eb, ec]
    have : (C * d1 - B * d2) * (1 / S) * B + (A * d2 - B * d1) * (1 / S) * C = d2 * ((A * C - B * B) / S) := by ring
    rw [this, ← hSD, div_self g7, mul_one]
  have hu0 : 0 ≤ 1 - v - w := by rw [hu]; positivity
  have hv0 : 0 ≤ v := by rw [hv]; positivity
  have hw0 : 0 ≤ w := by rw [hw]; positivity
  rw [← hv, ← hw]
  clear hv hw hu
  have o1 : dot (p - (a + v • (b - a) + w • (c - a))) (b - a) = 0 := by
    have : dot (p - (a + v • (b - a) + w • (c - a))) (b - a) = dot (b - a) (p - a) - (v * lenSq (b - a) + w * dot (b - a) (c - a)) := by
      simp only [lenSq, dot]; simp; ring
    rw [this, hd1, hA, hB, k1, sub_self]
  have o2 : dot (p - (a + v • (b - a) + w • (c - a))) (c - a) = 0 := by
    have : dot (p - (a + v • (b - a) + w • (c - a))) (c - a) = dot (c - a) (p - a) - (v * dot (b - a) (c - a) + w * lenSq (c - a)) := by
      simp only [lenSq, dot]; simp; ring
    rw [this, hd2, hC, hB, k2, sub_self]
  refine closest_of_vertices ⟨1 - v - w, v, w, hu0, hv0, hw0, by ring, by ext <;> simp <;> ring⟩ ?_ ?_ ?_
  all_goals apply le_of_eq
  · have : a - (a + v • (b - a) + w • (c - a)) = (-v) • (b - a) + (-w) • (c - a) := by ext <;> simp <;> ring
    rw [this, dot_add, dot_smul, dot_smul, o1, o2]; ring
  · have : b - (a + v • (b - a) + w • (c - a)) = (1 - v) • (b - a) + (-w) • (c - a) := by ext <;> simp <;> ring
    rw [this, dot_add, dot_smul, dot_smul, o1, o2]; ring
  · have : c - (a + v • (b - a) + w • (c - a)) = (-v) • (b - a) + (1 - w) • (c - a) := by ext <;> simp <;> ring
    rw [this, dot_add, dot_smul, dot_smul, o1, o2]; ring

/-- C31: for every triangle with three different vertices (even if they are collinear), `ClosestPoint(p)` is computed
without a division by zero, lies in the triangle, and no point of the triangle is nearer to `p`. -/
theorem C31_closestPoint (t : Tri α) (hab : t.a ≠ t.b) (hac : t.a ≠ t.c) (hbc : t.b ≠ t.c) (p : V3 α) :
    ∃ q, t.closestPoint p = some q ∧ Spec.IsClosestPoint (Spec.tri t.a t.b t.c) p q := by
  obtain ⟨a, b, c⟩ := t
  dsimp only at hab hac hbc ⊢
  have hA : 0 < lenSq (b - a) := lenSq_pos (sub_ne_zero.2 hab.symm)
  have hC : 0 < lenSq (c - a) := lenSq_pos (sub_ne_zero.2 hac.symm)
  have hE : 0 < lenSq (c - b) := lenSq_pos (sub_ne_zero.2 hbc.symm)
  have hE' : lenSq (c - b) = lenSq (b - a) + lenSq (c - a) - 2 * dot (b - a) (c - a) := by
    simp only [lenSq, dot]; simp; ring
  have hD : 0 ≤ lenSq (b - a) * lenSq (c - a) - dot (b - a) (c - a) * dot (b - a) (c - a) := by
    have := lagrange (b - a) (c - a); have := lenSq_nonneg (cross (b - a) (c - a)); linarith
  have e3 : dot (b - a) (p - b) = dot (b - a) (p - a) - lenSq (b - a) := by simp only [lenSq, dot]; simp; ring
  have e4 : dot (c - a) (p - b) = dot (c - a) (p - a) - dot (b - a) (c - a) := by simp only [dot]; simp; ring
  have e5 : dot (b - a) (p - c) = dot (b - a) (p - a) - dot (b - a) (c - a) := by simp only [dot]; simp; ring
  have e6 : dot (c - a) (p - c) = dot (c - a) (p - a) - lenSq (c - a) := by simp only [lenSq, dot]; simp; ring
  unfold Tri.closestPoint
  dsimp only
  rw [e3, e4, e5, e6]
  generalize hd1 : dot (b - a) (p - a) = d1 at *
  generalize hd2 : dot (c - a) (p - a) = d2 at *
  generalize hBB : dot (b - a) (c - a) = B at *
  generalize hAA : lenSq (b - a) = A at *
  generalize hCC : lenSq (c - a) = C at *
  split_ifs with h1 h2 h3 g3 h4 h5 g5 h6 g6 g7
  · refine ⟨_, rfl, closest_of_vertices ⟨1, 0, 0, by simp, by simp, by simp, by simp, by ext <;> simp⟩ ?_ ?_ ?_⟩
    · apply le_of_eq; simp [dot]
    · refine le_of_eq_of_le ?_ h1.1; rw [← hd1]; simp only [dot]; ring
    · refine le_of_eq_of_le ?_ h1.2; rw [← hd2]; simp only [dot]; ring
  · refine ⟨_, rfl, closest_of_vertices ⟨0, 1, 0, by simp, by simp, by simp, by simp, by ext <;> simp⟩ ?_ ?_ ?_⟩
    · refine le_of_eq_of_le ?_ (neg_nonpos.2 h2.1); rw [← e3]; simp only [dot]; simp; ring
    · apply le_of_eq; simp [dot]
    · refine le_of_eq_of_le ?_ (sub_nonpos.2 h2.2); rw [← e3, ← e4]; simp only [dot]; simp; ring
  · exact absurd g3 (by simpa using hA.ne')
  · have ed : d1 - (d1 - A) = A := by ring
    rw [ed]
    set v := d1 / A with hv
    have hvA : v * A = d1 := div_mul_cancel₀ _ hA.ne'
    have v0 : 0 ≤ v := div_nonneg h3.2.1 hA.le
    have v1 : v ≤ 1 := (div_le_one hA).2 (by linarith [h3.2.2])
    refine ⟨_, rfl, closest_of_vertices ⟨1 - v, v, 0, by linarith, v0, le_rfl, by ring, by ext <;> simp <;> ring⟩ ?_ ?_ ?_⟩
    · apply le_of_eq
      have : dot (p - (a + v • (b - a))) (a - (a + v • (b - a))) = -v * (dot (b - a) (p - a) - v * lenSq (b - a)) := by
        simp only [lenSq, dot]; simp; ring
      rw [this, hd1, hAA, hvA]; ring
    · apply le_of_eq
      have : dot (p - (a + v • (b - a))) (b - (a + v • (b - a))) = (1 - v) * (dot (b - a) (p - a) - v * lenSq (b - a)) := by
        simp only [lenSq, dot]; simp; ring
      rw [this, hd1, hAA, hvA]; ring
    · have : dot (p - (a + v • (b - a))) (c - (a + v • (b - a))) = dot (c - a) (p - a) - v * dot (b - a) (c - a) -
          v * (dot (b - a) (p - a) - v * lenSq (b - a)) := by simp only [lenSq, dot]; simp; ring
      rw [this, hd1, hAA, hvA, hd2, hBB]
      have h := h3.1
      by_contra hcon
      push Not at hcon
      have : A * (d2 - v * B - v * (d1 - d1)) = d1 * (d2 - B) - (d1 - A) * d2 := by rw [← hvA]; ring
      linarith [mul_pos hA hcon]
  · refine ⟨_, rfl, closest_of_vertices ⟨0, 0, 1, by simp, by simp, by simp, by simp, by ext <;> simp⟩ ?_ ?_ ?_⟩
    · refine le_of_eq_of_le ?_ (neg_nonpos.2 h4.1); rw [← e6]; simp only [dot]; simp; ring
    · refine le_of_eq_of_le ?_ (sub_nonpos.2 h4.2); rw [← e5, ← e6]; simp only [dot]; simp; ring
    · apply le_of_eq; simp [dot]
  · exact absurd g5 (by simpa using hC.ne')
  · have ed : d2 - (d2 - C) = C := by ring
    rw [ed]
    set v := d2 / C with hv
    have hvA : v * C = d2 := div_mul_cancel₀ _ hC.ne'
    have v0 : 0 ≤ v := div_nonneg h5.2.1 hC.le
    have v1 : v ≤ 1 := (div_le_one hC).2 (by linarith [h5.2.2])
    refine ⟨_, rfl, closest_of_vertices ⟨1 - v, 0, v, by linarith, le_rfl, v0, by ring, by ext <;> simp <;> ring⟩ ?_ ?_ ?_⟩
    · apply le_of_eq
      have : dot (p - (a + v • (c - a))) (a - (a + v • (c - a))) = -v * (dot (c - a) (p - a) - v * lenSq (c - a)) := by
        simp only [lenSq, dot]; simp; ring
      rw [this, hd2, hCC, hvA]; ring
    · have : dot (p - (a + v • (c - a))) (b - (a + v • (c - a))) = dot (b - a) (p - a) - v * dot (b - a) (c - a) -
          v * (dot (c - a) (p - a) - v * lenSq (c - a)) := by simp only [lenSq, dot]; simp; ring
      rw [this, hd1, hCC, hvA, hd2, hBB]
      have h := h5.1
      by_contra hcon
      push Not at hcon
      have : C * (d1 - v * B - v * (d2 - d2)) = (d1 - B) * d2 - d1 * (d2 - C) := by rw [← hvA]; ring
      linarith [mul_pos hC hcon]
    · apply le_of_eq
      have : dot (p - (a + v • (c - a))) (c - (a + v • (c - a))) = (1 - v) * (dot (c - a) (p - a) - v * lenSq (c - a)) := by
        simp only [lenSq, dot]; simp; ring
      rw [this, hd2, hCC, hvA]; ring
  · exfalso; rw [hE'] at hE; linarith
  · have ed : d2 - B - (d1 - A) + (d1 - B) - (d2 - C) = lenSq (c - b) := by rw [hE']; ring
    have hn : dot (c - b) (p - b) = d2 - B - (d1 - A) := by rw [← e3, ← e4]; simp only [dot]; simp; ring
    have hm : dot (c - b) (a - b) = A - B := by rw [← hAA, ← hBB]; simp only [lenSq, dot]; simp; ring
    have hk : dot (a - b) (p - b) = -(d1 - A) := by rw [← e3]; simp only [dot]; simp; ring
    rw [ed]
    set v := (d2 - B - (d1 - A)) / lenSq (c - b) with hv
    have hvA : v * lenSq (c - b) = d2 - B - (d1 - A) := div_mul_cancel₀ _ hE.ne'
    have v0 : 0 ≤ v := div_nonneg h6.2.1 hE.le
    have v1 : v ≤ 1 := (div_le_one hE).2 (by linarith [h6.2.2])
    refine ⟨_, rfl, closest_of_vertices ⟨0, 1 - v, v, le_rfl, by linarith, v0, by ring, by ext <;> simp <;> ring⟩ ?_ ?_ ?_⟩
    · have : dot (p - (b + v • (c - b))) (a - (b + v • (c - b))) = dot (a - b) (p - b) - v * dot (c - b) (a - b) -
          v * (dot (c - b) (p - b) - v * lenSq (c - b)) := by simp only [lenSq, dot]; simp; ring
      rw [this, hn, hvA, hm, hk]
      have h := h6.1
      by_contra hcon
      push Not at hcon
      have e : lenSq (c - b) * (-(d1 - A) - v * (A - B) - v * ((d2 - B - (d1 - A)) - (d2 - B - (d1 - A)))) =
        (d1 - A) * (d2 - C) - (d1 - B) * (d2 - B) := by
        have : lenSq (c - b) * (-(d1 - A) - v * (A - B) - v * ((d2 - B - (d1 - A)) - (d2 - B - (d1 - A)))) =
          -(d1 - A) * lenSq (c - b) - (v * lenSq (c - b)) * (A - B) := by ring
        rw [this, hvA, hE']; ring
      linarith [mul_pos hE hcon]
    · apply le_of_eq
      have : dot (p - (b + v • (c - b))) (b - (b + v • (c - b))) = -v * (dot (c - b) (p - b) - v * lenSq (c - b)) := by
        simp only [lenSq, dot]; simp; ring
      rw [this, hn, hvA]; ring
    · apply le_of_eq
      have : dot (p - (b + v • (c - b))) (c - (b + v • (c - b))) = (1 - v) * (dot (c - b) (p - b) - v * lenSq (c - b)) := by
        simp only [lenSq, dot]; simp; ring
      rw [this, hn, hvA]; ring
  all_goals
    obtain ⟨p1, p2, p3⟩ := face_pos (A := A) (B := B) (C := C) (d1 := d1) (d2 := d2) hA hC (by linarith) hD h1 h2
      (by rintro ⟨x1, x2, x3⟩; exact h3 ⟨by linarith, x2, x3⟩) h4 (by rintro ⟨x1, x2, x3⟩; exact h5 ⟨by linarith, x2, x3⟩) h6
  · exfalso; linarith
  · exact ⟨_, rfl, face_closest hAA hBB hCC hd1 hd2 (by ring) (by ring) rfl (by ring) p1 (by linarith) (by linarith)⟩

/-- The closest point to `(1, 1, 5)` of the right triangle `0, x, y` is the middle of the hypotenuse. -/
example : (⟨⟨0, 0, 0⟩, ⟨1, 0, 0⟩, ⟨0, 1, 0⟩⟩ : Tri ℚ).closestPoint ⟨1, 1, 5⟩ = some ⟨1/2, 1/2, 0⟩ := by decide +kernel

/-- C31: with two equal vertices the code divides zero by zero. -/
theorem C31_degenerate_violation : ∃ (t : Tri ℚ) (p : V3 ℚ), t.closestPoint p = none :=
  ⟨⟨⟨0, 0, 0⟩, ⟨0, 0, 0⟩, ⟨1, 0, 0⟩⟩, ⟨1/2, 0, 0⟩, by decide +kernel⟩

/-- C31: `Distance(point)`, `DistanceSq(point)`, `Distance(Sphere)`, `Intersects(Sphere)`. -/
theorem C31_distance (t : Tri ℝ) (hab : t.a ≠ t.b) (hac : t.a ≠ t.c) (hbc : t.b ≠ t.c) (p : V3 ℝ) :
    (∃ d, t.distance p = some d ∧ Spec.IsSetDist (Spec.tri t.a t.b t.c) {p} d ∧ t.distanceSq p = some (d * d)) ∧
    ∀ r : ℝ, 0 ≤ r → (∃ d, t.distanceSphere ⟨p, r⟩ = some d ∧ Spec.IsSetDist (Spec.tri t.a t.b t.c) (Spec.ball p r) d) ∧
      ∃ b, t.intersectsSphere ⟨p, r⟩ = some b ∧ (b = true ↔ ∃ x ∈ Spec.tri t.a t.b t.c, x ∈ Spec.ball p r) := by
  obtain ⟨q, hq, h⟩ := C31_closestPoint t hab hac hbc p
  have hd : Spec.IsSetDist (Spec.tri t.a t.b t.c) {p} (V3.dist q p) := setDist_of_point h
  refine ⟨⟨V3.dist q p, ?_, hd, ?_⟩, fun r hr => ⟨⟨max 0 (V3.dist q p - r), ?_, ?_⟩, decide (distSq q p ≤ r * r), ?_, ?_⟩⟩
  · unfold Tri.distance; rw [hq]; rfl
  · unfold Tri.distanceSq; rw [hq, dist_mul_self]; rfl
  · unfold Tri.distanceSphere Tri.distance; rw [hq, ← max2_eq]; rfl
  · rw [ball_eq_thicken]; exact setDist_thicken hd hr
  · unfold Tri.intersectsSphere; rw [hq]; rfl
  · rw [decide_eq_true_iff]
    constructor
    · intro hh; exact ⟨q, h.1, hh⟩
    · rintro ⟨x, hx, hh⟩
      have := h.2 x hx
      rw [distSq_comm p q, distSq_comm p x] at this
      exact this.trans hh

example := C31_distance ⟨⟨0, 0, 0⟩, ⟨1, 0, 0⟩, ⟨0, 1, 0⟩⟩ (by simp) (by simp) (by simp) ⟨1, 2, 3⟩

/-! ### C32 -/

/-- C32: for a triangle with nonzero area and a point of its plane, `BarycentricUVW` returns the coordinates that sum to one
and reproduce the point, they are the only such coordinates, and they are all non-negative exactly for the points of
the triangle. `BarycentricUV` reproduces the point through `Point(u, v)`. -/
theorem C32_barycentric (t : Tri α) (hn : cross (t.b - t.a) (t.c - t.a) ≠ 0) (p : V3 α)
    (hp : dot (cross (t.b - t.a) (t.c - t.a)) (p - t.a) = 0) :
    ∃ q, t.barycentricUVW p = some q ∧ q.x + q.y + q.z = 1 ∧ t.point3 q.x q.y q.z = p ∧
      (∀ u v w : α, u + v + w = 1 → u • t.a + v • t.b + w • t.c = p → u = q.x ∧ v = q.y ∧ w = q.z) ∧
      ((0 ≤ q.x ∧ 0 ≤ q.y ∧ 0 ≤ q.z) ↔ p ∈ Spec.tri t.a t.b t.c) ∧
      (Tri.barycentricInsideTriangle q = true ↔ p ∈ Spec.tri t.a t.b t.c) ∧
      t.barycentricUV p = some (q.y, q.z) ∧ t.point2 q.y q.z = p := by
  obtain ⟨a, b, c⟩ := t
  dsimp only at hn hp ⊢
  -- any coordinates of the point are the ones computed
  have key : ∀ (nu nv den : α), den ≠ 0 → (∀ u v w : α, u + v + w = 1 → u • a + v • b + w • c = p → nu = u * den ∧ nv = v * den) →
      ∀ u v w : α, u + v + w = 1 → u • a + v • b + w • c = p → u = nu * (1 / den) ∧ v = nv * (1 / den) ∧ w = 1 - nu * (1 / den) - nv * (1 / den) := by
    intro nu nv den hd h u v w h1 h2
    obtain ⟨rfl, rfl⟩ := h u v w h1 h2
    have e1 : u * den * (1 / den) = u := by field_simp
    have e2 : v * den * (1 / den) = v := by field_simp
    rw [e1, e2]; exact ⟨rfl, rfl, by linarith⟩
  -- coordinates exist
  have hex : ∃ u v w : α, u + v + w = 1 ∧ u • a + v • b + w • c = p := by
    have hl := lenSq_pos hn
    set n := cross (b - a) (c - a) with hnd
    have hl' := hl.ne'
    refine ⟨1 - dot (cross (p - a) (c - a)) n / lenSq n - dot (cross (b - a) (p - a)) n / lenSq n,
      dot (cross (p - a) (c - a)) n / lenSq n, dot (cross (b - a) (p - a)) n / lenSq n, by ring, ?_⟩
    have e : lenSq n • (p - a) = dot (cross (p - a) (c - a)) n • (b - a) + dot (cross (b - a) (p - a)) n • (c - a) + dot n (p - a) • n := by
      rw [hnd]; ext <;> simp only [lenSq, dot, cross] <;> simp <;> ring
    rw [hp] at e
    have ex := congrArg V3.x e
    have ey := congrArg V3.y e
    have ez := congrArg V3.z e
    simp only [V3.smul_x, V3.smul_y, V3.smul_z, V3.add_x, V3.add_y, V3.add_z, V3.sub_x, V3.sub_y, V3.sub_z, zero_mul, add_zero] at ex ey ez
    ext
    · simp only [V3.smul_x, V3.add_x]; field_simp; linear_combination -ex
    · simp only [V3.smul_y, V3.add_y]; field_simp; linear_combination -ey
    · simp only [V3.smul_z, V3.add_z]; field_simp; linear_combination -ez
  obtain ⟨u, v, w, h1, h2⟩ := hex
  have hbary : Tri.barycentricUVW ⟨a, b, c⟩ p = some ⟨u, v, w⟩ ∧
      ∀ u' v' w' : α, u' + v' + w' = 1 → u' • a + v' • b + w' • c = p → u' = u ∧ v' = v ∧ w' = w := by
    have sx : p.x = u * a.x + v * b.x + w * c.x := by rw [← h2]; simp
    have main : ∀ (nu nv den : α), den ≠ 0 → (∀ u v w : α, u + v + w = 1 → u • a + v • b + w • c = p → nu = u * den ∧ nv = v * den) →
        (some ⟨nu * (1 / den), nv * (1 / den), 1 - nu * (1 / den) - nv * (1 / den)⟩ : Option (V3 α)) = some ⟨u, v, w⟩ ∧
        ∀ u' v' w' : α, u' + v' + w' = 1 → u' • a + v' • b + w' • c = p → u' = u ∧ v' = v ∧ w' = w := by
      intro nu nv den hd h
      obtain ⟨g1, g2, g3⟩ := key nu nv den hd h u v w h1 h2
      refine ⟨by rw [← g1, ← g2, show w = 1 - u - v by linarith], ?_⟩
      intro u' v' w' h1' h2'
      obtain ⟨k1, k2, k3⟩ := key nu nv den hd h u' v' w' h1' h2'
      exact ⟨k1.trans g1.symm, k2.trans g2.symm, k3.trans g3.symm⟩
    unfold Tri.barycentricUVW
    dsimp only
    rw [absF_eq, absF_eq, absF_eq]
    by_cases c1 : |(cross (b - a) (c - a)).x| ≥ |(cross (b - a) (c - a)).y| ∧ |(cross (b - a) (c - a)).x| ≥ |(cross (b - a) (c - a)).z|
    on_goal 2 => by_cases c2 : |(cross (b - a) (c - a)).y| ≥ |(cross (b - a) (c - a)).z|
    · have hd : (cross (b - a) (c - a)).x ≠ 0 := by
        intro h0
        rw [h0, abs_zero] at c1
        apply hn; ext
        · exact h0
        · exact abs_eq_zero.1 (le_antisymm c1.1 (abs_nonneg _))
        · exact abs_eq_zero.1 (le_antisymm c1.2 (abs_nonneg _))
      rw [if_pos c1]
      dsimp only
      rw [if_neg hd]
      refine main _ _ _ hd ?_
      intro u v w h1 h2
      obtain rfl : u = 1 - v - w := by linarith
      have ey := congrArg V3.y h2
      have ez := congrArg V3.z h2
      simp only [V3.smul_y, V3.smul_z, V3.add_y, V3.add_z] at ey ez
      rw [← ey, ← ez]
      constructor <;> simp only [Tri.triArea2D, cross, V3.sub_y, V3.sub_z] <;> ring
    · have hd : (cross (b - a) (c - a)).y ≠ 0 := by
        intro h0
        rw [h0, abs_zero] at c1 c2
        have z0 := le_antisymm c2 (abs_nonneg _)
        apply c1
        rw [z0]
        exact ⟨abs_nonneg _, abs_nonneg _⟩
      rw [if_neg c1, if_pos c2]
      dsimp only
      rw [if_neg (neg_ne_zero.2 hd)]
      refine main _ _ _ (neg_ne_zero.2 hd) ?_
      intro u v w h1 h2
      obtain rfl : u = 1 - v - w := by linarith
      have ex := congrArg V3.x h2
      have ez := congrArg V3.z h2
      simp only [V3.smul_x, V3.smul_z, V3.add_x, V3.add_z] at ex ez
      rw [← ex, ← ez]
      constructor <;> simp only [Tri.triArea2D, cross, V3.sub_x, V3.sub_z] <;> ring
    · have hd : (cross (b - a) (c - a)).z ≠ 0 := by
        intro h0
        rw [h0, abs_zero] at c2
        exact c2 (abs_nonneg _)
      rw [if_neg c1, if_neg c2]
      dsimp only
      rw [if_neg hd]
      refine main _ _ _ hd ?_
      intro u v w h1 h2
      obtain rfl : u = 1 - v - w := by linarith
      have ex := congrArg V3.x h2
      have ey := congrArg V3.y h2
      simp only [V3.smul_x, V3.smul_y, V3.add_x, V3.add_y] at ex ey
      rw [← ex, ← ey]
      constructor <;> simp only [Tri.triArea2D, cross, V3.sub_x, V3.sub_y] <;> ring
  obtain ⟨hb, huniq⟩ := hbary
  have hiff : (0 ≤ u ∧ 0 ≤ v ∧ 0 ≤ w) ↔ p ∈ Spec.tri a b c := by
    constructor
    · rintro ⟨h3, h4, h5⟩; exact ⟨u, v, w, h3, h4, h5, h1, h2.symm⟩
    · rintro ⟨u', v', w', h3, h4, h5, h6, h7⟩
      obtain ⟨rfl, rfl, rfl⟩ := huniq u' v' w' h6 h7.symm
      exact ⟨h3, h4, h5⟩
  refine ⟨⟨u, v, w⟩, hb, h1, h2, huniq, hiff, ?_, ?_, ?_⟩
  · unfold Tri.barycentricInsideTriangle equalAbs
    dsimp only
    rw [h1, absF_eq, sub_self, abs_zero, ← hiff]
    simp
  · unfold Tri.barycentricUV; rw [hb]; rfl
  · rw [← h2]
    obtain rfl : u = 1 - v - w := by linarith
    unfold Tri.point2; ext <;> simp <;> ring

/-- A point of a triangle and its coordinates. -/
example : (⟨⟨0, 0, 0⟩, ⟨2, 0, 1⟩, ⟨0, 3, 1⟩⟩ : Tri ℚ).barycentricUVW ⟨1, 1, 5/6⟩ = some ⟨1/6, 1/2, 1/3⟩ := by decide +kernel

/-- C32: `Contains(point)` never misses a point of a triangle with nonzero area, whatever the (non-negative) thickness. -/
theorem C32_contains_complete (t : Tri α) (hn : cross (t.b - t.a) (t.c - t.a) ≠ 0) (p : V3 α) (hp : p ∈ Spec.tri t.a t.b t.c) (e : α) (he : 0 ≤ e) :
    t.contains p e = true := by
  have hpl : dot (cross (t.b - t.a) (t.c - t.a)) (p - t.a) = 0 := by
    obtain ⟨u, v, w, -, -, -, h1, rfl⟩ := hp
    obtain rfl : u = 1 - v - w := by linarith
    simp only [dot, cross]; simp; ring
  obtain ⟨q, hq, -, -, -, hin, -⟩ := C32_barycentric t hn p hpl
  have hd : dot (cross (t.b - t.a) (t.c - t.a)) (t.b - p) = 0 := by
    have : dot (cross (t.b - t.a) (t.c - t.a)) (t.b - p) = -dot (cross (t.b - t.a) (t.c - t.a)) (p - t.a) := by
      simp only [dot, cross]; simp; ring
    rw [this, hpl, neg_zero]
  unfold Tri.contains
  dsimp only
  rw [hd, if_neg (by have := mul_nonneg he (lenSq_nonneg (cross (t.b - t.a) (t.c - t.a))); push Not; simpa using this), hq]
  obtain ⟨h1, h2, h3⟩ := hin.2 hp
  simp only [decide_eq_true_iff]
  refine ⟨?_, ?_, ?_⟩ <;> linarith

example := C32_contains_complete (⟨⟨0, 0, 0⟩, ⟨1, 0, 0⟩, ⟨0, 1, 0⟩⟩ : Tri ℚ) (by simp [cross, V3.ext_iff]) ⟨1/4, 1/4, 0⟩
  ⟨1/2, 1/4, 1/4, by norm_num, by norm_num, by norm_num, by norm_num, by ext <;> norm_num⟩ (1/1000) (by norm_num)

/-- C32: with zero thickness, `Contains(point)` accepts only points of the plane of the triangle, whose barycentric
coordinates are at least -1/1000: points within the tolerance outside the edges are accepted too. -/
theorem C32_contains_sound_partial (t : Tri α) (hn : cross (t.b - t.a) (t.c - t.a) ≠ 0) (p : V3 α) (h : t.contains p 0 = true) :
    ∃ u v w : α, -(1 / 1000) ≤ u ∧ -(1 / 1000) ≤ v ∧ -(1 / 1000) ≤ w ∧ u + v + w = 1 ∧ u • t.a + v • t.b + w • t.c = p := by
  unfold Tri.contains at h
  dsimp only at h
  split_ifs at h with h0
  have hd : dot (cross (t.b - t.a) (t.c - t.a)) (t.b - p) = 0 := by
    rw [zero_mul] at h0; push Not at h0
    exact mul_self_eq_zero.1 (le_antisymm h0 (mul_self_nonneg _))
  have hpl : dot (cross (t.b - t.a) (t.c - t.a)) (p - t.a) = 0 := by
    have : dot (cross (t.b - t.a) (t.c - t.a)) (t.b - p) = -dot (cross (t.b - t.a) (t.c - t.a)) (p - t.a) := by
      simp only [dot, cross]; simp; ring
    rw [hd] at this; linarith
  obtain ⟨q, hq, h1, h2, -⟩ := C32_barycentric t hn p hpl
  rw [hq] at h
  simp only [decide_eq_true_iff] at h
  exact ⟨q.x, q.y, q.z, h.1, h.2.1, h.2.2, h1, h2⟩

example := C32_contains_sound_partial (⟨⟨0, 0, 0⟩, ⟨1, 0, 0⟩, ⟨0, 1, 0⟩⟩ : Tri ℚ) (by simp [cross, V3.ext_iff]) ⟨1/4, 1/4, 0⟩ (by decide +kernel)

/-- C32: `Contains` accepts a point that is not in the triangle, because of the tolerance. -/
theorem C32_contains_violation : ∃ (t : Tri ℚ) (p : V3 ℚ), cross (t.b - t.a) (t.c - t.a) ≠ 0 ∧ t.contains p = true ∧ p ∉ Spec.tri t.a t.b t.c := by
  refine ⟨⟨⟨0, 0, 0⟩, ⟨1000, 0, 0⟩, ⟨0, 1000, 0⟩⟩, ⟨-1/2, 0, 0⟩, by simp [cross, V3.ext_iff], by decide +kernel, ?_⟩
  rintro ⟨u, v, w, hu, hv, hw, h1, h2⟩
  have := congrArg V3.x h2
  simp at this
  linarith

/-! ### Vertices, edges, extreme points -/

/-- C32: vertices, edges, centroid, bounding box, extreme point of the triangle. -/
theorem C32_triangle_queries (t : Tri α) :
    (∀ i, t.vertex i ∈ Spec.tri t.a t.b t.c) ∧ (∀ i, Spec.seg (t.edge i).a (t.edge i).b ⊆ Spec.tri t.a t.b t.c) ∧
    t.centroid ∈ Spec.tri t.a t.b t.c ∧ Spec.TightBox (Spec.tri t.a t.b t.c) t.boundingAABB.minPoint t.boundingAABB.maxPoint ∧
    (∀ d, Spec.IsExtreme (Spec.tri t.a t.b t.c) d (t.extremePoint d) ∧ (t.extremePointDist d).1 = t.extremePoint d ∧
      (t.extremePointDist d).2 = dot d (t.extremePoint d)) ∧
    (∀ u v, t.point2 u v = t.point3 (1 - u - v) u v) ∧
    (∀ s r : α, 0 ≤ s → s ≤ 1 → 0 ≤ r → r ≤ 1 → t.randomPointInside s r ∈ Spec.tri t.a t.b t.c) := by
  obtain ⟨a, b, c⟩ := t
  have va : a ∈ Spec.tri a b c := ⟨1, 0, 0, by simp, by simp, by simp, by simp, by ext <;> simp⟩
  have vb : b ∈ Spec.tri a b c := ⟨0, 1, 0, by simp, by simp, by simp, by simp, by ext <;> simp⟩
  have vc : c ∈ Spec.tri a b c := ⟨0, 0, 1, by simp, by simp, by simp, by simp, by ext <;> simp⟩
  refine ⟨?_, ?_, ?_, tight_tri a b c, ?_, ?_, ?_⟩
  · intro i; fin_cases i <;> assumption
  · intro i
    fin_cases i
    · rintro x ⟨t, h0, h1, rfl⟩
      exact ⟨1 - t, t, 0, by linarith, h0, le_rfl, by ring, by ext <;> simp [Tri.edge] <;> ring⟩
    · rintro x ⟨t, h0, h1, rfl⟩
      exact ⟨0, 1 - t, t, le_rfl, by linarith, h0, by ring, by ext <;> simp [Tri.edge] <;> ring⟩
    · rintro x ⟨t, h0, h1, rfl⟩
      exact ⟨t, 0, 1 - t, h0, le_rfl, by linarith, by ring, by ext <;> simp [Tri.edge] <;> ring⟩
  · exact ⟨1/3, 1/3, 1/3, by positivity, by positivity, by positivity, by norm_num, by ext <;> simp [Tri.centroid] <;> ring⟩
  · intro d
    refine ⟨⟨?_, ?_⟩, rfl, dot_comm _ _⟩
    · unfold Tri.extremePoint; dsimp only; split_ifs <;> assumption
    · rintro x ⟨u, v, w, hu, hv, hw, h1, rfl⟩
      have e : dot d (u • a + v • b + w • c) = u * dot d a + v * dot d b + w * dot d c := by simp only [dot]; simp; ring
      have key : ∀ m, dot d a ≤ m → dot d b ≤ m → dot d c ≤ m → dot d (u • a + v • b + w • c) ≤ m := by
        intro m ha hb hc
        rw [e]
        have := mul_le_mul_of_nonneg_left ha hu
        have := mul_le_mul_of_nonneg_left hb hv
        have := mul_le_mul_of_nonneg_left hc hw
        have : m = u * m + v * m + w * m := by rw [← add_mul, ← add_mul, h1, one_mul]
        linarith
      unfold Tri.extremePoint
      dsimp only
      apply key <;> split_ifs <;> linarith
  · intro u v; unfold Tri.point2 Tri.point3; ext <;> simp <;> ring
  · intro s r hs hs1 hr hr1
    unfold Tri.randomPointInside Tri.point2
    dsimp only
    split_ifs with h
    · exact ⟨s + r - 1, 1 - s, 1 - r, by linarith, by linarith, by linarith, by ring, by ext <;> simp <;> ring⟩
    · exact ⟨1 - s - r, s, r, by linarith, hs, hr, by ring, by ext <;> simp <;> ring⟩

end MGL
