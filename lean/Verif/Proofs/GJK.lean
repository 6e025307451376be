import Verif.Model.GJK
import Verif.Spec.Convex3
import Mathlib.Tactic.Linarith
import Mathlib.Tactic.LinearCombination
import Mathlib.Tactic.FieldSimp
import Mathlib.Tactic.Positivity

/-! Geometry of the simplices of the GJK loop. -/

set_option linter.unusedSectionVars false

namespace MGL.GJK
open V3 Spec

variable {α : Type*} [Field α] [LinearOrder α] [IsStrictOrderedRing α]

/-- A simplex and direction with two points: the foot of the origin is between them, and the origin not on their line. -/
def Inv2 (s0 s1 d : V3 α) : Prop :=
  dot s0 (s1 - s0) ≤ 0 ∧ 0 ≤ dot s1 (s1 - s0) ∧ d = cross (s1 - s0) (cross (s1 - s0) s1) ∧ 0 < lenSq (cross (s1 - s0) s1)

/-- A simplex and direction with three points: the foot of the origin is in the triangle, and the direction is the normal on
the side of the origin. -/
def Inv3 (s0 s1 s2 d : V3 α) : Prop :=
  d = cross (s2 - s0) (s2 - s1) ∧ dot d s0 < 0 ∧
  ∃ u v w : α, 0 ≤ u ∧ 0 ≤ v ∧ 0 ≤ w ∧ u + v + w = 1 ∧ lenSq d • (u • s0 + v • s1 + w • s2) = dot d s0 • d

theorem lenSq_nonneg (v : V3 α) : 0 ≤ lenSq v := by
  unfold lenSq dot; nlinarith [sq_nonneg v.x, sq_nonneg v.y, sq_nonneg v.z]

theorem lenSq_eq_zero {v : V3 α} (h : lenSq v = 0) : v = 0 := by
  unfold lenSq dot at h
  have hx := mul_self_nonneg v.x
  have hy := mul_self_nonneg v.y
  have hz := mul_self_nonneg v.z
  ext
  · exact mul_self_eq_zero.1 (by linarith)
  · exact mul_self_eq_zero.1 (by linarith)
  · exact mul_self_eq_zero.1 (by linarith)

theorem lenSq_cross (a b : V3 α) : lenSq (cross a b) = lenSq a * lenSq b - dot a b ^ 2 := by
  simp only [lenSq, dot, cross]; ring

theorem Inv2.symm {s0 s1 d : V3 α} (h : Inv2 s0 s1 d) : Inv2 s1 s0 d := by
  obtain ⟨h1, h2, h3, h4⟩ := h
  have e : cross (s0 - s1) s0 = -cross (s1 - s0) s1 := by
    ext <;> simp only [cross, sub_x, sub_y, sub_z, neg_x, neg_y, neg_z] <;> ring
  refine ⟨?_, ?_, ?_, ?_⟩
  · have : dot s1 (s0 - s1) = -dot s1 (s1 - s0) := by simp only [dot, sub_x, sub_y, sub_z]; ring
    rw [this]; linarith
  · have : dot s0 (s0 - s1) = -dot s0 (s1 - s0) := by simp only [dot, sub_x, sub_y, sub_z]; ring
    rw [this]; linarith
  · rw [h3, e]
    ext <;> simp only [cross, sub_x, sub_y, sub_z, neg_x, neg_y, neg_z] <;> ring
  · rw [e]
    have : lenSq (-cross (s1 - s0) s1) = lenSq (cross (s1 - s0) s1) := by
      simp only [lenSq, dot, neg_x, neg_y, neg_z]; ring
    rw [this]; exact h4

theorem Inv3.rot {s0 s1 s2 d : V3 α} (h : Inv3 s0 s1 s2 d) : Inv3 s1 s2 s0 d := by
  obtain ⟨h1, h2, u, v, w, hu, hv, hw, hs, he⟩ := h
  have e : dot d s1 = dot d s0 := by rw [h1]; simp only [cross, dot, sub_x, sub_y, sub_z]; ring
  refine ⟨?_, ?_, v, w, u, hv, hw, hu, by linarith, ?_⟩
  · rw [h1]; ext <;> simp only [cross, sub_x, sub_y, sub_z] <;> ring
  · rw [e]; exact h2
  · rw [e, ← he]; ext <;> simp only [smul_x, smul_y, smul_z, add_x, add_y, add_z] <;> ring

/-! ### The foot on a segment -/

/-- The foot of the origin on a segment. -/
theorem seg_foot {s0 s1 : V3 α} (h0 : dot s0 (s1 - s0) ≤ 0) (h1 : 0 ≤ dot s1 (s1 - s0)) (he : 0 < lenSq (s1 - s0)) :
    ∃ a b : α, 0 ≤ a ∧ 0 ≤ b ∧ a + b = 1 ∧ dot (b • s0 + a • s1) (s1 - s0) = 0 ∧
      lenSq (b • s0 + a • s1) * lenSq (s1 - s0) = lenSq (cross (s1 - s0) s1) := by
  have e : lenSq (s1 - s0) = dot s1 (s1 - s0) - dot s0 (s1 - s0) := by simp only [lenSq, dot, sub_x, sub_y, sub_z]; ring
  refine ⟨-dot s0 (s1 - s0) / lenSq (s1 - s0), dot s1 (s1 - s0) / lenSq (s1 - s0), div_nonneg (by linarith) he.le,
    div_nonneg h1 he.le, by field_simp; linarith, ?_, ?_⟩
  · have : dot (((dot s1 (s1 - s0)) / lenSq (s1 - s0)) • s0 + (-dot s0 (s1 - s0) / lenSq (s1 - s0)) • s1) (s1 - s0) =
        (dot s1 (s1 - s0) / lenSq (s1 - s0)) * dot s0 (s1 - s0) + (-dot s0 (s1 - s0) / lenSq (s1 - s0)) * dot s1 (s1 - s0) := by
      generalize dot s1 (s1 - s0) / lenSq (s1 - s0) = p
      generalize -dot s0 (s1 - s0) / lenSq (s1 - s0) = q
      simp only [dot, smul_x, smul_y, smul_z, add_x, add_y, add_z, sub_x, sub_y, sub_z]; ring
    rw [this]; field_simp; ring
  · have key : ∀ a b : α, a + b = 1 → dot (b • s0 + a • s1) (s1 - s0) = 0 →
        lenSq (b • s0 + a • s1) * lenSq (s1 - s0) = lenSq (cross (s1 - s0) s1) := by
      intro a b hab hd
      have e1 : cross (s1 - s0) s1 = cross (s1 - s0) (b • s0 + a • s1) := by
        have : b = 1 - a := by linear_combination hab
        subst this
        ext <;> simp only [cross, sub_x, sub_y, sub_z, smul_x, smul_y, smul_z, add_x, add_y, add_z] <;> ring
      rw [e1, lenSq_cross]
      have : dot (s1 - s0) (b • s0 + a • s1) = 0 := by rw [← hd]; simp only [dot]; ring
      rw [this]; ring
    refine key _ _ (by field_simp; linarith) ?_
    have : dot (((dot s1 (s1 - s0)) / lenSq (s1 - s0)) • s0 + (-dot s0 (s1 - s0) / lenSq (s1 - s0)) • s1) (s1 - s0) =
        (dot s1 (s1 - s0) / lenSq (s1 - s0)) * dot s0 (s1 - s0) + (-dot s0 (s1 - s0) / lenSq (s1 - s0)) * dot s1 (s1 - s0) := by
      generalize dot s1 (s1 - s0) / lenSq (s1 - s0) = p
      generalize -dot s0 (s1 - s0) / lenSq (s1 - s0) = q
      simp only [dot, smul_x, smul_y, smul_z, add_x, add_y, add_z, sub_x, sub_y, sub_z]; ring
    rw [this]; field_simp; ring

/-- The coordinates used for a triangle over a segment: `s0 = p - a e`, `s1 = p + b e` with the foot `p`. -/
theorem Inv2.coords {s0 s1 d : V3 α} (h : Inv2 s0 s1 d) : ∃ (p e : V3 α) (a b : α), 0 ≤ a ∧ 0 ≤ b ∧ a + b = 1 ∧
    s0 = p - a • e ∧ s1 = p + b • e ∧ dot p e = 0 ∧ 0 < lenSq p ∧ 0 < lenSq e ∧ d = -lenSq e • p := by
  obtain ⟨h1, h2, h3, h4⟩ := h
  have he : 0 < lenSq (s1 - s0) := by
    rcases (lenSq_nonneg (s1 - s0)).lt_or_eq with h | h
    · exact h
    · have := lenSq_eq_zero h.symm
      rw [this] at h4
      simp [cross, lenSq, dot] at h4
  obtain ⟨a, b, ha, hb, hab, hd, hl⟩ := seg_foot h1 h2 he
  have hb' : b = 1 - a := by linear_combination hab
  refine ⟨b • s0 + a • s1, s1 - s0, a, b, ha, hb, hab, ?_, ?_, hd, ?_, he, ?_⟩
  · subst hb'; ext <;> simp only [sub_x, sub_y, sub_z, smul_x, smul_y, smul_z, add_x, add_y, add_z] <;> ring
  · subst hb'; ext <;> simp only [sub_x, sub_y, sub_z, smul_x, smul_y, smul_z, add_x, add_y, add_z] <;> ring
  · rcases (lenSq_nonneg (b • s0 + a • s1)).lt_or_eq with h | h
    · exact h
    · rw [← h, zero_mul] at hl; rw [← hl] at h4; exact absurd h4 (lt_irrefl _)
  · rw [h3]
    have e1 : cross (s1 - s0) s1 = cross (s1 - s0) (b • s0 + a • s1) := by
      subst hb'
      ext <;> simp only [cross, sub_x, sub_y, sub_z, smul_x, smul_y, smul_z, add_x, add_y, add_z] <;> ring
    rw [e1]
    generalize b • s0 + a • s1 = p at hd ⊢
    generalize s1 - s0 = e at hd ⊢
    simp only [dot] at hd
    ext <;> simp only [cross, lenSq, dot, smul_x, smul_y, smul_z]
    · linear_combination e.x * hd
    · linear_combination e.y * hd
    · linear_combination e.z * hd

/-- Bessel's inequality for two perpendicular directions. -/
theorem bessel {p e : V3 α} (h : dot p e = 0) (hp : 0 < lenSq p) (he : 0 < lenSq e) (w : V3 α) :
    lenSq e * dot w p ^ 2 ≤ lenSq p * (lenSq e * lenSq w - dot w e ^ 2) := by
  have hn := lenSq_nonneg ((lenSq p * lenSq e) • w - (lenSq e * dot w p) • p - (lenSq p * dot w e) • e)
  have e1 : lenSq ((lenSq p * lenSq e) • w - (lenSq e * dot w p) • p - (lenSq p * dot w e) • e) =
      lenSq p * lenSq e * (lenSq p * (lenSq e * lenSq w - dot w e ^ 2) - lenSq e * dot w p ^ 2) + 2 * (lenSq e * lenSq p * dot w p * dot w e) * dot p e := by
    simp only [lenSq, dot, smul_x, smul_y, smul_z, sub_x, sub_y, sub_z]; ring
  rw [e1, h, mul_zero, add_zero] at hn
  have := nonneg_of_mul_nonneg_right hn (mul_pos hp he)
  linarith

/-! ### A triangle over a segment -/

/-- What the tests of `UpdateSimplex` for three points compute. -/
theorem tri_tests {p e s2 : V3 α} {a b : α} (hab : a + b = 1) (hpe : dot p e = 0) :
    let s0 := p - a • e
    let s1 := p + b • e
    let w := s2 - p
    let m := -dot w p
    dot s1 (cross (s2 - s1) (cross (s2 - s0) (s2 - s1))) = b * (lenSq e * lenSq w - dot w e ^ 2) + m * (dot w e - b * lenSq e) ∧
    dot s0 (cross (cross (s2 - s0) (s2 - s1)) (s2 - s0)) = a * (lenSq e * lenSq w - dot w e ^ 2) + m * (-dot w e - a * lenSq e) ∧
    lenSq (cross (s2 - s0) (s2 - s1)) = lenSq e * lenSq w - dot w e ^ 2 := by
  intro s0 s1 w m
  have ha : a = 1 - b := by linear_combination hab
  have ew : s2 = p + w := by ext <;> simp [w]
  have e1 : s2 - s1 = w - b • e := by
    ext <;> simp only [w, s1, sub_x, sub_y, sub_z, smul_x, smul_y, smul_z, add_x, add_y, add_z] <;> ring
  have e0 : s2 - s0 = w + (1 - b) • e := by
    ext <;> simp only [w, s0, ha, sub_x, sub_y, sub_z, smul_x, smul_y, smul_z, add_x, add_y, add_z] <;> ring
  have en : cross (w + (1 - b) • e) (w - b • e) = cross e w := by
    ext <;> simp only [cross, sub_x, sub_y, sub_z, smul_x, smul_y, smul_z, add_x, add_y, add_z] <;> ring
  rw [e0, e1, en]
  simp only [m, s0, s1, ha]
  clear_value w
  refine ⟨?_, ?_, ?_⟩
  · simp only [dot] at hpe
    simp only [cross, lenSq, dot, sub_x, sub_y, sub_z, smul_x, smul_y, smul_z, add_x, add_y, add_z]
    linear_combination (w.x * w.x + w.y * w.y + w.z * w.z - b * (w.x * e.x + w.y * e.y + w.z * e.z)) * hpe
  · simp only [dot] at hpe
    simp only [cross, lenSq, dot, sub_x, sub_y, sub_z, smul_x, smul_y, smul_z, add_x, add_y, add_z]
    linear_combination (-(w.x * w.x + w.y * w.y + w.z * w.z) - (1 - b) * (w.x * e.x + w.y * e.y + w.z * e.z)) * hpe
  · rw [lenSq_cross]; simp only [dot]; ring

/-- The cross product of an edge with its end does not depend on the end. -/
theorem cross_end (s1 s2 : V3 α) : cross (s2 - s1) s1 = cross (s2 - s1) s2 := by
  ext <;> simp only [cross, sub_x, sub_y, sub_z] <;> ring

/-- The facts about the third point common to all cases. -/
theorem third {p e s2 d : V3 α} (hp : 0 < lenSq p) (he : 0 < lenSq e) (hpe : dot p e = 0) (hd : d = -lenSq e • p) (h : 0 ≤ dot d s2) :
    lenSq p ≤ -dot (s2 - p) p ∧
    lenSq e * (-dot (s2 - p) p) ^ 2 ≤ lenSq p * (lenSq e * lenSq (s2 - p) - dot (s2 - p) e ^ 2) := by
  refine ⟨?_, ?_⟩
  · have e1 : dot d s2 = lenSq e * (-dot (s2 - p) p - lenSq p) := by
      rw [hd]; simp only [dot, lenSq, smul_x, smul_y, smul_z, sub_x, sub_y, sub_z]; ring
    rw [e1] at h
    have := nonneg_of_mul_nonneg_right h he
    linarith
  · rw [neg_sq]; exact bessel hpe hp he _

theorem tri_edge {s0 s1 s2 d : V3 α} (h : Inv2 s0 s1 d) (h2 : 0 ≤ dot d s2)
    (ht : dot s1 (cross (s2 - s1) (cross (s2 - s0) (s2 - s1))) < 0) : Inv2 s1 s2 (cross (s2 - s1) (cross (s2 - s1) s1)) := by
  obtain ⟨p, e, a, b, ha, hb, hab, e0, e1, hpe, hp, he, hd⟩ := h.coords
  obtain ⟨hm, hB⟩ := third hp he hpe hd h2
  have hc : 0 < lenSq (cross (s2 - s1) s1) := by
    rcases (lenSq_nonneg (cross (s2 - s1) s1)).lt_or_eq with h | h
    · exact h
    · have hz := lenSq_eq_zero h.symm
      have : dot s1 (cross (s2 - s1) (cross (s2 - s0) (s2 - s1))) = -dot (cross (s2 - s1) s1) (cross (s2 - s0) (s2 - s1)) := by
        simp only [dot, cross, sub_x, sub_y, sub_z]; ring
      rw [this, hz] at ht
      simp [dot] at ht
  have ht' := ht
  rw [e0, e1, (tri_tests hab hpe).1] at ht'
  have q1 : dot s1 (s2 - s1) = dot (s2 - p) p + b * (dot (s2 - p) e - b * lenSq e) := by
    rw [e1]
    simp only [dot] at hpe
    simp only [dot, lenSq, smul_x, smul_y, smul_z, sub_x, sub_y, sub_z, add_x, add_y, add_z]
    linear_combination (-b) * hpe
  have q2 : dot s2 (s2 - s1) = dot (s2 - p) p + lenSq (s2 - p) - b * dot (s2 - p) e := by
    rw [e1]
    simp only [dot] at hpe
    simp only [dot, lenSq, smul_x, smul_y, smul_z, sub_x, sub_y, sub_z, add_x, add_y, add_z]
    linear_combination (-b) * hpe
  generalize dot (s2 - p) e = x at *
  generalize lenSq (s2 - p) = W at *
  generalize hmm : -dot (s2 - p) p = m at *
  have hmm' : dot (s2 - p) p = -m := by linarith
  rw [hmm'] at q1 q2
  generalize lenSq e = E at *
  generalize lenSq p = P at *
  have hm0 : 0 < m := hp.trans_le hm
  have c1 : E * m ≤ E * W - x ^ 2 := by
    have : P * (E * m) ≤ P * (E * W - x ^ 2) := by
      refine le_trans ?_ hB
      nlinarith [mul_le_mul_of_nonneg_left hm (mul_pos he hm0).le]
    exact le_of_mul_le_mul_left this hp
  have c2 : x < 0 := by
    have : m * x < 0 := by nlinarith [mul_le_mul_of_nonneg_left c1 hb]
    exact (mul_neg_iff.1 this).elim (fun h => h.2) fun h => absurd h.1 (not_lt.2 hm0.le)
  have c3 : m ≤ W := by
    have : E * m ≤ E * W := by nlinarith [sq_nonneg x]
    exact le_of_mul_le_mul_left this he
  refine ⟨?_, ?_, ?_, by rw [← cross_end]; exact hc⟩
  · rw [q1]; nlinarith [mul_nonneg hb (mul_nonneg hb he.le), mul_nonneg hb (neg_nonneg.2 c2.le)]
  · rw [q2]; nlinarith [mul_nonneg hb (neg_nonneg.2 c2.le)]
  · rw [cross_end]

theorem tri_edge' {s0 s1 s2 d : V3 α} (h : Inv2 s0 s1 d) (h2 : 0 ≤ dot d s2)
    (ht : dot s0 (cross (cross (s2 - s0) (s2 - s1)) (s2 - s0)) < 0) : Inv2 s0 s2 (cross (s2 - s0) (cross (s2 - s0) s0)) := by
  refine tri_edge h.symm h2 ?_
  have : cross (s2 - s0) (cross (s2 - s1) (s2 - s0)) = cross (cross (s2 - s0) (s2 - s1)) (s2 - s0) := by
    ext <;> simp only [cross, sub_x, sub_y, sub_z] <;> ring
  rw [this]; exact ht

/-- The foot of the origin on the plane of a triangle. -/
theorem foot_identity (s0 s1 s2 : V3 α) :
    dot s1 (cross (s2 - s1) (cross (s2 - s0) (s2 - s1))) • s0 + dot s0 (cross (cross (s2 - s0) (s2 - s1)) (s2 - s0)) • s1 +
      (lenSq (cross (s2 - s0) (s2 - s1)) - dot s1 (cross (s2 - s1) (cross (s2 - s0) (s2 - s1))) -
        dot s0 (cross (cross (s2 - s0) (s2 - s1)) (s2 - s0))) • s2 =
    dot (cross (s2 - s0) (s2 - s1)) s2 • cross (s2 - s0) (s2 - s1) := by
  ext <;> simp only [cross, dot, lenSq, sub_x, sub_y, sub_z, smul_x, smul_y, smul_z, add_x, add_y, add_z] <;> ring

theorem bary_of_tests {s0 s1 s2 : V3 α} (hn : 0 < lenSq (cross (s2 - s0) (s2 - s1)))
    (h0 : 0 ≤ dot s1 (cross (s2 - s1) (cross (s2 - s0) (s2 - s1)))) (h1 : 0 ≤ dot s0 (cross (cross (s2 - s0) (s2 - s1)) (s2 - s0)))
    (h2 : 0 ≤ lenSq (cross (s2 - s0) (s2 - s1)) - dot s1 (cross (s2 - s1) (cross (s2 - s0) (s2 - s1))) -
        dot s0 (cross (cross (s2 - s0) (s2 - s1)) (s2 - s0))) :
    ∃ u v w : α, 0 ≤ u ∧ 0 ≤ v ∧ 0 ≤ w ∧ u + v + w = 1 ∧
      lenSq (cross (s2 - s0) (s2 - s1)) • (u • s0 + v • s1 + w • s2) = dot (cross (s2 - s0) (s2 - s1)) s0 • cross (s2 - s0) (s2 - s1) := by
  have hf := foot_identity s0 s1 s2
  have e : dot (cross (s2 - s0) (s2 - s1)) s2 = dot (cross (s2 - s0) (s2 - s1)) s0 := by
    simp only [cross, dot, sub_x, sub_y, sub_z]; ring
  rw [e] at hf
  generalize dot s1 (cross (s2 - s1) (cross (s2 - s0) (s2 - s1))) = A at *
  generalize dot s0 (cross (cross (s2 - s0) (s2 - s1)) (s2 - s0)) = B at *
  generalize lenSq (cross (s2 - s0) (s2 - s1)) = L at *
  refine ⟨A / L, B / L, (L - A - B) / L, div_nonneg h0 hn.le, div_nonneg h1 hn.le, div_nonneg h2 hn.le, by field_simp; ring, ?_⟩
  rw [← hf]
  ext <;> simp only [smul_x, smul_y, smul_z, add_x, add_y, add_z] <;> field_simp

theorem tri_in {s0 s1 s2 d : V3 α} (h : Inv2 s0 s1 d) (h2 : 0 ≤ dot d s2)
    (ht : 0 ≤ dot s1 (cross (s2 - s1) (cross (s2 - s0) (s2 - s1)))) (ht' : 0 ≤ dot s0 (cross (cross (s2 - s0) (s2 - s1)) (s2 - s0))) :
    0 < lenSq (cross (s2 - s0) (s2 - s1)) ∧ ∃ u v w : α, 0 ≤ u ∧ 0 ≤ v ∧ 0 ≤ w ∧ u + v + w = 1 ∧
      lenSq (cross (s2 - s0) (s2 - s1)) • (u • s0 + v • s1 + w • s2) = dot (cross (s2 - s0) (s2 - s1)) s0 • cross (s2 - s0) (s2 - s1) := by
  obtain ⟨p, e, a, b, ha, hb, hab, e0, e1, hpe, hp, he, hd⟩ := h.coords
  obtain ⟨hm, hB⟩ := third hp he hpe hd h2
  obtain ⟨q1, q2, q3⟩ := tri_tests (s2 := s2) hab hpe
  simp only [← e0, ← e1] at q1 q2 q3
  have hm0 : 0 < -dot (s2 - p) p := hp.trans_le hm
  have hn : 0 < lenSq (cross (s2 - s0) (s2 - s1)) := by
    rw [q3]
    have h1 : 0 < lenSq e * (-dot (s2 - p) p) ^ 2 := mul_pos he (pow_pos hm0 2)
    exact (pos_iff_pos_of_mul_pos (h1.trans_le hB)).1 hp
  refine ⟨hn, bary_of_tests hn ht ht' ?_⟩
  have ha' : a = 1 - b := by linear_combination hab
  rw [q1, q2, q3, ha']
  have := mul_pos hm0 he
  nlinarith

/-! ### A tetrahedron over a triangle -/

/-- The test for an edge `k → 3` in the face with the vertex `j`. -/
def edgeTest (sk sj s3 : V3 α) : α :=
  dot (sj - sk) (s3 - sk) * dot (s3 - sk) s3 - lenSq (s3 - sk) * dot (sj - sk) s3

theorem edge_case {s0 s1 s2 s3 d : V3 α} (h : Inv3 s0 s1 s2 d) (h3 : 0 ≤ dot d s3) (t1 : edgeTest s0 s1 s3 ≤ 0) (t2 : edgeTest s0 s2 s3 ≤ 0) :
    dot s0 (s3 - s0) ≤ 0 ∧ 0 ≤ dot s3 (s3 - s0) ∧ 0 < lenSq (s3 - s0) := by
  obtain ⟨hd, hk, u, v, w, hu, hv, hw, hs, hf⟩ := h
  have hd0 : 0 < lenSq d := by
    rcases (lenSq_nonneg d).lt_or_eq with h | h
    · exact h
    · have := lenSq_eq_zero h.symm
      rw [this] at hk; simp [dot] at hk
  -- the foot
  obtain ⟨f, hfd⟩ : ∃ f : V3 α, f = u • s0 + v • s1 + w • s2 := ⟨_, rfl⟩
  rw [← hfd] at hf
  have hu' : u = 1 - v - w := by linear_combination hs
  have d1 : dot d (s1 - s0) = 0 := by rw [hd]; simp only [cross, dot, sub_x, sub_y, sub_z]; ring
  have d2 : dot d (s2 - s0) = 0 := by rw [hd]; simp only [cross, dot, sub_x, sub_y, sub_z]; ring
  have dfs : dot d f = dot d s0 := by
    rw [hfd, hu']
    simp only [dot, sub_x, sub_y, sub_z] at d1 d2
    simp only [dot, smul_x, smul_y, smul_z, add_x, add_y, add_z]
    linear_combination v * d1 + w * d2
  have fx : ∀ x : V3 α, lenSq d * dot f x = dot d s0 * dot d x := by
    intro x
    have e1 : lenSq d * dot f x = dot (lenSq d • f) x := by simp only [dot, smul_x, smul_y, smul_z]; ring
    rw [e1, hf]; simp only [dot, smul_x, smul_y, smul_z]; ring
  have ff : 0 < dot f f := by
    have := fx f
    rw [dfs] at this
    have h1 : 0 < lenSq d * dot f f := by rw [this]; exact mul_pos_of_neg_of_neg hk hk
    exact (pos_iff_pos_of_mul_pos h1).1 hd0
  have f0 : dot f s0 = dot f f := by
    have h1 := fx f; have h2 := fx s0
    rw [dfs] at h1
    exact mul_left_cancel₀ hd0.ne' (h2.trans h1.symm)
  have f3 : dot f s3 ≤ 0 := by
    have h2 := fx s3
    have : lenSq d * dot f s3 ≤ 0 := by rw [h2]; exact mul_nonpos_of_nonpos_of_nonneg hk.le h3
    by_contra hc
    exact absurd this (not_le.2 (mul_pos hd0 (not_le.1 hc)))
  -- the combined test
  have hT : v * edgeTest s0 s1 s3 + w * edgeTest s0 s2 s3 ≤ 0 := by
    have := mul_nonneg hv (neg_nonneg.2 t1)
    have := mul_nonneg hw (neg_nonneg.2 t2)
    linarith
  have eT : v * edgeTest s0 s1 s3 + w * edgeTest s0 s2 s3 = edgeTest s0 f s3 := by
    rw [hfd, hu']; simp only [edgeTest, dot, lenSq, smul_x, smul_y, smul_z, add_x, add_y, add_z, sub_x, sub_y, sub_z]; ring
  rw [eT] at hT
  have g2 : 0 ≤ lenSq (s0 - f) * lenSq s3 - dot (s0 - f) s3 ^ 2 := by rw [← lenSq_cross]; exact lenSq_nonneg _
  have e2 : edgeTest s0 f s3 = (lenSq (s0 - f) * lenSq s3 - dot (s0 - f) s3 ^ 2) + dot (s0 - f) s3 * (dot f f - dot f s3) -
      lenSq (s0 - f) * dot f s3 + (dot f s0 - dot f f) * (dot (s0 - f) s3 + dot s3 s3 - dot f s3) := by
    simp only [edgeTest, dot, lenSq, sub_x, sub_y, sub_z]; ring
  rw [f0, sub_self, zero_mul, add_zero] at e2
  have eG : lenSq (s0 - f) = dot s0 s0 - dot f f := by
    have : lenSq (s0 - f) = dot s0 s0 - 2 * dot f s0 + dot f f := by simp only [dot, lenSq, sub_x, sub_y, sub_z]; ring
    rw [this, f0]; ring
  have eX : dot (s0 - f) s3 = dot s0 s3 - dot f s3 := by simp only [dot, sub_x, sub_y, sub_z]; ring
  have hG := lenSq_nonneg (s0 - f)
  have q1 : dot s0 (s3 - s0) = dot s0 s3 - dot s0 s0 := by simp only [dot, sub_x, sub_y, sub_z]; ring
  have q2 : dot s3 (s3 - s0) = dot s3 s3 - dot s0 s3 := by simp only [dot, sub_x, sub_y, sub_z]; ring
  have q3 : lenSq (s3 - s0) = dot s3 (s3 - s0) - dot s0 (s3 - s0) := by simp only [dot, lenSq, sub_x, sub_y, sub_z]; ring
  have hX : dot (s0 - f) s3 ≤ 0 := by
    by_contra hc
    have := mul_pos (not_le.1 hc) (show 0 < dot f f - dot f s3 by linarith)
    have := mul_nonneg hG (neg_nonneg.2 f3)
    linarith
  have r1 : dot s0 (s3 - s0) < 0 := by rw [q1]; linarith
  have r2 : 0 ≤ dot s3 (s3 - s0) := by
    rw [q2]
    have := lenSq_nonneg s3
    have : dot s3 s3 = lenSq s3 := rfl
    linarith
  exact ⟨r1.le, r2, by rw [q3]; linarith⟩

/-- A face with the new point beyond which the origin is: the foot on it is not beyond the old edge. -/
theorem face_case {s0 s1 s2 s3 d : V3 α} (h : Inv3 s0 s1 s2 d) (h3 : 0 ≤ dot d s3)
    (ht : dot s3 (cross (s1 - s0) (s3 - s0)) < 0)
    (t0 : 0 ≤ dot s1 (cross (s3 - s1) (cross (s3 - s0) (s3 - s1)))) (t1 : 0 ≤ dot s0 (cross (cross (s3 - s0) (s3 - s1)) (s3 - s0))) :
    Inv3 s0 s1 s3 (cross (s1 - s0) (s3 - s0)) := by
  obtain ⟨hd, hk, u, v, w, hu, hv, hw, hs, hf⟩ := h
  have hd0 : 0 < lenSq d := by
    rcases (lenSq_nonneg d).lt_or_eq with h | h
    · exact h
    · have := lenSq_eq_zero h.symm
      rw [this] at hk; simp [dot] at hk
  have en : cross (s1 - s0) (s3 - s0) = cross (s3 - s0) (s3 - s1) := by
    ext <;> simp only [cross, sub_x, sub_y, sub_z] <;> ring
  have e3 : dot (cross (s1 - s0) (s3 - s0)) s0 = dot s3 (cross (s1 - s0) (s3 - s0)) := by
    simp only [cross, dot, sub_x, sub_y, sub_z]; ring
  have hn : 0 < lenSq (cross (s3 - s0) (s3 - s1)) := by
    rcases (lenSq_nonneg (cross (s3 - s0) (s3 - s1))).lt_or_eq with h | h
    · exact h
    · have := lenSq_eq_zero h.symm
      rw [en, this] at ht; simp [dot] at ht
  have hu' : u = 1 - v - w := by linear_combination hs
  -- the inward direction of the old edge
  obtain ⟨V, hV⟩ : ∃ V : V3 α, V = cross d (s1 - s0) := ⟨_, rfl⟩
  have d1 : dot d (s1 - s0) = 0 := by rw [hd]; simp only [cross, dot, sub_x, sub_y, sub_z]; ring
  have V2 : dot V (s2 - s0) = lenSq d := by
    rw [hV, hd]; simp only [cross, dot, lenSq, sub_x, sub_y, sub_z]; ring
  have V0 : dot V s0 = -(w * lenSq d) := by
    have e1 : dot V (lenSq d • (u • s0 + v • s1 + w • s2)) = 0 := by
      rw [hf, hV]; simp only [cross, dot, smul_x, smul_y, smul_z, sub_x, sub_y, sub_z]; ring
    have e2 : dot V (lenSq d • (u • s0 + v • s1 + w • s2)) = lenSq d * (dot V s0 + v * dot V (s1 - s0) + w * dot V (s2 - s0)) := by
      rw [hu']; simp only [dot, smul_x, smul_y, smul_z, sub_x, sub_y, sub_z, add_x, add_y, add_z]; ring
    have e4 : dot V (s1 - s0) = 0 := by rw [hV]; simp only [cross, dot, sub_x, sub_y, sub_z]; ring
    rw [e2, V2, e4] at e1
    have := (mul_eq_zero.1 e1).resolve_left hd0.ne'
    linarith
  have d3 : dot d (s3 - s0) = dot d s3 - dot d s0 := by simp only [dot, sub_x, sub_y, sub_z]; ring
  have hd3 : 0 < dot d (s3 - s0) := by rw [d3]; linarith
  -- the normal in these directions
  have eN : lenSq d * dot (cross (s1 - s0) (s3 - s0)) s0 = dot (s3 - s0) V * dot d s0 - dot d (s3 - s0) * dot V s0 := by
    rw [hV]
    generalize s1 - s0 = x at *
    generalize s3 - s0 = y at *
    simp only [dot] at d1
    simp only [cross, dot, lenSq]
    linear_combination ((s0.x * (d.y * y.z - d.z * y.y) + s0.y * (d.z * y.x - d.x * y.z) + s0.z * (d.x * y.y - d.y * y.x))) * d1
  have hV3 : 0 < dot (s3 - s0) V := by
    have h1 : lenSq d * dot (cross (s1 - s0) (s3 - s0)) s0 < 0 := by rw [e3]; exact mul_neg_of_pos_of_neg hd0 ht
    rw [eN, V0] at h1
    have h2 := mul_nonneg hd3.le (mul_nonneg hw hd0.le)
    have h4 : dot (s3 - s0) V * dot d s0 < 0 := by linarith
    rcases mul_neg_iff.1 h4 with h | h
    · exact h.1
    · exact absurd h.2 (not_lt.2 hk.le)
  refine ⟨en, by rw [e3]; exact ht, ?_⟩
  rw [en]
  refine bary_of_tests hn t0 t1 ?_
  have eW : lenSq (cross (s3 - s0) (s3 - s1)) - dot s1 (cross (s3 - s1) (cross (s3 - s0) (s3 - s1))) -
      dot s0 (cross (cross (s3 - s0) (s3 - s1)) (s3 - s0)) = -(dot (s3 - s0) s0 * lenSq (s1 - s0) - dot (s3 - s0) (s1 - s0) * dot s0 (s1 - s0)) := by
    simp only [cross, dot, lenSq, sub_x, sub_y, sub_z]; ring
  rw [eW]
  have eP : lenSq d * (dot (s3 - s0) s0 * lenSq (s1 - s0) - dot (s3 - s0) (s1 - s0) * dot s0 (s1 - s0)) =
      dot (s3 - s0) V * dot V s0 + dot d (s3 - s0) * dot d s0 * lenSq (s1 - s0) := by
    rw [hV]
    generalize s1 - s0 = x at *
    generalize s3 - s0 = y at *
    simp only [dot] at d1
    simp only [cross, dot, lenSq]
    linear_combination ((y.x * s0.x + y.y * s0.y + y.z * s0.z) * (d.x * x.x + d.y * x.y + d.z * x.z) - (d.x * y.x + d.y * y.y + d.z * y.z) * (s0.x * x.x + s0.y * x.y + s0.z * x.z) - (y.x * x.x + y.y * x.y + y.z * x.z) * (d.x * s0.x + d.y * s0.y + d.z * s0.z)) * d1
  have hle : lenSq d * (dot (s3 - s0) s0 * lenSq (s1 - s0) - dot (s3 - s0) (s1 - s0) * dot s0 (s1 - s0)) ≤ 0 := by
    rw [eP, V0]
    have h1 := mul_nonneg hV3.le (mul_nonneg hw hd0.le)
    have h2 := mul_nonneg (mul_nonneg hd3.le (neg_nonneg.2 hk.le)) (lenSq_nonneg (s1 - s0))
    linarith
  by_contra hc
  have := mul_pos hd0 (show 0 < dot (s3 - s0) s0 * lenSq (s1 - s0) - dot (s3 - s0) (s1 - s0) * dot s0 (s1 - s0) by linarith)
  linarith

end MGL.GJK
