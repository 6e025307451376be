import Verif.Model.AABBTransform
import Verif.Spec.Affine
import Verif.Proofs.Scalar
import Mathlib.Tactic.Linarith
import Mathlib.Tactic.LinearCombination

/-! Helper lemmas for the transformation of boxes. -/

namespace MGL
open V3
variable {α : Type*} [Field α] [LinearOrder α] [IsStrictOrderedRing α]

theorem axis_range (a l u x : α) (h1 : l ≤ x) (h2 : x ≤ u) :
    -|a * (1 / 2 * (l + u) - l)| ≤ a * x - a * (1 / 2 * (l + u)) ∧
    a * x - a * (1 / 2 * (l + u)) ≤ |a * (1 / 2 * (l + u) - l)| := by
  rw [← abs_le, ← mul_sub, abs_mul, abs_mul]
  apply mul_le_mul_of_nonneg_left _ (abs_nonneg a)
  have e : |1 / 2 * (l + u) - l| = 1 / 2 * (l + u) - l := abs_of_nonneg (by linarith)
  rw [e, abs_le]; constructor <;> linarith

theorem axis_attain (a l u : α) (h : l ≤ u) :
    (∃ x, l ≤ x ∧ x ≤ u ∧ a * x - a * (1 / 2 * (l + u)) = |a * (1 / 2 * (l + u) - l)|) ∧
    (∃ x, l ≤ x ∧ x ≤ u ∧ a * x - a * (1 / 2 * (l + u)) = -|a * (1 / 2 * (l + u) - l)|) := by
  have hh : 0 ≤ 1 / 2 * (l + u) - l := by linarith
  rcases le_total 0 a with ha | ha
  · rw [abs_of_nonneg (mul_nonneg ha hh)]
    exact ⟨⟨u, h, le_rfl, by ring⟩, ⟨l, le_rfl, h, by ring⟩⟩
  · rw [abs_of_nonpos (mul_nonpos_of_nonpos_of_nonneg ha hh)]
    exact ⟨⟨l, le_rfl, h, by ring⟩, ⟨u, h, le_rfl, by ring⟩⟩

theorem row_range (a b c t : α) (mn mx p : V3 α) (h : p ∈ Spec.box mn mx) :
    let ctr := (1 / 2 : α) • (mn + mx)
    let d := |a * (ctr - mn).x| + |b * (ctr - mn).y| + |c * (ctr - mn).z|
    (a * ctr.x + b * ctr.y + c * ctr.z + t) - d ≤ a * p.x + b * p.y + c * p.z + t ∧
    a * p.x + b * p.y + c * p.z + t ≤ (a * ctr.x + b * ctr.y + c * ctr.z + t) + d := by
  obtain ⟨x1, x2, y1, y2, z1, z2⟩ := h
  intro ctr d
  have hx := axis_range a _ _ _ x1 x2
  have hy := axis_range b _ _ _ y1 y2
  have hz := axis_range c _ _ _ z1 z2
  simp only [d, ctr, sub_x, sub_y, sub_z, smul_x, smul_y, smul_z, add_x, add_y, add_z]
  constructor <;> linarith [hx.1, hx.2, hy.1, hy.2, hz.1, hz.2]

theorem row_attain (a b c t : α) (mn mx : V3 α) (h : (Spec.box mn mx).Nonempty) :
    let ctr := (1 / 2 : α) • (mn + mx)
    let d := |a * (ctr - mn).x| + |b * (ctr - mn).y| + |c * (ctr - mn).z|
    (∃ p ∈ Spec.box mn mx, a * p.x + b * p.y + c * p.z + t = (a * ctr.x + b * ctr.y + c * ctr.z + t) - d) ∧
    (∃ p ∈ Spec.box mn mx, a * p.x + b * p.y + c * p.z + t = (a * ctr.x + b * ctr.y + c * ctr.z + t) + d) := by
  obtain ⟨p, x1, x2, y1, y2, z1, z2⟩ := h
  intro ctr d
  obtain ⟨⟨x, hx1, hx2, hx⟩, ⟨x', hx1', hx2', hx'⟩⟩ := axis_attain a _ _ (x1.trans x2)
  obtain ⟨⟨y, hy1, hy2, hy⟩, ⟨y', hy1', hy2', hy'⟩⟩ := axis_attain b _ _ (y1.trans y2)
  obtain ⟨⟨z, hz1, hz2, hz⟩, ⟨z', hz1', hz2', hz'⟩⟩ := axis_attain c _ _ (z1.trans z2)
  simp only [d, ctr, sub_x, sub_y, sub_z, smul_x, smul_y, smul_z, add_x, add_y, add_z]
  refine ⟨⟨⟨x', y', z'⟩, ⟨hx1', hx2', hy1', hy2', hz1', hz2'⟩, ?_⟩, ⟨⟨x, y, z⟩, ⟨hx1, hx2, hy1, hy2, hz1, hz2⟩, ?_⟩⟩
  · show a * x' + b * y' + c * z' + t = _; linear_combination hx' + hy' + hz'
  · show a * x + b * y + c * z + t = _; linear_combination hx + hy + hz

theorem transformCore_tight (b : AABB α) (e : Fin 3 → Fin 3 → α) (t : V3 α) (f : V3 α → V3 α)
    (hf : ∀ p, f p = Spec.affineMap e t p) (h : (Spec.box b.minPoint b.maxPoint).Nonempty) :
    Spec.TightBox (Spec.affineMap e t '' Spec.box b.minPoint b.maxPoint)
      (b.transformCore f e).minPoint (b.transformCore f e).maxPoint := by
  have r := fun i s => row_attain (e i 0) (e i 1) (e i 2) s b.minPoint b.maxPoint h
  have q := fun i s p hp => row_range (e i 0) (e i 1) (e i 2) s b.minPoint b.maxPoint p hp
  have im : ∀ (P : V3 α → Prop), (∃ p ∈ Spec.box b.minPoint b.maxPoint, P (Spec.affineMap e t p)) →
      ∃ p ∈ Spec.affineMap e t '' Spec.box b.minPoint b.maxPoint, P p :=
    fun P ⟨p, hp, hP⟩ => ⟨_, ⟨p, hp, rfl⟩, hP⟩
  simp only [AABB.transformCore, hf, absF_eq]
  refine ⟨?_, im _ (r 0 t.x).1, im _ (r 1 t.y).1, im _ (r 2 t.z).1, im _ (r 0 t.x).2, im _ (r 1 t.y).2, im _ (r 2 t.z).2⟩
  rintro _ ⟨p, hp, rfl⟩
  exact ⟨(q 0 t.x p hp).1, (q 0 t.x p hp).2, (q 1 t.y p hp).1, (q 1 t.y p hp).2, (q 2 t.z p hp).1, (q 2 t.z p hp).2⟩

end MGL
