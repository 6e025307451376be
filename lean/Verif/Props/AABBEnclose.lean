import Verif.Proofs.AABBEnclose
import Mathlib.Tactic.NormNum
import Mathlib.Data.Rat.Defs
import Mathlib.Algebra.Order.Ring.Unbundled.Rat

/-! Property C16: an `AABB` built by `Enclose` calls is the least box. -/

namespace MGL

open V3 Spec

variable {α : Type*} [Field α] [LinearOrder α] [IsStrictOrderedRing α]

/-- After `SetNegativeInfinity` and any sequence of `Enclose` calls (points, boxes, segments,
triangles, spheres, capsules, oriented boxes) the box contains every point of everything enclosed and
is contained in every box (finite or not) which does so too. With nothing enclosed it is empty. -/
theorem C16_enclose_history (args : List (EncArg α)) (hv : ∀ e ∈ args, e.Valid) :
    (∀ e ∈ args, ∀ p ∈ e.points,
      p.toExt ∈ Spec.box (encloseAll args).minPoint (encloseAll args).maxPoint) ∧
    (∀ mn mx : V3 (Ext α), (∀ e ∈ args, ∀ p ∈ e.points, p.toExt ∈ Spec.box mn mx) →
      Spec.box (encloseAll args).minPoint (encloseAll args).maxPoint ⊆ Spec.box mn mx) ∧
    (args = [] → Spec.box (encloseAll args).minPoint (encloseAll args).maxPoint = ∅) := by
  refine ⟨?_, ?_, ?_⟩
  · have := (subB_foldl args AABB.negInf (encloseAll args)).1 (SubB.refl _)
    intro e he
    exact (points_subset_iff e (hv e he) _).2 (this.2 e he)
  · intro mn mx H
    have : SubB (encloseAll args) ⟨mn, mx⟩ :=
      (subB_foldl args AABB.negInf ⟨mn, mx⟩).2
        ⟨SubB.negInf _, fun e he => (points_subset_iff e (hv e he) ⟨mn, mx⟩).1 (H e he)⟩
    obtain ⟨⟨a1, a2, a3⟩, b1, b2, b3⟩ := this
    intro p hp
    exact ⟨a1.trans hp.1, hp.2.1.trans b1, a2.trans hp.2.2.1, hp.2.2.2.1.trans b2,
      a3.trans hp.2.2.2.2.1, hp.2.2.2.2.2.trans b3⟩
  · rintro rfl
    ext p
    simp only [encloseAll, List.foldl_nil, AABB.negInf, Spec.box, Set.mem_ofPred_eq, Set.mem_empty_iff_false,
      iff_false]
    rintro ⟨h1, h2, -⟩
    have h3 := h1.trans h2
    rw [top_le_iff] at h3
    exact absurd h3 (by simp)

example : ∀ e ∈ [EncArg.point (⟨1, 2, 3⟩ : V3 ℚ), .sphere ⟨0, 0, 0⟩ 2, .box ⟨0, 0, 0⟩ ⟨1, 5, 1⟩,
    .obb ⟨0, 0, 0⟩ ⟨3/5, 4/5, 0⟩ ⟨-4/5, 3/5, 0⟩ ⟨0, 0, 1⟩ ⟨1, 2, 3⟩], e.Valid := by
  simp [EncArg.Valid]

omit [Field α] [IsStrictOrderedRing α] in
/-- `SetFrom(points)` is `SetNegativeInfinity` followed by one `Enclose` per point, so it is the
least box of the points, whatever their number and order; enclosing more points afterwards with the
array overload of `Enclose` is the same as having passed them all. -/
theorem C16_setFrom_points (ps qs : List (V3 (Ext α))) :
    (∀ p ∈ ps, p ∈ Spec.box (AABB.ofPoints ps).minPoint (AABB.ofPoints ps).maxPoint) ∧
    (∀ mn mx, (∀ p ∈ ps, p ∈ Spec.box mn mx) →
      Spec.box (AABB.ofPoints ps).minPoint (AABB.ofPoints ps).maxPoint ⊆ Spec.box mn mx) ∧
    (AABB.ofPoints ps).enclosePoints qs = AABB.ofPoints (ps ++ qs) ∧
    (ps.Perm qs → AABB.ofPoints ps = AABB.ofPoints qs) := by
  have key : ∀ (ps : List (V3 (Ext α))) (b c : AABB (Ext α)), SubB (ps.foldl AABB.enclosePoint b) c ↔
      SubB b c ∧ ∀ p ∈ ps, p ∈ Spec.box c.minPoint c.maxPoint := by
    intro ps
    induction ps with
    | nil => intro b c; simp
    | cons p ps ih =>
      intro b c
      rw [List.foldl_cons, ih]
      have : AABB.enclosePoint b p = b.encloseMinMax p p := rfl
      rw [this, subB_encloseMinMax]
      simp only [List.forall_mem_cons, SubB, Spec.box, Set.mem_ofPred_eq]
      tauto
  have anti : ∀ a b : AABB (Ext α), SubB a b → SubB b a → a = b := by
    rintro ⟨⟨_, _, _⟩, ⟨_, _, _⟩⟩ ⟨⟨_, _, _⟩, ⟨_, _, _⟩⟩ ⟨⟨h1, h2, h3⟩, h4, h5, h6⟩ ⟨⟨g1, g2, g3⟩, g4, g5, g6⟩
    simp only at h1 h2 h3 h4 h5 h6 g1 g2 g3 g4 g5 g6
    rw [le_antisymm g1 h1, le_antisymm g2 h2, le_antisymm g3 h3, le_antisymm h4 g4, le_antisymm h5 g5,
      le_antisymm h6 g6]
  refine ⟨((key ps _ _).1 (SubB.refl _)).2, ?_, ?_, ?_⟩
  · intro mn mx H p hp
    obtain ⟨⟨a1, a2, a3⟩, b1, b2, b3⟩ := (key ps AABB.negInf ⟨mn, mx⟩).2 ⟨SubB.negInf _, H⟩
    exact ⟨a1.trans hp.1, hp.2.1.trans b1, a2.trans hp.2.2.1, hp.2.2.2.1.trans b2,
      a3.trans hp.2.2.2.2.1, hp.2.2.2.2.2.trans b3⟩
  · simp [AABB.ofPoints, AABB.enclosePoints, List.foldl_append]
  · intro hperm
    apply anti
    · refine (key ps _ _).2 ⟨SubB.negInf _, fun p hp => ?_⟩
      exact ((key qs AABB.negInf _).1 (SubB.refl _)).2 p (hperm.mem_iff.1 hp)
    · refine (key qs _ _).2 ⟨SubB.negInf _, fun p hp => ?_⟩
      exact ((key ps AABB.negInf _).1 (SubB.refl _)).2 p (hperm.mem_iff.2 hp)

example : (AABB.ofPoints [(⟨1, 2, 3⟩ : V3 ℚ).toExt, (⟨0, 5, 3⟩ : V3 ℚ).toExt]) =
    ⟨(⟨0, 2, 3⟩ : V3 ℚ).toExt, (⟨1, 5, 3⟩ : V3 ℚ).toExt⟩ := by
  simp [AABB.ofPoints, AABB.enclosePoint, AABB.negInf, f3Min, f3Max, V3.toExt, min2_eq, max2_eq, Ext.of,
    ← WithBot.coe_max, ← WithTop.coe_max, ← WithBot.coe_min, ← WithTop.coe_min]
  exact_mod_cast (by norm_num : (2 : ℚ) ≤ 5)

/-- `SetFrom(OBB)` and `SetFrom(Sphere)`: the result contains the object and each of its six faces
is touched by the object. -/
theorem C16_setFrom_object (c u v w r : V3 α) (s : α) (hs : 0 ≤ s) (hr : 0 ≤ r.x ∧ 0 ≤ r.y ∧ 0 ≤ r.z) :
    Spec.TightBox (Spec.obb c u v w r) (AABB.ofOBB c u v w r).minPoint (AABB.ofOBB c u v w r).maxPoint ∧
    Spec.TightBox (Spec.ball c s) (AABB.ofSphere ⟨c, s⟩).minPoint (AABB.ofSphere ⟨c, s⟩).maxPoint := by
  refine ⟨?_, tight_ball c s hs⟩
  have : AABB.ofOBB c u v w r = AABB.obbExtent c u v w r := by
    simp only [AABB.ofOBB, AABB.obbExtent, AABB.ofCenterAndSize, f3Abs, absF_eq, smul_x, smul_y, smul_z, abs_mul,
      abs_of_nonneg hr.1, abs_of_nonneg hr.2.1, abs_of_nonneg hr.2.2]
    congr 1 <;> ext <;> simp
  rw [this]; exact tight_obb c u v w r hr

example : (0 : ℚ) ≤ 2 ∧ (0 ≤ (⟨1, 2, 3⟩ : V3 ℚ).x ∧ 0 ≤ (⟨1, 2, 3⟩ : V3 ℚ).y ∧ 0 ≤ (⟨1, 2, 3⟩ : V3 ℚ).z) := by
  norm_num

end MGL
