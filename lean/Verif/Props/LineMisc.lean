import Verif.Proofs.LinePair
import Verif.Proofs.SetDist
import Mathlib.Tactic.NormNum
import Mathlib.Data.Rat.Defs
import Mathlib.Algebra.Order.Ring.Unbundled.Rat

/-! C63: support, projection and plane queries of line segments and lines. -/

namespace MGL
open V3

section Field
variable {α : Type*} [Field α] [LinearOrder α] [IsStrictOrderedRing α]

/-- C63: `ExtremePoint(d)` of a segment is a farthest point of it in direction `d`. -/
theorem C63_segment_extremePoint (l : LineSeg α) (d : V3 α) :
    Spec.IsExtreme (Spec.seg l.a l.b) d (l.extremePoint d) := by
  have e : ∀ t : α, dot d (l.a + t • (l.b - l.a)) = dot d l.a + t * dot d (l.b - l.a) := by
    intro t; rw [dot_add, dot_smul]
  unfold LineSeg.extremePoint
  split_ifs with h
  · refine ⟨⟨1, zero_le_one, le_rfl, (at_one _ _).symm⟩, ?_⟩
    rintro _ ⟨t, h0, h1, rfl⟩
    rw [e, ← at_one l.a l.b, e]
    rw [at_one]; nlinarith
  · refine ⟨⟨0, le_rfl, zero_le_one, (at_zero _ _).symm⟩, ?_⟩
    rintro _ ⟨t, h0, h1, rfl⟩
    rw [e]
    nlinarith [not_le.1 h]

/-- C63: `ProjectToAxis` of a segment is exactly the range of the scalar product over it. -/
theorem C63_segment_projectToAxis (l : LineSeg α) (d : V3 α) :
    Spec.IsProjection (Spec.seg l.a l.b) d (l.projectToAxis d).1 (l.projectToAxis d).2 := by
  have e : ∀ t : α, dot d (l.a + t • (l.b - l.a)) = dot d l.a + t * (dot d l.b - dot d l.a) := by
    intro t; rw [dot_add, dot_smul, dot_sub]
  have ma : l.a ∈ Spec.seg l.a l.b := ⟨0, le_rfl, zero_le_one, (at_zero _ _).symm⟩
  have mb : l.b ∈ Spec.seg l.a l.b := ⟨1, zero_le_one, le_rfl, (at_one _ _).symm⟩
  unfold LineSeg.projectToAxis
  dsimp only
  split_ifs with h
  · refine ⟨?_, ⟨_, mb, rfl⟩, ⟨_, ma, rfl⟩⟩
    rintro _ ⟨t, h0, h1, rfl⟩; rw [e]; constructor <;> nlinarith
  · refine ⟨?_, ⟨_, ma, rfl⟩, ⟨_, mb, rfl⟩⟩
    rintro _ ⟨t, h0, h1, rfl⟩; rw [e]; constructor <;> nlinarith [not_lt.1 h]

/-- C63: `LineSegment::Intersects(Plane)` decides whether the segment and the plane have a common point. -/
theorem C63_segment_intersects_plane (l : LineSeg α) (p : Plane α) :
    l.intersectsPlane p = true ↔ (Spec.seg l.a l.b ∩ Spec.plane p.normal p.d).Nonempty := by
  unfold LineSeg.intersectsPlane
  rw [decide_eq_true_iff]
  have e : ∀ t : α, dot p.normal (l.a + t • (l.b - l.a)) - p.d =
      (1 - t) * (dot p.normal l.a - p.d) + t * (dot p.normal l.b - p.d) := by
    intro t; rw [dot_add, dot_smul, dot_sub]; ring
  generalize dot p.normal l.a - p.d = x at *
  generalize dot p.normal l.b - p.d = y at *
  constructor
  · intro h
    have : ∃ t : α, 0 ≤ t ∧ t ≤ 1 ∧ (1 - t) * x + t * y = 0 := by
      rcases lt_trichotomy (x - y) 0 with hxy | hxy | hxy
      · refine ⟨x / (x - y), div_nonneg_of_nonpos ?_ hxy.le, (div_le_one_of_neg hxy).2 ?_, by field_simp [hxy.ne]; ring⟩
        · by_contra hx; push Not at hx; nlinarith
        · by_contra hy; push Not at hy; nlinarith
      · have : x = 0 := by
          have : x = y := by linarith
          subst this; nlinarith
        exact ⟨0, le_rfl, zero_le_one, by simp [this]⟩
      · refine ⟨x / (x - y), div_nonneg ?_ hxy.le, (div_le_one hxy).2 ?_, by field_simp [hxy.ne']; ring⟩
        · by_contra hx; push Not at hx; nlinarith
        · by_contra hy; push Not at hy; nlinarith
    obtain ⟨t, h0, h1, ht⟩ := this
    refine ⟨_, ⟨t, h0, h1, rfl⟩, ?_⟩
    show dot _ _ = _
    have := e t; rw [ht] at this; linarith
  · rintro ⟨_, ⟨t, h0, h1, rfl⟩, ht⟩
    have := e t
    have ht' : dot p.normal (l.a + t • (l.b - l.a)) = p.d := ht
    rw [ht', sub_self] at this
    by_contra hc
    push Not at hc
    rcases lt_trichotomy x 0 with hx | hx | hx
    · have : y < 0 := by by_contra hy; push Not at hy; nlinarith
      rcases h0.lt_or_eq with h | h
      · nlinarith
      · subst h; linarith
    · subst hx; simp at hc
    · have : 0 < y := by by_contra hy; push Not at hy; nlinarith
      rcases h0.lt_or_eq with h | h
      · nlinarith
      · subst h; linarith

/-- C63: `Line::ProjectToAxis` of a line which is exactly perpendicular to the axis, or not nearly so: the
interval it returns is exactly the range of the scalar product over the line. -/
theorem C63_line_projectToAxis_partial (l : Line α) (d : V3 α)
    (h : dot l.dir d = 0 ∨ 1 / 100000 * lenSq l.dir * lenSq d < dot l.dir d * dot l.dir d) (x : α) :
    ((l.projectToAxis d).1 ≤ Ext.of x ∧ Ext.of x ≤ (l.projectToAxis d).2) ↔ ∃ p ∈ Spec.line l.pos l.dir, dot d p = x := by
  have e : ∀ t : α, dot d (l.pos + t • l.dir) = dot d l.pos + t * dot l.dir d := by
    intro t; rw [dot_add, dot_smul, dot_comm d l.dir]
  unfold Line.projectToAxis
  dsimp only
  rcases h with h | h
  · have : dot l.dir d * dot l.dir d ≤ 1 / 100000 * lenSq l.dir * lenSq d := by
      rw [h, mul_zero]
      exact mul_nonneg (mul_nonneg (by norm_num) (lenSq_nonneg _)) (lenSq_nonneg _)
    rw [if_pos this]
    simp only [WithBot.coe_le_coe, WithTop.coe_le_coe]
    constructor
    · rintro ⟨h1, h2⟩
      exact ⟨_, ⟨0, rfl⟩, by rw [e]; linarith [le_antisymm h1 h2]⟩
    · rintro ⟨_, ⟨t, rfl⟩, rfl⟩
      rw [e, h]; constructor <;> linarith
  · rw [if_neg (not_le.2 h)]
    have hne : dot l.dir d ≠ 0 := by
      intro h0; rw [h0, mul_zero] at h
      exact absurd h (not_lt.2 (mul_nonneg (mul_nonneg (by norm_num) (lenSq_nonneg _)) (lenSq_nonneg _)))
    refine ⟨fun _ => ⟨_, ⟨(x - dot d l.pos) / dot l.dir d, rfl⟩, by rw [e]; field_simp; ring⟩, fun _ => ⟨bot_le, le_top⟩⟩

example : (1 : ℚ) / 100000 * lenSq (⟨1, 0, 0⟩ : V3 ℚ) * lenSq (⟨1, 1, 0⟩ : V3 ℚ) <
    dot (⟨1, 0, 0⟩ : V3 ℚ) ⟨1, 1, 0⟩ * dot (⟨1, 0, 0⟩ : V3 ℚ) ⟨1, 1, 0⟩ := by norm_num [lenSq, dot]

/-- C63 fails for lines within about 0.18 degrees of perpendicular: the projection is reported as a
single point although it is the whole axis. -/
theorem C63_line_projectToAxis_violation : ∃ (l : Line ℚ) (d p : V3 ℚ), lenSq l.dir = 1 ∧
    p ∈ Spec.line l.pos l.dir ∧ (l.projectToAxis d).2 < Ext.of (dot d p) := by
  refine ⟨⟨⟨0, 0, 0⟩, ⟨1, 0, 0⟩⟩, ⟨1, 1000, 0⟩, ⟨7, 0, 0⟩, by norm_num [lenSq, dot], ⟨7, by ext <;> simp⟩, ?_⟩
  have : (Line.projectToAxis ⟨⟨0, 0, 0⟩, ⟨1, 0, 0⟩⟩ (⟨1, 1000, 0⟩ : V3 ℚ)).2 = Ext.of 0 := by
    unfold Line.projectToAxis
    dsimp only
    rw [if_pos (by norm_num [lenSq, dot])]
    simp [dot]
  rw [this]
  norm_num [dot]

end Field

/-- C63: `LineSegment::Distance(Plane)` is the distance of the segment and the plane. -/
theorem C63_segment_distance_plane (l : LineSeg ℝ) (p : Plane ℝ) (hp : lenSq p.normal = 1) :
    Spec.IsSetDist (Spec.seg l.a l.b) (Spec.plane p.normal p.d) (l.distancePlane p) := by
  have low : ∀ x y : V3 ℝ, y ∈ Spec.plane p.normal p.d → |dot p.normal x - p.d| ≤ V3.dist x y := by
    intro x y hy
    have hy' : dot p.normal y = p.d := hy
    have : dot p.normal x - p.d = dot p.normal (x - y) := by rw [dot_sub, hy']
    rw [this, dist_eq_len, abs_le]
    have u : len p.normal = 1 := by unfold len; rw [hp]; simp
    have h1 := dot_le_len p.normal (x - y)
    have h2 := dot_le_len p.normal (-(x - y))
    rw [u, one_mul] at h1 h2
    have e : len (-(x - y)) = len (x - y) := by unfold len lenSq; rw [neg_dot, dot_neg, neg_neg]
    rw [dot_neg, e] at h2
    constructor <;> linarith
  have att : ∀ x : V3 ℝ, ∃ y ∈ Spec.plane p.normal p.d, V3.dist x y = |dot p.normal x - p.d| := by
    intro x
    refine ⟨x - (dot p.normal x - p.d) • p.normal, ?_, ?_⟩
    · show dot _ _ = _
      rw [dot_sub, dot_smul]
      have : dot p.normal p.normal = 1 := hp
      rw [this]; ring
    · have : x - (x - (dot p.normal x - p.d) • p.normal) = (dot p.normal x - p.d) • p.normal := by ext <;> simp
      rw [dist_eq_len, this, len_smul]
      have u : len p.normal = 1 := by unfold len; rw [hp]; simp
      rw [u, mul_one]
  have e : ∀ t : ℝ, dot p.normal (l.a + t • (l.b - l.a)) - p.d =
      (1 - t) * (dot p.normal l.a - p.d) + t * (dot p.normal l.b - p.d) := by
    intro t; rw [dot_add, dot_smul, dot_sub]; ring
  have ma : l.a ∈ Spec.seg l.a l.b := ⟨0, le_rfl, zero_le_one, (at_zero _ _).symm⟩
  have mb : l.b ∈ Spec.seg l.a l.b := ⟨1, zero_le_one, le_rfl, (at_one _ _).symm⟩
  unfold LineSeg.distancePlane
  dsimp only
  split_ifs with h
  · obtain ⟨x, hx, hx'⟩ := (C63_segment_intersects_plane l p).1 (by
      unfold LineSeg.intersectsPlane; rw [decide_eq_true_iff]; exact h.le)
    exact ⟨fun s _ t _ => dist_nonneg _ _, x, hx, x, hx', dist_self x⟩
  · rw [min2_eq, absF_eq, absF_eq]
    push Not at h
    constructor
    · rintro _ ⟨t, h0, h1, rfl⟩ y hy
      refine le_trans ?_ (low _ y hy)
      rw [e]
      generalize dot p.normal l.a - p.d = a at *
      generalize dot p.normal l.b - p.d = b at *
      rcases le_total 0 a with ha | ha
      · by_cases ha0 : a = 0
        · exact (min_le_left _ _).trans (by rw [ha0, abs_zero]; exact abs_nonneg _)
        have hb : 0 ≤ b := by
          by_contra hb; push Not at hb
          have : 0 < a := lt_of_le_of_ne ha (Ne.symm ha0)
          nlinarith
        rw [abs_of_nonneg ha, abs_of_nonneg hb, abs_of_nonneg (by nlinarith)]
        rcases le_total a b with hab | hab
        · rw [min_eq_left hab]; nlinarith
        · rw [min_eq_right hab]; nlinarith
      · by_cases ha0 : a = 0
        · exact (min_le_left _ _).trans (by rw [ha0, abs_zero]; exact abs_nonneg _)
        have hb : b ≤ 0 := by
          by_contra hb; push Not at hb
          have : a < 0 := lt_of_le_of_ne ha ha0
          nlinarith
        rw [abs_of_nonpos ha, abs_of_nonpos hb, abs_of_nonpos (by nlinarith)]
        rcases le_total a b with hab | hab
        · rw [min_eq_right (by linarith)]; nlinarith
        · rw [min_eq_left (by linarith)]; nlinarith
    · rcases min_choice |dot p.normal l.a - p.d| |dot p.normal l.b - p.d| with hm | hm
      · obtain ⟨y, hy, hd⟩ := att l.a
        exact ⟨_, ma, y, hy, by rw [hm, hd]⟩
      · obtain ⟨y, hy, hd⟩ := att l.b
        exact ⟨_, mb, y, hy, by rw [hm, hd]⟩

example := C63_segment_distance_plane ⟨⟨1, 0, 0⟩, ⟨3, 0, 4⟩⟩ ⟨⟨3/5, 0, 4/5⟩, 2⟩ (by norm_num [lenSq, dot])

end MGL
