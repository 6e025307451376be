import Verif.Proofs.Plane
import Verif.Props.AABB
import Verif.Props.Mat3
import Verif.Props.Mat34
import Verif.Props.LineMisc
import Verif.Spec.Affine

/-! C24, C25: distances, projections and mirroring of planes; moving planes. -/

namespace MGL
open V3

section Field
variable {α : Type*} [Field α] [LinearOrder α] [IsStrictOrderedRing α]

/-- C24: `Project` returns the point of the plane nearest to the given point. -/
theorem C24_project (p : Plane α) (h : lenSq p.normal = 1) (x : V3 α) :
    Spec.IsClosestPoint (Spec.plane p.normal p.d) x (p.project x) := by
  constructor
  · rw [Plane.mem_iff]
    exact (p.sd_sub_normal h x _).trans (by unfold Plane.signedDistance; ring)
  · intro s hs
    rw [Plane.mem_iff] at hs
    have h1 := p.sd_lipschitz h x s
    rw [hs, sub_zero] at h1
    exact (p.distSq_move h x (p.signedDistance x)).le.trans h1

example : lenSq (⟨3/5, 0, 4/5⟩ : V3 ℚ) = 1 ∧ (Plane.mk (⟨3/5, 0, 4/5⟩ : V3 ℚ) 2).project ⟨5, 1, 5⟩ = ⟨2, 1, 1⟩ := by
  constructor
  · norm_num [lenSq, dot]
  · ext <;> norm_num [Plane.project, dot]

/-- C24: `Mirror` is an involution, negates `SignedDistance`, fixes exactly the points of the plane, keeps
distances, and is what `MirrorMatrix` does. -/
theorem C24_mirror (p : Plane α) (h : lenSq p.normal = 1) (x y : V3 α) :
    p.mirror (p.mirror x) = x ∧ p.signedDistance (p.mirror x) = -p.signedDistance x ∧
    (p.mirror x = x ↔ x ∈ Spec.plane p.normal p.d) ∧ distSq (p.mirror x) (p.mirror y) = distSq x y ∧
    Mat34.mulPos p.mirrorMatrix x = p.mirror x := by
  have e : ∀ x, p.mirror x = x - (2 * p.signedDistance x) • p.normal := by
    intro x; unfold Plane.mirror Plane.signedDistance; rw [dot_comm]
  have hn : dot p.normal p.normal = 1 := h
  have s : ∀ x, p.signedDistance (p.mirror x) = -p.signedDistance x := by
    intro x; rw [e, p.sd_sub_normal h]; ring
  refine ⟨?_, s x, ?_, ?_, ?_⟩
  · rw [e (p.mirror x), s, e]; ext <;> simp <;> ring
  · rw [p.mem_iff, e]
    constructor
    · intro h2
      have := congrArg p.signedDistance h2
      rw [p.sd_sub_normal h] at this; linarith
    · intro h2; rw [h2]; ext <;> simp
  · rw [e, e]
    have e1 : x - (2 * p.signedDistance x) • p.normal - (y - (2 * p.signedDistance y) • p.normal) =
      (x - y) - (2 * dot p.normal (x - y)) • p.normal := by
      rw [dot_sub]; unfold Plane.signedDistance; ext <;> simp <;> ring
    show dot _ _ = dot _ _
    rw [e1]; simp only [dot_sub, sub_dot, dot_smul, smul_dot, hn, dot_comm x p.normal, dot_comm y p.normal]
    ring
  · unfold Plane.mirrorMatrix Plane.mirror
    rw [(C38_mirror p.normal p.d h x).1, dot_comm]

example : (Plane.mk (⟨3/5, 0, 4/5⟩ : V3 ℚ) 2).mirror ⟨5, 1, 5⟩ = ⟨-1, 1, -3⟩ := by
  ext <;> norm_num [Plane.mirror, dot]

/-- C24: the matrix `OrthoProjection()` does what `Project` does. -/
theorem C24_orthoProjection (p : Plane α) (x : V3 α) (h : lenSq p.normal = 1) :
    Mat34.mulPos p.orthoProjection x = p.project x := by
  unfold Plane.orthoProjection Plane.project
  exact (C38_project p.normal p.d h x).1

example := C24_orthoProjection (⟨⟨3/5, 0, 4/5⟩, 2⟩ : Plane ℚ) ⟨5, 1, 5⟩ (by norm_num [lenSq, dot])

/-- C24: `ProjectToNegativeHalf` returns the nearest point of the closed half space behind the plane,
`ProjectToPositiveHalf` that of the closed half space in front of it. -/
theorem C24_halfspaces (p : Plane α) (h : lenSq p.normal = 1) (x : V3 α) :
    Spec.IsClosestPoint {y | dot p.normal y ≤ p.d} x (p.projectToNegativeHalf x) ∧
    Spec.IsClosestPoint {y | p.d ≤ dot p.normal y} x (p.projectToPositiveHalf x) := by
  have sd : ∀ y, dot p.normal y = p.signedDistance y + p.d := by intro y; unfold Plane.signedDistance; ring
  have en : p.projectToNegativeHalf x = x - max 0 (p.signedDistance x) • p.normal := by
    unfold Plane.projectToNegativeHalf Plane.signedDistance; rw [max2_eq]
  have ep : p.projectToPositiveHalf x = x - min 0 (p.signedDistance x) • p.normal := by
    unfold Plane.projectToPositiveHalf Plane.signedDistance; rw [min2_eq]
  constructor
  · constructor
    · show dot _ _ ≤ _
      rw [sd, en, p.sd_sub_normal h]; linarith [le_max_right 0 (p.signedDistance x)]
    · intro s hs
      have hs : dot p.normal s ≤ p.d := hs
      rw [en, p.distSq_move h]
      rcases le_total (p.signedDistance x) 0 with h0 | h0
      · rw [max_eq_left h0, mul_zero]; exact distSq_nonneg _ _
      · rw [max_eq_right h0]
        refine le_trans ?_ (p.sd_lipschitz h x s)
        rw [sd] at hs
        exact mul_self_le_mul_self h0 (by linarith)
  · constructor
    · show _ ≤ dot _ _
      rw [sd, ep, p.sd_sub_normal h]; linarith [min_le_right 0 (p.signedDistance x)]
    · intro s hs
      have hs : p.d ≤ dot p.normal s := hs
      rw [ep, p.distSq_move h]
      rcases le_total (p.signedDistance x) 0 with h0 | h0
      · rw [min_eq_right h0]
        refine le_trans ?_ (p.sd_lipschitz h x s)
        rw [sd] at hs
        have := mul_self_le_mul_self (neg_nonneg.2 h0) (show -p.signedDistance x ≤ -(p.signedDistance x - p.signedDistance s) by linarith)
        linarith
      · rw [min_eq_left h0, mul_zero]; exact distSq_nonneg _ _

example := C24_halfspaces (⟨⟨3/5, 0, 4/5⟩, 2⟩ : Plane ℚ) (by norm_num [lenSq, dot]) ⟨5, 1, 5⟩

/-- C24: `ReverseNormal` describes the same set of points with all signed distances negated. -/
theorem C24_reverseNormal (p : Plane α) :
    Spec.plane p.reverseNormal.normal p.reverseNormal.d = Spec.plane p.normal p.d ∧
    ∀ x, p.reverseNormal.signedDistance x = -p.signedDistance x := by
  have e : ∀ x, p.reverseNormal.signedDistance x = -p.signedDistance x := by
    intro x; simp only [Plane.signedDistance, Plane.reverseNormal, neg_dot]; ring
  refine ⟨?_, e⟩
  ext x; rw [Plane.mem_iff, Plane.mem_iff, e, neg_eq_zero]

/-- C24: `PointOnPlane()` lies on the plane and is its point nearest to the origin; the plane made from a
point and a normal contains exactly the points that are perpendicular to the normal, seen from the point. -/
theorem C24_pointOnPlane (p : Plane α) (h : lenSq p.normal = 1) (pt n x : V3 α) :
    Spec.IsClosestPoint (Spec.plane p.normal p.d) 0 p.pointOnPlane ∧
    (x ∈ Spec.plane (Plane.setPointNormal pt n).normal (Plane.setPointNormal pt n).d ↔ dot n (x - pt) = 0) := by
  constructor
  · have := C24_project p h 0
    have e : p.project 0 = p.pointOnPlane := by
      unfold Plane.project Plane.pointOnPlane; rw [dot_zero]; ext <;> simp
    rwa [e] at this
  · rw [Plane.mem_iff, dot_sub]
    unfold Plane.setPointNormal Plane.signedDistance
    rw [dot_comm pt n]

example := C24_pointOnPlane (⟨⟨3/5, 0, 4/5⟩, 2⟩ : Plane ℚ) (by norm_num [lenSq, dot]) ⟨5, 1, 5⟩ ⟨0, 1, 0⟩

/-- C24: the projection of a segment (triangle) consists exactly of the projections of its points. -/
theorem C24_project_segment (p : Plane α) (l : LineSeg α) :
    Spec.seg (p.projectSeg l).a (p.projectSeg l).b = p.project '' Spec.seg l.a l.b := by
  have e : ∀ t : α, p.project (l.a + t • (l.b - l.a)) = p.project l.a + t • (p.project l.b - p.project l.a) := by
    intro t; unfold Plane.project; simp only [dot_add, dot_smul, dot_sub]; ext <;> simp <;> ring
  ext x; constructor
  · rintro ⟨t, h0, h1, rfl⟩; exact ⟨_, ⟨t, h0, h1, rfl⟩, e t⟩
  · rintro ⟨_, ⟨t, h0, h1, rfl⟩, rfl⟩; exact ⟨t, h0, h1, e t⟩

/-- C24: the projection of a triangle consists exactly of the projections of its points. -/
theorem C24_project_triangle (p : Plane α) (t : Tri α) :
    Spec.tri (p.projectTri t).a (p.projectTri t).b (p.projectTri t).c = p.project '' Spec.tri t.a t.b t.c := by
  have e : ∀ u v w : α, u + v + w = 1 → p.project (u • t.a + v • t.b + w • t.c) =
      u • p.project t.a + v • p.project t.b + w • p.project t.c := by
    intro u v w h
    unfold Plane.project; simp only [dot_add, dot_smul]
    ext <;> simp
    · linear_combination (-p.d * p.normal.x) * h
    · linear_combination (-p.d * p.normal.y) * h
    · linear_combination (-p.d * p.normal.z) * h
  ext x; constructor
  · rintro ⟨u, v, w, hu, hv, hw, h1, rfl⟩; exact ⟨_, ⟨u, v, w, hu, hv, hw, h1, rfl⟩, e u v w h1⟩
  · rintro ⟨_, ⟨u, v, w, hu, hv, hw, h1, rfl⟩, rfl⟩; exact ⟨u, v, w, hu, hv, hw, h1, e u v w h1⟩

/-- C24: `IsOnPositiveSide`, `AreOnSameSide`: the closed half space in front of the plane, and lying in a
common closed half space. -/
theorem C24_sides (p : Plane α) (x y : V3 α) :
    (p.isOnPositiveSide x = true ↔ p.d ≤ dot p.normal x) ∧
    (p.areOnSameSide x y = true ↔
      (p.d ≤ dot p.normal x ∧ p.d ≤ dot p.normal y) ∨ (dot p.normal x ≤ p.d ∧ dot p.normal y ≤ p.d)) ∧
    (p.isInPositiveDirection x = true ↔ ∀ q, p.d ≤ dot p.normal q → p.d ≤ dot p.normal (q + x)) := by
  refine ⟨?_, ?_, ?_⟩
  · unfold Plane.isOnPositiveSide Plane.signedDistance; rw [decide_eq_true_iff]
    exact sub_nonneg
  · unfold Plane.areOnSameSide Plane.signedDistance; rw [decide_eq_true_iff, ge_iff_le, mul_nonneg_iff]
    simp only [sub_nonneg, sub_nonpos]
  · unfold Plane.isInPositiveDirection; rw [decide_eq_true_iff]
    constructor
    · intro h q hq; rw [dot_add]; linarith
    · intro h
      by_cases hz : p.normal = 0
      · rw [hz]; simp
      · have hl := lenSq_pos hz
        have hl' : dot p.normal p.normal = lenSq p.normal := rfl
        have := h ((p.d / lenSq p.normal) • p.normal) (by rw [dot_smul, hl', div_mul_cancel₀ _ hl.ne'])
        rw [dot_add, dot_smul, hl', div_mul_cancel₀ _ hl.ne'] at this
        linarith

end Field

/-- C24: the absolute value of `SignedDistance(x)`, which is `Distance(x)`, is the distance of `x` to the
plane, and the sign tells the side the normal points to. -/
theorem C24_signedDistance (p : Plane ℝ) (h : lenSq p.normal = 1) (x : V3 ℝ) :
    Spec.IsSetDist {x} (Spec.plane p.normal p.d) |p.signedDistance x| ∧ p.distance x = |p.signedDistance x| ∧
    (∃ y ∈ Spec.plane p.normal p.d, x = y + p.signedDistance x • p.normal) := by
  refine ⟨?_, absF_eq _, p.project x, (C24_project p h x).1, ?_⟩
  · have := setDist_symm (setDist_of_point (C24_project p h x))
    have e : V3.dist (p.project x) x = |p.signedDistance x| := by
      rw [V3.dist_comm]; unfold V3.dist
      rw [show distSq x (p.project x) = _ from p.distSq_move h x (p.signedDistance x), Real.sqrt_mul_self_eq_abs]
    rwa [e] at this
  · unfold Plane.project Plane.signedDistance; ext <;> simp

example := C24_signedDistance ⟨⟨3/5, 0, 4/5⟩, 2⟩ (by norm_num [lenSq, dot]) ⟨5, 1, 5⟩

/-- The half-line of reasoning shared by all `SignedDistance(object)`: see `C24_signedDistance_objects`. -/
theorem Plane.signedDistanceProj_spec (p : Plane ℝ) (h : lenSq p.normal = 1) (S : Set (V3 ℝ))
    (hc : ∀ a ∈ S, ∀ b ∈ S, Spec.seg a b ⊆ S) (lo hi : ℝ) (hp : Spec.IsProjection S p.normal lo hi) :
    Spec.IsSetDist S (Spec.plane p.normal p.d) |p.signedDistanceProj (lo, hi)| ∧
    (0 < p.signedDistanceProj (lo, hi) ↔ ∀ s ∈ S, p.d < dot p.normal s) ∧
    (p.signedDistanceProj (lo, hi) < 0 ↔ ∀ s ∈ S, dot p.normal s < p.d) := by
  obtain ⟨hb, ⟨a, ha, hla⟩, ⟨b, hbS, hhb⟩⟩ := hp
  have hlh : lo ≤ hi := by rw [← hla]; exact (hb a ha).2
  have hd : ∀ s ∈ S, ∀ t ∈ Spec.plane p.normal p.d, |p.signedDistance s| ≤ V3.dist s t := by
    intro s _ t ht
    exact (C24_signedDistance p h s).1.1 s rfl t ht
  have hat : ∀ s ∈ S, ∃ t ∈ Spec.plane p.normal p.d, V3.dist s t = |p.signedDistance s| := by
    intro s _
    obtain ⟨s', hs', t, ht, e⟩ := (C24_signedDistance p h s).1.2
    have : s' = s := hs'
    subst this
    exact ⟨t, ht, e⟩
  unfold Plane.signedDistanceProj
  simp only [absF_eq]
  by_cases h0 : (lo - p.d) * (hi - p.d) ≤ 0
  · rw [if_pos h0]
    have hlo : lo - p.d ≤ 0 := by by_contra hc'; push Not at hc'; nlinarith
    have hhi : 0 ≤ hi - p.d := by by_contra hc'; push Not at hc'; nlinarith
    have hcross := (C63_segment_intersects_plane ⟨a, b⟩ p).1 (by
      unfold LineSeg.intersectsPlane; rw [decide_eq_true_iff]; show (dot p.normal a - p.d) * (dot p.normal b - p.d) ≤ 0
      rw [hla, hhb]; exact h0)
    obtain ⟨c, hcs, hcp⟩ := hcross
    refine ⟨⟨fun s _ t _ => by rw [abs_zero]; exact V3.dist_nonneg _ _, c, hc a ha b hbS hcs, c, hcp, by simp⟩, ?_, ?_⟩
    · refine ⟨fun hx => absurd hx (lt_irrefl _), fun hx => ?_⟩
      have := hx a ha; rw [hla] at this; linarith
    · refine ⟨fun hx => absurd hx (lt_irrefl _), fun hx => ?_⟩
      have := hx b hbS; rw [hhb] at this; linarith
  · rw [if_neg h0]
    push Not at h0
    rcases lt_or_ge 0 (lo - p.d) with hpos | hneg
    · have hpos2 : 0 < hi - p.d := by linarith
      have e : (if |lo - p.d| < |hi - p.d| then lo - p.d else hi - p.d) = lo - p.d := by
        rw [abs_of_pos hpos, abs_of_pos hpos2]
        split_ifs with hx
        · rfl
        · linarith
      rw [e]
      refine ⟨⟨?_, ?_⟩, ?_, ?_⟩
      · intro s hs t ht
        refine le_trans ?_ (hd s hs t ht)
        have := (hb s hs).1
        rw [abs_of_pos hpos, Plane.signedDistance, abs_of_pos (by linarith)]; linarith
      · obtain ⟨t, ht, e⟩ := hat a ha
        refine ⟨a, ha, t, ht, e.trans ?_⟩
        rw [Plane.signedDistance, hla]
      · exact ⟨fun _ s hs => by linarith [(hb s hs).1], fun _ => hpos⟩
      · refine ⟨fun hx => absurd hx (not_lt.2 hpos.le), fun hx => ?_⟩
        have := hx a ha; rw [hla] at this; linarith
    · have hhi : hi - p.d < 0 := by by_contra hc'; push Not at hc'; nlinarith
      have hlo : lo - p.d < 0 := by linarith
      have e : (if |lo - p.d| < |hi - p.d| then lo - p.d else hi - p.d) = hi - p.d := by
        rw [abs_of_neg hlo, abs_of_neg hhi]
        split_ifs with hx
        · linarith
        · rfl
      rw [e]
      refine ⟨⟨?_, ?_⟩, ?_, ?_⟩
      · intro s hs t ht
        refine le_trans ?_ (hd s hs t ht)
        have := (hb s hs).2
        rw [abs_of_neg hhi, Plane.signedDistance, abs_of_neg (by linarith)]; linarith
      · obtain ⟨t, ht, e⟩ := hat b hbS
        refine ⟨b, hbS, t, ht, e.trans ?_⟩
        rw [Plane.signedDistance, hhb]
      · refine ⟨fun hx => absurd hx (not_lt.2 hhi.le), fun hx => ?_⟩
        have := hx b hbS; rw [hhb] at this; linarith
      · exact ⟨fun _ s hs => by linarith [(hb s hs).2], fun _ => hhi⟩


theorem seg_convex (a b : V3 ℝ) : ∀ x ∈ Spec.seg a b, ∀ y ∈ Spec.seg a b, Spec.seg x y ⊆ Spec.seg a b := by
  rintro _ ⟨s, hs0, hs1, rfl⟩ _ ⟨t, ht0, ht1, rfl⟩ _ ⟨k, hk0, hk1, rfl⟩
  refine ⟨s + k * (t - s), by nlinarith, by nlinarith, ?_⟩
  ext <;> simp <;> ring

theorem tri_convex (a b c : V3 ℝ) : ∀ x ∈ Spec.tri a b c, ∀ y ∈ Spec.tri a b c, Spec.seg x y ⊆ Spec.tri a b c := by
  rintro _ ⟨u, v, w, hu, hv, hw, h1, rfl⟩ _ ⟨u', v', w', hu', hv', hw', h1', rfl⟩ _ ⟨k, hk0, hk1, rfl⟩
  have hk : 0 ≤ 1 - k := by linarith
  refine ⟨(1 - k) * u + k * u', (1 - k) * v + k * v', (1 - k) * w + k * w',
    add_nonneg (mul_nonneg hk hu) (mul_nonneg hk0 hu'), add_nonneg (mul_nonneg hk hv) (mul_nonneg hk0 hv'),
    add_nonneg (mul_nonneg hk hw) (mul_nonneg hk0 hw'), by linear_combination (1 - k) * h1 + k * h1', ?_⟩
  ext <;> simp <;> ring

theorem box_convex (lo hi : V3 ℝ) : ∀ x ∈ Spec.box lo hi, ∀ y ∈ Spec.box lo hi, Spec.seg x y ⊆ Spec.box lo hi := by
  rintro x hx y hy _ ⟨k, hk0, hk1, rfl⟩
  simp only [Spec.box, Set.mem_ofPred_eq] at hx hy ⊢
  simp
  refine ⟨?_, ?_, ?_, ?_, ?_, ?_⟩ <;> nlinarith

theorem ball_convex (c : V3 ℝ) (r : ℝ) (hr : 0 ≤ r) :
    ∀ x ∈ Spec.ball c r, ∀ y ∈ Spec.ball c r, Spec.seg x y ⊆ Spec.ball c r := by
  rintro x hx y hy _ ⟨k, hk0, hk1, rfl⟩
  have hx : distSq x c ≤ r * r := hx
  have hy : distSq y c ≤ r * r := hy
  show distSq _ c ≤ r * r
  have e : distSq (x + k • (y - x)) c = (1 - k) * distSq x c + k * distSq y c - k * (1 - k) * distSq x y := by
    simp only [distSq_eq]; simp; ring
  rw [e]
  have := mul_nonneg (mul_nonneg hk0 (sub_nonneg.2 hk1)) (distSq_nonneg x y)
  nlinarith

/-- C24: the projection of a triangle on an axis, as `Triangle::ProjectToAxis` computes it. -/
theorem C24_triangle_projectToAxis {α : Type*} [Field α] [LinearOrder α] [IsStrictOrderedRing α]
    (t : Tri α) (d : V3 α) :
    Spec.IsProjection (Spec.tri t.a t.b t.c) d (t.projectToAxis d).1 (t.projectToAxis d).2 := by
  have ma : t.a ∈ Spec.tri t.a t.b t.c := ⟨1, 0, 0, zero_le_one, le_rfl, le_rfl, by simp, by ext <;> simp⟩
  have mb : t.b ∈ Spec.tri t.a t.b t.c := ⟨0, 1, 0, le_rfl, zero_le_one, le_rfl, by simp, by ext <;> simp⟩
  have mc : t.c ∈ Spec.tri t.a t.b t.c := ⟨0, 0, 1, le_rfl, le_rfl, zero_le_one, by simp, by ext <;> simp⟩
  unfold Tri.projectToAxis
  dsimp only
  rw [min2_eq, min2_eq, max2_eq, max2_eq]
  refine ⟨?_, ?_, ?_⟩
  · rintro _ ⟨u, v, w, hu, hv, hw, h1, rfl⟩
    simp only [dot_add, dot_smul]
    generalize dot d t.a = a; generalize dot d t.b = b; generalize dot d t.c = c
    have hu' : u = 1 - v - w := by linarith
    constructor
    · have h1 : min c (min b a) ≤ c := min_le_left _ _
      have h2 : min c (min b a) ≤ b := (min_le_right _ _).trans (min_le_left _ _)
      have h3 : min c (min b a) ≤ a := (min_le_right _ _).trans (min_le_right _ _)
      have := mul_le_mul_of_nonneg_left h1 hw
      have := mul_le_mul_of_nonneg_left h2 hv
      have := mul_le_mul_of_nonneg_left h3 hu
      subst hu'; linarith
    · have h1 : c ≤ max c (max b a) := le_max_left _ _
      have h2 : b ≤ max c (max b a) := (le_max_left _ _).trans (le_max_right _ _)
      have h3 : a ≤ max c (max b a) := (le_max_right _ _).trans (le_max_right _ _)
      have := mul_le_mul_of_nonneg_left h1 hw
      have := mul_le_mul_of_nonneg_left h2 hv
      have := mul_le_mul_of_nonneg_left h3 hu
      subst hu'; linarith
  · rcases min_choice (dot d t.c) (min (dot d t.b) (dot d t.a)) with h | h
    · exact ⟨_, mc, h.symm⟩
    · rcases min_choice (dot d t.b) (dot d t.a) with h' | h'
      · exact ⟨_, mb, (h.trans h').symm⟩
      · exact ⟨_, ma, (h.trans h').symm⟩
  · rcases max_choice (dot d t.c) (max (dot d t.b) (dot d t.a)) with h | h
    · exact ⟨_, mc, h.symm⟩
    · rcases max_choice (dot d t.b) (dot d t.a) with h' | h'
      · exact ⟨_, mb, (h.trans h').symm⟩
      · exact ⟨_, ma, (h.trans h').symm⟩

theorem ball_projection (c n : V3 ℝ) (r : ℝ) (hr : 0 ≤ r) (h : lenSq n = 1) :
    Spec.IsProjection (Spec.ball c r) n (dot n c - r) (dot n c + r) := by
  have hn : dot n n = 1 := h
  refine ⟨?_, ⟨c - r • n, ?_, ?_⟩, ⟨c + r • n, ?_, ?_⟩⟩
  · intro s hs
    have hs : distSq s c ≤ r * r := hs
    have := cauchy n (s - c)
    rw [h, one_mul, dot_sub] at this
    have h2 := abs_le_of_sq_le_sq' (a := dot n s - dot n c) (b := r)
      (by rw [sq, sq]; exact this.trans hs) hr
    constructor <;> linarith [h2.1, h2.2]
  · show lenSq (c - r • n - c) ≤ _
    have e : c - r • n - c = (-r) • n := by ext <;> simp
    rw [e]; show dot _ _ ≤ _; rw [dot_smul, smul_dot, hn]; linarith
  · rw [dot_sub, dot_smul, hn]; ring
  · show lenSq (c + r • n - c) ≤ _
    have e : c + r • n - c = r • n := by ext <;> simp
    rw [e]; show dot _ _ ≤ _; rw [dot_smul, smul_dot, hn]; linarith
  · rw [dot_add, dot_smul, hn]; ring

/-- C24: `SignedDistance` of boxes, segments, triangles and spheres. -/
theorem C24_signedDistance_objects (p : Plane ℝ) (h : lenSq p.normal = 1) :
    (∀ b : AABB ℝ, b.Proper → Spec.IsSignedDist (Spec.box b.minPoint b.maxPoint) p.normal p.d (p.signedDistanceAABB b)) ∧
    (∀ l : LineSeg ℝ, Spec.IsSignedDist (Spec.seg l.a l.b) p.normal p.d (p.signedDistanceSeg l)) ∧
    (∀ t : Tri ℝ, Spec.IsSignedDist (Spec.tri t.a t.b t.c) p.normal p.d (p.signedDistanceTri t)) ∧
    (∀ s : Sphere ℝ, 0 ≤ s.r → Spec.IsSignedDist (Spec.ball s.pos s.r) p.normal p.d (p.signedDistanceSphere s)) := by
  refine ⟨fun b hb => ?_, fun l => ?_, fun t => ?_, fun s hs => ?_⟩
  · exact p.signedDistanceProj_spec h _ (box_convex _ _) _ _ (C19_projectToAxis b hb p.normal)
  · exact p.signedDistanceProj_spec h _ (seg_convex _ _) _ _ (C63_segment_projectToAxis l p.normal)
  · exact p.signedDistanceProj_spec h _ (tri_convex _ _ _) _ _ (C24_triangle_projectToAxis t p.normal)
  · exact p.signedDistanceProj_spec h _ (ball_convex _ _ hs) _ _ (ball_projection s.pos p.normal s.r hs h)

example : (Plane.mk (⟨0, 0, 1⟩ : V3 ℚ) 2).signedDistanceTri ⟨⟨0, 0, 0⟩, ⟨1, 0, 1⟩, ⟨0, 1, -1⟩⟩ = -1 := by
  norm_num [Plane.signedDistanceTri, Plane.signedDistanceProj, Tri.projectToAxis, min2, max2, absF, dot]

/-- C24: `Distance(Sphere)` and `Distance(Capsule)` are the distances of the filled objects and the plane. -/
theorem C24_distance_objects (p : Plane ℝ) (h : lenSq p.normal = 1) :
    (∀ s : Sphere ℝ, 0 ≤ s.r → Spec.IsSetDist (Spec.ball s.pos s.r) (Spec.plane p.normal p.d) (p.distanceSphere s)) ∧
    (∀ (l : LineSeg ℝ) (r : ℝ), 0 ≤ r → Spec.IsSetDist (Spec.capsule l.a l.b r) (Spec.plane p.normal p.d) (p.distanceCapsule l r)) := by
  constructor
  · intro s hs
    have h1 := setDist_thicken (setDist_symm (C24_signedDistance p h s.pos).1) hs
    rw [← ball_eq_thicken] at h1
    unfold Plane.distanceSphere
    rw [max2_eq, (C24_signedDistance p h s.pos).2.1]
    exact setDist_symm h1
  · intro l r hr
    have h1 := setDist_thicken (setDist_symm (C63_segment_distance_plane l p h)) hr
    unfold Plane.distanceCapsule
    rw [max2_eq]
    exact setDist_symm h1

example := C24_distance_objects ⟨⟨3/5, 0, 4/5⟩, 2⟩ (by norm_num [lenSq, dot])

/-! ### C25 -/

section Field
variable {α : Type*} [Field α] [LinearOrder α] [IsStrictOrderedRing α]

/-- C25 fails for `Translate`: the translated plane does not contain the translated points. -/
theorem C25_translate_violation : ∃ (p : Plane ℚ) (o x : V3 ℚ), lenSq p.normal = 1 ∧
    x ∈ Spec.plane p.normal p.d ∧ x + o ∉ Spec.plane (p.translate o).normal (p.translate o).d := by
  refine ⟨⟨⟨0, 0, 1⟩, 2⟩, ⟨0, 0, 3⟩, ⟨1, 1, 2⟩, by norm_num [lenSq, dot], by simp [Spec.plane, dot], ?_⟩
  simp only [Spec.plane, Plane.translate, Set.mem_ofPred_eq]; norm_num [dot]

/-- C25, what `Translate(offset)` does instead: it moves the plane by `-offset`. The property asks for
`x + offset` on the left. -/
theorem C25_translate_partial (p : Plane α) (o x : V3 α) :
    x - o ∈ Spec.plane (p.translate o).normal (p.translate o).d ↔ x ∈ Spec.plane p.normal p.d := by
  rw [Plane.mem_iff, Plane.mem_iff]
  unfold Plane.translate Plane.signedDistance
  rw [dot_sub]
  constructor <;> intro h <;> linarith

theorem dot_transformLeft (m : Mat3 α) (n x : V3 α) : dot (Mat3.transformLeft m n) x = dot n (Mat3.mulVec m x) := by
  simp [Mat3.transformLeft, Mat3.mulVec, dot]; ring

/-- C25: `Transform(float3x3)` moves the plane with the matrix, keeping all signed distances (so the two
sides too), whenever the matrix inversion inside it succeeds. -/
theorem C25_transform3_partial (p : Plane α) (m : Mat3 α) (h : (Mat3.inverse (Mat3.transpose m)).2 = true) (x : V3 α) :
    (p.transform3 m).signedDistance (Mat3.mulVec m x) = p.signedDistance x ∧
    (Mat3.mulVec m x ∈ Spec.plane (p.transform3 m).normal (p.transform3 m).d ↔ x ∈ Spec.plane p.normal p.d) := by
  have key : (p.transform3 m).signedDistance (Mat3.mulVec m x) = p.signedDistance x := by
    unfold Plane.transform3 Plane.signedDistance
    dsimp only
    have h2 := ((C37_inverse (Mat3.transpose m) _ (by norm_num)).1 h).2
    set i := (Mat3.inverse (Mat3.transpose m)).1
    have e : ∀ u v : V3 α, dot u (Mat3.mulVec m v) = dot (Mat3.mulVec (Mat3.transpose m) u) v := by
      intro u v; rw [Mat3.transpose_eq]; simp [Mat3.mulVec, Matrix.transpose_apply, dot]; ring
    rw [e, ← Mat3.mulVec_mul, h2, Mat3.mulVec_identity]
  refine ⟨key, ?_⟩
  rw [Plane.mem_iff, Plane.mem_iff, key]

example := C25_transform3_partial (⟨⟨3/5, 0, 4/5⟩, 2⟩ : Plane ℚ) !![3/5, -4/5, 0; 4/5, 3/5, 0; 0, 0, 1] (by decide +kernel)

/-- C25: `Transform(float3x4)`, the matrix inversion of its linear part succeeding. -/
theorem C25_transform34_partial (p : Plane α) (m : Mat34 α) (h : (Mat3.inverse (Mat34.float3x3Part m)).2 = true) (x : V3 α) :
    (p.transform34 m).signedDistance (Mat34.mulPos m x) = p.signedDistance x ∧
    (Mat34.mulPos m x ∈ Spec.plane (p.transform34 m).normal (p.transform34 m).d ↔ x ∈ Spec.plane p.normal p.d) := by
  have key : (p.transform34 m).signedDistance (Mat34.mulPos m x) = p.signedDistance x := by
    unfold Plane.transform34 Plane.signedDistance
    dsimp only
    have h2 := (C37_inverse_undoes (Mat34.float3x3Part m) _ (by norm_num) h x).1
    set i := (Mat3.inverse (Mat34.float3x3Part m)).1
    have e : Mat34.mulPos m x = Mat3.mulVec (Mat34.float3x3Part m) x + Mat34.translatePart m := by
      ext <;> simp [Mat34.mulPos, Mat3.mulVec, Mat34.float3x3Part, Mat34.translatePart]
    have e2 : ∀ u v : V3 α, Mat3.mulVec i (u + v) = Mat3.mulVec i u + Mat3.mulVec i v := by
      intro u v; ext <;> simp [Mat3.mulVec] <;> ring
    rw [dot_transformLeft, e, e2, h2, dot_add]; ring
  refine ⟨key, ?_⟩
  rw [Plane.mem_iff, Plane.mem_iff, key]

example := C25_transform34_partial (⟨⟨3/5, 0, 4/5⟩, 2⟩ : Plane ℚ) !![0, 2, 0, 5; 1, 0, 3, -1; 0, 1, 4, 2] (by decide +kernel)

/-- C25: `Transform(float4x4)` with an affine matrix, the inversion of its linear part succeeding. -/
theorem C25_transform4_partial (p : Plane α) (m : Mat4 α)
    (h : (Mat3.inverse (Mat34.float3x3Part (Mat4.float3x4Part m))).2 = true) (x : V3 α) :
    (p.transform4 m).signedDistance (Mat34.mulPos (Mat4.float3x4Part m) x) = p.signedDistance x ∧
    (Mat34.mulPos (Mat4.float3x4Part m) x ∈ Spec.plane (p.transform4 m).normal (p.transform4 m).d ↔
      x ∈ Spec.plane p.normal p.d) :=
  C25_transform34_partial p _ h x

example := C25_transform4_partial (⟨⟨3/5, 0, 4/5⟩, 2⟩ : Plane ℚ) !![0, 2, 0, 5; 1, 0, 3, -1; 0, 1, 4, 2; 0, 0, 0, 1] (by decide +kernel)

/-- C25: `Transform(Quat)`, the inversion of the rotation matrix succeeding. -/
theorem C25_transformQuat_partial (p : Plane α) (q : Quat α)
    (h : (Mat3.inverse (Mat3.transpose (Quat.toFloat3x3 q))).2 = true) (x : V3 α) :
    (p.transformQuat q).signedDistance (Mat3.mulVec (Quat.toFloat3x3 q) x) = p.signedDistance x ∧
    (Mat3.mulVec (Quat.toFloat3x3 q) x ∈ Spec.plane (p.transformQuat q).normal (p.transformQuat q).d ↔
      x ∈ Spec.plane p.normal p.d) :=
  C25_transform3_partial p _ h x

end Field

example : (Mat3.inverse (Mat34.float3x3Part (!![0, 2, 0, 5; 1, 0, 3, -1; 0, 1, 4, 2] : Mat34 ℚ))).2 = true ∧
    (Mat3.inverse (Mat3.transpose (!![3/5, -4/5, 0; 4/5, 3/5, 0; 0, 0, 1] : Mat3 ℚ))).2 = true := by
  decide +kernel

/-- C25 fails for a matrix with a determinant of 0.7e-6, which the inversion takes for singular: the plane
is transformed by the transpose instead of its inverse. -/
theorem C25_transform3_violation : ∃ (p : Plane ℚ) (m : Mat3 ℚ) (x : V3 ℚ), lenSq p.normal = 1 ∧ Matrix.det m ≠ 0 ∧
    x ∈ Spec.plane p.normal p.d ∧ Mat3.mulVec m x ∉ Spec.plane (p.transform3 m).normal (p.transform3 m).d := by
  refine ⟨⟨⟨1, 0, 0⟩, 1⟩, !![7/10000000, 0, 0; 0, 1, 0; 0, 0, 1], ⟨1, 0, 0⟩, by norm_num [lenSq, dot], ?_, by simp [Spec.plane, dot], ?_⟩
  · simp [Matrix.det_fin_three]
  · show ¬ dot _ _ = _
    decide +kernel

end MGL
