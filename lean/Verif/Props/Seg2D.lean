import Verif.Proofs.Plane2
import Verif.Proofs.TriTriPlane

/-! C99: line segments of the plane. -/

set_option linter.unusedSectionVars false

namespace MGL.Seg2
open Up

section Field
variable {α : Type*} [Field α] [LinearOrder α] [IsStrictOrderedRing α]

/-- C99: `ClosestPoint(point, d)` is a point of the segment nearest to the point, and `d` is its parameter. -/
theorem C99_closestPoint (s : Seg2 α) (h : s.a ≠ s.b) (p : V2 α) :
    Spec.IsClosestPoint2 (Spec.seg2 s.a s.b) p (s.closestPoint p).1 ∧ s.getPoint (s.closestPoint p).2 = (s.closestPoint p).1 ∧
    0 ≤ (s.closestPoint p).2 ∧ (s.closestPoint p).2 ≤ 1 ∧ s.distanceSq p = Spec.distSq2 p (s.closestPoint p).1 := by
  obtain ⟨⟨h1, h2⟩, h3, h4, h5⟩ := (C22_closestPoint (up p)).2.2 (upS s) (upS_ne h)
  rw [closestPoint_up] at h1 h2 h3 h4 h5
  refine ⟨⟨of_up_seg h1, fun x hx => ?_⟩, up_inj ?_, h4, h5, ?_⟩
  · have := h2 (up x) (up_seg hx)
    rwa [distSq_up, distSq_up] at this
  · rw [← getPoint_up]; exact h3
  · unfold distanceSq; rw [distSqM, dist2_comm]

example := C99_closestPoint (⟨⟨1, 0⟩, ⟨3, 4⟩⟩ : Seg2 ℚ) (by simp) ⟨2, 5⟩

/-- C99: `ClosestPoint(LineSegment2D, d, d2)`: the returned point and the point at `d2` of the other segment are a nearest pair, for
crossing, parallel and disjoint segments alike, and both parameters stay within the segments. -/
theorem C99_closestSegment (s o : Seg2 α) (hs : s.a ≠ s.b) (ho : o.a ≠ o.b) : let r := s.closestSeg o
    Spec.IsClosestPair2 (Spec.seg2 s.a s.b) (Spec.seg2 o.a o.b) r.1 (o.getPoint r.2.2) ∧ r.1 = s.getPoint r.2.1 ∧
    0 ≤ r.2.1 ∧ r.2.1 ≤ 1 ∧ 0 ≤ r.2.2 ∧ r.2.2 ≤ 1 ∧ s.distanceSqSeg o = Spec.distSq2 r.1 (o.getPoint r.2.2) := by
  have h := (C23_segment (upS s) (upS_ne hs)).2.2 (upS o) (upS_ne ho)
  dsimp only at h ⊢
  rw [closestSeg_up, getPoint_up, getPoint_up] at h
  obtain ⟨h1, h2, h3⟩ := h
  have h2 := up_inj h2
  refine ⟨pair_of_up h1, h2, h3.1, h3.2.1, h3.2.2.1, h3.2.2.2, ?_⟩
  unfold distanceSqSeg
  dsimp only
  rw [distSqM, ← h2]

example := C99_closestSegment (⟨⟨1, 0⟩, ⟨3, 4⟩⟩ : Seg2 ℚ) ⟨⟨5, 5⟩, ⟨6, 7⟩⟩ (by simp) (by simp)

/-- C99 (what `Contains` decides): whether the *squared* distance of the point, or of both end points, is at most the threshold. -/
theorem C99_contains_partial (s : Seg2 α) (h : s.a ≠ s.b) (e : α) :
    (∀ p, s.contains p e = true ↔ ∃ y ∈ Spec.seg2 s.a s.b, Spec.distSq2 p y ≤ e) ∧
    (∀ o : Seg2 α, s.containsSeg o e = true ↔
      (∃ y ∈ Spec.seg2 s.a s.b, Spec.distSq2 o.a y ≤ e) ∧ ∃ y ∈ Spec.seg2 s.a s.b, Spec.distSq2 o.b y ≤ e) := by
  have key : ∀ p, s.contains p e = true ↔ ∃ y ∈ Spec.seg2 s.a s.b, Spec.distSq2 p y ≤ e := by
    intro p
    obtain ⟨⟨h1, h2⟩, -⟩ := C99_closestPoint s h p
    unfold contains
    rw [decide_eq_true_iff, distSqM, dist2_comm]
    exact ⟨fun hq => ⟨_, h1, hq⟩, fun ⟨y, hy, hye⟩ => (h2 y hy).trans hye⟩
  exact ⟨key, fun o => by unfold containsSeg; rw [Bool.and_eq_true, key, key]⟩

example := C99_contains_partial (⟨⟨1, 0⟩, ⟨3, 4⟩⟩ : Seg2 ℚ) (by simp) (1 / 1000)

/-- C99: the centre, the reversed segment, extreme points, projections and translations. -/
theorem C99_queries (s : Seg2 α) :
    (s.centerPoint ∈ Spec.seg2 s.a s.b ∧ Spec.distSq2 s.a s.centerPoint = Spec.distSq2 s.b s.centerPoint) ∧
    Spec.seg2 s.reverse.a s.reverse.b = Spec.seg2 s.a s.b ∧
    (∀ d, Spec.IsExtreme2 (Spec.seg2 s.a s.b) d (s.extremePoint d) ∧ s.extremePointDist d = (s.extremePoint d, V2.dot d (s.extremePoint d))) ∧
    (∀ d, Spec.IsShadow2 (Spec.seg2 s.a s.b) d (s.projectToAxis d).1 (s.projectToAxis d).2) ∧
    (∀ o, Spec.seg2 (s.translate o).a (s.translate o).b = {p | ∃ q ∈ Spec.seg2 s.a s.b, p = q + o}) ∧
    (∀ t : α, 0 ≤ t → t ≤ 1 → s.getPoint t ∈ Spec.seg2 s.a s.b) ∧ s.lengthSq = Spec.distSq2 s.a s.b := by
  obtain ⟨a, b⟩ := s
  have ha : a ∈ Spec.seg2 a b := ⟨0, le_rfl, zero_le_one, by ext <;> simp⟩
  have hb : b ∈ Spec.seg2 a b := ⟨1, zero_le_one, le_rfl, by ext <;> simp⟩
  have hl : ∀ (t : α) (d : V2 α), V2.dot d (a + t • (b - a)) = V2.dot d a + t * (V2.dot d b - V2.dot d a) := fun t d => by
    simp only [V2.dot, V2.add_x, V2.add_y, V2.smul_x, V2.smul_y, V2.sub_x, V2.sub_y]; ring
  have hsub : ∀ d : V2 α, V2.dot d (b - a) = V2.dot d b - V2.dot d a := fun d => by simp only [V2.dot, V2.sub_x, V2.sub_y]; ring
  refine ⟨⟨⟨1 / 2, by norm_num, by norm_num, ?_⟩, ?_⟩, ?_, fun d => ⟨⟨?_, ?_⟩, ?_⟩, fun d => ?_, fun o => ?_, fun t h0 h1 => ⟨t, h0, h1, ?_⟩, distSqM _ _⟩
  · unfold centerPoint; ext <;> simp <;> ring
  · simp only [centerPoint, Spec.distSq2, V2.smul_x, V2.smul_y, V2.add_x, V2.add_y]; ring
  · ext p
    constructor <;> rintro ⟨t, h0, h1, rfl⟩ <;>
      exact ⟨1 - t, by linarith, by linarith, by simp only [reverse]; ext <;> simp <;> ring⟩
  · unfold extremePoint; split_ifs; exacts [hb, ha]
  · rintro _ ⟨t, h0, h1, rfl⟩
    rw [hl]
    unfold extremePoint
    dsimp only
    rw [hsub]
    split_ifs with h
    · nlinarith
    · nlinarith
  · simp only [extremePointDist, V2.dot, mul_comm]
  · unfold projectToAxis Spec.IsShadow2
    dsimp only
    split_ifs with h
    · refine ⟨?_, ⟨b, hb, rfl⟩, ⟨a, ha, rfl⟩⟩
      rintro _ ⟨t, h0, h1, rfl⟩
      rw [hl]; constructor <;> nlinarith
    · refine ⟨?_, ⟨a, ha, rfl⟩, ⟨b, hb, rfl⟩⟩
      rintro _ ⟨t, h0, h1, rfl⟩
      rw [hl]; constructor <;> nlinarith
  · ext p
    constructor
    · rintro ⟨t, h0, h1, rfl⟩
      exact ⟨_, ⟨t, h0, h1, rfl⟩, by simp only [translate]; ext <;> simp <;> ring⟩
    · rintro ⟨_, ⟨t, h0, h1, rfl⟩, rfl⟩
      exact ⟨t, h0, h1, by simp only [translate]; ext <;> simp <;> ring⟩
  · simp only [getPoint]; ext <;> simp <;> ring

/-- C99: `Equals` does not depend on which end is called `a`. -/
theorem C99_equals (s o : Seg2 α) (e : α) : s.equals o e = true ↔
    (|s.a.x - o.a.x| < e ∧ |s.a.y - o.a.y| < e ∧ |s.b.x - o.b.x| < e ∧ |s.b.y - o.b.y| < e) ∨
    (|s.a.x - o.b.x| < e ∧ |s.a.y - o.b.y| < e ∧ |s.b.x - o.a.x| < e ∧ |s.b.y - o.a.y| < e) := by
  simp only [equals, equalAbs, Bool.or_eq_true, Bool.and_eq_true, decide_eq_true_eq, absF_eq, and_assoc]

/-- C99: `RangesOverlap` on two nonempty intervals. -/
theorem C99_ranges (a b c d : α) (h1 : a ≤ b) (h2 : c ≤ d) :
    rangesOverlap a b c d = true ↔ ∃ x, (a ≤ x ∧ x ≤ b) ∧ c ≤ x ∧ x ≤ d := by
  simp only [rangesOverlap, Bool.and_eq_true, decide_eq_true_eq]
  constructor
  · rintro ⟨h3, h4⟩
    exact ⟨max a c, ⟨le_max_left _ _, max_le h1 h3⟩, le_max_right _ _, max_le h4 h2⟩
  · rintro ⟨x, ⟨h3, h4⟩, h5, h6⟩
    exact ⟨h5.trans h4, h3.trans h6⟩

example := C99_ranges (1 : ℚ) 3 2 5 (by norm_num) (by norm_num)

end Field

/-- C99 fails for `Contains`: with the default threshold of 1/1000 a point 3/100 away from the segment is accepted, thirty times
farther than the tube of radius `distanceThreshold` the documentation promises. -/
theorem C99_contains_violation : ∃ (s : Seg2 ℚ) (p : V2 ℚ), s.a ≠ s.b ∧ s.contains p (1 / 1000) = true ∧
    ∀ y ∈ Spec.seg2 s.a s.b, (3 / 100) ^ 2 ≤ Spec.distSq2 p y := by
  refine ⟨⟨⟨0, 0⟩, ⟨1, 0⟩⟩, ⟨0, 3 / 100⟩, by simp, by decide +kernel, ?_⟩
  rintro _ ⟨t, -, -, rfl⟩
  simp only [Spec.distSq2, V2.add_x, V2.add_y, V2.smul_x, V2.smul_y, V2.sub_x, V2.sub_y]
  nlinarith [mul_self_nonneg t]

section Real

theorem distance_eq (p q : V2 ℝ) : Float2.distance p q = √(Spec.distSq2 p q) := by
  unfold Float2.distance Spec.distSq2; congr 1; ring

/-- C99: `Distance(point)` and `Distance(LineSegment2D)` are the smallest distance to a point of the segment, and of two points of the
segments; it is attained at the parameters returned. `DistanceSq` is its square, and `Length` the distance of the end points. -/
theorem C99_distance (s : Seg2 ℝ) (hs : s.a ≠ s.b) :
    (∀ p, (∀ x ∈ Spec.seg2 s.a s.b, (s.distance p).1 ≤ √(Spec.distSq2 p x)) ∧
      (s.distance p).1 = √(Spec.distSq2 p (s.getPoint (s.distance p).2)) ∧ s.getPoint (s.distance p).2 ∈ Spec.seg2 s.a s.b ∧
      s.distanceSq p = (s.distance p).1 ^ 2) ∧
    (∀ o : Seg2 ℝ, o.a ≠ o.b → let r := s.distanceSeg o
      (∀ x ∈ Spec.seg2 s.a s.b, ∀ y ∈ Spec.seg2 o.a o.b, r.1 ≤ √(Spec.distSq2 x y)) ∧
      r.1 = √(Spec.distSq2 (s.getPoint r.2.1) (o.getPoint r.2.2)) ∧ s.getPoint r.2.1 ∈ Spec.seg2 s.a s.b ∧
      o.getPoint r.2.2 ∈ Spec.seg2 o.a o.b ∧ s.distanceSqSeg o = r.1 ^ 2) ∧
    s.length = √(Spec.distSq2 s.a s.b) := by
  have nn : ∀ p q : V2 ℝ, 0 ≤ Spec.distSq2 p q := fun p q => by unfold Spec.distSq2; positivity
  refine ⟨fun p => ?_, fun o ho => ?_, distance_eq _ _⟩
  · obtain ⟨⟨h1, h2⟩, h3, -, -, h6⟩ := C99_closestPoint s hs p
    have e : (s.distance p).1 = √(Spec.distSq2 p (s.closestPoint p).1) := by unfold distance; dsimp only; rw [distance_eq, dist2_comm]
    have e2 : s.getPoint (s.distance p).2 = (s.closestPoint p).1 := h3
    rw [e, e2]
    exact ⟨fun x hx => Real.sqrt_le_sqrt (h2 x hx), rfl, h1, by rw [Real.sq_sqrt (nn _ _), h6]⟩
  · obtain ⟨⟨h1, h2, h3⟩, h4, -, -, -, -, h5⟩ := C99_closestSegment s o hs ho
    dsimp only
    have e : (s.distanceSeg o).1 = √(Spec.distSq2 (s.closestSeg o).1 (o.getPoint (s.closestSeg o).2.2)) := by
      unfold distanceSeg; dsimp only; rw [distance_eq, ← h4]
    have e2 : s.getPoint (s.distanceSeg o).2.1 = (s.closestSeg o).1 := h4.symm
    have e3 : o.getPoint (s.distanceSeg o).2.2 = o.getPoint (s.closestSeg o).2.2 := rfl
    rw [e, e2, e3]
    exact ⟨fun x hx y hy => Real.sqrt_le_sqrt (h3 x hx y hy), rfl, h1, h2, by rw [Real.sq_sqrt (nn _ _), h5]⟩

example := (C99_distance ⟨⟨1, 0⟩, ⟨3, 4⟩⟩ (by simp)).2.1 ⟨⟨5, 5⟩, ⟨6, 7⟩⟩ (by simp)

/-- C99: `Intersects(LineSegment2D, epsilon)` says whether the two segments come within `epsilon` of each other. -/
theorem C99_intersects (s o : Seg2 ℝ) (hs : s.a ≠ s.b) (ho : o.a ≠ o.b) (e : ℝ) :
    s.intersectsSeg o e = true ↔ ∃ x ∈ Spec.seg2 s.a s.b, ∃ y ∈ Spec.seg2 o.a o.b, √(Spec.distSq2 x y) ≤ e := by
  obtain ⟨h1, h2, h3, h4, -⟩ := (C99_distance s hs).2.1 o ho
  unfold intersectsSeg
  rw [decide_eq_true_iff]
  exact ⟨fun h => ⟨_, h3, _, h4, h2 ▸ h⟩, fun ⟨x, hx, y, hy, h⟩ => (h1 x hx y hy).trans h⟩

example := C99_intersects ⟨⟨1, 0⟩, ⟨3, 4⟩⟩ ⟨⟨5, 5⟩, ⟨6, 7⟩⟩ (by simp) (by simp) (1 / 1000)

/-- C99: the test of two segments given by a point and a direction, `LineSegment2DLineSegment2DIntersect`, for directions whose angle
is clear of zero (its sine is above 1/10000): it answers exactly whether the segments meet, and `s` and `t` are the parameters of the
common point. -/
theorem C99_directions_partial (p0 d0 p1 d1 : V2 ℝ)
    (h : 1 / 100000000 * V2.lenSq d0 * V2.lenSq d1 < (d0.x * d1.y - d0.y * d1.x) ^ 2) :
    ((seg2DIntersect p0 d0 p1 d1).1 = true ↔ ∃ x, x ∈ Spec.seg2 p0 (p0 + d0) ∧ x ∈ Spec.seg2 p1 (p1 + d1)) ∧
    ((seg2DIntersect p0 d0 p1 d1).1 = true → ∃ s t : ℝ, (seg2DIntersect p0 d0 p1 d1).2 = some (s, t) ∧ 0 ≤ s ∧ s ≤ 1 ∧ 0 ≤ t ∧ t ≤ 1 ∧
      p0 + s • d0 = p1 + t • d1) := by
  have hp : 1 / 100000000 * V2.lenSq d0 * V2.lenSq d1 < MinAreaRect.perpDot d0 d1 * MinAreaRect.perpDot d0 d1 := by
    refine lt_of_lt_of_eq h ?_
    unfold MinAreaRect.perpDot; ring
  have hd : 0 < V2.lenSq d0 := by
    have h0 : 0 ≤ V2.lenSq d0 := by unfold V2.lenSq V2.dot; nlinarith [mul_self_nonneg d0.x, mul_self_nonneg d0.y]
    refine lt_of_le_of_ne h0 fun e => ?_
    have ex : d0.x = 0 := by unfold V2.lenSq V2.dot at e; nlinarith [mul_self_nonneg d0.x, mul_self_nonneg d0.y]
    have ey : d0.y = 0 := by unfold V2.lenSq V2.dot at e; nlinarith [mul_self_nonneg d0.x, mul_self_nonneg d0.y]
    rw [← e, ex, ey] at h
    norm_num at h
  have es : ∀ (p d : V2 ℝ) (t : ℝ), p + t • (p + d - p) = p + t • d := fun p d t => by ext <;> simp
  refine ⟨⟨fun hi => ?_, ?_⟩, fun hi => ?_⟩
  · obtain ⟨s, t, s0, s1, t0, t1, e, -⟩ := seg2D_sound p0 d0 p1 d1 hp hi
    exact ⟨_, ⟨s, s0, s1, (es _ _ _).symm⟩, ⟨t, t0, t1, by rw [es]; exact e⟩⟩
  · rintro ⟨x, ⟨s, s0, s1, e1⟩, ⟨t, t0, t1, e2⟩⟩
    rw [es] at e1 e2
    exact seg2D_complete p0 d0 p1 d1 (Or.inr hp) hd s t s0 s1 t0 t1 (e1.symm.trans e2)
  · obtain ⟨s, t, s0, s1, t0, t1, e, e2⟩ := seg2D_sound p0 d0 p1 d1 hp hi
    exact ⟨s, t, e2, s0, s1, t0, t1, e⟩

example := C99_directions_partial ⟨0, 0⟩ ⟨2, 0⟩ ⟨1, -1⟩ ⟨1, 3⟩ (by norm_num [V2.lenSq, V2.dot])

/-- C99 fails for nearly parallel segments: two segments that cross in their middle are reported apart, and two parallel segments that
are 1/20 apart are reported to meet. -/
theorem C99_directions_violation :
    (∃ p0 d0 p1 d1 : V2 ℝ, (∃ x, x ∈ Spec.seg2 p0 (p0 + d0) ∧ x ∈ Spec.seg2 p1 (p1 + d1)) ∧ (seg2DIntersect p0 d0 p1 d1).1 = false) ∧
    (∃ p0 d0 p1 d1 : V2 ℝ, (seg2DIntersect p0 d0 p1 d1).1 = true ∧
      ∀ x ∈ Spec.seg2 p0 (p0 + d0), ∀ y ∈ Spec.seg2 p1 (p1 + d1), (1 / 20) ^ 2 ≤ Spec.distSq2 x y) := by
  constructor
  · refine ⟨⟨0, 0⟩, ⟨1, 0⟩, ⟨0, -1 / 200000⟩, ⟨1, 1 / 100000⟩,
      ⟨⟨1 / 2, 0⟩, ⟨1 / 2, by norm_num, by norm_num, by ext <;> norm_num⟩, ⟨1 / 2, by norm_num, by norm_num, by ext <;> norm_num⟩⟩, ?_⟩
    norm_num [seg2DIntersect, MinAreaRect.perpDot, V2.lenSq, V2.dot]
  · refine ⟨⟨0, 0⟩, ⟨1, 0⟩, ⟨1000, 1 / 20⟩, ⟨-1000, 0⟩, ?_, ?_⟩
    · norm_num [seg2DIntersect, MinAreaRect.perpDot, V2.lenSq, V2.dot, intervalIntersection, min2, max2]
    · rintro _ ⟨s, -, -, rfl⟩ _ ⟨t, -, -, rfl⟩
      simp only [Spec.distSq2, V2.add_x, V2.add_y, V2.smul_x, V2.smul_y, V2.sub_x, V2.sub_y]
      nlinarith [sq_nonneg (0 + s * (0 + 1 - 0) - (1000 + t * (1000 + -1000 - 1000)))]

end Real
end MGL.Seg2
