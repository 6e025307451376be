import Verif.Props.Plane
import Verif.Props.Mat3Solve
import Verif.Proofs.Float3R

/-! C64: intersection, containment and closest-point queries of planes. -/

namespace MGL
open V3

section Field
variable {α : Type*} [Field α] [LinearOrder α] [IsStrictOrderedRing α]

/-- C64: `Intersects(Sphere)` decides whether the ball and the plane have a common point. -/
theorem C64_intersects_sphere (p : Plane α) (h : lenSq p.normal = 1) (s : Sphere α) (hr : 0 ≤ s.r) :
    p.intersectsSphere s = true ↔ (Spec.ball s.pos s.r ∩ Spec.plane p.normal p.d).Nonempty := by
  unfold Plane.intersectsSphere Plane.distance
  rw [decide_eq_true_iff, absF_eq]
  constructor
  · intro hd
    refine ⟨p.project s.pos, ?_, (C24_project p h s.pos).1⟩
    show distSq _ _ ≤ _
    rw [distSq_comm]
    refine (p.distSq_move h s.pos (p.signedDistance s.pos)).le.trans ?_
    rw [← abs_mul_abs_self]; exact mul_self_le_mul_self (abs_nonneg _) hd
  · rintro ⟨x, hx, hp⟩
    have hx : distSq x s.pos ≤ s.r * s.r := hx
    rw [p.mem_iff] at hp
    have := p.sd_lipschitz h s.pos x
    rw [hp, sub_zero, distSq_comm] at this
    exact abs_le_of_sq_le_sq (by rw [sq, sq]; exact this.trans hx) hr

example := C64_intersects_sphere (⟨⟨3/5, 0, 4/5⟩, 2⟩ : Plane ℚ) (by norm_num [lenSq, dot]) ⟨⟨1, 2, 3⟩, 1⟩ (by norm_num)

/-- C64: `Intersects(AABB)` decides whether the box and the plane have a common point. -/
theorem C64_intersects_aabb (p : Plane α) (b : AABB α) (hb : b.Proper) :
    p.intersectsAABB b = true ↔ (Spec.box b.minPoint b.maxPoint ∩ Spec.plane p.normal p.d).Nonempty := by
  obtain ⟨hx, hy, hz⟩ := hb
  unfold Plane.intersectsAABB
  simp only [decide_eq_true_iff, absF_eq]
  have hproj := C19_projectToAxis b ⟨hx, hy, hz⟩ p.normal
  have hlo : (b.projectToAxis p.normal).1 = dot p.normal b.centerPoint -
      (b.halfSize.x * |p.normal.x| + b.halfSize.y * |p.normal.y| + b.halfSize.z * |p.normal.z|) ∧
      (b.projectToAxis p.normal).2 = dot p.normal b.centerPoint +
      (b.halfSize.x * |p.normal.x| + b.halfSize.y * |p.normal.y| + b.halfSize.z * |p.normal.z|) := by
    unfold AABB.projectToAxis AABB.centerPoint AABB.halfSize AABB.size
    simp only [absF_eq]
    have e1 : (b.maxPoint - (1 / 2 : α) • (b.minPoint + b.maxPoint)).x = 1 / 2 * (b.maxPoint.x - b.minPoint.x) := by simp; ring
    have e2 : (b.maxPoint - (1 / 2 : α) • (b.minPoint + b.maxPoint)).y = 1 / 2 * (b.maxPoint.y - b.minPoint.y) := by simp; ring
    have e3 : (b.maxPoint - (1 / 2 : α) • (b.minPoint + b.maxPoint)).z = 1 / 2 * (b.maxPoint.z - b.minPoint.z) := by simp; ring
    rw [e1, e2, e3, abs_of_nonneg]
    · simp
    · have := mul_nonneg (show 0 ≤ 1 / 2 * (b.maxPoint.x - b.minPoint.x) by linarith) (abs_nonneg p.normal.x)
      have := mul_nonneg (show 0 ≤ 1 / 2 * (b.maxPoint.y - b.minPoint.y) by linarith) (abs_nonneg p.normal.y)
      have := mul_nonneg (show 0 ≤ 1 / 2 * (b.maxPoint.z - b.minPoint.z) by linarith) (abs_nonneg p.normal.z)
      linarith
  rw [hlo.1, hlo.2] at hproj
  generalize b.halfSize.x * |p.normal.x| + b.halfSize.y * |p.normal.y| + b.halfSize.z * |p.normal.z| = r at *
  obtain ⟨hall, ⟨u, hu, hu'⟩, ⟨v, hv, hv'⟩⟩ := hproj
  constructor
  · intro h
    have := abs_le.1 h
    have hc := (C63_segment_intersects_plane ⟨u, v⟩ p).1 (by
      unfold LineSeg.intersectsPlane; rw [decide_eq_true_iff]
      show (dot p.normal u - p.d) * (dot p.normal v - p.d) ≤ 0
      rw [hu', hv']
      exact mul_nonpos_of_nonpos_of_nonneg (by linarith) (by linarith))
    obtain ⟨c, ⟨k, hk0, hk1, rfl⟩, hcp⟩ := hc
    refine ⟨_, ?_, hcp⟩
    simp only [Spec.box, Set.mem_ofPred_eq] at hu hv ⊢
    simp
    refine ⟨?_, ?_, ?_, ?_, ?_, ?_⟩ <;> nlinarith
  · rintro ⟨x, hxb, hxp⟩
    have := hall x hxb
    have hxp : dot p.normal x = p.d := hxp
    rw [hxp] at this
    rw [abs_le]; constructor <;> linarith

example := C64_intersects_aabb (⟨⟨3/5, 0, 4/5⟩, 2⟩ : Plane ℚ) ⟨⟨0, 0, 0⟩, ⟨1, 2, 3⟩⟩ (by simp [AABB.Proper])

/-- C64: `Intersects(Triangle)` decides whether the triangle and the plane have a common point. -/
theorem C64_intersects_triangle (p : Plane α) (t : Tri α) :
    p.intersectsTri t = true ↔ (Spec.tri t.a t.b t.c ∩ Spec.plane p.normal p.d).Nonempty := by
  unfold Plane.intersectsTri
  simp only [Bool.or_eq_true, decide_eq_true_iff]
  have sd : ∀ u v w : α, u + v + w = 1 → p.signedDistance (u • t.a + v • t.b + w • t.c) =
      u * p.signedDistance t.a + v * p.signedDistance t.b + w * p.signedDistance t.c := by
    intro u v w h; simp only [dot_add, dot_smul, Plane.signedDistance]
    linear_combination p.d * h
  have segab : ∀ b : V3 α, Spec.seg t.a b ⊆ Spec.tri t.a t.b t.c →
      p.signedDistance t.a * p.signedDistance b ≤ 0 → (Spec.tri t.a t.b t.c ∩ Spec.plane p.normal p.d).Nonempty := by
    intro b hs h
    obtain ⟨c, hc, hcp⟩ := (C63_segment_intersects_plane ⟨t.a, b⟩ p).1 (by
      unfold LineSeg.intersectsPlane; rw [decide_eq_true_iff]; exact h)
    exact ⟨c, hs hc, hcp⟩
  constructor
  · rintro (h | h)
    · refine segab t.b ?_ h
      rintro _ ⟨k, h0, h1, rfl⟩
      exact ⟨1 - k, k, 0, by linarith, h0, le_rfl, by ring, by ext <;> simp <;> ring⟩
    · refine segab t.c ?_ h
      rintro _ ⟨k, h0, h1, rfl⟩
      exact ⟨1 - k, 0, k, by linarith, le_rfl, h0, by ring, by ext <;> simp <;> ring⟩
  · rintro ⟨_, ⟨u, v, w, hu, hv, hw, h1, rfl⟩, hp⟩
    rw [p.mem_iff, sd _ _ _ h1] at hp
    generalize p.signedDistance t.a = x at *
    generalize p.signedDistance t.b = y at *
    generalize p.signedDistance t.c = z at *
    by_contra hcon
    push Not at hcon
    obtain ⟨h2, h3⟩ := hcon
    have key : u * (x * x) + v * (x * y) + w * (x * z) = 0 := by linear_combination x * hp
    have hx : 0 < x * x := by
      rcases eq_or_ne x 0 with h | h
      · subst h; simp at h2
      · exact mul_self_pos.2 h
    have h4 := mul_nonneg hu hx.le
    have h5 := mul_nonneg hv h2.le
    have h6 := mul_nonneg hw h3.le
    have u0 : u = 0 := by
      have : u * (x * x) = 0 := by linarith
      rcases mul_eq_zero.1 this with h | h
      · exact h
      · exact absurd h hx.ne'
    have v0 : v = 0 := by
      have : v * (x * y) = 0 := by linarith
      rcases mul_eq_zero.1 this with h | h
      · exact h
      · exact absurd h h2.ne'
    have w0 : w = 0 := by
      have : w * (x * z) = 0 := by linarith
      rcases mul_eq_zero.1 this with h | h
      · exact h
      · exact absurd h h3.ne'
    rw [u0, v0, w0] at h1; simp at h1

/-- C64: `Intersects(Line, dist)` for lines not within 1e-4 of parallel: it always reports an intersection, and
`dist` gives the only common point. -/
theorem C64_intersects_line_partial (p : Plane α) (l : Line α) (h : 1 / 10000 < |dot p.normal l.dir|) :
    (p.intersectsLine l).1 = true ∧
    ∀ t, l.getPoint t ∈ Spec.plane p.normal p.d ↔ t = (p.intersectsLine l).2 := by
  have hne : dot p.normal l.dir ≠ 0 := by
    intro h0; rw [h0, abs_zero] at h; norm_num at h
  have hi : p.intersectsLine l = (true, (p.d - dot p.normal l.pos) / dot p.normal l.dir) :=
    if_pos (by rw [absF_eq]; exact h)
  rw [hi]
  refine ⟨rfl, fun t => ?_⟩
  show dot p.normal (l.pos + t • l.dir) = p.d ↔ _
  rw [dot_add, dot_smul, eq_div_iff hne]
  constructor <;> intro h <;> linarith

example := C64_intersects_line_partial (⟨⟨3/5, 0, 4/5⟩, 2⟩ : Plane ℚ) ⟨⟨1, 2, 3⟩, ⟨0, 0, 1⟩⟩ (by norm_num [dot])

/-- C64: `Intersects(Ray, dist)` for rays not within 1e-4 of parallel: it decides whether the ray meets the
plane, and then `dist` gives the only common point. -/
theorem C64_intersects_ray_partial (p : Plane α) (r : Ray α) (h : 1 / 10000 < |dot p.normal r.dir|) :
    ((p.intersectsRay r).1 = true ↔ (Spec.ray r.pos r.dir ∩ Spec.plane p.normal p.d).Nonempty) ∧
    ((p.intersectsRay r).1 = true → r.getPoint (p.intersectsRay r).2 ∈ Spec.ray r.pos r.dir ∩ Spec.plane p.normal p.d) := by
  obtain ⟨h1, h2⟩ := C64_intersects_line_partial p ⟨r.pos, r.dir⟩ h
  have e1 : (p.intersectsRay r).2 = (p.intersectsLine ⟨r.pos, r.dir⟩).2 := rfl
  have e2 : (p.intersectsRay r).1 = ((p.intersectsLine ⟨r.pos, r.dir⟩).1 && decide ((p.intersectsLine ⟨r.pos, r.dir⟩).2 ≥ 0)) := rfl
  rw [e1, e2, h1, Bool.true_and, decide_eq_true_iff]
  have h3 : 0 ≤ (p.intersectsLine ⟨r.pos, r.dir⟩).2 →
      r.getPoint (p.intersectsLine ⟨r.pos, r.dir⟩).2 ∈ Spec.ray r.pos r.dir ∩ Spec.plane p.normal p.d :=
    fun h0 => ⟨⟨_, h0, rfl⟩, (h2 _).2 rfl⟩
  refine ⟨⟨fun h0 => ⟨_, h3 h0⟩, ?_⟩, h3⟩
  rintro ⟨_, ⟨t, ht, rfl⟩, hp⟩
  rw [← (h2 t).1 hp]; exact ht

example : 1 / 10000 < |dot (⟨0, 0, 1⟩ : V3 ℚ) ⟨3/5, 0, -4/5⟩| ∧
    (Plane.mk (⟨0, 0, 1⟩ : V3 ℚ) 0).intersectsRay ⟨⟨0, 0, 4⟩, ⟨3/5, 0, -4/5⟩⟩ = (true, 5) := by
  constructor
  · norm_num [dot]
  · norm_num [Plane.intersectsRay, Plane.intersectLinePlane, dot, absF]

/-- C64 fails for nearly parallel lines and rays: an intersection is reported at `dist = 0`, a point that is
not on the plane. -/
theorem C64_intersects_ray_violation : ∃ (p : Plane ℚ) (r : Ray ℚ), lenSq p.normal = 1 ∧ lenSq r.dir = 1 ∧
    (p.intersectsRay r).1 = true ∧ ¬ (Spec.ray r.pos r.dir ∩ Spec.plane p.normal p.d).Nonempty := by
  refine ⟨⟨⟨0, 0, 1⟩, 0⟩, ⟨⟨0, 0, 1/2000⟩, ⟨1, 0, 0⟩⟩, by norm_num [lenSq, dot], by norm_num [lenSq, dot], ?_, ?_⟩
  · norm_num [Plane.intersectsRay, Plane.intersectLinePlane, dot, absF, equalAbs]
  · rintro ⟨_, ⟨t, -, rfl⟩, hp⟩
    have hp : dot (⟨0, 0, 1⟩ : V3 ℚ) (⟨0, 0, 1/2000⟩ + t • ⟨1, 0, 0⟩) = 0 := hp
    norm_num [dot] at hp

/-- C64: `ClosestPoint(Ray)`: the returned point is on the plane and as near to the ray as any point of the
plane, when the ray does not reach the plane at a parameter of 1e6 or more. -/
theorem C64_closestPoint_ray_partial (p : Plane α) (h : lenSq p.normal = 1) (r : Ray α)
    (ht : ∀ t, 1000000 ≤ t → r.getPoint t ∉ Spec.plane p.normal p.d) :
    ∃ s, Spec.IsClosestPair (Spec.plane p.normal p.d) (Spec.ray r.pos r.dir) (p.closestPointRay r) s := by
  have f : ∀ t : α, p.signedDistance (r.pos + t • r.dir) = p.signedDistance r.pos + t * dot p.normal r.dir := by
    intro t; unfold Plane.signedDistance; rw [dot_add, dot_smul]; ring
  have hproj : (∀ t : α, 0 ≤ t → |p.signedDistance r.pos| ≤ |p.signedDistance (r.pos + t • r.dir)|) →
      ∃ s, Spec.IsClosestPair (Spec.plane p.normal p.d) (Spec.ray r.pos r.dir) (p.project r.pos) s := by
    intro hmin
    refine ⟨r.pos, (C24_project p h r.pos).1, ⟨0, le_rfl, by ext <;> simp⟩, ?_⟩
    rintro y hy _ ⟨t, ht0, rfl⟩
    rw [p.mem_iff] at hy
    rw [distSq_comm (p.project r.pos), distSq_comm y]
    refine (p.distSq_move h r.pos (p.signedDistance r.pos)).le.trans ?_
    have h1 := p.sd_lipschitz h (r.pos + t • r.dir) y
    rw [hy, sub_zero] at h1
    refine le_trans ?_ h1
    rw [← abs_mul_abs_self, ← abs_mul_abs_self (p.signedDistance (r.pos + t • r.dir))]
    exact mul_self_le_mul_self (abs_nonneg _) (hmin t ht0)
  unfold Plane.closestPointRay
  dsimp only
  split_ifs with h0 h1
  · apply hproj; intro t _; rw [f, h0, mul_zero, add_zero]
  · have hmem : r.getPoint ((p.d - dot p.normal r.pos) / dot p.normal r.dir) ∈ Spec.plane p.normal p.d := by
      show dot p.normal (r.pos + _ • r.dir) = _
      rw [dot_add, dot_smul, div_mul_cancel₀ _ h0]; ring
    exact ⟨_, hmem, ⟨_, h1.1, rfl⟩, fun s _ t _ => (distSq_self _).le.trans (distSq_nonneg s t)⟩
  · apply hproj
    intro t ht0
    rw [f]
    have hneg : (p.d - dot p.normal r.pos) / dot p.normal r.dir < 0 := by
      by_contra hc
      push Not at hc
      have h2 : 1000000 ≤ (p.d - dot p.normal r.pos) / dot p.normal r.dir := by
        by_contra hc2; push Not at hc2; exact h1 ⟨hc, hc2⟩
      apply ht _ h2
      show dot p.normal (r.pos + _ • r.dir) = _
      rw [dot_add, dot_smul, div_mul_cancel₀ _ h0]; ring
    have hx : p.d - dot p.normal r.pos = -p.signedDistance r.pos := by unfold Plane.signedDistance; ring
    rw [hx] at hneg
    generalize p.signedDistance r.pos = x at *
    rcases lt_or_gt_of_ne h0 with h2 | h2
    · rw [div_neg_iff] at hneg
      have : x < 0 := by rcases hneg with h | h <;> linarith [h.1, h.2]
      rw [abs_of_neg this, abs_of_neg (by nlinarith)]; nlinarith
    · rw [div_neg_iff] at hneg
      have : 0 < x := by rcases hneg with h | h <;> linarith [h.1, h.2]
      rw [abs_of_pos this, abs_of_pos (by nlinarith)]; nlinarith

example := C64_closestPoint_ray_partial (⟨⟨0, 0, 1⟩, 2⟩ : Plane ℚ) (by norm_num [lenSq, dot]) ⟨⟨1, 2, 3⟩, ⟨0, 3/5, -4/5⟩⟩ (by
  intro t ht h
  have h2 : 3 + t * (-4/5) = (2 : ℚ) := by simpa [Spec.plane, dot, Ray.getPoint] using h
  linarith)

/-- C64: `ClosestPoint(LineSegment)`: the returned point is on the plane and as near to the segment as any
point of the plane, when the end points differ by at least 1e-4 in their distance from the plane. -/
theorem C64_closestPoint_segment_partial (p : Plane α) (h : lenSq p.normal = 1) (l : LineSeg α)
    (hd : 1 / 10000 ≤ |p.signedDistance l.b - p.signedDistance l.a|) :
    ∃ s, Spec.IsClosestPair (Spec.plane p.normal p.d) (Spec.seg l.a l.b) (p.closestPointSeg l) s := by
  have sd : ∀ y, dot p.normal y = p.signedDistance y + p.d := by intro y; unfold Plane.signedDistance; ring
  have f := p.sd_seg l.a l.b
  have hden : dot p.normal l.b - dot p.normal l.a = p.signedDistance l.b - p.signedDistance l.a := by rw [sd, sd]; ring
  have hnum : p.d - dot p.normal l.a = -p.signedDistance l.a := by rw [sd]; ring
  have e : p.closestPointSeg l = p.project (l.getPoint (clamp01 ((p.d - dot p.normal l.a) / (dot p.normal l.b - dot p.normal l.a)))) := by
    refine if_neg ?_
    simp only [equalAbs, absF_eq, sub_zero, decide_eq_true_iff]
    rw [hden]; exact not_lt.2 hd
  rw [e, LineSeg.getPoint_eq, hden, hnum]
  obtain ⟨k0, k1⟩ := clamp01_range (-p.signedDistance l.a / (p.signedDistance l.b - p.signedDistance l.a))
  refine ⟨l.a + clamp01 (-p.signedDistance l.a / (p.signedDistance l.b - p.signedDistance l.a)) • (l.b - l.a),
    (C24_project p h _).1, ⟨_, k0, k1, rfl⟩, ?_⟩
  rintro y hy _ ⟨t, ht0, ht1, rfl⟩
  rw [p.mem_iff] at hy
  rw [distSq_comm, distSq_comm y]
  refine (p.distSq_move h _ (p.signedDistance _)).le.trans ?_
  have h1 := p.sd_lipschitz h (l.a + t • (l.b - l.a)) y
  rw [hy, sub_zero] at h1
  refine le_trans ?_ h1
  rw [f, f]
  have hne : p.signedDistance l.b - p.signedDistance l.a ≠ 0 := by
    intro h0; rw [h0, abs_zero] at hd; norm_num at hd
  generalize p.signedDistance l.a = x at *
  generalize p.signedDistance l.b = z at *
  have hq : ∀ k : α, (x + k * (z - x)) * (x + k * (z - x)) = (z - x) * (z - x) * ((k - -x / (z - x)) * (k - -x / (z - x))) := by
    intro k
    have : -x / (z - x) * (z - x) = -x := div_mul_cancel₀ _ hne
    generalize -x / (z - x) = m at *
    have hx : x = -m * (z - x) := by linarith
    have : x + k * (z - x) = (k - m) * (z - x) := by linear_combination hx
    rw [this]; ring
  rw [hq, hq]
  apply mul_le_mul_of_nonneg_left _ (mul_self_nonneg _)
  generalize -x / (z - x) = m at *
  unfold clamp01 clamp
  split_ifs <;> nlinarith

example : (1 : ℚ) / 10000 ≤ |(Plane.mk (⟨0, 0, 1⟩ : V3 ℚ) 1).signedDistance ⟨0, 0, 3⟩ - (Plane.mk (⟨0, 0, 1⟩ : V3 ℚ) 1).signedDistance ⟨4, 0, -1⟩| := by
  norm_num [Plane.signedDistance, dot]

/-- C64 fails for `ClosestPoint(LineSegment)` of a nearly parallel segment: the end point is chosen by its
distance to the origin's parallel plane instead of the plane itself. -/
theorem C64_closestPoint_segment_violation : ∃ (p : Plane ℚ) (l : LineSeg ℚ), lenSq p.normal = 1 ∧
    ¬ ∃ s, Spec.IsClosestPair (Spec.plane p.normal p.d) (Spec.seg l.a l.b) (p.closestPointSeg l) s := by
  refine ⟨⟨⟨0, 0, 1⟩, 1⟩, ⟨⟨0, 0, 0⟩, ⟨1, 0, 1/20000⟩⟩, by norm_num [lenSq, dot], ?_⟩
  have e : Plane.closestPointSeg (⟨⟨0, 0, 1⟩, 1⟩ : Plane ℚ) ⟨⟨0, 0, 0⟩, ⟨1, 0, 1/20000⟩⟩ = ⟨0, 0, 1⟩ := by
    norm_num [Plane.closestPointSeg, equalAbs, absF, dot, Plane.project]
    ext <;> norm_num
  rw [e]
  rintro ⟨s, -, ⟨t, h0, h1, rfl⟩, hs⟩
  have := hs ⟨1, 0, 1⟩ (by show dot _ _ = _; norm_num [dot]) ⟨1, 0, 1/20000⟩ ⟨1, zero_le_one, le_rfl, by ext <;> norm_num⟩
  rw [distSq_eq, distSq_eq] at this
  norm_num at this
  nlinarith

/-- C64: `Contains(point, eps)` is true exactly for the points at distance at most `eps` from the plane, and
`Contains(LineSegment / Triangle, eps)` exactly when all points of the object are that near. -/
theorem C64_contains (p : Plane α) (e : α) :
    (∀ l : LineSeg α, p.containsSeg l e = true ↔ ∀ x ∈ Spec.seg l.a l.b, |p.signedDistance x| ≤ e) ∧
    (∀ t : Tri α, p.containsTri t e = true ↔ ∀ x ∈ Spec.tri t.a t.b t.c, |p.signedDistance x| ≤ e) := by
  have hc : ∀ x, p.contains x e = true ↔ |p.signedDistance x| ≤ e := by
    intro x; unfold Plane.contains Plane.distance; rw [decide_eq_true_iff, absF_eq]
  constructor
  · intro l
    unfold Plane.containsSeg
    rw [Bool.and_eq_true, hc, hc]
    constructor
    · rintro ⟨ha, hb⟩ _ ⟨t, h0, h1, rfl⟩
      rw [p.sd_seg]
      rw [abs_le] at *
      constructor <;> nlinarith [ha.1, ha.2, hb.1, hb.2]
    · intro h
      exact ⟨h _ ⟨0, le_rfl, zero_le_one, by ext <;> simp⟩, h _ ⟨1, zero_le_one, le_rfl, by ext <;> simp⟩⟩
  · intro t
    unfold Plane.containsTri
    rw [Bool.and_eq_true, Bool.and_eq_true, hc, hc, hc]
    constructor
    · rintro ⟨⟨ha, hb⟩, hc⟩ _ ⟨u, v, w, hu, hv, hw, h1, rfl⟩
      have sd : p.signedDistance (u • t.a + v • t.b + w • t.c) =
        u * p.signedDistance t.a + v * p.signedDistance t.b + w * p.signedDistance t.c := by
        simp only [dot_add, dot_smul, Plane.signedDistance]
        linear_combination p.d * h1
      rw [sd]
      rw [abs_le] at *
      have := mul_le_mul_of_nonneg_left ha.1 hu
      have := mul_le_mul_of_nonneg_left hb.1 hv
      have := mul_le_mul_of_nonneg_left hc.1 hw
      have := mul_le_mul_of_nonneg_left ha.2 hu
      have := mul_le_mul_of_nonneg_left hb.2 hv
      have := mul_le_mul_of_nonneg_left hc.2 hw
      have hu' : u = 1 - v - w := by linarith
      subst hu'
      constructor <;> linarith
    · intro h
      exact ⟨⟨h _ ⟨1, 0, 0, zero_le_one, le_rfl, le_rfl, by simp, by ext <;> simp⟩,
        h _ ⟨0, 1, 0, le_rfl, zero_le_one, le_rfl, by simp, by ext <;> simp⟩⟩,
        h _ ⟨0, 0, 1, le_rfl, le_rfl, zero_le_one, by simp, by ext <;> simp⟩⟩

/-- C64: `Intersects(Frustum / Polyhedron)`, the loop over the vertices: a reported intersection is real, and
a plane that has vertices strictly on both sides is always reported. (A convex body that only touches the plane
from the front is not reported: `C64_intersects_vertices_violation`.) -/
theorem C64_intersects_vertices_partial (p : Plane α) (vs : List (V3 α)) :
    (p.intersectsVertices vs = true → ∃ a ∈ vs, ∃ b ∈ vs, (Spec.seg a b ∩ Spec.plane p.normal p.d).Nonempty) ∧
    ((∃ a ∈ vs, ∃ b ∈ vs, dot p.normal a < p.d ∧ p.d ≤ dot p.normal b) → p.intersectsVertices vs = true) := by
  have hpos : ∀ v, p.isOnPositiveSide v = true ↔ 0 ≤ p.signedDistance v := by
    intro v; unfold Plane.isOnPositiveSide; rw [decide_eq_true_iff]
  have hneg : ∀ v, p.isOnPositiveSide v = false ↔ p.signedDistance v < 0 := by
    intro v; rw [← Bool.not_eq_true, hpos, not_le]
  cases vs with
  | nil => simp [Plane.intersectsVertices]
  | cons v vs =>
    simp only [Plane.intersectsVertices, List.any_eq_true, bne_iff_ne]
    constructor
    · rintro ⟨w, hw, hne⟩
      refine ⟨v, by simp, w, by simp [hw], ?_⟩
      refine (C63_segment_intersects_plane ⟨v, w⟩ p).1 ?_
      unfold LineSeg.intersectsPlane; rw [decide_eq_true_iff]
      show p.signedDistance v * p.signedDistance w ≤ 0
      cases hv : p.isOnPositiveSide v <;> cases hw : p.isOnPositiveSide w
      · rw [hv, hw] at hne; exact absurd rfl hne
      · rw [hneg] at hv; rw [hpos] at hw; exact mul_nonpos_of_nonpos_of_nonneg hv.le hw
      · rw [hpos] at hv; rw [hneg] at hw; exact mul_nonpos_of_nonneg_of_nonpos hv hw.le
      · rw [hv, hw] at hne; exact absurd rfl hne
    · rintro ⟨a, ha, b, hb, h1, h2⟩
      have ha' : p.isOnPositiveSide a = false := by rw [hneg]; unfold Plane.signedDistance; linarith
      have hb' : p.isOnPositiveSide b = true := by rw [hpos]; unfold Plane.signedDistance; linarith
      by_contra hcon
      push Not at hcon
      have all : ∀ w ∈ v :: vs, p.isOnPositiveSide v = p.isOnPositiveSide w := by
        intro w hw
        rcases List.mem_cons.1 hw with rfl | hw
        · rfl
        · exact hcon w hw
      have := (all a ha).symm.trans (all b hb)
      rw [ha', hb'] at this; exact Bool.noConfusion this

example : let p : Plane ℚ := ⟨⟨0, 0, 1⟩, 2⟩
    dot p.normal (⟨0, 0, 1⟩ : V3 ℚ) < p.d ∧ p.d ≤ dot p.normal (⟨0, 0, 3⟩ : V3 ℚ) := by norm_num [dot]

/-- C64 fails for a body touching the plane from the front. -/
theorem C64_intersects_vertices_violation : ∃ (p : Plane ℚ) (vs : List (V3 ℚ)),
    p.intersectsVertices vs = false ∧ ∃ v ∈ vs, v ∈ Spec.plane p.normal p.d := by
  refine ⟨⟨⟨0, 0, 1⟩, 0⟩, [⟨0, 0, 0⟩, ⟨0, 0, 1⟩], by decide +kernel, ⟨0, 0, 0⟩, by simp, by show dot _ _ = _; simp [dot]⟩

/-- C64 fails for `DihedralAngle`, documented as the angle in radians: for perpendicular planes it returns 0. -/
theorem C64_dihedralAngle_violation : ∃ p q : Plane ℚ, lenSq p.normal = 1 ∧ lenSq q.normal = 1 ∧
    dot p.normal q.normal = 0 ∧ p.dihedralAngle q = 0 :=
  ⟨⟨⟨1, 0, 0⟩, 0⟩, ⟨⟨0, 1, 0⟩, 0⟩, by norm_num [lenSq, dot], by norm_num [lenSq, dot], by norm_num [dot],
    by norm_num [Plane.dihedralAngle, dot]⟩

/-- C64, what `DihedralAngle` returns instead: the cosine of the angle, which is 1 exactly for equal unit
normals and -1 exactly for opposite ones. -/
theorem C64_dihedralAngle_partial (p q : Plane α) (hp : lenSq p.normal = 1) (hq : lenSq q.normal = 1) :
    -1 ≤ p.dihedralAngle q ∧ p.dihedralAngle q ≤ 1 ∧ (p.dihedralAngle q = 1 ↔ p.normal = q.normal) ∧
    (p.dihedralAngle q = -1 ↔ p.normal = -q.normal) := by
  unfold Plane.dihedralAngle
  have e1 : lenSq (p.normal - q.normal) = 2 - 2 * dot p.normal q.normal := by
    have : lenSq (p.normal - q.normal) = lenSq p.normal + lenSq q.normal - 2 * dot p.normal q.normal := by
      simp only [lenSq, dot]; simp; ring
    rw [this, hp, hq]; ring
  have e2 : lenSq (p.normal + q.normal) = 2 + 2 * dot p.normal q.normal := by
    have : lenSq (p.normal + q.normal) = lenSq p.normal + lenSq q.normal + 2 * dot p.normal q.normal := by
      simp only [lenSq, dot]; simp; ring
    rw [this, hp, hq]; ring
  have n1 := lenSq_nonneg (p.normal - q.normal)
  have n2 := lenSq_nonneg (p.normal + q.normal)
  refine ⟨by linarith, by linarith, ?_, ?_⟩
  · rw [← sub_eq_zero (a := p.normal), ← lenSq_eq_zero, e1]; constructor <;> intro h <;> linarith
  · rw [eq_neg_iff_add_eq_zero (a := p.normal), ← lenSq_eq_zero, e2]; constructor <;> intro h <;> linarith

example := C64_dihedralAngle_partial (⟨⟨3/5, 0, 4/5⟩, 2⟩ : Plane ℚ) ⟨⟨0, 1, 0⟩, 1⟩ (by norm_num [lenSq, dot]) (by norm_num [lenSq, dot])

end Field

/-! ### Two and three planes -/

theorem mulVec_ofRows (a b c x : V3 ℝ) : Mat3.mulVec (Mat3.ofRows a b c) x = ⟨dot a x, dot b x, dot c x⟩ := by
  ext <;> simp [Mat3.mulVec, Mat3.ofRows, dot]

/-- C64: `Intersects(Plane, outLine)` for planes whose normals are not nearly parallel: if an intersection is
reported by the linear solver the returned line is exactly the set of common points, and its direction has
unit length. -/
theorem C64_intersects_plane_partial (p q : Plane ℝ) (h : 1 / 1000000 < V3.len (cross p.normal q.normal))
    (x : V3 ℝ) (hs : Mat3.solveAxb (Mat3.ofRows p.normal q.normal (f3Perpendicular p.normal q.normal)) ⟨p.d, q.d, 0⟩ = some x) :
    ∃ l, p.intersectsPlane q = some l ∧ lenSq l.dir = 1 ∧
      Spec.line l.pos l.dir = Spec.plane p.normal p.d ∩ Spec.plane q.normal q.d := by
  have hlen : f3Length (cross p.normal q.normal) > 1 / 1000000 := h
  set c := cross p.normal q.normal with hc
  have hcl : 0 < V3.len c := by linarith
  have hperp : f3Perpendicular p.normal q.normal = (1 / V3.len c) • c := by
    unfold f3Perpendicular
    rw [← hc, f3Normalize_pos hlen]
    dsimp only
    rw [if_neg hcl.ne']
  have hunit : lenSq ((1 / V3.len c) • c) = 1 := by
    show dot _ _ = _
    rw [dot_smul, smul_dot, show dot c c = V3.len c * V3.len c from (V3.len_mul_self c).symm]
    field_simp
  have hdir : f3Normalized ((1 / V3.len c) • c) = (1 / V3.len c) • c := by
    have hl1 : f3Length ((1 / V3.len c) • c) = 1 := by unfold f3Length; rw [hunit, Real.sqrt_one]
    unfold f3Normalized f3Normalize
    rw [hl1, if_pos (by norm_num)]
    dsimp only
    ext <;> simp
  refine ⟨⟨x, (1 / V3.len c) • c⟩, ?_, hunit, ?_⟩
  · unfold Plane.intersectsPlane
    dsimp only
    rw [hs, hperp, hdir]
  · have hm := (C37_solveAxb _ _ x hs).1
    rw [mulVec_ofRows] at hm
    have h1 : dot p.normal x = p.d := congrArg V3.x hm
    have h2 : dot q.normal x = q.d := congrArg V3.y hm
    have pc : dot p.normal c = 0 := by rw [hc]; simp [dot, cross]; ring
    have qc : dot q.normal c = 0 := by rw [hc]; simp [dot, cross]; ring
    ext y; constructor
    · rintro ⟨t, rfl⟩
      refine ⟨?_, ?_⟩
      · show dot p.normal _ = _
        rw [dot_add, dot_smul, dot_smul, pc, h1]; ring
      · show dot q.normal _ = _
        rw [dot_add, dot_smul, dot_smul, qc, h2]; ring
    · rintro ⟨hy1, hy2⟩
      have hy1 : dot p.normal y = p.d := hy1
      have hy2 : dot q.normal y = q.d := hy2
      have k1 : dot p.normal (y - x) = 0 := by rw [dot_sub]; linarith
      have k2 : dot q.normal (y - x) = 0 := by rw [dot_sub]; linarith
      -- `y - x` is parallel to the cross product
      have tri : ∀ v : V3 ℝ, dot p.normal v = 0 → dot q.normal v = 0 →
          lenSq c • v = dot c v • c := by
        intro v hv1 hv2
        have e1 : dot p.normal v = p.normal.x * v.x + p.normal.y * v.y + p.normal.z * v.z := rfl
        have e2 : dot q.normal v = q.normal.x * v.x + q.normal.y * v.y + q.normal.z * v.z := rfl
        rw [e1] at hv1; rw [e2] at hv2
        have r1 : v.y * c.z - v.z * c.y = 0 := by
          rw [hc]; simp [cross]; linear_combination (p.normal.x) * hv2 - (q.normal.x) * hv1
        have r2 : v.z * c.x - v.x * c.z = 0 := by
          rw [hc]; simp [cross]; linear_combination (p.normal.y) * hv2 - (q.normal.y) * hv1
        have r3 : v.x * c.y - v.y * c.x = 0 := by
          rw [hc]; simp [cross]; linear_combination (p.normal.z) * hv2 - (q.normal.z) * hv1
        ext <;> simp [lenSq, dot]
        · linear_combination (-c.z) * r2 + c.y * r3
        · linear_combination (-c.x) * r3 + c.z * r1
        · linear_combination (-c.y) * r1 + c.x * r2
      have hl := tri _ k1 k2
      have hcc : lenSq c = V3.len c * V3.len c := (V3.len_mul_self c).symm
      refine ⟨dot c (y - x) / V3.len c, ?_⟩
      rw [hcc] at hl
      have comp : ∀ u v w k L : ℝ, 0 < L → L * L * (u - v) = k * w → u = v + k / L * (1 / L * w) := by
        intro u v w k L hL he
        field_simp
        linear_combination he
      have hx := congrArg V3.x hl
      have hy := congrArg V3.y hl
      have hz := congrArg V3.z hl
      ext
      · exact comp _ _ _ _ _ hcl hx
      · exact comp _ _ _ _ _ hcl hy
      · exact comp _ _ _ _ _ hcl hz

/-- C64: for planes with equal normals `Intersects(Plane)` says whether the offsets agree up to 1e-4. -/
theorem C64_intersects_plane_parallel (n : V3 ℝ) (d e : ℝ) (hn : lenSq n = 1) :
    (Plane.intersectsPlane ⟨n, d⟩ ⟨n, e⟩).isSome = true ↔ |d - e| < 1 / 10000 := by
  have hz : cross n n = 0 := by ext <;> simp [cross] <;> ring
  have hdet : ∀ v x, Mat3.solveAxb (Mat3.ofRows n n v) x = none := by
    intro v x
    cases hs : Mat3.solveAxb (Mat3.ofRows n n v) x with
    | none => rfl
    | some y =>
      exfalso
      apply (C37_solveAxb _ _ y hs).2.1
      rw [Matrix.det_fin_three]
      simp [Mat3.ofRows]; ring
  unfold Plane.intersectsPlane
  dsimp only
  rw [hdet]
  dsimp only
  have h1 : dot n n = 1 := hn
  rw [h1]
  split_ifs with h
  · rcases h with h | h
    · simpa [equalAbs, absF_eq] using h.2
    · exact absurd h.1 (by norm_num)
  · simp only [Option.isSome_none, Bool.false_eq_true, false_iff]
    intro hc
    exact h (Or.inl ⟨one_pos, by simpa [equalAbs, absF_eq] using hc⟩)

example := C64_intersects_plane_parallel ⟨3/5, 0, 4/5⟩ 2 3 (by norm_num [lenSq, dot])

/-- Three unit vectors whose triple product is at least 1/1000 stretch every vector enough for the solver. -/
theorem stretch_of_det (a b c : V3 ℝ) (ha : lenSq a = 1) (hb : lenSq b = 1) (hc : lenSq c = 1)
    (hd : 1 / 1000 ≤ |dot a (cross b c)|) (v : V3 ℝ) (hv : 1 ≤ |v.x| ∨ 1 ≤ |v.y| ∨ 1 ≤ |v.z|) :
    1 / 10000 ≤ |dot a v| ∨ 1 / 10000 ≤ |dot b v| ∨ 1 / 10000 ≤ |dot c v| := by
  by_contra hcon
  simp only [not_or, not_le] at hcon
  obtain ⟨h1, h2, h3⟩ := hcon
  have hcr : ∀ u w : V3 ℝ, lenSq u = 1 → lenSq w = 1 → V3.len (cross u w) ≤ 1 := by
    intro u w hu hw
    have := lagrange u w
    rw [hu, hw] at this
    have h0 : lenSq (cross u w) ≤ 1 := by nlinarith [mul_self_nonneg (dot u w)]
    unfold V3.len
    exact Real.sqrt_le_one.2 h0
  have e : dot a (cross b c) • v = dot a v • cross b c + (dot b v • cross c a + dot c v • cross a b) := by
    simp only [dot, cross]; ext <;> simp <;> ring
  have hl : V3.len (dot a (cross b c) • v) ≤ 3 / 10000 := by
    rw [e]
    have t1 := V3.len_add_le (dot a v • cross b c) (dot b v • cross c a + dot c v • cross a b)
    have t2 := V3.len_add_le (dot b v • cross c a) (dot c v • cross a b)
    rw [V3.len_smul] at t1 t2
    rw [V3.len_smul] at t2
    have u1 := mul_le_mul h1.le (hcr b c hb hc) (V3.len_nonneg _) (by norm_num)
    have u2 := mul_le_mul h2.le (hcr c a hc ha) (V3.len_nonneg _) (by norm_num)
    have u3 := mul_le_mul h3.le (hcr a b ha hb) (V3.len_nonneg _) (by norm_num)
    linarith
  rw [V3.len_smul] at hl
  have hv1 : 1 ≤ V3.len v := by
    unfold V3.len
    rw [Real.one_le_sqrt]
    have sq : ∀ x : ℝ, 1 ≤ |x| → 1 ≤ x * x := by
      intro x hx; nlinarith [abs_mul_abs_self x]
    have := mul_self_nonneg v.x
    have := mul_self_nonneg v.y
    have := mul_self_nonneg v.z
    simp only [lenSq, dot]
    rcases hv with h | h | h <;> have := sq _ h <;> linarith
  nlinarith

/-- C64: `Intersects(Plane, outLine)` for two planes with unit normals that enclose an angle whose sine is at least
1/1000: there always is an intersection, and the returned line is exactly the set of common points. -/
theorem C64_intersects_plane_angle_partial (p q : Plane ℝ) (hp : lenSq p.normal = 1) (hq : lenSq q.normal = 1)
    (h : 1 / 1000 ≤ V3.len (cross p.normal q.normal)) :
    (∃ x, Mat3.solveAxb (Mat3.ofRows p.normal q.normal (f3Perpendicular p.normal q.normal)) ⟨p.d, q.d, 0⟩ = some x) ∧
    ∃ l, p.intersectsPlane q = some l ∧ lenSq l.dir = 1 ∧
      Spec.line l.pos l.dir = Spec.plane p.normal p.d ∩ Spec.plane q.normal q.d := by
  have hl : 1 / 1000000 < V3.len (cross p.normal q.normal) := by
    have : (1 : ℝ) / 1000000 < 1 / 1000 := by norm_num
    linarith
  have hpos : 0 < V3.len (cross p.normal q.normal) := by
    have : (0 : ℝ) < 1 / 1000 := by norm_num
    linarith
  have hperp : f3Perpendicular p.normal q.normal = (1 / V3.len (cross p.normal q.normal)) • cross p.normal q.normal := by
    unfold f3Perpendicular
    rw [f3Normalize_pos hl]
    dsimp only
    rw [if_neg hpos.ne']
  have hu : lenSq (f3Perpendicular p.normal q.normal) = 1 := by
    rw [hperp, lenSq_smul, ← V3.len_mul_self]; field_simp
  have hdet : dot p.normal (cross q.normal (f3Perpendicular p.normal q.normal)) = V3.len (cross p.normal q.normal) := by
    have e : dot p.normal (cross q.normal (f3Perpendicular p.normal q.normal)) =
        1 / V3.len (cross p.normal q.normal) * lenSq (cross p.normal q.normal) := by
      rw [hperp]
      generalize 1 / V3.len (cross p.normal q.normal) = k
      simp only [lenSq, dot, cross, smul_x, smul_y, smul_z]; ring
    rw [e, ← V3.len_mul_self]; field_simp
  have hs : ∃ x, Mat3.solveAxb (Mat3.ofRows p.normal q.normal (f3Perpendicular p.normal q.normal)) ⟨p.d, q.d, 0⟩ = some x := by
    refine C37_solveAxb_success _ _ (fun v hv => ?_)
    rw [mulVec_ofRows]
    exact stretch_of_det _ _ _ hp hq hu (by rw [hdet, abs_of_pos hpos]; exact h) v hv
  refine ⟨hs, ?_⟩
  obtain ⟨x, hx⟩ := hs
  exact C64_intersects_plane_partial p q hl x hx

example : lenSq (⟨1, 0, 0⟩ : V3 ℝ) = 1 ∧ lenSq (⟨3/5, 4/5, 0⟩ : V3 ℝ) = 1 ∧
    1 / 1000 ≤ V3.len (cross (⟨1, 0, 0⟩ : V3 ℝ) ⟨3/5, 4/5, 0⟩) := by
  refine ⟨by norm_num [lenSq, dot], by norm_num [lenSq, dot], ?_⟩
  unfold V3.len
  exact Real.le_sqrt_of_sq_le (by norm_num [lenSq, dot, cross])

/-- C64: `Intersects(Plane, Plane)` of three planes with pairwise different normals: a reported point is the only
common point of the three planes. -/
theorem C64_intersects_planes_partial (p q r : Plane ℝ) (h1 : p.isParallel q = false) (h2 : p.isParallel r = false)
    (h3 : q.isParallel r = false) (x : V3 ℝ) (hx : p.intersectsPlanes q r = some x) :
    Spec.plane p.normal p.d ∩ Spec.plane q.normal q.d ∩ Spec.plane r.normal r.d = {x} := by
  unfold Plane.intersectsPlanes at hx
  rw [h1, h2, h3] at hx
  simp only [Bool.false_eq_true, or_self, if_false] at hx
  obtain ⟨hm, -, hu⟩ := C37_solveAxb _ _ x hx
  ext y
  constructor
  · rintro ⟨⟨hy1, hy2⟩, hy3⟩
    apply hu
    rw [mulVec_ofRows]
    ext
    · exact hy1
    · exact hy2
    · exact hy3
  · rintro rfl
    rw [mulVec_ofRows] at hm
    exact ⟨⟨congrArg V3.x hm, congrArg V3.y hm⟩, congrArg V3.z hm⟩


/-- Unit normals the library calls parallel have a triple product below 1/500 with every unit vector. -/
theorem isParallel_det {p q : Plane ℝ} (h : p.isParallel q = true) (c : V3 ℝ) (hp : lenSq p.normal = 1)
    (hc : lenSq c = 1) : |dot c (cross p.normal q.normal)| < 1 / 500 := by
  simp only [Plane.isParallel, Bool.and_eq_true, decide_eq_true_eq, absF_eq] at h
  obtain ⟨⟨h1, h2⟩, h3⟩ := h
  have sq : ∀ x : ℝ, |x| < 1 / 1000 → x * x ≤ 1 / 1000000 := by
    intro x hx
    have := abs_mul_abs_self x
    nlinarith [abs_nonneg x]
  have e : cross p.normal q.normal = cross (p.normal - q.normal) p.normal := by
    simp only [cross]; ext <;> simp <;> ring
  have hl : lenSq (cross p.normal q.normal) ≤ 3 / 1000000 := by
    have := lagrange (p.normal - q.normal) p.normal
    rw [hp, ← e] at this
    have hd : lenSq (p.normal - q.normal) ≤ 3 / 1000000 := by
      have := sq _ h1
      have := sq _ h2
      have := sq _ h3
      simp only [lenSq, dot, sub_x, sub_y, sub_z]; linarith
    nlinarith [mul_self_nonneg (dot (p.normal - q.normal) p.normal)]
  have hcs := lagrange c (cross p.normal q.normal)
  rw [hc] at hcs
  have h0 : 0 ≤ lenSq (cross c (cross p.normal q.normal)) := lenSq_nonneg _
  refine abs_lt_of_sq_lt_sq ?_ (by norm_num)
  nlinarith

/-- C64: three planes with unit normals whose triple product is at least 1/500: `Intersects` always finds their only
common point. -/
theorem C64_intersects_planes_det_partial (p q r : Plane ℝ)
    (hp : lenSq p.normal = 1) (hq : lenSq q.normal = 1) (hr : lenSq r.normal = 1)
    (hd : 1 / 500 ≤ |dot p.normal (cross q.normal r.normal)|) :
    ∃ x, p.intersectsPlanes q r = some x ∧
      Spec.plane p.normal p.d ∩ Spec.plane q.normal q.d ∩ Spec.plane r.normal r.d = {x} := by
  have h1 : p.isParallel q = false := by
    by_contra hc
    have := isParallel_det (Bool.not_eq_false _ ▸ hc) r.normal hp hr
    have e : dot r.normal (cross p.normal q.normal) = dot p.normal (cross q.normal r.normal) := by
      simp only [dot, cross]; ring
    rw [e] at this
    linarith
  have h2 : p.isParallel r = false := by
    by_contra hc
    have := isParallel_det (Bool.not_eq_false _ ▸ hc) q.normal hp hq
    have e : dot q.normal (cross p.normal r.normal) = -dot p.normal (cross q.normal r.normal) := by
      simp only [dot, cross]; ring
    rw [e, abs_neg] at this
    linarith
  have h3 : q.isParallel r = false := by
    by_contra hc
    have := isParallel_det (Bool.not_eq_false _ ▸ hc) p.normal hq hp
    linarith
  obtain ⟨x, hx⟩ := C37_solveAxb_success (Mat3.ofRows p.normal q.normal r.normal) ⟨p.d, q.d, r.d⟩ (fun v hv => by
    rw [mulVec_ofRows]; exact stretch_of_det _ _ _ hp hq hr (by linarith) v hv)
  have hx' : p.intersectsPlanes q r = some x := by
    unfold Plane.intersectsPlanes
    rw [h1, h2, h3]
    simp only [Bool.false_eq_true, or_self, if_false]
    exact hx
  exact ⟨x, hx', C64_intersects_planes_partial p q r h1 h2 h3 x hx'⟩

example : lenSq (⟨1, 0, 0⟩ : V3 ℝ) = 1 ∧ lenSq (⟨3/5, 4/5, 0⟩ : V3 ℝ) = 1 ∧ lenSq (⟨0, 0, 1⟩ : V3 ℝ) = 1 ∧
    1 / 500 ≤ |dot (⟨1, 0, 0⟩ : V3 ℝ) (cross ⟨3/5, 4/5, 0⟩ ⟨0, 0, 1⟩)| := by
  refine ⟨by norm_num [lenSq, dot], by norm_num [lenSq, dot], by norm_num [lenSq, dot], ?_⟩
  rw [abs_of_nonneg] <;> norm_num [dot, cross]

/-- `x = 2` and `y = 3`. -/
theorem two_planes (a b : ℝ) : f3Perpendicular (⟨1, 0, 0⟩ : V3 ℝ) ⟨0, 1, 0⟩ = ⟨0, 0, 1⟩ ∧
    Mat3.solveAxb (Mat3.ofRows (⟨1, 0, 0⟩ : V3 ℝ) ⟨0, 1, 0⟩ ⟨0, 0, 1⟩) ⟨a, b, 0⟩ = some ⟨a, b, 0⟩ := by
  have hl : V3.len (⟨0, 0, 1⟩ : V3 ℝ) = 1 := by unfold V3.len; norm_num [lenSq, dot]
  have hc : cross (⟨1, 0, 0⟩ : V3 ℝ) ⟨0, 1, 0⟩ = ⟨0, 0, 1⟩ := by ext <;> simp [cross]
  constructor
  · unfold f3Perpendicular
    rw [hc, f3Normalize_pos (by rw [hl]; norm_num), hl]
    simp
    ext <;> simp
  · have e : ∀ i j, Mat3.ofRows (⟨1, 0, 0⟩ : V3 ℝ) ⟨0, 1, 0⟩ ⟨0, 0, 1⟩ i j = (1 : Matrix (Fin 3) (Fin 3) ℝ) i j := by
      intro i j; fin_cases i <;> fin_cases j <;> simp [Mat3.ofRows]
    have e' : Mat3.ofRows (⟨1, 0, 0⟩ : V3 ℝ) ⟨0, 1, 0⟩ ⟨0, 0, 1⟩ = (1 : Matrix (Fin 3) (Fin 3) ℝ) := by
      ext i j; exact e i j
    rw [e']
    simp [Mat3.solveAxb, Mat3.pivot1, Mat3.solveTail, equalAbs, absF, Matrix.one_apply]
    norm_num

example : 1 / 1000000 < V3.len (cross (⟨1, 0, 0⟩ : V3 ℝ) ⟨0, 1, 0⟩) ∧
    Mat3.solveAxb (Mat3.ofRows (⟨1, 0, 0⟩ : V3 ℝ) ⟨0, 1, 0⟩ (f3Perpendicular ⟨1, 0, 0⟩ ⟨0, 1, 0⟩)) ⟨2, 3, 0⟩ = some ⟨2, 3, 0⟩ := by
  constructor
  · have hc : cross (⟨1, 0, 0⟩ : V3 ℝ) ⟨0, 1, 0⟩ = ⟨0, 0, 1⟩ := by ext <;> simp [cross]
    rw [hc]; unfold V3.len; norm_num [lenSq, dot]
  · rw [(two_planes 2 3).1, (two_planes 2 3).2]

/-- C64 fails for the three planes `x = 0`, `x = 1`, `y = 0`: an intersection is reported although the first two
are parallel and different. -/
theorem C64_intersects_planes_violation : ∃ p q r : Plane ℝ, lenSq p.normal = 1 ∧ lenSq q.normal = 1 ∧ lenSq r.normal = 1 ∧
    (p.intersectsPlanes q r).isSome = true ∧
    ¬ (Spec.plane p.normal p.d ∩ Spec.plane q.normal q.d ∩ Spec.plane r.normal r.d).Nonempty := by
  refine ⟨⟨⟨1, 0, 0⟩, 0⟩, ⟨⟨1, 0, 0⟩, 1⟩, ⟨⟨0, 1, 0⟩, 0⟩, by norm_num [lenSq, dot], by norm_num [lenSq, dot],
    by norm_num [lenSq, dot], ?_, ?_⟩
  · unfold Plane.intersectsPlanes
    rw [if_pos (Or.inl (by norm_num [Plane.isParallel, absF])), if_pos (Or.inr (by norm_num [equalAbs, absF]))]
    unfold Plane.intersectsPlane
    dsimp only
    rw [(two_planes 1 0).1, (two_planes 1 0).2]
    rfl
  · rintro ⟨x, ⟨h1, h2⟩, -⟩
    have h1 : dot (⟨1, 0, 0⟩ : V3 ℝ) x = 0 := h1
    have h2 : dot (⟨1, 0, 0⟩ : V3 ℝ) x = 1 := h2
    rw [h1] at h2; norm_num at h2

/-- C64: `Intersects(LineSegment, dist)` for segments longer than 1e-6 that are not within 1e-4 of parallel: it
decides whether the segment meets the plane, and `dist` is then the parameter of the common point. -/
theorem C64_intersects_segment_partial (p : Plane ℝ) (l : LineSeg ℝ) (hL : 1 / 1000000 < V3.dist l.a l.b)
    (h : 1 / 10000 * V3.dist l.a l.b < |p.signedDistance l.b - p.signedDistance l.a|) :
    ((p.intersectsSeg l).1 = true ↔ (Spec.seg l.a l.b ∩ Spec.plane p.normal p.d).Nonempty) ∧
    ((p.intersectsSeg l).1 = true → l.getPoint (p.intersectsSeg l).2 ∈ Spec.seg l.a l.b ∩ Spec.plane p.normal p.d) := by
  have sd : ∀ y, dot p.normal y = p.signedDistance y + p.d := by intro y; unfold Plane.signedDistance; ring
  have hf : f3Length (l.b - l.a) = V3.dist l.a l.b := by rw [V3.dist_comm]; rfl
  set L := V3.dist l.a l.b with hLd
  have hLpos : 0 < L := by linarith
  have hdir : l.dir = (1 / L) • (l.b - l.a) := by
    unfold LineSeg.dir f3Normalized f3Normalize
    rw [hf, if_pos hL]
  have hden : dot p.normal l.dir = (p.signedDistance l.b - p.signedDistance l.a) / L := by
    rw [hdir, dot_smul, dot_sub, sd, sd]; ring
  have hbig : 1 / 10000 < |dot p.normal l.dir| := by
    rw [hden, abs_div, abs_of_pos hLpos, lt_div_iff₀ hLpos]; exact h
  obtain ⟨h1, h2⟩ := C64_intersects_line_partial p ⟨l.a, l.dir⟩ hbig
  have e1 : (p.intersectsSeg l).2 = (p.intersectsLine ⟨l.a, l.dir⟩).2 / L := rfl
  have e2 : (p.intersectsSeg l).1 = ((p.intersectsLine ⟨l.a, l.dir⟩).1 && decide ((p.intersectsLine ⟨l.a, l.dir⟩).2 ≥ 0) &&
    decide ((p.intersectsLine ⟨l.a, l.dir⟩).2 ≤ L)) := rfl
  rw [e1, e2, h1, Bool.true_and, Bool.and_eq_true, decide_eq_true_iff, decide_eq_true_iff]
  have pt : ∀ t : ℝ, Line.getPoint ⟨l.a, l.dir⟩ t = l.a + (t / L) • (l.b - l.a) := by
    intro t; unfold Line.getPoint; rw [hdir]; ext <;> simp <;> ring
  have h3 : (p.intersectsLine ⟨l.a, l.dir⟩).2 ≥ 0 ∧ (p.intersectsLine ⟨l.a, l.dir⟩).2 ≤ L →
      l.getPoint ((p.intersectsLine ⟨l.a, l.dir⟩).2 / L) ∈ Spec.seg l.a l.b ∩ Spec.plane p.normal p.d := by
    rintro ⟨h4, h5⟩
    rw [LineSeg.getPoint_eq]
    refine ⟨⟨_, div_nonneg h4 hLpos.le, (div_le_one hLpos).2 h5, rfl⟩, ?_⟩
    rw [← pt]; exact (h2 _).2 rfl
  refine ⟨⟨fun h0 => ⟨_, h3 h0⟩, ?_⟩, h3⟩
  rintro ⟨_, ⟨t, ht0, ht1, rfl⟩, hp⟩
  have := (h2 (t * L)).1 (by rw [pt, mul_div_cancel_right₀ _ hLpos.ne']; exact hp)
  rw [← this]
  constructor <;> nlinarith

example : (1 : ℝ) / 10000 * V3.dist (⟨3, 0, 0⟩ : V3 ℝ) ⟨0, 0, 4⟩ <
    |(Plane.mk (⟨0, 0, 1⟩ : V3 ℝ) 1).signedDistance ⟨0, 0, 4⟩ - (Plane.mk (⟨0, 0, 1⟩ : V3 ℝ) 1).signedDistance ⟨3, 0, 0⟩| := by
  have : V3.dist (⟨3, 0, 0⟩ : V3 ℝ) ⟨0, 0, 4⟩ = 5 := by
    unfold V3.dist; rw [Real.sqrt_eq_iff_mul_self_eq_of_pos (by norm_num)]; norm_num [distSq, lenSq, dot]
  rw [this]; norm_num [Plane.signedDistance, dot]

/-- C64: the plane through three points that are not collinear contains them, and its normal has unit length and
points to the side from which the points appear counterclockwise. -/
theorem C64_setPoints (a b c : V3 ℝ) (h : cross (b - a) (c - a) ≠ 0) :
    let p := Plane.setPoints a b c
    lenSq p.normal = 1 ∧ a ∈ Spec.plane p.normal p.d ∧ b ∈ Spec.plane p.normal p.d ∧ c ∈ Spec.plane p.normal p.d ∧
    0 < dot p.normal (cross (b - a) (c - a)) := by
  intro p
  have hl := V3.len_pos h
  have hp : p.normal = (1 / V3.len (cross (b - a) (c - a))) • cross (b - a) (c - a) := rfl
  have hd : p.d = dot p.normal a := rfl
  have h1 : dot (cross (b - a) (c - a)) (b - a) = 0 := by simp [dot, cross]; ring
  have h2 : dot (cross (b - a) (c - a)) (c - a) = 0 := by simp [dot, cross]; ring
  have hcc : dot (cross (b - a) (c - a)) (cross (b - a) (c - a)) = V3.len (cross (b - a) (c - a)) * V3.len (cross (b - a) (c - a)) :=
    (V3.len_mul_self _).symm
  generalize cross (b - a) (c - a) = n at *
  refine ⟨?_, hd.symm, ?_, ?_, ?_⟩
  · rw [hp]; show dot _ _ = _
    rw [dot_smul, smul_dot, hcc]; field_simp
  · show dot p.normal b = p.d
    have : dot p.normal (b - a) = 0 := by rw [hp, smul_dot, h1, mul_zero]
    rw [dot_sub] at this; rw [hd]; linarith
  · show dot p.normal c = p.d
    have : dot p.normal (c - a) = 0 := by rw [hp, smul_dot, h2, mul_zero]
    rw [dot_sub] at this; rw [hd]; linarith
  · rw [hp, smul_dot, hcc]; positivity

example : cross ((⟨1, 0, 0⟩ : V3 ℝ) - ⟨0, 0, 0⟩) ((⟨0, 1, 0⟩ : V3 ℝ) - ⟨0, 0, 0⟩) ≠ 0 := by
  intro h; have := congrArg V3.z h; simp [cross] at this

/-- C64: the plane made from a line (ray) and a normal contains the line and has a unit normal, when the given
normal is not nearly parallel to the line; likewise from a segment. -/
theorem C64_ofLine (pos dir n : V3 ℝ) (hd : lenSq dir = 1) (h : 1 / 1000000 < V3.len (n - f3ProjectToNorm n dir)) :
    lenSq (Plane.ofRay pos dir n).normal = 1 ∧
    Spec.line pos dir ⊆ Spec.plane (Plane.ofRay pos dir n).normal (Plane.ofRay pos dir n).d := by
  have hd' : dot dir dir = 1 := hd
  have hn : (Plane.ofRay pos dir n).normal = f3Normalized (n - f3ProjectToNorm n dir) := rfl
  have hk : (Plane.ofRay pos dir n).d = dot pos (f3Normalized (n - f3ProjectToNorm n dir)) := rfl
  have hN : f3Normalized (n - f3ProjectToNorm n dir) = (1 / V3.len (n - f3ProjectToNorm n dir)) • (n - f3ProjectToNorm n dir) := by
    unfold f3Normalized; rw [f3Normalize_pos h]
  refine ⟨?_, ?_⟩
  · rw [hn, hN]; show dot _ _ = _
    have h0 : 0 < V3.len (n - f3ProjectToNorm n dir) := by linarith
    rw [dot_smul, smul_dot, show dot (n - f3ProjectToNorm n dir) (n - f3ProjectToNorm n dir) = _ from (V3.len_mul_self _).symm]
    field_simp
  · rintro _ ⟨t, rfl⟩
    show dot _ _ = _
    have : dot (n - f3ProjectToNorm n dir) dir = 0 := by
      unfold f3ProjectToNorm; rw [sub_dot, smul_dot, hd']; ring
    rw [hn, hk, dot_add, dot_smul, dot_comm pos, hN]
    simp only [smul_dot, this]; ring

example : (1 : ℝ) / 1000000 < V3.len ((⟨3, 0, 4⟩ : V3 ℝ) - f3ProjectToNorm ⟨3, 0, 4⟩ ⟨1, 0, 0⟩) := by
  have : (⟨3, 0, 4⟩ : V3 ℝ) - f3ProjectToNorm ⟨3, 0, 4⟩ ⟨1, 0, 0⟩ = ⟨0, 0, 4⟩ := by
    unfold f3ProjectToNorm; ext <;> norm_num [dot]
  rw [this]
  have : V3.len (⟨0, 0, 4⟩ : V3 ℝ) = 4 := by
    unfold V3.len; rw [Real.sqrt_eq_iff_mul_self_eq_of_pos (by norm_num)]; norm_num [lenSq, dot]
  rw [this]; norm_num

end MGL
