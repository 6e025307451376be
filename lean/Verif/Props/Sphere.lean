import Verif.Proofs.Sphere
import Verif.Props.Plane
import Verif.Props.AABBEnclose
import Verif.Props.Quat
import Mathlib.Data.List.FinRange

/-! C27: containment, distance, closest points and extents of spheres. -/

namespace MGL
open V3

/-- C27: `Contains(point)` is membership of the ball. -/
theorem C27_contains_point (s : Sphere ℝ) (p : V3 ℝ) : s.contains p = true ↔ p ∈ Spec.ball s.pos s.r := by
  unfold Sphere.contains
  rw [decide_eq_true_iff, distSq_comm]; rfl

/-- C27: `Contains(LineSegment)` and `Contains(Triangle)` hold exactly when the whole object is inside the ball. -/
theorem C27_contains_segment_triangle (s : Sphere ℝ) (hr : 0 ≤ s.r) :
    (∀ l : LineSeg ℝ, s.containsSeg l = true ↔ Spec.seg l.a l.b ⊆ Spec.ball s.pos s.r) ∧
    (∀ t : Tri ℝ, s.containsTri t = true ↔ Spec.tri t.a t.b t.c ⊆ Spec.ball s.pos s.r) := by
  constructor
  · intro l
    unfold Sphere.containsSeg
    rw [Bool.and_eq_true, C27_contains_point, C27_contains_point]
    exact ⟨fun h => ball_convex _ _ hr _ h.1 _ h.2, fun h => ⟨h (seg_left _ _), h (seg_right _ _)⟩⟩
  · intro t
    unfold Sphere.containsTri
    rw [Bool.and_eq_true, Bool.and_eq_true, C27_contains_point, C27_contains_point, C27_contains_point]
    have ma : t.a ∈ Spec.tri t.a t.b t.c := ⟨1, 0, 0, zero_le_one, le_rfl, le_rfl, by simp, by ext <;> simp⟩
    have mb : t.b ∈ Spec.tri t.a t.b t.c := ⟨0, 1, 0, le_rfl, zero_le_one, le_rfl, by simp, by ext <;> simp⟩
    have mc : t.c ∈ Spec.tri t.a t.b t.c := ⟨0, 0, 1, le_rfl, le_rfl, zero_le_one, by simp, by ext <;> simp⟩
    refine ⟨?_, fun h => ⟨⟨h ma, h mb⟩, h mc⟩⟩
    rintro ⟨⟨ha, hb⟩, hc⟩ _ ⟨u, v, w, hu, hv, hw, h1, rfl⟩
    rw [mem_ball_iff hr] at *
    rw [dist_eq_len, show u • t.a + v • t.b + w • t.c - s.pos = u • (t.a - s.pos) + v • (t.b - s.pos) + w • (t.c - s.pos) by
      have : u = 1 - v - w := by linarith
      subst this; ext <;> simp <;> ring]
    refine (len_add_le _ _).trans ((add_le_add (len_add_le _ _) le_rfl).trans ?_)
    rw [len_smul, len_smul, len_smul, abs_of_nonneg hu, abs_of_nonneg hv, abs_of_nonneg hw,
      ← dist_eq_len, ← dist_eq_len, ← dist_eq_len]
    nlinarith

example := C27_contains_segment_triangle ⟨⟨1, 2, 3⟩, 4⟩ (by norm_num)

/-- C27: `Contains(AABB)` holds exactly when the whole box is inside the ball. -/
theorem C27_contains_aabb (s : Sphere ℝ) (b : AABB ℝ) (hb : b.Proper) :
    s.containsAABB b = true ↔ Spec.box b.minPoint b.maxPoint ⊆ Spec.ball s.pos s.r := by
  obtain ⟨hx, hy, hz⟩ := hb
  unfold Sphere.containsAABB
  rw [List.all_eq_true]
  simp only [List.mem_finRange, true_imp_iff, C27_contains_point]
  constructor
  · intro h p hp
    obtain ⟨p1, p2, p3, p4, p5, p6⟩ := hp
    show distSq p s.pos ≤ s.r * s.r
    have key : ∀ x lo hi c : ℝ, lo ≤ x → x ≤ hi → (x - c) * (x - c) ≤ (lo - c) * (lo - c) ∨ (x - c) * (x - c) ≤ (hi - c) * (hi - c) := by
      intro x lo hi c h1 h2
      rcases le_total x c with h | h
      · left; nlinarith
      · right; nlinarith
    have h0 : distSq _ s.pos ≤ s.r * s.r := h 0
    have h1 : distSq _ s.pos ≤ s.r * s.r := h 1
    have h2 : distSq _ s.pos ≤ s.r * s.r := h 2
    have h3 : distSq _ s.pos ≤ s.r * s.r := h 3
    have h4 : distSq _ s.pos ≤ s.r * s.r := h 4
    have h5 : distSq _ s.pos ≤ s.r * s.r := h 5
    have h6 : distSq _ s.pos ≤ s.r * s.r := h 6
    have h7 : distSq _ s.pos ≤ s.r * s.r := h 7
    simp only [AABB.cornerPoint, distSq_eq] at *
    rcases key p.x _ _ s.pos.x p1 p2 with kx | kx <;> rcases key p.y _ _ s.pos.y p3 p4 with ky | ky <;>
      rcases key p.z _ _ s.pos.z p5 p6 with kz | kz <;> linarith
  · intro h i
    apply h
    fin_cases i <;> simp [AABB.cornerPoint, Spec.box, hx, hy, hz]

example := C27_contains_aabb ⟨⟨1, 2, 3⟩, 4⟩ ⟨⟨0, 0, 0⟩, ⟨1, 2, 3⟩⟩ (by simp [AABB.Proper])

/-- C27: `Contains` of a polygon or polyhedron checks every vertex. -/
theorem C27_contains_vertices (s : Sphere ℝ) (vs : List (V3 ℝ)) :
    s.containsVertices vs = true ↔ ∀ v ∈ vs, v ∈ Spec.ball s.pos s.r := by
  unfold Sphere.containsVertices
  simp only [List.all_eq_true, C27_contains_point]

/-- C27: `Contains(Sphere)` and `Contains(Capsule)` hold exactly when the whole object is inside the ball. -/
theorem C27_contains_sphere_capsule (s : Sphere ℝ) (hs : 0 ≤ s.r) :
    (∀ o : Sphere ℝ, 0 ≤ o.r → (s.containsSphere o = true ↔ Spec.ball o.pos o.r ⊆ Spec.ball s.pos s.r)) ∧
    (∀ (l : LineSeg ℝ) (r : ℝ), 0 ≤ r → (s.containsCapsule l r = true ↔ Spec.capsule l.a l.b r ⊆ Spec.ball s.pos s.r)) := by
  constructor
  · intro o ho
    unfold Sphere.containsSphere
    rw [decide_eq_true_iff, ball_subset_ball ho hs]
  · intro l r hr
    unfold Sphere.containsCapsule
    rw [Bool.and_eq_true, decide_eq_true_iff, decide_eq_true_iff]
    constructor
    · rintro ⟨ha, hb⟩ x ⟨q, hq, hxq⟩
      have hR : 0 ≤ s.r - r := by linarith [dist_nonneg s.pos l.a]
      have : q ∈ Spec.ball s.pos (s.r - r) := by
        refine ball_convex _ _ hR _ ((mem_ball_iff hR).2 ?_) _ ((mem_ball_iff hR).2 ?_) hq <;> rw [V3.dist_comm] <;> linarith
      rw [mem_ball_iff hR] at this
      rw [mem_ball_iff hs]
      have h1 := (dist_le_iff hr).2 hxq
      linarith [dist_triangle x q s.pos]
    · intro h
      constructor <;> rw [← ball_subset_ball hr hs]
      · exact fun x hx => h ⟨l.a, seg_left _ _, hx⟩
      · exact fun x hx => h ⟨l.b, seg_right _ _, hx⟩

example : Sphere.containsAABB (⟨⟨0, 0, 0⟩, 3⟩ : Sphere ℚ) ⟨⟨-1, -2, -2⟩, ⟨1, 2, 2⟩⟩ = true ∧
    Sphere.containsAABB (⟨⟨0, 0, 0⟩, 3⟩ : Sphere ℚ) ⟨⟨-1, -2, -2⟩, ⟨1, 2, 3⟩⟩ = false := by decide +kernel

/-- C27: `Distance` is the distance of the ball to the point or to the other ball. -/
theorem C27_distance (s : Sphere ℝ) (hs : 0 ≤ s.r) :
    (∀ p : V3 ℝ, Spec.IsSetDist (Spec.ball s.pos s.r) {p} (s.distance p)) ∧
    (∀ o : Sphere ℝ, 0 ≤ o.r → Spec.IsSetDist (Spec.ball s.pos s.r) (Spec.ball o.pos o.r) (s.distanceSphere o)) := by
  constructor
  · intro p
    have := setDist_ball_ball s.pos p s.r 0 hs le_rfl
    have e : Spec.ball p 0 = {p} := by
      ext x
      constructor
      · intro h
        have h : distSq x p ≤ 0 * 0 := h
        rw [mul_zero] at h
        exact distSq_eq_zero.1 (le_antisymm h (distSq_nonneg _ _))
      · rintro rfl; exact center_mem_ball
    rw [e, sub_zero] at this
    unfold Sphere.distance
    rw [max2_eq]; exact this
  · intro o ho
    unfold Sphere.distanceSphere
    rw [max2_eq]; exact setDist_ball_ball _ _ _ _ hs ho

example := (C27_distance ⟨⟨1, 2, 3⟩, 4⟩ (by norm_num)).2 ⟨⟨9, 2, 3⟩, 1⟩ (by norm_num)

/-- C27: `MaxDistance` is the distance to the farthest point of the ball. -/
theorem C27_maxDistance (s : Sphere ℝ) (hs : 0 ≤ s.r) (p : V3 ℝ) :
    (∀ x ∈ Spec.ball s.pos s.r, V3.dist p x ≤ s.maxDistance p) ∧
    ∃ x ∈ Spec.ball s.pos s.r, V3.dist p x = s.maxDistance p := by
  constructor
  · intro x hx
    rw [mem_ball_iff hs] at hx
    unfold Sphere.maxDistance
    have := dist_triangle p s.pos x
    rw [V3.dist_comm s.pos x] at this
    linarith
  · obtain ⟨u, hu, e⟩ := unit_toward p s.pos
    refine ⟨s.pos + s.r • u, (mem_ball_iff hs).2 (by rw [dist_move _ _ _ hu, abs_of_nonneg hs]), ?_⟩
    rw [V3.dist_comm, dist_eq_len, show s.pos + s.r • u - p = (V3.dist s.pos p + s.r) • u by
      rw [show s.pos + s.r • u - p = (s.pos - p) + s.r • u by ext <;> simp <;> ring, e]; ext <;> simp <;> ring,
      len_smul, len_unit hu, mul_one, abs_of_nonneg (add_nonneg (dist_nonneg _ _) hs), V3.dist_comm]
    rfl

example := C27_maxDistance ⟨⟨1, 2, 3⟩, 4⟩ (by norm_num) ⟨7, 8, 9⟩

/-- C27: `Intersects(Sphere)` holds exactly when the balls share a point. -/
theorem C27_intersects_sphere (s o : Sphere ℝ) (hs : 0 ≤ s.r) (ho : 0 ≤ o.r) :
    s.intersectsSphere o = true ↔ (Spec.ball s.pos s.r ∩ Spec.ball o.pos o.r).Nonempty := by
  rw [← setDist_zero_iff ((C27_distance s hs).2 o ho)]
  unfold Sphere.intersectsSphere Sphere.distanceSphere
  rw [decide_eq_true_iff, max2_eq, max_eq_left_iff]
  show distSq s.pos o.pos ≤ _ ↔ _
  rw [← dist_le_iff (add_nonneg hs ho)]
  constructor <;> intro h <;> linarith

example : (⟨⟨0, 0, 0⟩, 1⟩ : Sphere ℚ).intersectsSphere ⟨⟨3, 0, 4⟩, 4⟩ = true ∧
    (⟨⟨0, 0, 0⟩, 1⟩ : Sphere ℚ).intersectsSphere ⟨⟨3, 0, 4⟩, 7 / 2⟩ = false := by decide +kernel

/-- C27: `ClosestPoint` of a point other than the centre is the nearest point of the ball. -/
theorem C27_closestPoint_partial (s : Sphere ℝ) (hs : 0 ≤ s.r) (p : V3 ℝ) (hp : p ≠ s.pos) :
    ∃ q, s.closestPoint p = some q ∧ Spec.IsClosestPoint (Spec.ball s.pos s.r) p q := by
  have hd : V3.dist s.pos p ≠ 0 := fun e => hp (dist_eq_zero.1 e).symm
  have hd0 : 0 < V3.dist s.pos p := lt_of_le_of_ne (dist_nonneg _ _) (Ne.symm hd)
  have e : s.closestPoint p = some (s.pos + ((if V3.dist s.pos p ≥ s.r then s.r else V3.dist s.pos p) / V3.dist s.pos p) • (p - s.pos)) :=
    if_neg hd
  refine ⟨_, e, ?_⟩
  by_cases h : V3.dist s.pos p ≥ s.r
  · rw [if_pos h]
    have hl : V3.len (p - s.pos) = V3.dist s.pos p := by rw [← dist_eq_len, V3.dist_comm]
    constructor
    · rw [mem_ball_iff hs, dist_eq_len, show s.pos + (s.r / V3.dist s.pos p) • (p - s.pos) - s.pos = (s.r / V3.dist s.pos p) • (p - s.pos) by
        ext <;> simp, len_smul, hl, abs_of_nonneg (div_nonneg hs hd0.le), div_mul_cancel₀ _ hd]
    · intro x hx
      rw [mem_ball_iff hs] at hx
      rw [← dist_le_dist_iff, dist_eq_len, show p - (s.pos + (s.r / V3.dist s.pos p) • (p - s.pos)) = (1 - s.r / V3.dist s.pos p) • (p - s.pos) by
        ext <;> simp <;> ring, len_smul, hl, abs_of_nonneg (sub_nonneg.2 ((div_le_one hd0).2 h)), sub_mul, div_mul_cancel₀ _ hd, one_mul]
      have := dist_triangle s.pos x p
      rw [V3.dist_comm s.pos x, V3.dist_comm x p] at this
      linarith
  · rw [if_neg h, div_self hd, show s.pos + (1 : ℝ) • (p - s.pos) = p by ext <;> simp]
    push Not at h
    refine ⟨(mem_ball_iff hs).2 (by rw [V3.dist_comm]; exact h.le), fun x _ => by rw [distSq_self]; exact distSq_nonneg _ _⟩

example := C27_closestPoint_partial ⟨⟨1, 2, 3⟩, 4⟩ (by norm_num) ⟨7, 8, 9⟩ (by simp)

/-- C27 fails at the centre: `ClosestPoint` of the centre divides zero by zero. -/
theorem C27_closestPoint_violation (s : Sphere ℝ) : s.closestPoint s.pos = none := by
  simp [Sphere.closestPoint]

/-- C27: `ExtremePoint` is the farthest point of the ball in the given direction. -/
theorem C27_extremePoint (s : Sphere ℝ) (hs : 0 ≤ s.r) (d : V3 ℝ) (hd : d ≠ 0) :
    Spec.IsExtreme (Spec.ball s.pos s.r) d (s.extremePoint d) := by
  have hl := V3.len_pos hd
  have e : s.extremePoint d = s.pos + (s.r / V3.len d) • d := rfl
  rw [e]
  constructor
  · rw [mem_ball_iff hs, dist_eq_len, show s.pos + (s.r / V3.len d) • d - s.pos = (s.r / V3.len d) • d by ext <;> simp,
      len_smul, abs_of_nonneg (div_nonneg hs hl.le), div_mul_cancel₀ _ hl.ne']
  · intro x hx
    rw [mem_ball_iff hs, dist_eq_len] at hx
    rw [dot_add, dot_smul, show dot d d = V3.len d * V3.len d from (len_mul_self d).symm]
    have h1 := dot_le_len d (x - s.pos)
    rw [dot_sub] at h1
    have h2 : s.r / V3.len d * (V3.len d * V3.len d) = s.r * V3.len d := by field_simp
    rw [h2]
    nlinarith

example := C27_extremePoint ⟨⟨1, 2, 3⟩, 4⟩ (by norm_num) ⟨7, 8, 9⟩ (by simp [V3.ext_iff])

/-- C27: `ProjectToAxis` on a unit vector is the range of the projection of the ball. -/
theorem C27_projectToAxis_partial (s : Sphere ℝ) (hs : 0 ≤ s.r) (d : V3 ℝ) (hd : lenSq d = 1) :
    Spec.IsProjection (Spec.ball s.pos s.r) d (s.projectToAxis d).1 (s.projectToAxis d).2 :=
  ball_projection s.pos d s.r hs hd

example := C27_projectToAxis_partial ⟨⟨1, 2, 3⟩, 4⟩ (by norm_num) ⟨3/5, 0, 4/5⟩ (by norm_num [lenSq, dot])

/-- C27 fails for directions that are not of unit length: the projection of the unit ball on `(2,0,0)` is `[-2, 2]`,
but `[-1, 1]` is returned. -/
theorem C27_projectToAxis_violation : ∃ (s : Sphere ℝ) (d : V3 ℝ), 0 ≤ s.r ∧ d ≠ 0 ∧
    ¬ Spec.IsProjection (Spec.ball s.pos s.r) d (s.projectToAxis d).1 (s.projectToAxis d).2 := by
  refine ⟨⟨⟨0, 0, 0⟩, 1⟩, ⟨2, 0, 0⟩, zero_le_one, fun h => by simpa using congrArg V3.x h, fun h => ?_⟩
  have h1 := (h.1 ⟨1, 0, 0⟩ (by show distSq (⟨1, 0, 0⟩ : V3 ℝ) ⟨0, 0, 0⟩ ≤ 1 * 1; norm_num [distSq, lenSq, dot])).2
  norm_num [Sphere.projectToAxis, dot] at h1

/-- C27: `MinimalEnclosingAABB` is the tight box around the ball. -/
theorem C27_minimalEnclosingAABB (s : Sphere ℝ) (hs : 0 ≤ s.r) :
    Spec.TightBox (Spec.ball s.pos s.r) s.minimalEnclosingAABB.minPoint s.minimalEnclosingAABB.maxPoint :=
  tight_ball s.pos s.r hs

example := C27_minimalEnclosingAABB ⟨⟨1, 2, 3⟩, 4⟩ (by norm_num)

/-- C27: `MaximalContainedAABB` is inside the ball. -/
theorem C27_maximalContainedAABB_partial (s : Sphere ℝ) :
    Spec.box s.maximalContainedAABB.minPoint s.maximalContainedAABB.maxPoint ⊆ Spec.ball s.pos s.r := by
  rintro p ⟨h1, h2, h3, h4, h5, h6⟩
  have h3' : Real.sqrt 3 * Real.sqrt 3 = 3 := Real.mul_self_sqrt (by norm_num)
  have hk : (1 / Real.sqrt 3) * (1 / Real.sqrt 3) = 1 / 3 := by rw [div_mul_div_comm, h3']; norm_num
  show distSq p s.pos ≤ s.r * s.r
  simp only [Sphere.maximalContainedAABB, AABB.ofCenterAndSize] at *
  generalize 1 / Real.sqrt 3 = k at *
  simp at h1 h2 h3 h4 h5 h6
  rw [distSq_eq]
  have b : ∀ x c e : ℝ, c ≤ x + 2⁻¹ * e → x ≤ c + 2⁻¹ * e → (x - c) * (x - c) ≤ 1 / 4 * (e * e) := by
    intro x c e g1 g2; nlinarith
  have := b _ _ _ h1 h2
  have := b _ _ _ h3 h4
  have := b _ _ _ h5 h6
  have : (s.r * k) * (s.r * k) = s.r * s.r * (1 / 3) := by rw [← hk]; ring
  nlinarith [mul_self_nonneg s.r]

/-- C27 fails for "maximal": the half side length is passed as the full side length, so the box is half as large as the
largest one. For the ball of radius 2 around the origin the box is inside the cube `[-1, 1]³`, which is inside the ball. -/
theorem C27_maximalContainedAABB_violation : ∃ (s : Sphere ℝ) (b : AABB ℝ),
    Spec.box b.minPoint b.maxPoint ⊆ Spec.ball s.pos s.r ∧
    Spec.box s.maximalContainedAABB.minPoint s.maximalContainedAABB.maxPoint ⊂ Spec.box b.minPoint b.maxPoint := by
  refine ⟨⟨⟨0, 0, 0⟩, 2⟩, ⟨⟨-1, -1, -1⟩, ⟨1, 1, 1⟩⟩, ?_, ?_, ?_⟩
  · rintro p ⟨h1, h2, h3, h4, h5, h6⟩
    show distSq p ⟨0, 0, 0⟩ ≤ 2 * 2
    rw [distSq_eq]
    dsimp at *
    nlinarith
  all_goals
    have h3' : Real.sqrt 3 * Real.sqrt 3 = 3 := Real.mul_self_sqrt (by norm_num)
    have h30 : 0 < Real.sqrt 3 := Real.sqrt_pos.2 (by norm_num)
    have h31 : 1 < Real.sqrt 3 := by nlinarith
    have h32 : 1 / Real.sqrt 3 < 1 := by rw [div_lt_one h30]; exact h31
    simp only [Sphere.maximalContainedAABB, AABB.ofCenterAndSize]
    generalize 1 / Real.sqrt 3 = k at *
  · rintro p ⟨h1, h2, h3, h4, h5, h6⟩
    simp at h1 h2 h3 h4 h5 h6
    exact ⟨by dsimp; linarith, by dsimp; linarith, by dsimp; linarith, by dsimp; linarith, by dsimp; linarith, by dsimp; linarith⟩
  · intro h
    have := h (show (⟨1, 1, 1⟩ : V3 ℝ) ∈ _ by simp [Spec.box])
    have h2 := this.2.1
    simp at h2
    linarith

/-- C27: when the plane cuts the ball, the circle of `Intersect(Plane)` is the intersection of the sphere surface with
the plane; otherwise no circle is returned. -/
theorem C27_intersect_plane (s : Sphere ℝ) (p : Plane ℝ) (h : lenSq p.normal = 1) :
    (s.intersectPlane p = none ↔ Spec.ball s.pos s.r ∩ Spec.plane p.normal p.d = ∅) ∧
    ∀ c, s.intersectPlane p = some c → ∀ x, (x ∈ Spec.plane c.normal p.d ∧ x ∈ Spec.sphereSurface c.pos c.r ↔
      x ∈ Spec.sphereSurface s.pos s.r ∩ Spec.plane p.normal p.d) := by
  obtain ⟨hq, hmin⟩ := C24_project p h s.pos
  have hn : dot p.normal p.normal = 1 := h
  have pyth : ∀ x, dot p.normal x = p.d → distSq x s.pos = distSq x (p.project s.pos) + distSq (p.project s.pos) s.pos := by
    intro x hx
    have e : p.project s.pos = s.pos - (dot p.normal s.pos - p.d) • p.normal := rfl
    have e1 : distSq (p.project s.pos) s.pos = (dot p.normal s.pos - p.d) * (dot p.normal s.pos - p.d) := by
      show dot _ _ = _
      rw [e, show s.pos - (dot p.normal s.pos - p.d) • p.normal - s.pos = (-(dot p.normal s.pos - p.d)) • p.normal by ext <;> simp <;> ring,
        dot_smul, smul_dot, hn]; ring
    have e2 : distSq x (p.project s.pos) = distSq x s.pos + 2 * (dot p.normal s.pos - p.d) * dot p.normal (x - s.pos) +
        (dot p.normal s.pos - p.d) * (dot p.normal s.pos - p.d) * dot p.normal p.normal := by
      rw [e]; simp only [distSq_eq, dot]; simp; ring
    rw [e1, e2, dot_sub, hx, hn]; ring
  unfold Sphere.intersectPlane
  dsimp only
  constructor
  · constructor
    · intro h0
      rw [Set.eq_empty_iff_forall_notMem]
      rintro x ⟨hx, hx'⟩
      have hx : distSq x s.pos ≤ s.r * s.r := hx
      have hx' : dot p.normal x = p.d := hx'
      rw [pyth x hx'] at hx
      have hlt : s.r * s.r - distSq (p.project s.pos) s.pos < 0 := by
        by_contra hc; rw [if_neg hc] at h0; cases h0
      linarith [distSq_nonneg x (p.project s.pos)]
    · intro h0
      rw [if_pos]
      by_contra hc
      push Not at hc
      have : p.project s.pos ∈ Spec.ball s.pos s.r ∩ Spec.plane p.normal p.d :=
        ⟨by show distSq (p.project s.pos) s.pos ≤ s.r * s.r; linarith, hq⟩
      rw [h0] at this; exact this
  · intro c hc x
    split_ifs at hc with h0
    have := Option.some.inj hc
    subst this
    push Not at h0
    have hs := Real.mul_self_sqrt h0
    constructor
    · rintro ⟨h1, h2⟩
      have h1 : dot p.normal x = p.d := h1
      have h2 : distSq x (p.project s.pos) = _ := h2
      refine ⟨?_, h1⟩
      show distSq x s.pos = s.r * s.r
      rw [pyth x h1, h2]
      dsimp only
      rw [hs]; ring
    · rintro ⟨h1, h2⟩
      have h1 : distSq x s.pos = s.r * s.r := h1
      have h2 : dot p.normal x = p.d := h2
      refine ⟨h2, ?_⟩
      show distSq x (p.project s.pos) = Real.sqrt _ * Real.sqrt _
      rw [hs, ← h1, pyth x h2]; ring

example := C27_intersect_plane ⟨⟨1, 2, 3⟩, 4⟩ ⟨⟨3/5, 0, 4/5⟩, 2⟩ (by norm_num [lenSq, dot])

/-- The image of a ball under a map that scales all distances by `k` and is onto. -/
theorem ball_image (f : V3 ℝ → V3 ℝ) (k : ℝ) (hk : 0 < k) (hf : ∀ x y, distSq (f x) (f y) = k * k * distSq x y)
    (g : V3 ℝ → V3 ℝ) (hg : ∀ y, f (g y) = y) (c : V3 ℝ) (r : ℝ) :
    f '' Spec.ball c r = Spec.ball (f c) (r * k) := by
  have hkk : 0 < k * k := mul_pos hk hk
  ext y
  constructor
  · rintro ⟨x, hx, rfl⟩
    have hx : distSq x c ≤ r * r := hx
    show distSq (f x) (f c) ≤ _
    rw [hf]; nlinarith
  · intro hy
    have hy : distSq y (f c) ≤ r * k * (r * k) := hy
    refine ⟨g y, ?_, hg y⟩
    show distSq (g y) c ≤ r * r
    rw [← hg y, hf] at hy
    nlinarith

/-- C27: transforming a sphere by a rotation, mirroring and uniform scale (`float3x3`, `float3x4`, `float4x4`): the new
ball is the image of the ball. -/
theorem C27_transform (s : Sphere ℝ) (a : Fin 3 → Fin 3 → ℝ) (t : V3 ℝ) (k : ℝ) (hk : 0 < k)
    (ho : ∀ i j, a 0 i * a 0 j + a 1 i * a 1 j + a 2 i * a 2 j = if i = j then k * k else 0) :
    (let m : Mat3 ℝ := Matrix.of a
     Spec.affineMap a 0 '' Spec.ball s.pos s.r = Spec.ball (s.transform3 m).pos (s.transform3 m).r) ∧
    (let m : Mat34 ℝ := !![a 0 0, a 0 1, a 0 2, t.x; a 1 0, a 1 1, a 1 2, t.y; a 2 0, a 2 1, a 2 2, t.z]
     Spec.affineMap a t '' Spec.ball s.pos s.r = Spec.ball (s.transform34 m).pos (s.transform34 m).r) ∧
    (let m : Mat4 ℝ := !![a 0 0, a 0 1, a 0 2, t.x; a 1 0, a 1 1, a 1 2, t.y; a 2 0, a 2 1, a 2 2, t.z; 0, 0, 0, 1]
     Spec.affineMap a t '' Spec.ball s.pos s.r = Spec.ball (s.transform4 m).pos (s.transform4 m).r) := by
  have h00 := ho 0 0
  have h01 := ho 0 1
  have h02 := ho 0 2
  have h11 := ho 1 1
  have h12 := ho 1 2
  have h22 := ho 2 2
  simp at h00 h01 h02 h11 h12 h22
  have hlen : V3.len (⟨a 0 0, a 1 0, a 2 0⟩ : V3 ℝ) = k := by
    unfold V3.len
    rw [Real.sqrt_eq_iff_mul_self_eq_of_pos hk]
    simp only [lenSq, dot]; linarith
  have hkk : k * k ≠ 0 := (mul_pos hk hk).ne'
  have key : ∀ t : V3 ℝ, Spec.affineMap a t '' Spec.ball s.pos s.r = Spec.ball (Spec.affineMap a t s.pos) (s.r * k) := by
    intro t
    -- the rows are orthogonal too
    have hA : (Matrix.of a).transpose * Matrix.of a = (k * k) • (1 : Matrix (Fin 3) (Fin 3) ℝ) := by
      ext i j
      rw [Matrix.mul_apply, Fin.sum_univ_three]
      simp only [Matrix.transpose_apply, Matrix.of_apply, Matrix.smul_apply, Matrix.one_apply, smul_eq_mul, mul_ite, mul_one, mul_zero]
      exact ho i j
    have hB : Matrix.of a * ((k * k)⁻¹ • (Matrix.of a).transpose) = 1 := by
      rw [mul_eq_one_comm, Matrix.smul_mul, hA, smul_smul, inv_mul_cancel₀ hkk, one_smul]
    have rows : ∀ i j, a i 0 * a j 0 + a i 1 * a j 1 + a i 2 * a j 2 = if i = j then k * k else 0 := by
      intro i j
      have := congrFun (congrFun hB i) j
      rw [Matrix.mul_smul, Matrix.smul_apply, Matrix.mul_apply, Fin.sum_univ_three, Matrix.one_apply] at this
      simp only [Matrix.transpose_apply, Matrix.of_apply, smul_eq_mul] at this
      rw [inv_mul_eq_iff_eq_mul₀ hkk] at this
      rw [this]; split_ifs <;> simp
    refine ball_image _ k hk ?_ (fun y =>
      ⟨(a 0 0 * (y.x - t.x) + a 1 0 * (y.y - t.y) + a 2 0 * (y.z - t.z)) / (k * k),
       (a 0 1 * (y.x - t.x) + a 1 1 * (y.y - t.y) + a 2 1 * (y.z - t.z)) / (k * k),
       (a 0 2 * (y.x - t.x) + a 1 2 * (y.y - t.y) + a 2 2 * (y.z - t.z)) / (k * k)⟩) ?_ _ _
    · intro x y
      simp only [Spec.affineMap, distSq_eq]
      linear_combination (x.x - y.x) ^ 2 * h00 + (x.y - y.y) ^ 2 * h11 + (x.z - y.z) ^ 2 * h22 +
        2 * (x.x - y.x) * (x.y - y.y) * h01 + 2 * (x.x - y.x) * (x.z - y.z) * h02 + 2 * (x.y - y.y) * (x.z - y.z) * h12
    · intro y
      have r00 := rows 0 0
      have r01 := rows 0 1
      have r02 := rows 0 2
      have r11 := rows 1 1
      have r12 := rows 1 2
      have r22 := rows 2 2
      simp at r00 r01 r02 r11 r12 r22
      unfold Spec.affineMap
      ext
      · dsimp only; field_simp
        linear_combination (y.x - t.x) * r00 + (y.y - t.y) * r01 + (y.z - t.z) * r02
      · dsimp only; field_simp
        linear_combination (y.x - t.x) * r01 + (y.y - t.y) * r11 + (y.z - t.z) * r12
      · dsimp only; field_simp
        linear_combination (y.x - t.x) * r02 + (y.y - t.y) * r12 + (y.z - t.z) * r22
  refine ⟨?_, ?_, ?_⟩
  · rw [key]
    unfold Sphere.transform3
    simp only [Mat3.col, Matrix.of_apply, hlen]
    congr 1
    ext <;> simp [Spec.affineMap, Mat3.mulVec]
  · rw [key]
    unfold Sphere.transform34
    simp [hlen]
    ext <;> simp [Spec.affineMap, Mat34.mulPos]
  · rw [key]
    unfold Sphere.transform4
    simp [hlen]
    ext <;> simp [Spec.affineMap, Mat4.mulPos]

example := C27_transform ⟨⟨1, 2, 3⟩, 4⟩ (fun i j => if i = j then 2 else 0) ⟨5, 6, 7⟩ 2 (by norm_num) (by
  intro i j; fin_cases i <;> fin_cases j <;> norm_num [Fin.ext_iff])

/-- C27: rotating a sphere by a unit quaternion. -/
theorem C27_transform_quat (s : Sphere ℝ) (q : Quat ℝ) (h : Quat.normSq q = 1) :
    Quat.transform q '' Spec.ball s.pos s.r = Spec.ball (s.transformQuat q).pos (s.transformQuat q).r := by
  have hlin : ∀ x y, Quat.transform q x - Quat.transform q y = Quat.transform q (x - y) := by
    intro x y; unfold Quat.transform Mat3.mulVec; ext <;> simp <;> ring
  have := ball_image (Quat.transform q) 1 one_pos (fun x y => by
    show lenSq _ = _ * lenSq _
    rw [hlin, (Quat.C40_isometry q h _ 0).2.1]; ring) (Quat.transform (Quat.inverse q))
    (fun y => (Quat.C40_inverse q q h h y).2.2.2.1) s.pos s.r
  rw [mul_one] at this
  exact this

/-- A quarter turn scaled by two. -/
example : ∀ i j : Fin 3, (!![0, -2, 0; 2, 0, 0; 0, 0, 2] : Matrix (Fin 3) (Fin 3) ℝ) 0 i * !![0, -2, 0; 2, 0, 0; 0, 0, 2] 0 j +
    (!![0, -2, 0; 2, 0, 0; 0, 0, 2] : Matrix (Fin 3) (Fin 3) ℝ) 1 i * !![0, -2, 0; 2, 0, 0; 0, 0, 2] 1 j +
    (!![0, -2, 0; 2, 0, 0; 0, 0, 2] : Matrix (Fin 3) (Fin 3) ℝ) 2 i * !![0, -2, 0; 2, 0, 0; 0, 0, 2] 2 j =
    if i = j then (2 : ℝ) * 2 else 0 := by
  intro i j; fin_cases i <;> fin_cases j <;> simp

end MGL
