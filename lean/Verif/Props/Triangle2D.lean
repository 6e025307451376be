import Verif.Props.Seg2D
import Verif.Spec.Hull2D

/-! C100: triangles of the plane. -/

set_option linter.unusedSectionVars false

namespace MGL.Tri2
open Up

section Field
variable {α : Type*} [Field α] [LinearOrder α] [IsStrictOrderedRing α]

/-- C100: `ClosestPoint(point)` is a point of the triangle nearest to the point, if no two vertices coincide; the triangle may be flat and
its vertices may be in either order. `DistanceSq(point)` is the squared distance of the two. -/
theorem C100_closestPoint (t : Tri2 α) (hab : t.a ≠ t.b) (hac : t.a ≠ t.c) (hbc : t.b ≠ t.c) (p : V2 α) :
    ∃ q, t.closestPoint p = some q ∧ Spec.IsClosestPoint2 (Spec.tri2 t.a t.b t.c) p q ∧ t.distanceSq p = some (Spec.distSq2 p q) := by
  obtain ⟨q', h1, h2, h3⟩ := C31_closestPoint (upT t) (fun e => hab (up_inj e)) (fun e => hac (up_inj e)) (fun e => hbc (up_inj e)) (up p)
  obtain ⟨q, hq, rfl⟩ := tri_up h2
  rw [closestTri_up] at h1
  have h4 : t.closestPoint p = some q := by
    generalize hc : t.closestPoint p = r at h1
    obtain _ | r := r
    · cases h1
    · rw [up_inj (Option.some.inj h1)]
  refine ⟨q, h4, ⟨hq, fun x hx => ?_⟩, ?_⟩
  · have := h3 (up x) (up_tri hx)
    rwa [distSq_up, distSq_up] at this
  · unfold distanceSq; rw [h4, Option.map_some, distSqM, dist2_comm]

example := C100_closestPoint (⟨⟨0, 0⟩, ⟨4, 1⟩, ⟨1, 3⟩⟩ : Tri2 ℚ) (by simp) (by simp) (by simp) ⟨5, 5⟩

/-- C100: exactly when `BarycentricUVW` returns numbers with `point == u*a + v*b + w*c`: the code omits the division by the doubled
area of the triangle, so that is when the doubled area is one (and the vertices are in counter-clockwise order), and else only at the
vertex `c`. The numbers always sum to one, and `BarycentricUV` is the pair of the last two. -/
theorem C100_barycentric_partial (t : Tri2 α) (hn : Spec.area2 t.a t.b t.c ≠ 0) (p : V2 α) : let b := t.barycentricUVW p
    (t.point3 b.x b.y b.z = p ↔ Spec.area2 t.a t.b t.c = 1 ∨ p = t.c) ∧
    (Spec.area2 t.a t.b t.c = 1 → (barycentricInsideTriangle b = true ↔ p ∈ Spec.tri2 t.a t.b t.c)) ∧
    b.x + b.y + b.z = 1 ∧ t.barycentricUV p = ⟨b.y, b.z⟩ ∧ t.point2 b.y b.z = t.point3 b.x b.y b.z := by
  obtain ⟨⟨ax, ay⟩, ⟨bx, by'⟩, ⟨cx, cy⟩⟩ := t
  obtain ⟨px, py⟩ := p
  simp only [Spec.area2] at hn
  have hsum : ∀ u v : α, u + v + (1 - u - v) = 1 := fun u v => by ring
  dsimp only
  refine ⟨⟨fun h => ?_, ?_⟩, fun hd => ⟨fun h => ?_, ?_⟩, hsum _ _, rfl, ?_⟩
  · have hx := congrArg V2.x h
    have hy := congrArg V2.y h
    simp only [point3, barycentricUVW, triArea2D, V2.add_x, V2.add_y, V2.smul_x, V2.smul_y] at hx hy
    simp only [Spec.area2]
    by_cases h1 : (bx - ax) * (cy - ay) - (by' - ay) * (cx - ax) = 1
    · exact Or.inl h1
    · right
      have h1 := sub_ne_zero.2 h1
      have ex : ((bx - ax) * (cy - ay) - (by' - ay) * (cx - ax) - 1) * (px - cx) = 0 := by linear_combination hx
      have ey : ((bx - ax) * (cy - ay) - (by' - ay) * (cx - ax) - 1) * (py - cy) = 0 := by linear_combination hy
      ext
      · exact sub_eq_zero.1 ((mul_eq_zero.1 ex).resolve_left h1)
      · exact sub_eq_zero.1 ((mul_eq_zero.1 ey).resolve_left h1)
  · rintro (h | h)
    · simp only [Spec.area2] at h
      ext <;> simp only [point3, barycentricUVW, triArea2D, V2.add_x, V2.add_y, V2.smul_x, V2.smul_y]
      · linear_combination (px - cx) * h
      · linear_combination (py - cy) * h
    · cases h
      ext <;> simp only [point3, barycentricUVW, triArea2D, V2.add_x, V2.add_y, V2.smul_x, V2.smul_y] <;> ring
  · simp only [barycentricInsideTriangle, Bool.and_eq_true, decide_eq_true_eq] at h
    refine ⟨_, _, _, h.1.1.1, h.1.1.2, h.1.2, hsum _ _, ?_⟩
    simp only [Spec.area2] at hd
    ext <;> simp only [barycentricUVW, triArea2D, V2.add_x, V2.add_y, V2.smul_x, V2.smul_y]
    · linear_combination -(px - cx) * hd
    · linear_combination -(py - cy) * hd
  · rintro ⟨u, v, w, h0, h1, h2, h3, h4⟩
    obtain rfl : w = 1 - u - v := by linarith
    have hx := congrArg V2.x h4
    have hy := congrArg V2.y h4
    simp only [V2.add_x, V2.add_y, V2.smul_x, V2.smul_y] at hx hy
    simp only [Spec.area2] at hd
    have e1 : triArea2D px py bx by' cx cy = u := by rw [hx, hy]; unfold triArea2D; linear_combination u * hd
    have e2 : triArea2D px py cx cy ax ay = v := by rw [hx, hy]; unfold triArea2D; linear_combination v * hd
    simp only [barycentricInsideTriangle, barycentricUVW, e1, e2, Bool.and_eq_true, decide_eq_true_eq, equalAbs, absF_eq, hsum]
    refine ⟨⟨⟨h0, h1⟩, h2⟩, by norm_num⟩
  · ext <;> simp only [point2, point3, barycentricUVW, V2.add_x, V2.add_y, V2.smul_x, V2.smul_y, V2.sub_x, V2.sub_y] <;> ring

example := C100_barycentric_partial (⟨⟨0, 0⟩, ⟨4, 1⟩, ⟨1, 3⟩⟩ : Tri2 ℚ) (by norm_num [Spec.area2]) ⟨5, 5⟩
example := (C100_barycentric_partial (⟨⟨0, 0⟩, ⟨1, 0⟩, ⟨3, 1⟩⟩ : Tri2 ℚ) (by norm_num [Spec.area2]) ⟨5, 5⟩).2.1 (by norm_num [Spec.area2])

/-- C100: `Area2D` is twice the signed area, positive for a counter-clockwise triangle. -/
theorem C100_area (p q r : V2 α) : area2D p q r = Spec.area2 p q r := by simp only [area2D, Spec.area2]; ring

theorem tri2_le {a b c d : V2 α} {k : α} (h1 : V2.dot d a ≤ k) (h2 : V2.dot d b ≤ k) (h3 : V2.dot d c ≤ k) {x : V2 α}
    (hx : x ∈ Spec.tri2 a b c) : V2.dot d x ≤ k := by
  obtain ⟨u, v, w, h0, h0', h0'', hs, rfl⟩ := hx
  have e : V2.dot d (u • a + v • b + w • c) = u * V2.dot d a + v * V2.dot d b + w * V2.dot d c := by
    simp only [V2.dot, V2.add_x, V2.add_y, V2.smul_x, V2.smul_y]; ring
  rw [e]
  have : k = u * k + v * k + w * k := by rw [← add_mul, ← add_mul, hs, one_mul]
  rw [this]
  exact add_le_add (add_le_add (mul_le_mul_of_nonneg_left h1 h0) (mul_le_mul_of_nonneg_left h2 h0')) (mul_le_mul_of_nonneg_left h3 h0'')

theorem tri2_ge {a b c d : V2 α} {k : α} (h1 : k ≤ V2.dot d a) (h2 : k ≤ V2.dot d b) (h3 : k ≤ V2.dot d c) {x : V2 α}
    (hx : x ∈ Spec.tri2 a b c) : k ≤ V2.dot d x := by
  have hn : ∀ y : V2 α, V2.dot (-d) y = -V2.dot d y := fun y => by simp only [V2.dot, V2.neg_x, V2.neg_y]; ring
  have := tri2_le (a := a) (b := b) (c := c) (d := -d) (k := -k) (by rw [hn]; linarith) (by rw [hn]; linarith) (by rw [hn]; linarith) hx
  rw [hn] at this; linarith

theorem vertex_mem (t : Tri2 α) : t.a ∈ Spec.tri2 t.a t.b t.c ∧ t.b ∈ Spec.tri2 t.a t.b t.c ∧ t.c ∈ Spec.tri2 t.a t.b t.c :=
  ⟨⟨1, 0, 0, by norm_num, le_rfl, le_rfl, by norm_num, by ext <;> simp⟩, ⟨0, 1, 0, le_rfl, by norm_num, le_rfl, by norm_num, by ext <;> simp⟩,
    ⟨0, 0, 1, le_rfl, le_rfl, by norm_num, by norm_num, by ext <;> simp⟩⟩

/-- C100: vertices, edges, centroid, bounding rectangle, extreme points, projections, barycentric points and the random point are what their
names say. -/
theorem C100_queries (t : Tri2 α) :
    (∀ i, t.vertex i ∈ Spec.tri2 t.a t.b t.c) ∧ (∀ i, (t.edge i).a = t.vertex i ∧ (t.edge i).b = t.vertex (i + 1)) ∧
    (t.centroid ∈ Spec.tri2 t.a t.b t.c ∧ (t.a - t.centroid) + (t.b - t.centroid) + (t.c - t.centroid) = 0) ∧
    Spec.TightRect (Spec.tri2 t.a t.b t.c) t.boundingAABB ∧
    (∀ d, Spec.IsExtreme2 (Spec.tri2 t.a t.b t.c) d (t.extremePoint d) ∧ t.extremePointDist d = (t.extremePoint d, V2.dot d (t.extremePoint d))) ∧
    (∀ d, Spec.IsShadow2 (Spec.tri2 t.a t.b t.c) d (t.projectToAxis d).1 (t.projectToAxis d).2) ∧
    (∀ s r : α, 0 ≤ s → s ≤ 1 → 0 ≤ r → r ≤ 1 → t.randomPointInside s r ∈ Spec.tri2 t.a t.b t.c) ∧
    (∀ o, Spec.tri2 (t.translate o).a (t.translate o).b (t.translate o).c = {p | ∃ q ∈ Spec.tri2 t.a t.b t.c, p = q + o}) ∧
    (∀ i, ∃ d ∈ t.uniqueEdgeDirections, t.vertex (i + 1) - t.vertex i = d ∨ t.vertex i - t.vertex (i + 1) = d) := by
  obtain ⟨ha, hb, hc⟩ := vertex_mem t
  obtain ⟨a, b, c⟩ := t
  have dx : ∀ y : V2 α, V2.dot ⟨1, 0⟩ y = y.x := fun y => by simp [V2.dot]
  have dy : ∀ y : V2 α, V2.dot ⟨0, 1⟩ y = y.y := fun y => by simp [V2.dot]
  refine ⟨fun i => ?_, fun i => ?_, ⟨?_, ?_⟩, ⟨?_, ?_⟩, fun d => ⟨⟨?_, ?_⟩, ?_⟩, fun d => ?_, fun s r s0 s1 r0 r1 => ?_, fun o => ?_, fun i => ?_⟩
  · unfold vertex; split_ifs; exacts [ha, hb, hc]
  · fin_cases i <;> exact ⟨rfl, rfl⟩
  · exact ⟨1 / 3, 1 / 3, 1 / 3, by norm_num, by norm_num, by norm_num, by norm_num, by unfold centroid; ext <;> simp <;> ring⟩
  · unfold centroid; ext <;> simp <;> ring
  · intro x hx
    simp only [boundingAABB, min2_eq, max2_eq]
    refine ⟨?_, ?_, ?_, ?_⟩ <;> dsimp only
    · rw [← dx x]
      exact tri2_ge (by rw [dx]; exact (min_le_left _ _).trans (min_le_left _ _)) (by rw [dx]; exact (min_le_left _ _).trans (min_le_right _ _))
        (by rw [dx]; exact min_le_right _ _) hx
    · rw [← dx x]
      exact tri2_le (by rw [dx]; exact (le_max_left _ _).trans (le_max_left _ _)) (by rw [dx]; exact (le_max_right _ _).trans (le_max_left _ _))
        (by rw [dx]; exact le_max_right _ _) hx
    · rw [← dy x]
      exact tri2_ge (by rw [dy]; exact (min_le_left _ _).trans (min_le_left _ _)) (by rw [dy]; exact (min_le_left _ _).trans (min_le_right _ _))
        (by rw [dy]; exact min_le_right _ _) hx
    · rw [← dy x]
      exact tri2_le (by rw [dy]; exact (le_max_left _ _).trans (le_max_left _ _)) (by rw [dy]; exact (le_max_right _ _).trans (le_max_left _ _))
        (by rw [dy]; exact le_max_right _ _) hx
  · intro r' hr x hx
    obtain ⟨a1, a2, a3, a4⟩ := hr ha
    obtain ⟨b1, b2, b3, b4⟩ := hr hb
    obtain ⟨c1, c2, c3, c4⟩ := hr hc
    simp only [boundingAABB, min2_eq, max2_eq] at hx
    obtain ⟨x1, x2, x3, x4⟩ := hx
    exact ⟨(le_min (le_min a1 b1) c1).trans x1, x2.trans (max_le (max_le a2 b2) c2), (le_min (le_min a3 b3) c3).trans x3,
      x4.trans (max_le (max_le a4 b4) c4)⟩
  · unfold extremePoint; dsimp only; split_ifs <;> first | exact hc | exact hb | exact ha
  · intro x hx
    refine tri2_le ?_ ?_ ?_ hx <;> (unfold extremePoint; dsimp only; split_ifs <;> linarith)
  · simp only [extremePointDist, V2.dot, mul_comm]
  · simp only [projectToAxis, min2_eq, max2_eq]
    refine ⟨fun x hx => ⟨tri2_ge ?_ ?_ ?_ hx, tri2_le ?_ ?_ ?_ hx⟩, ?_, ?_⟩
    · exact (min_le_right _ _).trans (min_le_right _ _)
    · exact (min_le_right _ _).trans (min_le_left _ _)
    · exact min_le_left _ _
    · exact (le_max_right _ _).trans (le_max_right _ _)
    · exact (le_max_left _ _).trans (le_max_right _ _)
    · exact le_max_left _ _
    · rcases min_choice (V2.dot d c) (min (V2.dot d b) (V2.dot d a)) with h | h
      · exact ⟨c, hc, h.symm⟩
      · rcases min_choice (V2.dot d b) (V2.dot d a) with h' | h'
        · exact ⟨b, hb, by rw [h, h']⟩
        · exact ⟨a, ha, by rw [h, h']⟩
    · rcases max_choice (V2.dot d c) (max (V2.dot d b) (V2.dot d a)) with h | h
      · exact ⟨c, hc, h.symm⟩
      · rcases max_choice (V2.dot d b) (V2.dot d a) with h' | h'
        · exact ⟨b, hb, by rw [h, h']⟩
        · exact ⟨a, ha, by rw [h, h']⟩
  · unfold randomPointInside
    split_ifs with h
    · exact ⟨s + r - 1, 1 - s, 1 - r, by linarith, by linarith, by linarith, by ring, by unfold point2; ext <;> simp <;> ring⟩
    · exact ⟨1 - s - r, s, r, by linarith, s0, r0, by ring, by unfold point2; ext <;> simp <;> ring⟩
  · ext p
    constructor
    · rintro ⟨u, v, w, h0, h1, h2, h3, rfl⟩
      refine ⟨_, ⟨u, v, w, h0, h1, h2, h3, rfl⟩, ?_⟩
      obtain rfl : w = 1 - u - v := by linarith
      simp only [translate]; ext <;> simp <;> ring
    · rintro ⟨_, ⟨u, v, w, h0, h1, h2, h3, rfl⟩, rfl⟩
      refine ⟨u, v, w, h0, h1, h2, h3, ?_⟩
      obtain rfl : w = 1 - u - v := by linarith
      simp only [translate]; ext <;> simp <;> ring
  · unfold uniqueEdgeDirections
    fin_cases i
    · exact ⟨b - a, by simp, Or.inl rfl⟩
    · exact ⟨c - b, by simp, Or.inl rfl⟩
    · exact ⟨c - a, by simp, Or.inr rfl⟩

/-- C100 (what `IsDegenerate` decides): whether two vertices agree within the threshold in both coordinates. -/
theorem C100_isDegenerate_partial (t : Tri2 α) (e : α) : t.isDegenerate e = true ↔
    (|t.a.x - t.b.x| < e ∧ |t.a.y - t.b.y| < e) ∨ (|t.a.x - t.c.x| < e ∧ |t.a.y - t.c.y| < e) ∨ (|t.b.x - t.c.x| < e ∧ |t.b.y - t.c.y| < e) := by
  simp only [isDegenerate, equalAbs, Bool.or_eq_true, Bool.and_eq_true, decide_eq_true_eq, absF_eq, or_assoc]

end Field

/-- C100 fails for `IsDegenerate`: the documentation counts a triangle as degenerate if its area is close to zero, but a triangle whose
vertices are on one line is not recognized. -/
theorem C100_isDegenerate_violation : ∃ t : Tri2 ℚ, Spec.area2 t.a t.b t.c = 0 ∧ t.isDegenerate = false :=
  ⟨⟨⟨0, 0⟩, ⟨1, 1⟩, ⟨3, 3⟩⟩, by norm_num [Spec.area2], by decide +kernel⟩

/-- C100 fails for the barycentric coordinates: the centroid of a triangle is reported outside of it, a point outside a triangle is
reported inside, and the coordinates of a clockwise triangle's vertex do not give the vertex back. -/
theorem C100_barycentric_violation :
    (∃ (t : Tri2 ℚ), 0 < Spec.area2 t.a t.b t.c ∧ barycentricInsideTriangle (t.barycentricUVW t.centroid) = false) ∧
    (∃ (t : Tri2 ℚ) (p : V2 ℚ), 0 < Spec.area2 t.a t.b t.c ∧ p ∉ Spec.tri2 t.a t.b t.c ∧ barycentricInsideTriangle (t.barycentricUVW p) = true) ∧
    (∃ (t : Tri2 ℚ), Spec.area2 t.a t.b t.c = -1 ∧ let b := t.barycentricUVW t.a; t.point3 b.x b.y b.z ≠ t.a) := by
  refine ⟨⟨⟨⟨0, 0⟩, ⟨2, 0⟩, ⟨0, 2⟩⟩, by norm_num [Spec.area2], by decide +kernel⟩,
    ⟨⟨⟨0, 0⟩, ⟨1, 0⟩, ⟨0, 1 / 2⟩⟩, ⟨1, -1 / 2⟩, by norm_num [Spec.area2], ?_, by decide +kernel⟩,
    ⟨⟨⟨0, 0⟩, ⟨0, 1⟩, ⟨1, 0⟩⟩, by norm_num [Spec.area2], by decide +kernel⟩⟩
  rintro ⟨u, v, w, h0, h1, h2, h3, h4⟩
  have := congrArg V2.y h4
  simp at this
  linarith

/-- C100 fails for triangles with coinciding vertices: `ClosestPoint` divides by zero. -/
theorem C100_coinciding_violation : ∃ (t : Tri2 ℚ) (p : V2 ℚ), t.closestPoint p = none :=
  ⟨⟨⟨0, 0⟩, ⟨0, 0⟩, ⟨1, 0⟩⟩, ⟨1/2, 0⟩, by decide +kernel⟩

section Real

/-- C100: `Distance(point)` is the distance to the nearest point of the triangle; `Perimeter` is the sum of the lengths of the edges. -/
theorem C100_distance (t : Tri2 ℝ) (hab : t.a ≠ t.b) (hac : t.a ≠ t.c) (hbc : t.b ≠ t.c) :
    (∀ p, ∃ d, t.distance p = some d ∧ (∀ x ∈ Spec.tri2 t.a t.b t.c, d ≤ √(Spec.distSq2 p x)) ∧
      ∃ x ∈ Spec.tri2 t.a t.b t.c, d = √(Spec.distSq2 p x)) ∧
    t.perimeter = √(Spec.distSq2 t.a t.b) + √(Spec.distSq2 t.b t.c) + √(Spec.distSq2 t.c t.a) := by
  refine ⟨fun p => ?_, ?_⟩
  · obtain ⟨q, h1, ⟨h2, h3⟩, -⟩ := C100_closestPoint t hab hac hbc p
    refine ⟨√(Spec.distSq2 p q), ?_, fun x hx => Real.sqrt_le_sqrt (h3 x hx), q, h2, rfl⟩
    unfold distance; rw [h1, Option.map_some, Seg2.distance_eq, dist2_comm]
  · unfold perimeter; rw [Seg2.distance_eq, Seg2.distance_eq, Seg2.distance_eq]

example := C100_distance ⟨⟨0, 0⟩, ⟨4, 1⟩, ⟨1, 3⟩⟩ (by simp) (by simp) (by simp)

/-- C100: `RandomPointOnEdge` is on an edge for every random number it can draw, and it is spread evenly along the outline: it is the point
reached by walking the drawn length around the triangle from `a`. -/
theorem C100_randomPointOnEdge (t : Tri2 ℝ) (hab : t.a ≠ t.b) (hac : t.a ≠ t.c) (hbc : t.b ≠ t.c) (r : ℝ) (h0 : 0 ≤ r) (h1 : r < t.perimeter) :
    ∃ i : Fin 3, t.randomPointOnEdge r ∈ Spec.seg2 (t.edge i).a (t.edge i).b ∧
      r = (∑ j : Fin 3, if j < i then (t.edge j).length else 0) + √(Spec.distSq2 (t.edge i).a (t.randomPointOnEdge r)) := by
  have pos : ∀ p q : V2 ℝ, p ≠ q → 0 < Float2.distance p q := fun p q h => by
    rw [Seg2.distance_eq]
    refine Real.sqrt_pos.2 (lt_of_le_of_ne (by unfold Spec.distSq2; positivity) fun e => h ?_)
    unfold Spec.distSq2 at e
    ext
    · exact sub_eq_zero.1 (pow_eq_zero_iff (n := 2) (by norm_num) |>.1 (by nlinarith [sq_nonneg (p.x - q.x), sq_nonneg (p.y - q.y)]))
    · exact sub_eq_zero.1 (pow_eq_zero_iff (n := 2) (by norm_num) |>.1 (by nlinarith [sq_nonneg (p.x - q.x), sq_nonneg (p.y - q.y)]))
  have key : ∀ (p q : V2 ℝ) (k : ℝ), p ≠ q → 0 ≤ k → k ≤ Float2.distance p q →
      p + (1 / Float2.distance p q) • (k • (q - p)) ∈ Spec.seg2 p q ∧
      √(Spec.distSq2 p (p + (1 / Float2.distance p q) • (k • (q - p)))) = k := by
    intro p q k hpq hk hkd
    have hp := pos p q hpq
    refine ⟨⟨k / Float2.distance p q, div_nonneg hk hp.le, (div_le_one hp).2 hkd, by ext <;> simp <;> ring⟩, ?_⟩
    have e : Spec.distSq2 p (p + (1 / Float2.distance p q) • (k • (q - p))) = k ^ 2 * (Spec.distSq2 p q / Float2.distance p q ^ 2) := by
      simp only [Spec.distSq2, V2.add_x, V2.add_y, V2.smul_x, V2.smul_y, V2.sub_x, V2.sub_y]
      field_simp
      ring
    have e2 : Float2.distance p q ^ 2 = Spec.distSq2 p q := by
      rw [Seg2.distance_eq, Real.sq_sqrt (by unfold Spec.distSq2; positivity)]
    rw [e, e2, div_self (by rw [← e2]; positivity), mul_one, Real.sqrt_sq hk]
  unfold randomPointOnEdge
  unfold perimeter at h1
  dsimp only
  split_ifs with c1 c2
  · obtain ⟨k1, k2⟩ := key t.a t.b r hab h0 c1.le
    refine ⟨0, k1, ?_⟩
    simp only [Fin.sum_univ_three]
    rw [show (t.edge 0).a = t.a from rfl, k2]; simp
  · obtain ⟨k1, k2⟩ := key t.b t.c (r - Float2.distance t.a t.b) hbc (by linarith) c2.le
    refine ⟨1, k1, ?_⟩
    simp only [Fin.sum_univ_three]
    rw [show (t.edge 1).a = t.b from rfl, k2, show (t.edge 0).length = Float2.distance t.a t.b from rfl]; simp
  · obtain ⟨k1, k2⟩ := key t.c t.a (r - Float2.distance t.a t.b - Float2.distance t.b t.c) hac.symm (by linarith) (by linarith)
    refine ⟨2, k1, ?_⟩
    simp only [Fin.sum_univ_three]
    rw [show (t.edge 2).a = t.c from rfl, k2, show (t.edge 0).length = Float2.distance t.a t.b from rfl,
      show (t.edge 1).length = Float2.distance t.b t.c from rfl]
    norm_num [Fin.lt_def]

example := C100_randomPointOnEdge ⟨⟨0, 0⟩, ⟨3, 0⟩, ⟨0, 4⟩⟩ (by simp) (by simp) (by simp) 1 (by norm_num) (by
  rw [(C100_distance ⟨⟨0, 0⟩, ⟨3, 0⟩, ⟨0, 4⟩⟩ (by simp) (by simp) (by simp)).2]
  have h : √(Spec.distSq2 (⟨0, 0⟩ : V2 ℝ) ⟨3, 0⟩) = 3 := by
    rw [show Spec.distSq2 (⟨0, 0⟩ : V2 ℝ) ⟨3, 0⟩ = 3 ^ 2 by norm_num [Spec.distSq2]]; exact Real.sqrt_sq (by norm_num)
  dsimp only
  rw [h]
  have := Real.sqrt_nonneg (Spec.distSq2 (⟨3, 0⟩ : V2 ℝ) ⟨0, 4⟩)
  have := Real.sqrt_nonneg (Spec.distSq2 (⟨0, 4⟩ : V2 ℝ) ⟨0, 0⟩)
  linarith)

end Real
end MGL.Tri2
