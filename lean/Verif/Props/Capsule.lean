import Verif.Model.Capsule
import Verif.Props.Circle
import Verif.Props.OBB
import Verif.Props.OBBMore
import Verif.Props.Line
import Verif.Props.LineMisc
import Verif.Props.TriangleLine
import Verif.Proofs.AABBEnclose

/-! # C69: capsules

The points of a capsule are those of `Spec.capsule`: all points within the radius of its segment. -/

set_option linter.unusedSectionVars false

namespace MGL
open V3

/-- The points of the capsule. -/
abbrev Capsule.points (c : Capsule ℝ) : Set (V3 ℝ) := Spec.capsule c.l.a c.l.b c.r

theorem capsule_convex (a b : V3 ℝ) (r : ℝ) : ∀ p ∈ Spec.capsule a b r, ∀ q ∈ Spec.capsule a b r, ∀ t : ℝ, 0 ≤ t → t ≤ 1 →
    p + t • (q - p) ∈ Spec.capsule a b r := by
  rintro p ⟨_, ⟨s, hs0, hs1, rfl⟩, hp⟩ q ⟨_, ⟨k, hk0, hk1, rfl⟩, hq⟩ t h0 h1
  refine ⟨_, ⟨s + t * (k - s), by nlinarith, by nlinarith, rfl⟩, ?_⟩
  have e : distSq (p + t • (q - p)) (a + (s + t * (k - s)) • (b - a)) =
      (1 - t) * distSq p (a + s • (b - a)) + t * distSq q (a + k • (b - a)) -
      t * (1 - t) * distSq (p - (a + s • (b - a))) (q - (a + k • (b - a))) := by
    simp only [distSq_eq]; simp; ring
  rw [e]
  have := distSq_nonneg (p - (a + s • (b - a))) (q - (a + k • (b - a)))
  have h2 : 0 ≤ t * (1 - t) * distSq (p - (a + s • (b - a))) (q - (a + k • (b - a))) :=
    mul_nonneg (mul_nonneg h0 (by linarith)) this
  nlinarith

/-- The closest point of a segment, also of one whose end points coincide. -/
theorem closestPoint_any (l : LineSeg ℝ) (x : V3 ℝ) : Spec.IsClosestPoint (Spec.seg l.a l.b) x (l.closestPoint x).1 := by
  by_cases h : l.a = l.b
  · have e : (l.closestPoint x).1 = l.a := by
      unfold LineSeg.closestPoint
      rw [← h]; ext <;> simp
    rw [e, ← h]
    refine ⟨⟨0, le_rfl, zero_le_one, by ext <;> simp⟩, ?_⟩
    rintro _ ⟨t, _, _, rfl⟩
    exact le_of_eq (by congr 1; ext <;> simp)
  · exact ((C22_closestPoint x).2.2 l h).1

theorem segDist (l : LineSeg ℝ) (x : V3 ℝ) : Spec.IsSetDist (Spec.seg l.a l.b) {x} (l.distance x) :=
  setDist_of_point (closestPoint_any l x)

/-- A set meets the points within `r` of another one iff their distance is at most `r`. -/
theorem dist_le_iff_meets {S T : Set (V3 ℝ)} {d r : ℝ} (h : Spec.IsSetDist S T d) (hr : 0 ≤ r) :
    d ≤ r ↔ ({x | ∃ s ∈ S, distSq x s ≤ r * r} ∩ T).Nonempty := by
  obtain ⟨h1, s, hs, t, ht, e⟩ := h
  constructor
  · intro hd
    exact ⟨t, ⟨s, hs, by rw [distSq_comm, ← dist_le_iff hr, e]; exact hd⟩, ht⟩
  · rintro ⟨x, ⟨s, hs, hx⟩, hxT⟩
    exact (h1 s hs x hxT).trans ((dist_le_iff hr).2 (by rw [distSq_comm]; exact hx))

/-- C69: `Contains(point)`. -/
theorem C69_contains (c : Capsule ℝ) (hr : 0 ≤ c.r) (p : V3 ℝ) : c.contains p = true ↔ p ∈ c.points := by
  unfold Capsule.contains
  rw [decide_eq_true_iff, dist_le_iff_meets (segDist c.l p) hr]
  constructor
  · rintro ⟨x, h, rfl⟩; exact h
  · intro h; exact ⟨p, h, rfl⟩

/-- C69: `IsDegenerate` answers true exactly when the capsule (of radius at least 0) has no interior point, that is, no ball of
positive radius is contained in it. -/
theorem C69_isDegenerate (c : Capsule ℝ) (hr : 0 ≤ c.r) :
    c.isDegenerate = true ↔ ¬ ∃ p, ∃ e > 0, Spec.ball p e ⊆ c.points := by
  unfold Capsule.isDegenerate
  rw [decide_eq_true_iff]
  constructor
  · rintro h ⟨p, e, he, hs⟩
    have h0 : c.r = 0 := le_antisymm h hr
    -- the ball would lie in a segment; take two points across it
    have hseg : ∀ x ∈ Spec.ball p e, x ∈ Spec.seg c.l.a c.l.b := by
      intro x hx
      obtain ⟨q, hq, hd⟩ := hs hx
      rw [h0, mul_zero] at hd
      have : x = q := by
        have e1 : distSq x q = (x.x - q.x) ^ 2 + (x.y - q.y) ^ 2 + (x.z - q.z) ^ 2 := by
          simp only [distSq, lenSq, dot, sub_x, sub_y, sub_z]; ring
        rw [e1] at hd
        ext <;> nlinarith [sq_nonneg (x.x - q.x), sq_nonneg (x.y - q.y), sq_nonneg (x.z - q.z)]
      rwa [this]
    have hb : ∀ d : V3 ℝ, lenSq d ≤ e * e → p + d ∈ Spec.ball p e := by
      intro d hd
      have e1 : distSq (p + d) p = lenSq d := by
        simp only [distSq, lenSq, dot, sub_x, sub_y, sub_z, add_x, add_y, add_z]; ring
      show distSq (p + d) p ≤ e * e
      rw [e1]; exact hd
    obtain ⟨t0, -, -, h0⟩ := hseg _ (hb ⟨0, 0, 0⟩ (by simp [lenSq, dot]; positivity))
    obtain ⟨t1, -, -, h1⟩ := hseg _ (hb ⟨e, 0, 0⟩ (by simp [lenSq, dot]))
    obtain ⟨t2, -, -, h2⟩ := hseg _ (hb ⟨0, e, 0⟩ (by simp [lenSq, dot]))
    have x0 := congrArg V3.x h0
    have y0 := congrArg V3.y h0
    have x1 := congrArg V3.x h1
    have y1 := congrArg V3.y h1
    have y2 := congrArg V3.y h2
    simp only [add_x, add_y, smul_x, smul_y, sub_x, sub_y] at x0 y0 x1 y1 y2
    have k1 : (t1 - t0) * (c.l.b.x - c.l.a.x) = e := by linarith
    have k2 : (t1 - t0) * (c.l.b.y - c.l.a.y) = 0 := by linarith
    have k3 : (t2 - t0) * (c.l.b.y - c.l.a.y) = e := by linarith
    rcases mul_eq_zero.1 k2 with k | k
    · rw [k, zero_mul] at k1; linarith
    · rw [k, mul_zero] at k3; linarith
  · intro h
    by_contra hc
    push Not at hc
    exact h ⟨c.l.a, c.r, hc, fun x hx => ⟨c.l.a, ⟨0, le_refl _, zero_le_one, by ext <;> simp⟩, hx⟩⟩

example : (⟨⟨⟨0, 0, 0⟩, ⟨1, 0, 0⟩⟩, 0⟩ : Capsule ℝ).isDegenerate = true ∧ (⟨⟨⟨0, 0, 0⟩, ⟨1, 0, 0⟩⟩, 1⟩ : Capsule ℝ).isDegenerate = false := by
  simp [Capsule.isDegenerate]

/-- C69: `Contains` of a segment, a triangle, a box, an oriented box or a list of vertices is true exactly when the whole
object (the convex hull of the vertices) is in the capsule. -/
theorem C69_contains_objects (c : Capsule ℝ) (hr : 0 ≤ c.r) :
    (∀ l : LineSeg ℝ, c.containsSeg l = true ↔ Spec.seg l.a l.b ⊆ c.points) ∧
    (∀ t : Tri ℝ, c.containsTri t = true ↔ Spec.tri t.a t.b t.c ⊆ c.points) ∧
    (∀ b : AABB ℝ, b.Proper → (c.containsAABB b = true ↔ Spec.box b.minPoint b.maxPoint ⊆ c.points)) ∧
    (∀ b : OBB ℝ, 0 ≤ b.r.x → 0 ≤ b.r.y → 0 ≤ b.r.z → (c.containsOBB b = true ↔ b.points ⊆ c.points)) ∧
    (∀ vs : List (V3 ℝ), c.containsVertices vs = true ↔
      {p | ∃ w : Fin vs.length → ℝ, (∀ i, 0 ≤ w i) ∧ ∑ i, w i = 1 ∧ p = ∑ i, w i • vs.get i} ⊆ c.points) := by
  have hc := C69_contains c hr
  have hconv := capsule_convex c.l.a c.l.b c.r
  have single : ∀ {n : ℕ} (f : Fin n → V3 ℝ) (i : Fin n),
      ∃ w : Fin n → ℝ, (∀ j, 0 ≤ w j) ∧ ∑ j, w j = 1 ∧ f i = ∑ j, w j • f j := by
    intro n f i
    refine ⟨Pi.single i 1, fun j => ?_, by simp, ?_⟩
    · by_cases e : j = i
      · subst e; simp
      · simp [e]
    · rw [Finset.sum_eq_single i]
      · ext <;> simp
      · intro j _ hj; ext <;> simp [hj]
      · simp
  refine ⟨fun l => ?_, fun t => ?_, fun b hb => ?_, fun b hx hy hz => ?_, fun vs => ?_⟩
  · simp only [Capsule.containsSeg, Bool.and_eq_true, hc]
    constructor
    · rintro ⟨ha, hb⟩; exact seg_subset_of_convex hconv ha hb
    · intro H
      exact ⟨H ⟨0, le_rfl, zero_le_one, by ext <;> simp⟩, H ⟨1, zero_le_one, le_rfl, by ext <;> simp⟩⟩
  · simp only [Capsule.containsTri, Bool.and_eq_true, hc]
    constructor
    · rintro ⟨⟨ha, hb⟩, h3⟩; exact tri_subset_of_convex hconv ha hb h3
    · intro H
      exact ⟨⟨H ⟨1, 0, 0, by simp, by simp, by simp, by simp, by ext <;> simp⟩,
        H ⟨0, 1, 0, by simp, by simp, by simp, by simp, by ext <;> simp⟩⟩,
        H ⟨0, 0, 1, by simp, by simp, by simp, by simp, by ext <;> simp⟩⟩
  · simp only [Capsule.containsAABB, List.all_eq_true, List.mem_finRange, forall_true_left, hc]
    constructor
    · intro H p hp
      obtain ⟨w, hw, hs, rfl⟩ := (C19_corners_span b hb p).1 hp
      exact sum_mem_of_convex hconv _ _ _ (fun i _ => H i) (fun i _ => hw i) hs
    · intro H i
      apply H
      rw [C19_corners_span b hb]
      exact single _ i
  · simp only [Capsule.containsOBB, List.all_eq_true, List.mem_finRange, forall_true_left, hc]
    constructor
    · intro H p hp
      obtain ⟨w, hw, hs, rfl⟩ := b.corner_span hx hy hz p hp
      exact sum_mem_of_convex hconv _ _ _ (fun i _ => H i) (fun i _ => hw i) hs
    · intro H i
      exact H (((C67_corners b hx hy hz).2 _).2 (single _ i))
  · simp only [Capsule.containsVertices, List.all_eq_true, hc]
    constructor
    · rintro H p ⟨w, hw, hs, rfl⟩
      exact sum_mem_of_convex hconv _ _ _ (fun i _ => H _ (List.get_mem vs i)) (fun i _ => hw i) hs
    · intro H x hx
      obtain ⟨i, rfl⟩ := List.get_of_mem hx
      exact H (single _ i)

/-- C69: `Distance` to a point, a sphere, a plane, a line, a ray, a segment and another capsule. -/
theorem C69_distance (c : Capsule ℝ) (hr : 0 ≤ c.r) :
    (∀ p, Spec.IsSetDist c.points {p} (c.distance p)) ∧
    (∀ s : Sphere ℝ, 0 ≤ s.r → Spec.IsSetDist c.points (Spec.ball s.pos s.r) (c.distanceSphere s)) ∧
    (∀ p : Plane ℝ, lenSq p.normal = 1 → Spec.IsSetDist c.points (Spec.plane p.normal p.d) (c.distancePlane p)) ∧
    (c.l.a ≠ c.l.b →
      (∀ l : Line ℝ, lenSq l.dir = 1 → Spec.IsSetDist c.points (Spec.line l.pos l.dir) (c.distanceLine l)) ∧
      (∀ l : Ray ℝ, lenSq l.dir = 1 → Spec.IsSetDist c.points (Spec.ray l.pos l.dir) (c.distanceRay l)) ∧
      (∀ l : LineSeg ℝ, l.a ≠ l.b → Spec.IsSetDist c.points (Spec.seg l.a l.b) (c.distanceSeg l)) ∧
      (∀ o : Capsule ℝ, 0 ≤ o.r → o.l.a ≠ o.l.b → Spec.IsSetDist c.points o.points (c.distanceCapsule o))) := by
  have hp : ∀ p, Spec.IsSetDist c.points {p} (c.distance p) := by
    intro p
    unfold Capsule.distance
    rw [max2_eq]
    exact setDist_symm (setDist_thicken (setDist_symm (segDist c.l p)) hr)
  refine ⟨hp, fun s hs => ?_, fun p h => (C24_distance_objects p h).2 c.l c.r hr, fun hab => ⟨fun l h => ?_, fun l h => ?_, fun l h => ?_, fun o ho hoab => ?_⟩⟩
  · unfold Capsule.distanceSphere
    rw [max2_eq, ball_eq_thicken]
    exact setDist_thicken (hp s.pos) hs
  · exact setDist_symm ((C23_distance_capsule c.l hab c.r hr).1 l h)
  · exact setDist_symm ((C23_distance_capsule c.l hab c.r hr).2.1 l h)
  · exact setDist_symm ((C23_distance_capsule c.l hab c.r hr).2.2 l h)
  · have h1 := (C23_distance.2.2.2.2.2 c.l o.l hab hoab).1
    have h2 := setDist_thicken (setDist_symm (setDist_thicken (setDist_symm h1) hr)) ho
    unfold Capsule.distanceCapsule
    rw [max2_eq]
    have e : max 0 ((c.l.distanceSeg o.l).1 - c.r - o.r) = max 0 (max 0 ((c.l.distanceSeg o.l).1 - c.r) - o.r) := by
      rcases le_total ((c.l.distanceSeg o.l).1 - c.r) 0 with h | h
      · rw [max_eq_left h, max_eq_left (by linarith), max_eq_left (by linarith)]
      · rw [max_eq_right h]
    rw [e]; exact h2

/-- C69: `Intersects` with a line, a ray, a segment, a plane, a sphere and another capsule is true exactly when there is a
common point. -/
theorem C69_intersects (c : Capsule ℝ) (hr : 0 ≤ c.r) :
    (∀ s : Sphere ℝ, 0 ≤ s.r → (c.intersectsSphere s = true ↔ (c.points ∩ Spec.ball s.pos s.r).Nonempty)) ∧
    (∀ p : Plane ℝ, lenSq p.normal = 1 → (c.intersectsPlane p = true ↔ (c.points ∩ Spec.plane p.normal p.d).Nonempty)) ∧
    (c.l.a ≠ c.l.b →
      (∀ l : Line ℝ, lenSq l.dir = 1 → (c.intersectsLine l = true ↔ (c.points ∩ Spec.line l.pos l.dir).Nonempty)) ∧
      (∀ l : Ray ℝ, lenSq l.dir = 1 → (c.intersectsRay l = true ↔ (c.points ∩ Spec.ray l.pos l.dir).Nonempty)) ∧
      (∀ l : LineSeg ℝ, l.a ≠ l.b → (c.intersectsSeg l = true ↔ (c.points ∩ Spec.seg l.a l.b).Nonempty)) ∧
      (∀ o : Capsule ℝ, 0 ≤ o.r → o.l.a ≠ o.l.b → (c.intersectsCapsule o = true ↔ (c.points ∩ o.points).Nonempty))) := by
  have sq : ∀ d R : ℝ, 0 ≤ d → 0 ≤ R → (d * d ≤ R * R ↔ d ≤ R) := fun d R hd hR =>
    ⟨fun h => by nlinarith, fun h => mul_self_le_mul_self hd h⟩
  refine ⟨fun s hs => ?_, fun p hp => ?_, fun hab => ⟨fun l hl => ?_, fun l hl => ?_, fun l hl => ?_, fun o ho hoab => ?_⟩⟩
  · unfold Capsule.intersectsSphere
    have e : c.l.distanceSq s.pos = c.l.distance s.pos * c.l.distance s.pos := (dist_mul_self _ _).symm
    rw [decide_eq_true_iff, e, sq (c.l.distance s.pos) _ (V3.dist_nonneg _ _) (add_nonneg hr hs), ← setDist_zero_iff ((C69_distance c hr).2.1 s hs)]
    unfold Capsule.distanceSphere Capsule.distance
    rw [max2_eq, max2_eq]
    constructor
    · intro h; apply max_eq_left; rw [sub_nonpos]; exact max_le hs (by linarith)
    · intro h
      have h1 : max 0 (c.l.distance s.pos - c.r) - s.r ≤ 0 := (le_max_right _ _).trans h.le
      have h2 := le_max_right 0 (c.l.distance s.pos - c.r)
      linarith
  · unfold Capsule.intersectsPlane
    rw [decide_eq_true_iff]
    exact dist_le_iff_meets (C63_segment_distance_plane c.l p hp) hr
  · unfold Capsule.intersectsLine
    rw [decide_eq_true_iff]
    exact dist_le_iff_meets (C23_distance.2.2.1 l c.l hl hab).2 hr
  · unfold Capsule.intersectsRay
    rw [decide_eq_true_iff]
    exact dist_le_iff_meets (C23_distance.2.2.2.2.1 l c.l hl hab).2 hr
  · unfold Capsule.intersectsSeg
    rw [decide_eq_true_iff]
    exact dist_le_iff_meets (C23_distance.2.2.2.2.2 c.l l hab hl).1 hr
  · unfold Capsule.intersectsCapsule
    obtain ⟨h1, h2⟩ := C23_distance.2.2.2.2.2 c.l o.l hab hoab
    rw [decide_eq_true_iff, h2, sq _ _ (setDist_nonneg h1) (add_nonneg hr ho),
      ← setDist_zero_iff (((C69_distance c hr).2.2.2 hab).2.2.2 o ho hoab)]
    unfold Capsule.distanceCapsule
    rw [max2_eq]
    constructor
    · intro h; exact max_eq_left (by linarith)
    · intro h
      have := (le_max_right 0 ((c.l.distanceSeg o.l).1 - c.r - o.r)).trans h.le
      linarith

/-- C69: `Intersects(Triangle)` under the conditions of `C31_closest_segment_partial`: the triangle has three distinct
corners, and the line of the capsule does not pass it within the tolerances of the ray test. -/
theorem C69_intersects_triangle_partial (c : Capsule ℝ) (hr : 0 ≤ c.r) (hl : c.l.a ≠ c.l.b) (t : Tri ℝ) (hab : t.a ≠ t.b)
    (hac : t.a ≠ t.c) (hbc : t.b ≠ t.c) (hclear : Spec.ClearOfTriangle c.l.a (c.l.b - c.l.a) t.a t.b t.c)
    (hpar : dot (c.l.b - c.l.a) (cross (t.b - t.a) (t.c - t.a)) ≠ 0 ∨ ∀ x ∈ Spec.tri t.a t.b t.c, x ∉ Spec.seg c.l.a c.l.b) :
    ∃ b, c.intersectsTri t = some b ∧ (b = true ↔ (c.points ∩ Spec.tri t.a t.b t.c).Nonempty) := by
  obtain ⟨q, s, h, hc⟩ := C31_closest_segment_partial t hab hac hbc c.l hl hclear hpar
  refine ⟨_, by unfold Capsule.intersectsTri; rw [h]; rfl, ?_⟩
  rw [decide_eq_true_iff, ← dist_le_iff hr, V3.dist_comm]
  exact dist_le_iff_meets (setDist_symm (setDist_of_pair hc)) hr

/-- C69: `ClosestPoint` returns the nearest point of the capsule, if the point is in the capsule or at least 1/1000 away from
the capsule's segment. -/
theorem C69_closestPoint_partial (c : Capsule ℝ) (hr : 0 ≤ c.r) (p : V3 ℝ)
    (h : p ∈ c.points ∨ ∀ q ∈ Spec.seg c.l.a c.l.b, 1 / 1000000 ≤ distSq p q) :
    Spec.IsClosestPoint c.points p (c.closestPoint p) := by
  obtain ⟨hm, hmin⟩ := closestPoint_any c.l p
  unfold Capsule.closestPoint
  dsimp only
  set q := (c.l.closestPoint p).1 with hq
  by_cases hin : distSq q p ≤ c.r * c.r
  · rw [if_pos hin]
    refine ⟨⟨q, hm, by rw [distSq_comm]; exact hin⟩, fun s _ => ?_⟩
    rw [distSq_self]; exact distSq_nonneg _ _
  · rw [if_neg hin]
    have hfar : 1 / 1000000 ≤ distSq p q := by
      rcases h with ⟨s, hs, hps⟩ | h
      · exact absurd ((hmin s hs).trans hps) (by rw [distSq_comm]; exact hin)
      · exact h q hm
    have hd : c.r < V3.dist p q := by
      by_contra hcon
      exact hin (by rw [distSq_comm, ← dist_le_iff hr]; exact not_lt.1 hcon)
    have hpos : 0 < V3.dist p q := lt_of_le_of_lt hr hd
    have e : Sphere.scaledToLength (p - q) c.r = (c.r / V3.dist p q) • (p - q) := by
      unfold Sphere.scaledToLength
      rw [if_neg (show ¬ lenSq (p - q) < 1 / 1000000 from not_lt.2 hfar)]; rfl
    rw [e]
    have d1 : V3.dist (q + (c.r / V3.dist p q) • (p - q)) q = c.r := by
      rw [dist_eq_len, show q + (c.r / V3.dist p q) • (p - q) - q = (c.r / V3.dist p q) • (p - q) by ext <;> simp, len_smul,
        ← dist_eq_len, abs_of_nonneg (div_nonneg hr hpos.le), div_mul_cancel₀ _ hpos.ne']
    have d2 : V3.dist p (q + (c.r / V3.dist p q) • (p - q)) = V3.dist p q - c.r := by
      rw [dist_eq_len, show p - (q + (c.r / V3.dist p q) • (p - q)) = (1 - c.r / V3.dist p q) • (p - q) by ext <;> simp <;> ring,
        len_smul, ← dist_eq_len, abs_of_nonneg (by rw [sub_nonneg, div_le_one hpos]; exact hd.le), sub_mul,
        div_mul_cancel₀ _ hpos.ne', one_mul]
    refine ⟨⟨q, hm, by rw [← dist_le_iff hr, d1]⟩, ?_⟩
    rintro s ⟨s', hs', hss'⟩
    rw [← dist_le_dist_iff, d2]
    have t1 := V3.dist_triangle p s s'
    have t2 := (dist_le_iff hr).2 hss'
    have t3 := dist_le_dist_iff.2 (hmin s' hs')
    linarith

/-- C69: for a thin capsule `ClosestPoint` can return a point far on the wrong side: the point `(0, 1/2000, 0)` beside a
capsule of radius 1/10000 around the `z` axis is sent to `(1/10000, 0, 0)`. -/
theorem C69_closestPoint_violation :
    let c : Capsule ℝ := ⟨⟨⟨0, 0, -1⟩, ⟨0, 0, 1⟩⟩, 1 / 10000⟩
    c.closestPoint ⟨0, 1 / 2000, 0⟩ = ⟨1 / 10000, 0, 0⟩ ∧ (⟨0, 1 / 10000, 0⟩ : V3 ℝ) ∈ c.points ∧
    distSq (⟨0, 1 / 2000, 0⟩ : V3 ℝ) ⟨0, 1 / 10000, 0⟩ < distSq ⟨0, 1 / 2000, 0⟩ (c.closestPoint ⟨0, 1 / 2000, 0⟩) := by
  have e : Capsule.closestPoint ⟨⟨⟨0, 0, -1⟩, ⟨0, 0, 1⟩⟩, 1 / 10000⟩ ⟨0, 1 / 2000, 0⟩ = (⟨1 / 10000, 0, 0⟩ : V3 ℝ) := by
    have e1 : (LineSeg.closestPoint (⟨⟨0, 0, -1⟩, ⟨0, 0, 1⟩⟩ : LineSeg ℝ) ⟨0, 1 / 2000, 0⟩).1 = 0 := by
      unfold LineSeg.closestPoint
      dsimp only
      rw [show dot ((⟨0, 1 / 2000, 0⟩ : V3 ℝ) - ⟨0, 0, -1⟩) (⟨0, 0, 1⟩ - ⟨0, 0, -1⟩) / lenSq ((⟨0, 0, 1⟩ : V3 ℝ) - ⟨0, 0, -1⟩) = 1 / 2 by
        norm_num [dot, lenSq]]
      rw [show clamp01 (1 / 2 : ℝ) = 1 / 2 by norm_num [clamp01, clamp]]
      ext <;> norm_num
    unfold Capsule.closestPoint
    dsimp only
    rw [e1, if_neg (by norm_num [distSq, lenSq, dot])]
    unfold Sphere.scaledToLength
    rw [if_pos (by norm_num [lenSq, dot])]
    ext <;> simp
  refine ⟨e, ⟨0, ⟨1 / 2, by norm_num, by norm_num, by ext <;> norm_num⟩, by norm_num [distSq, lenSq, dot]⟩, ?_⟩
  rw [e]
  norm_num [distSq, lenSq, dot]

/-- C69: `ExtremePoint` is the farthest point in the direction, and the projection distance is its projection. -/
theorem C69_extremePoint (c : Capsule ℝ) (hr : 0 ≤ c.r) (d : V3 ℝ) (hd : d ≠ 0) :
    Spec.IsExtreme c.points d (c.extremePoint d) ∧ c.extremePointD d = (c.extremePoint d, dot d (c.extremePoint d)) := by
  refine ⟨?_, by rw [V3.dot_comm d]; rfl⟩
  obtain ⟨h1, h2⟩ := C63_segment_extremePoint c.l d
  have e : c.extremePoint d = (⟨c.l.extremePoint d, c.r⟩ : Sphere ℝ).extremePoint d := rfl
  obtain ⟨h3, h4⟩ := C27_extremePoint ⟨c.l.extremePoint d, c.r⟩ hr d hd
  rw [e]
  refine ⟨⟨_, h1, h3⟩, ?_⟩
  rintro s ⟨q, hq, hs⟩
  have h5 := h4 (s + (c.l.extremePoint d - q)) (by
    show distSq (s + (c.l.extremePoint d - q)) (c.l.extremePoint d) ≤ c.r * c.r
    rw [show distSq (s + (c.l.extremePoint d - q)) (c.l.extremePoint d) = distSq s q by simp only [distSq_eq]; simp; ring]
    exact hs)
  have h6 := h2 q hq
  rw [dot_add, dot_sub] at h5
  linarith

/-- C69: `ProjectToAxis` gives the exact range of the projections on a unit direction. -/
theorem C69_projectToAxis (c : Capsule ℝ) (hr : 0 ≤ c.r) (d : V3 ℝ) (hd : lenSq d = 1) :
    Spec.IsProjection c.points d (c.projectToAxis d).1 (c.projectToAxis d).2 := by
  have key : ∀ lo hi, Spec.IsProjection (Spec.seg c.l.a c.l.b) d lo hi → Spec.IsProjection c.points d (lo - c.r) (hi + c.r) := by
    rintro lo hi ⟨h1, ⟨x, hx, ex⟩, y, hy, ey⟩
    refine ⟨?_, ?_, ?_⟩
    · rintro s ⟨q, hq, hs⟩
      have h3 := (ball_projection q d c.r hr hd).1 s hs
      have h4 := h1 q hq
      constructor <;> linarith
    · obtain ⟨s, hs, e⟩ := (ball_projection x d c.r hr hd).2.1
      exact ⟨s, ⟨x, hx, hs⟩, by rw [e, ex]⟩
    · obtain ⟨s, hs, e⟩ := (ball_projection y d c.r hr hd).2.2
      exact ⟨s, ⟨y, hy, hs⟩, by rw [e, ey]⟩
  have ma : c.l.a ∈ Spec.seg c.l.a c.l.b := ⟨0, le_rfl, zero_le_one, (at_zero _ _).symm⟩
  have mb : c.l.b ∈ Spec.seg c.l.a c.l.b := ⟨1, zero_le_one, le_rfl, (at_one _ _).symm⟩
  have e : ∀ t : ℝ, dot d (c.l.a + t • (c.l.b - c.l.a)) = dot d c.l.a + t * (dot d c.l.b - dot d c.l.a) := by
    intro t; rw [dot_add, dot_smul, dot_sub]
  unfold Capsule.projectToAxis
  dsimp only
  by_cases h : dot d c.l.b < dot d c.l.a
  · rw [if_pos h]
    refine key _ _ ⟨?_, ⟨_, mb, rfl⟩, _, ma, rfl⟩
    rintro s ⟨t, h0, h1, rfl⟩
    rw [e]; constructor <;> nlinarith
  · rw [if_neg h]
    refine key _ _ ⟨?_, ⟨_, ma, rfl⟩, _, mb, rfl⟩
    rintro s ⟨t, h0, h1, rfl⟩
    rw [e]; constructor <;> nlinarith

/-- C69: `MinimalEnclosingAABB` is the smallest box around the capsule. -/
theorem C69_minimalEnclosingAABB (c : Capsule ℝ) (hr : 0 ≤ c.r) :
    Spec.TightBox c.points c.minimalEnclosingAABB.minPoint c.minimalEnclosingAABB.maxPoint := tight_capsule _ _ _ hr

/-- C69: a capsule set from a sphere has the points of the ball. -/
theorem C69_ofSphere (s : Sphere ℝ) : (Capsule.ofSphere s).points = Spec.ball s.pos s.r := by
  ext x
  constructor
  · rintro ⟨_, ⟨t, _, _, rfl⟩, h⟩
    rw [show (Capsule.ofSphere s).l.a + t • ((Capsule.ofSphere s).l.b - (Capsule.ofSphere s).l.a) = s.pos by
      ext <;> simp [Capsule.ofSphere]] at h
    exact h
  · intro h
    exact ⟨s.pos, ⟨0, le_rfl, zero_le_one, by ext <;> simp [Capsule.ofSphere]⟩, h⟩

/-- C69: the capsule is the union of all balls around its segment; the first and last one are `SphereA` and `SphereB`. -/
theorem C69_spheres (c : Capsule ℝ) : c.points = {x | ∃ q ∈ Spec.seg c.sphereA.pos c.sphereB.pos, x ∈ Spec.ball q c.r} ∧
    c.sphereA.r = c.r ∧ c.sphereB.r = c.r := ⟨rfl, rfl, rfl⟩

theorem Capsule.up_spec (c : Capsule ℝ) (h : c.l.a = c.l.b ∨ 1 / 1000000 < V3.dist c.l.a c.l.b) :
    lenSq c.up = 1 ∧ c.l.b = c.l.a + c.lineLength • c.up := by
  refine ⟨lenSq_normalized _, ?_⟩
  unfold Capsule.lineLength LineSeg.length
  rcases h with h | h
  · rw [h, V3.dist_eq_zero.2 rfl]; ext <;> simp
  · have hl : 1 / 1000000 < len (c.l.b - c.l.a) := by rw [← dist_eq_len, V3.dist_comm]; exact h
    have h0 : V3.dist c.l.a c.l.b ≠ 0 := by intro h0; rw [h0] at h; norm_num at h
    unfold Capsule.up
    rw [f3Normalized_pos hl, ← dist_eq_len, V3.dist_comm c.l.b]
    ext <;> simp <;> field_simp <;> ring

/-- Membership in a capsule in terms of the position along its axis. -/
theorem mem_capsule_axis (a u : V3 ℝ) (L r : ℝ) (hL : 0 ≤ L) (hu : lenSq u = 1) (x : V3 ℝ) :
    x ∈ Spec.capsule a (a + L • u) r ↔
      ∃ τ, 0 ≤ τ ∧ τ ≤ L ∧ (dot u (x - a) - τ) ^ 2 + (lenSq (x - a) - dot u (x - a) ^ 2) ≤ r * r := by
  have e : ∀ τ : ℝ, distSq x (a + τ • u) = (dot u (x - a) - τ) ^ 2 + (lenSq (x - a) - dot u (x - a) ^ 2) := by
    intro τ
    have h1 : distSq x (a + τ • u) = lenSq (x - a) - 2 * τ * dot u (x - a) + τ * τ * lenSq u := by
      simp only [distSq, lenSq, dot]; simp; ring
    rw [h1, hu]; ring
  constructor
  · rintro ⟨_, ⟨t, h0, h1, rfl⟩, h⟩
    refine ⟨t * L, mul_nonneg h0 hL, by nlinarith, ?_⟩
    rw [← e]
    rw [show a + t • (a + L • u - a) = a + (t * L) • u by ext <;> simp <;> ring] at h
    exact h
  · rintro ⟨τ, h0, h1, h⟩
    rw [← e] at h
    refine ⟨a + τ • u, ?_, h⟩
    rcases eq_or_lt_of_le hL with h2 | h2
    · have : τ = 0 := by linarith
      exact ⟨0, le_rfl, zero_le_one, by rw [this]; ext <;> simp⟩
    · refine ⟨τ / L, div_nonneg h0 hL, (div_le_one h2).2 h1, ?_⟩
      ext <;> simp <;> field_simp

/-- C69: `Top` and `Bottom` are the farthest points in the directions `Up` and `-Up`, their distance is `Height`, and
`Center` is in the middle. -/
theorem C69_top_bottom_partial (c : Capsule ℝ) (hr : 0 ≤ c.r) (h : c.l.a = c.l.b ∨ 1 / 1000000 < V3.dist c.l.a c.l.b) :
    lenSq c.up = 1 ∧ Spec.IsExtreme c.points c.up c.top ∧ Spec.IsExtreme c.points (-c.up) c.bottom ∧
    V3.dist c.bottom c.top = c.height ∧ c.center = (1 / 2 : ℝ) • (c.bottom + c.top) ∧
    c.heightLineSegment = ⟨c.bottom, c.top⟩ := by
  obtain ⟨hu, hb⟩ := c.up_spec h
  have hL : 0 ≤ c.lineLength := V3.dist_nonneg _ _
  have huu : dot c.up c.up = 1 := hu
  have bound : ∀ s ∈ c.points, -c.r ≤ dot c.up (s - c.l.a) ∧ dot c.up (s - c.l.a) ≤ c.lineLength + c.r := by
    intro s hs
    unfold Capsule.points at hs
    rw [hb, mem_capsule_axis _ _ _ _ hL hu] at hs
    obtain ⟨τ, h0, h1, h2⟩ := hs
    have h3 := cauchy c.up (s - c.l.a)
    rw [hu, one_mul] at h3
    have h4 : |dot c.up (s - c.l.a) - τ| ≤ c.r := abs_le_of_sq_le_sq (by nlinarith) hr
    rw [abs_le] at h4
    constructor <;> linarith
  have ma : c.l.a ∈ Spec.seg c.l.a c.l.b := ⟨0, le_rfl, zero_le_one, (at_zero _ _).symm⟩
  have mb : c.l.b ∈ Spec.seg c.l.a c.l.b := ⟨1, zero_le_one, le_rfl, (at_one _ _).symm⟩
  have hd : ∀ (q : V3 ℝ) (k : ℝ), distSq (q + k • c.up) q = k * k := by
    intro q k
    have : distSq (q + k • c.up) q = k * k * lenSq c.up := by simp only [distSq, lenSq, dot]; simp; ring
    rw [this, hu, mul_one]
  refine ⟨hu, ⟨⟨_, mb, (hd _ _).le⟩, fun s hs => ?_⟩, ⟨⟨_, ma, ?_⟩, fun s hs => ?_⟩, ?_, ?_, rfl⟩
  · have := (bound s hs).2
    unfold Capsule.top
    have e : dot c.up (c.l.b + c.r • c.up) = dot c.up c.l.a + c.lineLength + c.r := by
      rw [hb, dot_add, dot_add, dot_smul, dot_smul, huu]; ring
    rw [e]
    rw [dot_sub] at this; linarith
  · have e : c.bottom = c.l.a + (-c.r) • c.up := by unfold Capsule.bottom; ext <;> simp <;> ring
    rw [e, hd]; linarith
  · have := (bound s hs).1
    unfold Capsule.bottom
    have e : dot (-c.up) (c.l.a - c.r • c.up) = -dot c.up c.l.a + c.r := by
      rw [neg_dot, dot_sub, dot_smul, huu]; ring
    rw [e, neg_dot]
    rw [dot_sub] at this; linarith
  · have e : c.top = c.bottom + c.height • c.up := by
      unfold Capsule.top Capsule.bottom Capsule.height Capsule.diameter
      rw [hb]
      ext <;> simp <;> ring
    rw [V3.dist_comm, e]
    rw [dist_move _ _ _ hu, abs_of_nonneg]
    unfold Capsule.height Capsule.diameter; linarith
  · unfold Capsule.center Capsule.bottom Capsule.top LineSeg.centerPoint
    ext <;> simp <;> ring

/-- C69: `CrossSection(y)` is the disc in which the plane perpendicular to the axis at the relative height `y` cuts the
capsule. -/
theorem C69_crossSection_partial (c : Capsule ℝ) (hr : 0 ≤ c.r) (h : c.l.a = c.l.b ∨ 1 / 1000000 < V3.dist c.l.a c.l.b)
    (y : ℝ) (h0 : 0 ≤ y) (h1 : y ≤ 1) :
    Spec.disc (c.crossSection y).pos (c.crossSection y).normal (c.crossSection y).r =
      c.points ∩ {x | dot c.up (x - c.bottom) = y * c.height} ∧
    (c.crossSection y).normal = c.up ∧ 0 ≤ (c.crossSection y).r := by
  obtain ⟨hu, hb⟩ := c.up_spec h
  have hL : 0 ≤ c.lineLength := V3.dist_nonneg _ _
  have huu : dot c.up c.up = 1 := hu
  have hh : 0 ≤ c.height := by unfold Capsule.height Capsule.diameter; linarith
  have hY0 : 0 ≤ y * c.height := mul_nonneg h0 hh
  have hY1 : y * c.height ≤ c.lineLength + 2 * c.r := by
    have : y * c.height ≤ 1 * c.height := mul_le_mul_of_nonneg_right h1 hh
    unfold Capsule.height Capsule.diameter at *
    linarith
  have hlen : c.l.length = c.lineLength := rfl
  -- the axis coordinate and the squared distance from the axis
  have hs : ∀ x, dot c.up (x - c.bottom) = dot c.up (x - c.l.a) + c.r := by
    intro x; unfold Capsule.bottom; rw [dot_sub, dot_sub, dot_sub, dot_smul, huu]; ring
  have hdot : ∀ x, dot c.up (x - (c.bottom + (y * c.height) • c.up)) = dot c.up (x - c.l.a) + c.r - y * c.height := by
    intro x; rw [← hs, dot_sub, dot_sub, dot_add, dot_smul, huu]; ring
  have hdist : ∀ x, distSq x (c.bottom + (y * c.height) • c.up) =
      (dot c.up (x - c.l.a) + c.r - y * c.height) ^ 2 + (lenSq (x - c.l.a) - dot c.up (x - c.l.a) ^ 2) := by
    intro x
    have e : c.bottom + (y * c.height) • c.up = c.l.a + (y * c.height - c.r) • c.up := by
      unfold Capsule.bottom; ext <;> simp <;> ring
    have h1 : ∀ τ : ℝ, distSq x (c.l.a + τ • c.up) = lenSq (x - c.l.a) - 2 * τ * dot c.up (x - c.l.a) + τ * τ * lenSq c.up := by
      intro τ; simp only [distSq, lenSq, dot]; simp; ring
    rw [e, h1, hu]; ring
  have main : ∀ R : ℝ, (∀ w : ℝ, 0 ≤ w → (w ≤ R * R ↔
      ∃ τ, 0 ≤ τ ∧ τ ≤ c.lineLength ∧ (y * c.height - c.r - τ) ^ 2 + w ≤ c.r * c.r)) →
      Spec.disc (c.bottom + (y * c.height) • c.up) c.up R = c.points ∩ {x | dot c.up (x - c.bottom) = y * c.height} := by
    intro R hR
    ext x
    have hw : 0 ≤ lenSq (x - c.l.a) - dot c.up (x - c.l.a) ^ 2 := by
      have h3 := cauchy c.up (x - c.l.a)
      rw [hu, one_mul] at h3
      nlinarith
    have hm := mem_capsule_axis c.l.a c.up c.lineLength c.r hL hu x
    rw [← hb] at hm
    show (_ ∧ _) ↔ (_ ∧ _)
    rw [hm, hdot, hdist, show x ∈ {x | dot c.up (x - c.bottom) = y * c.height} ↔ _ = _ from Iff.rfl, hs]
    constructor
    · rintro ⟨e1, e2⟩
      have e3 : dot c.up (x - c.l.a) = y * c.height - c.r := by linarith
      rw [e1] at e2
      rw [e3] at e2 hw ⊢
      obtain ⟨τ, t1, t2, t3⟩ := (hR _ hw).1 (by linarith)
      exact ⟨⟨τ, t1, t2, t3⟩, by ring⟩
    · rintro ⟨⟨τ, t1, t2, t3⟩, e1⟩
      have e3 : dot c.up (x - c.l.a) = y * c.height - c.r := by linarith
      rw [e3] at t3 hw ⊢
      refine ⟨by ring, ?_⟩
      have := (hR _ hw).2 ⟨τ, t1, t2, t3⟩
      rw [show (y * c.height - c.r + c.r - y * c.height) ^ 2 = 0 by ring, zero_add]; exact this
  unfold Capsule.crossSection
  dsimp only
  rw [hlen]
  by_cases c1 : y * c.height < c.r
  · rw [if_pos c1]
    refine ⟨main _ fun w hw => ?_, rfl, Real.sqrt_nonneg _⟩
    rw [Real.mul_self_sqrt (by nlinarith)]
    constructor
    · intro h; exact ⟨0, le_rfl, hL, by nlinarith⟩
    · rintro ⟨τ, t1, t2, t3⟩; nlinarith
  rw [if_neg c1]
  by_cases c2 : y * c.height < c.lineLength + c.r
  · rw [if_pos c2]
    refine ⟨main _ fun w hw => ?_, rfl, hr⟩
    constructor
    · intro h; exact ⟨y * c.height - c.r, by linarith, by linarith, by nlinarith⟩
    · rintro ⟨τ, t1, t2, t3⟩; nlinarith [sq_nonneg (y * c.height - c.r - τ)]
  rw [if_neg c2]
  refine ⟨main _ fun w hw => ?_, rfl, Real.sqrt_nonneg _⟩
  rw [Real.mul_self_sqrt (by nlinarith)]
  constructor
  · intro h; exact ⟨c.lineLength, hL, le_rfl, by nlinarith⟩
  · rintro ⟨τ, t1, t2, t3⟩; nlinarith

/-- C69: `PointInside` runs over exactly the points of the capsule, if `Perpendicular` works for its direction. -/
theorem C69_pointInside_partial (c : Capsule ℝ) (hr : 0 ≤ c.r) (h : c.l.a = c.l.b ∨ 1 / 1000000 < V3.dist c.l.a c.l.b)
    (hu : 1 / 1000000 < len (cross c.up ⟨0, 1, 0⟩) ∨ cross c.up ⟨0, 1, 0⟩ = 0) :
    {x | ∃ y a d, 0 ≤ y ∧ y ≤ 1 ∧ 0 ≤ d ∧ d ≤ 1 ∧ x = c.pointInside y a d} = c.points := by
  have hwd : ∀ y, 0 ≤ y → y ≤ 1 → (c.crossSection y).WellDirected := by
    intro y h0 h1
    obtain ⟨_, e, _⟩ := C69_crossSection_partial c hr h y h0 h1
    unfold Circle.WellDirected
    rw [e]
    exact ⟨lenSq_normalized _, hu⟩
  have hpi : (2 : ℝ) * Real.pi ≠ 0 := by positivity
  obtain ⟨hup, hext1, hext2, hdist, _, _⟩ := C69_top_bottom_partial c hr h
  obtain ⟨hu1, hb⟩ := c.up_spec h
  have huu : dot c.up c.up = 1 := hu1
  ext x
  constructor
  · rintro ⟨y, a, d, h0, h1, d0, d1, rfl⟩
    have hx : c.pointInside y a d ∈ Spec.disc (c.crossSection y).pos (c.crossSection y).normal (c.crossSection y).r := by
      rw [← (C70_getPoint_partial (c.crossSection y) (hwd y h0 h1) (C69_crossSection_partial c hr h y h0 h1).2.2).2.2.1]
      exact ⟨_, d, d0, d1, rfl⟩
    rw [(C69_crossSection_partial c hr h y h0 h1).1] at hx
    exact hx.1
  · intro hx
    have hL : 0 ≤ c.lineLength := V3.dist_nonneg _ _
    have b1 : 0 ≤ dot c.up (x - c.bottom) := by
      have := hext2.2 x hx
      rw [neg_dot, neg_dot] at this
      rw [dot_sub]; linarith
    have b2 : dot c.up (x - c.bottom) ≤ c.height := by
      have := hext1.2 x hx
      have e : dot c.up c.top = dot c.up c.bottom + c.height := by
        unfold Capsule.top Capsule.bottom Capsule.height Capsule.diameter
        rw [hb, dot_add, dot_add, dot_sub, dot_smul, dot_smul, huu]; ring
      rw [dot_sub]; linarith
    obtain ⟨y, h0, h1, hy⟩ : ∃ y, 0 ≤ y ∧ y ≤ 1 ∧ dot c.up (x - c.bottom) = y * c.height := by
      rcases eq_or_lt_of_le (b1.trans b2) with e | e
      · exact ⟨0, le_rfl, zero_le_one, by linarith⟩
      · exact ⟨_, div_nonneg b1 e.le, (div_le_one e).2 b2, (div_mul_cancel₀ _ e.ne').symm⟩
    have hx' : x ∈ c.points ∩ {x | dot c.up (x - c.bottom) = y * c.height} := ⟨hx, hy⟩
    obtain ⟨k1, k2, k3⟩ := C69_crossSection_partial c hr h y h0 h1
    rw [← k1, ← (C70_getPoint_partial (c.crossSection y) (hwd y h0 h1) k3).2.2.1] at hx'
    obtain ⟨a, d, d0, d1, e⟩ := hx'
    refine ⟨y, a / (2 * Real.pi), d, h0, h1, d0, d1, ?_⟩
    rw [e]
    unfold Capsule.pointInside
    congr 1
    field_simp

/-- C69: `MinimalEnclosingOBB` has orthonormal axes, contains the capsule and is tight: along each of its axes the capsule
reaches exactly from one side to the other. -/
theorem C69_minimalEnclosingOBB_partial (nz : Bool) (c : Capsule ℝ) (hr : 0 ≤ c.r)
    (h : c.l.a = c.l.b ∨ 1 / 1000000 < V3.dist c.l.a c.l.b) :
    let o := c.minimalEnclosingOBB nz
    Spec.Frame o.axis0 o.axis1 o.axis2 ∧ c.points ⊆ o.points ∧
    ∀ i : Fin 3, Spec.IsProjection c.points (o.axis i) (dot (o.axis i) o.pos - o.half i) (dot (o.axis i) o.pos + o.half i) := by
  obtain ⟨hu, hb⟩ := c.up_spec h
  obtain ⟨f1, f2, f3, f4, f5, _⟩ := C54_perpendicularBasis_partial nz c.up hu
  have huu : dot c.up c.up = 1 := hu
  have hL : 0 ≤ c.lineLength := V3.dist_nonneg _ _
  have hF : Spec.Frame c.up (f3PerpendicularBasis nz c.up).1 (f3PerpendicularBasis nz c.up).2 := ⟨hu, f1, f2, f3, f4, f5⟩
  have hproj : ∀ i : Fin 3, Spec.IsProjection c.points ((c.minimalEnclosingOBB nz).axis i)
      (dot ((c.minimalEnclosingOBB nz).axis i) (c.minimalEnclosingOBB nz).pos - (c.minimalEnclosingOBB nz).half i)
      (dot ((c.minimalEnclosingOBB nz).axis i) (c.minimalEnclosingOBB nz).pos + (c.minimalEnclosingOBB nz).half i) := by
    have gen : ∀ (d : V3 ℝ) (k : ℝ), lenSq d = 1 → dot d c.l.b = dot d c.l.a + k → 0 ≤ k →
        Spec.IsProjection c.points d (dot d c.center - (k / 2 + c.r)) (dot d c.center + (k / 2 + c.r)) := by
      intro d k hd hk hk0
      have := C69_projectToAxis c hr d hd
      unfold Capsule.projectToAxis at this
      dsimp only at this
      rw [if_neg (by linarith)] at this
      have e : dot d c.center = dot d c.l.a + k / 2 := by
        unfold Capsule.center LineSeg.centerPoint
        rw [dot_smul, dot_add, hk]; ring
      rw [e, show dot d c.l.a + k / 2 - (k / 2 + c.r) = dot d c.l.a - c.r by ring,
        show dot d c.l.a + k / 2 + (k / 2 + c.r) = dot d c.l.b + c.r by rw [hk]; ring]
      exact this
    have g0 := gen c.up c.lineLength hu (by nth_rw 1 [hb]; rw [dot_add, dot_smul, huu, mul_one]) hL
    have g1 := gen (f3PerpendicularBasis nz c.up).1 0 f1 (by
      nth_rw 1 [hb]; rw [dot_add, dot_smul, dot_comm _ c.up, f3]; ring) le_rfl
    have g2 := gen (f3PerpendicularBasis nz c.up).2 0 f2 (by
      nth_rw 1 [hb]; rw [dot_add, dot_smul, dot_comm _ c.up, f4]; ring) le_rfl
    rw [zero_div, zero_add] at g1 g2
    rw [show c.lineLength / 2 + c.r = c.height * (1 / 2) by unfold Capsule.height Capsule.diameter; ring] at g0
    intro i
    fin_cases i
    · exact g0
    · exact g1
    · exact g2
  refine ⟨hF, fun x hx => ?_, hproj⟩
  have p0 := (hproj 0).1 x hx
  have p1 := (hproj 1).1 x hx
  have p2 := (hproj 2).1 x hx
  show x ∈ Spec.obb _ _ _ _ _
  refine (hF.mem_obb _ _ _).2 ?_
  simp only [abs_le]
  simp only [OBB.axis, OBB.half, Capsule.minimalEnclosingOBB] at p0 p1 p2 ⊢
  simp only [sub_dot, dot_comm x, dot_comm c.center]
  refine ⟨⟨?_, ?_⟩, ⟨?_, ?_⟩, ?_, ?_⟩ <;> linarith

/-- C69: the enclosing oriented box of a very short capsule does not contain it. -/
theorem C69_minimalEnclosingOBB_violation :
    let c : Capsule ℝ := ⟨⟨0, ⟨0, 1 / 2000000, 0⟩⟩, 0⟩
    (⟨0, 1 / 2000000, 0⟩ : V3 ℝ) ∈ c.points ∧ ∀ nz, (⟨0, 1 / 2000000, 0⟩ : V3 ℝ) ∉ (c.minimalEnclosingOBB nz).points := by
  refine ⟨⟨⟨0, 1 / 2000000, 0⟩, ⟨1, by norm_num, by norm_num, by ext <;> simp⟩, by norm_num [distSq, lenSq, dot]⟩, ?_⟩
  intro nz
  have hl : len ((⟨0, 1 / 2000000, 0⟩ : V3 ℝ) - 0) = 1 / 2000000 := by
    unfold len
    rw [show lenSq ((⟨0, 1 / 2000000, 0⟩ : V3 ℝ) - 0) = (1 / 2000000) ^ 2 by norm_num [lenSq, dot]]
    exact Real.sqrt_sq (by norm_num)
  have hup : Capsule.up (⟨⟨0, ⟨0, 1 / 2000000, 0⟩⟩, 0⟩ : Capsule ℝ) = ⟨1, 0, 0⟩ := by
    unfold Capsule.up f3Normalized
    rw [f3Normalize_neg]
    rw [hl]; norm_num
  obtain ⟨f1, f2, f3, f4, f5, _⟩ := C54_perpendicularBasis_partial nz ⟨1, 0, 0⟩ (by norm_num [lenSq, dot])
  have hF : Spec.Frame (⟨1, 0, 0⟩ : V3 ℝ) (f3PerpendicularBasis nz ⟨1, 0, 0⟩).1 (f3PerpendicularBasis nz ⟨1, 0, 0⟩).2 :=
    ⟨by norm_num [dot], f1, f2, f3, f4, f5⟩
  show _ ∉ Spec.obb _ _ _ _ _
  unfold Capsule.minimalEnclosingOBB
  dsimp only
  rw [hup, hF.mem_obb]
  rintro ⟨h0, h1, h2⟩
  dsimp only at h1 h2
  have h1 := abs_nonpos_iff.1 h1
  have h2 := abs_nonpos_iff.1 h2
  have key := hF.expand (⟨0, 1 / 2000000, 0⟩ - Capsule.center ⟨⟨0, ⟨0, 1 / 2000000, 0⟩⟩, 0⟩)
  rw [h1, h2] at key
  have := congrArg V3.y key
  norm_num [Capsule.center, LineSeg.centerPoint, dot] at this

/-- The image of a capsule under a similarity. -/
theorem capsule_image (f : V3 ℝ → V3 ℝ) (k : ℝ) (a b : V3 ℝ) (r : ℝ)
    (hball : ∀ q, f '' Spec.ball q r = Spec.ball (f q) (r * k))
    (hlin : ∀ t : ℝ, f (a + t • (b - a)) = f a + t • (f b - f a)) :
    f '' Spec.capsule a b r = Spec.capsule (f a) (f b) (r * k) := by
  ext y
  constructor
  · rintro ⟨x, ⟨_, ⟨t, h0, h1, rfl⟩, hx⟩, rfl⟩
    refine ⟨f (a + t • (b - a)), ⟨t, h0, h1, hlin t⟩, ?_⟩
    have : f x ∈ f '' Spec.ball (a + t • (b - a)) r := ⟨x, hx, rfl⟩
    rw [hball] at this
    exact this
  · rintro ⟨_, ⟨t, h0, h1, rfl⟩, hy⟩
    rw [← hlin] at hy
    have : y ∈ Spec.ball (f (a + t • (b - a))) (r * k) := hy
    rw [← hball] at this
    obtain ⟨x, hx, rfl⟩ := this
    exact ⟨x, ⟨_, ⟨t, h0, h1, rfl⟩, hx⟩, rfl⟩

/-- C69: `Transform` by a matrix with orthogonal columns of the same length `k` maps the capsule exactly onto the new one. -/
theorem C69_transform (c : Capsule ℝ) (a : Fin 3 → Fin 3 → ℝ) (t : V3 ℝ) (k : ℝ) (hk : 0 < k)
    (ho : ∀ i j, a 0 i * a 0 j + a 1 i * a 1 j + a 2 i * a 2 j = if i = j then k * k else 0) :
    Spec.affineMap a 0 '' c.points = (c.transform3 (Matrix.of a)).points ∧
    Spec.affineMap a t '' c.points =
      (c.transform34 !![a 0 0, a 0 1, a 0 2, t.x; a 1 0, a 1 1, a 1 2, t.y; a 2 0, a 2 1, a 2 2, t.z]).points ∧
    Spec.affineMap a t '' c.points =
      (c.transform4 !![a 0 0, a 0 1, a 0 2, t.x; a 1 0, a 1 1, a 1 2, t.y; a 2 0, a 2 1, a 2 2, t.z; 0, 0, 0, 1]).points := by
  have h00 := ho 0 0
  simp at h00
  have hlen : V3.len (⟨a 0 0, a 1 0, a 2 0⟩ : V3 ℝ) = k := by
    unfold V3.len
    rw [Real.sqrt_eq_iff_mul_self_eq_of_pos hk]
    simp only [lenSq, dot]; linarith
  have hlin : ∀ (t p q : V3 ℝ) (s : ℝ), Spec.affineMap a t (p + s • (q - p)) =
      Spec.affineMap a t p + s • (Spec.affineMap a t q - Spec.affineMap a t p) := by
    intro t p q s; unfold Spec.affineMap; ext <;> simp <;> ring
  have hball : ∀ t q, Spec.affineMap a t '' Spec.ball q c.r = Spec.ball (Spec.affineMap a t q) (c.r * k) := by
    intro t q
    have := (C27_transform ⟨q, c.r⟩ a t k hk ho).2.1
    dsimp only at this
    rw [this]
    unfold Sphere.transform34
    simp [hlen]
    ext <;> simp [Spec.affineMap, Mat34.mulPos]
  have key : ∀ t, Spec.affineMap a t '' c.points = Spec.capsule (Spec.affineMap a t c.l.a) (Spec.affineMap a t c.l.b) (c.r * k) :=
    fun t => capsule_image _ k _ _ _ (hball t) (hlin t _ _)
  refine ⟨?_, ?_, ?_⟩
  · rw [key]
    have e : ∀ p, Mat3.mulVec (Matrix.of a) p = Spec.affineMap a 0 p := by
      intro p; ext <;> simp [Spec.affineMap, Mat3.mulVec]
    unfold Capsule.transform3 LineSeg.transform3 Capsule.points
    simp only [e, Mat3.col, Matrix.of_apply, hlen]
  · rw [key]
    have e : ∀ p, Mat34.mulPos !![a 0 0, a 0 1, a 0 2, t.x; a 1 0, a 1 1, a 1 2, t.y; a 2 0, a 2 1, a 2 2, t.z] p = Spec.affineMap a t p := by
      intro p; ext <;> simp [Spec.affineMap, Mat34.mulPos]
    unfold Capsule.transform34 LineSeg.transform34 Capsule.points
    simp only [e]
    simp [hlen]
  · rw [key]
    have e : ∀ p, Mat4.mulPos !![a 0 0, a 0 1, a 0 2, t.x; a 1 0, a 1 1, a 1 2, t.y; a 2 0, a 2 1, a 2 2, t.z; 0, 0, 0, 1] p = Spec.affineMap a t p := by
      intro p; ext <;> simp [Spec.affineMap, Mat4.mulPos]
    unfold Capsule.transform4 LineSeg.transform4 Capsule.points
    simp only [e]
    simp [hlen]

/-- C69: `Translate`, rotation by a unit quaternion and `Scale` by a positive factor. -/
theorem C69_rigid (c : Capsule ℝ) (o : V3 ℝ) (q : Quat ℝ) (hq : Quat.normSq q = 1) (k : ℝ) (hk : 0 < k) :
    (fun x => x + o) '' c.points = (c.translate o).points ∧
    Quat.transform q '' c.points = (c.transformQuat q).points ∧
    (fun x => o + k • (x - o)) '' c.points = (c.scale o k).points := by
  refine ⟨?_, ?_, ?_⟩
  · have := capsule_image (fun x => x + o) 1 c.l.a c.l.b c.r (fun q => ball_image _ 1 one_pos (by
      intro x y; simp only [distSq_eq]; simp) (fun y => y - o) (by intro y; ext <;> simp) q c.r) (by intro t; ext <;> simp <;> ring)
    rw [mul_one] at this
    exact this
  · have := capsule_image (Quat.transform q) 1 c.l.a c.l.b c.r (fun p => by
      have := C27_transform_quat ⟨p, c.r⟩ q hq
      rw [mul_one]; exact this) (by intro t; unfold Quat.transform Mat3.mulVec; ext <;> simp <;> ring)
    rw [mul_one] at this
    exact this
  · have := capsule_image (fun x => o + k • (x - o)) k c.l.a c.l.b c.r (fun q => ball_image _ k hk (by
      intro x y; simp only [distSq_eq]; simp; ring) (fun y => o + (1 / k) • (y - o)) (by
        intro y; ext <;> simp <;> field_simp <;> ring) q c.r) (by intro t; ext <;> simp <;> ring)
    rw [this]
    have e : ∀ p, Mat34.mulPos (Mat34.scaleAround (f3Scalar k) o) p = o + k • (p - o) := by
      intro p
      ext <;> simp [Mat34.mulPos, Mat34.scaleAround, Mat34.mulTranslate, Mat34.translateScale, Mat34.setTranslatePart, Mat.setAt, f3Scalar] <;> ring
    unfold Capsule.scale LineSeg.transform34 Capsule.points
    simp only [e]

/-! A capsule of radius 2 around a segment of length 5. -/

/-- A capsule of radius 2 around a segment of length 5. -/
def exCapsule : Capsule ℝ := ⟨⟨⟨1, 0, 2⟩, ⟨4, 0, 6⟩⟩, 2⟩

theorem exCapsule_len : V3.dist exCapsule.l.a exCapsule.l.b = 5 := by
  unfold V3.dist
  rw [show distSq exCapsule.l.a exCapsule.l.b = 5 ^ 2 by norm_num [exCapsule, distSq, lenSq, dot]]
  exact Real.sqrt_sq (by norm_num)

example : 0 ≤ exCapsule.r ∧ exCapsule.l.a ≠ exCapsule.l.b ∧ 1 / 1000000 < V3.dist exCapsule.l.a exCapsule.l.b := by
  rw [exCapsule_len]
  exact ⟨by norm_num [exCapsule], by simp [exCapsule], by norm_num⟩

theorem exCapsule_up : exCapsule.up = ⟨3 / 5, 0, 4 / 5⟩ := by
  unfold Capsule.up
  have : len (exCapsule.l.b - exCapsule.l.a) = 5 := by rw [← dist_eq_len, V3.dist_comm]; exact exCapsule_len
  rw [f3Normalized_pos (by rw [this]; norm_num), this]
  ext <;> norm_num [exCapsule]

example : 1 / 1000000 < len (cross exCapsule.up ⟨0, 1, 0⟩) := by
  rw [exCapsule_up]
  unfold len
  rw [show lenSq (cross (⟨3 / 5, 0, 4 / 5⟩ : V3 ℝ) ⟨0, 1, 0⟩) = 1 by norm_num [lenSq, dot, cross], Real.sqrt_one]
  norm_num

/-- A point inside, one outside, and a point that is far enough for `ClosestPoint`. -/
example : (⟨2, 1, 3⟩ : V3 ℝ) ∈ exCapsule.points ∧ (⟨1, 5, 2⟩ : V3 ℝ) ∉ exCapsule.points ∧
    ∀ q ∈ Spec.seg exCapsule.l.a exCapsule.l.b, 1 / 1000000 ≤ distSq ⟨1, 5, 2⟩ q := by
  have far : ∀ q ∈ Spec.seg exCapsule.l.a exCapsule.l.b, 25 ≤ distSq ⟨1, 5, 2⟩ q := by
    rintro q ⟨t, h0, h1, rfl⟩
    simp only [exCapsule, distSq, lenSq, dot]
    simp
    nlinarith [sq_nonneg t]
  refine ⟨⟨⟨1, 0, 2⟩, ⟨0, by norm_num, by norm_num, by ext <;> norm_num [exCapsule]⟩, by norm_num [exCapsule, distSq, lenSq, dot]⟩, ?_, ?_⟩
  · rintro ⟨q, hq, h⟩
    have := far q hq
    norm_num [exCapsule] at h
    linarith
  · intro q hq; have := far q hq; linarith

/-- A triangle that meets the conditions of `C69_intersects_triangle_partial`; it is 2 away from the segment. -/
example : Spec.ClearOfTriangle exCapsule.l.a (exCapsule.l.b - exCapsule.l.a) (⟨0, 0, 0⟩ : V3 ℝ) ⟨1, 0, 0⟩ ⟨0, 1, 0⟩ ∧
    dot (exCapsule.l.b - exCapsule.l.a) (cross ((⟨1, 0, 0⟩ : V3 ℝ) - ⟨0, 0, 0⟩) (⟨0, 1, 0⟩ - ⟨0, 0, 0⟩)) ≠ 0 := by
  refine ⟨⟨Or.inr (by norm_num [exCapsule, dot, cross]), fun t u v e hu hv huv => ?_⟩, by norm_num [exCapsule, dot, cross]⟩
  have ex := congrArg V3.x e
  have ez := congrArg V3.z e
  norm_num [exCapsule] at ex ez
  exact absurd hu (by linarith)

/-- A matrix of scale 2 for `C69_transform`. -/
example : let a : Fin 3 → Fin 3 → ℝ := ![![0, -2, 0], ![2, 0, 0], ![0, 0, 2]]
    ∀ i j, a 0 i * a 0 j + a 1 i * a 1 j + a 2 i * a 2 j = if i = j then 2 * 2 else 0 := by
  intro a i j
  fin_cases i <;> fin_cases j <;> simp [a] <;> norm_num [Matrix.vecHead, Matrix.vecTail]

example : Quat.normSq (⟨0, 4 / 5, 0, 3 / 5⟩ : Quat ℝ) = 1 := by norm_num [Quat.normSq]

end MGL
