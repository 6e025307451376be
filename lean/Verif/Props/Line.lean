import Verif.Proofs.LinePair
import Verif.Proofs.SetDist
import Mathlib.Tactic.NormNum
import Mathlib.Data.Rat.Defs
import Mathlib.Algebra.Order.Ring.Unbundled.Rat

/-! C22, C23: closest points of lines, rays and segments. -/

namespace MGL
open V3

section Field
variable {α : Type*} [Field α] [LinearOrder α] [IsStrictOrderedRing α]

/-- C22: `ClosestPoint(p)` lies on the line / ray / segment, no other point of the object is nearer, and
the out-parameter `d` is the parameter of that point. -/
theorem C22_closestPoint (x : V3 α) :
    (∀ l : Line α, lenSq l.dir = 1 → Spec.IsClosestPoint (Spec.line l.pos l.dir) x (l.closestPoint x).1 ∧
      l.getPoint (l.closestPoint x).2 = (l.closestPoint x).1) ∧
    (∀ l : Ray α, lenSq l.dir = 1 → Spec.IsClosestPoint (Spec.ray l.pos l.dir) x (l.closestPoint x).1 ∧
      l.getPoint (l.closestPoint x).2 = (l.closestPoint x).1 ∧ 0 ≤ (l.closestPoint x).2) ∧
    (∀ l : LineSeg α, l.a ≠ l.b → Spec.IsClosestPoint (Spec.seg l.a l.b) x (l.closestPoint x).1 ∧
      l.getPoint (l.closestPoint x).2 = (l.closestPoint x).1 ∧ 0 ≤ (l.closestPoint x).2 ∧ (l.closestPoint x).2 ≤ 1) := by
  refine ⟨fun l h => ⟨⟨⟨_, rfl⟩, ?_⟩, rfl⟩, fun l h => ⟨⟨⟨_, Ray.closest_nonneg l x, rfl⟩, ?_⟩, rfl, Ray.closest_nonneg l x⟩,
    fun l h => ⟨⟨⟨_, (LineSeg.closest_range l x).1, (LineSeg.closest_range l x).2, rfl⟩, ?_⟩, LineSeg.getPoint_eq l _, LineSeg.closest_range l x⟩⟩
  · rintro _ ⟨t, rfl⟩; exact Line.closest l h x t
  · rintro _ ⟨t, h0, rfl⟩; exact Ray.closest l h x t h0
  · rintro _ ⟨t, h0, h1, rfl⟩; exact LineSeg.closest l h x t h0 h1

example : lenSq (⟨3/5, 0, 4/5⟩ : V3 ℚ) = 1 ∧ (⟨0, 0, 0⟩ : V3 ℚ) ≠ ⟨1, 2, 3⟩ := by
  constructor
  · norm_num [lenSq, dot]
  · simp

/-- C22 (what `Contains` does decide): whether the *squared* distance is at most the threshold. -/
theorem C22_contains_partial (x : V3 α) (e : α) :
    (∀ l : Line α, lenSq l.dir = 1 → (l.contains x e = true ↔ ∃ y ∈ Spec.line l.pos l.dir, distSq x y ≤ e)) ∧
    (∀ l : Ray α, lenSq l.dir = 1 → (l.contains x e = true ↔ ∃ y ∈ Spec.ray l.pos l.dir, distSq x y ≤ e)) ∧
    (∀ l : LineSeg α, l.a ≠ l.b → (l.contains x e = true ↔ ∃ y ∈ Spec.seg l.a l.b, distSq x y ≤ e)) := by
  obtain ⟨h1, h2, h3⟩ := C22_closestPoint x
  have key : ∀ (S : Set (V3 α)) (q : V3 α), Spec.IsClosestPoint S x q →
      (decide (distSq q x ≤ e) = true ↔ ∃ y ∈ S, distSq x y ≤ e) := by
    intro S q h
    rw [decide_eq_true_iff, distSq_comm]
    exact ⟨fun hq => ⟨q, h.1, hq⟩, fun ⟨y, hy, hye⟩ => (h.2 y hy).trans hye⟩
  exact ⟨fun l h => key _ _ (h1 l h).1, fun l h => key _ _ (h2 l h).1, fun l h => key _ _ (h3 l h).1⟩

example := (C22_contains_partial (⟨1, 2, 3⟩ : V3 ℚ) (1/10)).1 ⟨⟨1, 0, 0⟩, ⟨3/5, 0, 4/5⟩⟩ (by norm_num [lenSq, dot])

/-- C22 fails for `Contains`: the documentation promises a tube of radius `distanceThreshold`, but the
squared distance is compared with it. A point at distance 1/2 is accepted with threshold 1/4, and one at
distance 3 is rejected with threshold 4. -/
theorem C22_contains_violation : ∃ (l : Line ℚ) (r : Ray ℚ) (s : LineSeg ℚ) (x y : V3 ℚ),
    lenSq l.dir = 1 ∧ lenSq r.dir = 1 ∧ s.a ≠ s.b ∧
    (∀ z, (z ∈ Spec.line l.pos l.dir ∨ z ∈ Spec.ray r.pos r.dir ∨ z ∈ Spec.seg s.a s.b) → ¬ distSq x z ≤ (1/4) * (1/4)) ∧
    l.contains x (1/4) = true ∧ r.contains x (1/4) = true ∧ s.contains x (1/4) = true ∧
    (∃ z ∈ Spec.line l.pos l.dir, z ∈ Spec.ray r.pos r.dir ∧ z ∈ Spec.seg s.a s.b ∧ distSq y z ≤ 4 * 4) ∧
    l.contains y 4 = false ∧ r.contains y 4 = false ∧ s.contains y 4 = false := by
  refine ⟨⟨⟨0, 0, 0⟩, ⟨1, 0, 0⟩⟩, ⟨⟨0, 0, 0⟩, ⟨1, 0, 0⟩⟩, ⟨⟨0, 0, 0⟩, ⟨1, 0, 0⟩⟩, ⟨0, 1/2, 0⟩, ⟨0, 3, 0⟩, by norm_num [lenSq, dot],
    by norm_num [lenSq, dot], by simp, ?_, by decide +kernel, by decide +kernel, by decide +kernel, ?_, by decide +kernel,
    by decide +kernel, by decide +kernel⟩
  · have key : ∀ t : ℚ, ¬ distSq (⟨0, 1/2, 0⟩ : V3 ℚ) (⟨0, 0, 0⟩ + t • ⟨1, 0, 0⟩) ≤ 1/4 * (1/4) := by
      intro t; rw [distSq_eq]; simp; nlinarith [mul_self_nonneg t]
    rintro z (⟨t, rfl⟩ | ⟨t, -, rfl⟩ | ⟨t, -, -, rfl⟩)
    · exact key t
    · exact key t
    · have e : (⟨1, 0, 0⟩ : V3 ℚ) - ⟨0, 0, 0⟩ = ⟨1, 0, 0⟩ := by ext <;> simp
      rw [e]; exact key t
  · refine ⟨⟨0, 0, 0⟩, ⟨0, by ext <;> simp⟩, ⟨0, le_rfl, by ext <;> simp⟩, ⟨0, le_rfl, zero_le_one, by ext <;> simp⟩, ?_⟩
    norm_num [distSq_eq]

/-- C23: `Line::ClosestPoint(Line / Ray / LineSegment, d, d2)`: the point returned is the point of this
line at `d`, and with the point of the other object at `d2` it is a closest pair of the two objects. This
includes parallel objects. -/
theorem C23_line (l : Line α) (hl : lenSq l.dir = 1) :
    (∀ m : Line α, lenSq m.dir = 1 → let r := l.closestLine m
      Spec.IsClosestPair (Spec.line l.pos l.dir) (Spec.line m.pos m.dir) r.1 (m.getPoint r.2.2) ∧ r.1 = l.getPoint r.2.1) ∧
    (∀ m : Ray α, lenSq m.dir = 1 → let r := l.closestRay m
      Spec.IsClosestPair (Spec.line l.pos l.dir) (Spec.ray m.pos m.dir) r.1 (m.getPoint r.2.2) ∧ r.1 = l.getPoint r.2.1 ∧
      0 ≤ r.2.2) ∧
    (∀ m : LineSeg α, m.a ≠ m.b → let r := l.closestSeg m
      Spec.IsClosestPair (Spec.line l.pos l.dir) (Spec.seg m.a m.b) r.1 (m.getPoint r.2.2) ∧ r.1 = l.getPoint r.2.1 ∧
      0 ≤ r.2.2 ∧ r.2.2 ≤ 1) := by
  refine ⟨fun m hm => ?_, fun m hm => ?_, fun m hm => ?_⟩
  · have h := Line.closestLine_spec l m hm
    exact ⟨pair_of_spec h (mem_line_param _ _) (mem_line_param _ _), h.1⟩
  · have h := Line.closestRay_spec l m hl hm
    exact ⟨pair_of_spec h (mem_line_param _ _) (mem_ray_param _ _), h.1, h.2.2.1⟩
  · have h := Line.closestSeg_spec l m hl hm
    exact ⟨(LineSeg.getPoint_eq m _).symm ▸ pair_of_spec h (mem_line_param _ _) (mem_seg_param _ _), h.1, h.2.2.1⟩

example := C23_line (⟨⟨1, 0, 0⟩, ⟨3/5, 0, 4/5⟩⟩ : Line ℚ) (by norm_num [lenSq, dot])

/-- C23: the same for `Ray::ClosestPoint`. -/
theorem C23_ray (l : Ray α) (hl : lenSq l.dir = 1) :
    (∀ m : Line α, lenSq m.dir = 1 → let r := l.closestLine m
      Spec.IsClosestPair (Spec.ray l.pos l.dir) (Spec.line m.pos m.dir) r.1 (m.getPoint r.2.2) ∧ r.1 = l.getPoint r.2.1 ∧
      0 ≤ r.2.1) ∧
    (∀ m : Ray α, lenSq m.dir = 1 → let r := l.closestRay m
      Spec.IsClosestPair (Spec.ray l.pos l.dir) (Spec.ray m.pos m.dir) r.1 (m.getPoint r.2.2) ∧ r.1 = l.getPoint r.2.1 ∧
      0 ≤ r.2.1 ∧ 0 ≤ r.2.2) ∧
    (∀ m : LineSeg α, m.a ≠ m.b → let r := l.closestSeg m
      Spec.IsClosestPair (Spec.ray l.pos l.dir) (Spec.seg m.a m.b) r.1 (m.getPoint r.2.2) ∧ r.1 = l.getPoint r.2.1 ∧
      0 ≤ r.2.1 ∧ 0 ≤ r.2.2 ∧ r.2.2 ≤ 1) := by
  refine ⟨fun m hm => ?_, fun m hm => ?_, fun m hm => ?_⟩
  · have h := Ray.closestLine_spec l m hm
    exact ⟨pair_of_spec h (mem_ray_param _ _) (mem_line_param _ _), h.1, h.2.1⟩
  · have h := Ray.closestRay_spec l m hl hm
    exact ⟨pair_of_spec h (mem_ray_param _ _) (mem_ray_param _ _), h.1, h.2.1, h.2.2.1⟩
  · have h := Ray.closestSeg_spec l m hl hm
    exact ⟨(LineSeg.getPoint_eq m _).symm ▸ pair_of_spec h (mem_ray_param _ _) (mem_seg_param _ _), h.1, h.2.1, h.2.2.1⟩

example := C23_ray (⟨⟨1, 0, 0⟩, ⟨3/5, 0, 4/5⟩⟩ : Ray ℚ) (by norm_num [lenSq, dot])

/-- C23: the same for `LineSegment::ClosestPoint`. -/
theorem C23_segment (l : LineSeg α) (hl : l.a ≠ l.b) :
    (∀ m : Line α, lenSq m.dir = 1 → let r := l.closestLine m
      Spec.IsClosestPair (Spec.seg l.a l.b) (Spec.line m.pos m.dir) r.1 (m.getPoint r.2.2) ∧ r.1 = l.getPoint r.2.1 ∧
      0 ≤ r.2.1 ∧ r.2.1 ≤ 1) ∧
    (∀ m : Ray α, lenSq m.dir = 1 → let r := l.closestRay m
      Spec.IsClosestPair (Spec.seg l.a l.b) (Spec.ray m.pos m.dir) r.1 (m.getPoint r.2.2) ∧ r.1 = l.getPoint r.2.1 ∧
      0 ≤ r.2.1 ∧ r.2.1 ≤ 1 ∧ 0 ≤ r.2.2) ∧
    (∀ m : LineSeg α, m.a ≠ m.b → let r := l.closestSeg m
      Spec.IsClosestPair (Spec.seg l.a l.b) (Spec.seg m.a m.b) r.1 (m.getPoint r.2.2) ∧ r.1 = l.getPoint r.2.1 ∧
      0 ≤ r.2.1 ∧ r.2.1 ≤ 1 ∧ 0 ≤ r.2.2 ∧ r.2.2 ≤ 1) := by
  refine ⟨fun m hm => ?_, fun m hm => ?_, fun m hm => ?_⟩
  · have h := LineSeg.closestLine_spec l m hm hl
    exact ⟨pair_of_spec h (mem_seg_param _ _) (mem_line_param _ _), h.1.trans (LineSeg.getPoint_eq l _).symm, h.2.1⟩
  · have h := LineSeg.closestRay_spec l m hm hl
    exact ⟨pair_of_spec h (mem_seg_param _ _) (mem_ray_param _ _), h.1.trans (LineSeg.getPoint_eq l _).symm, h.2.1.1, h.2.1.2, h.2.2.1⟩
  · have h := LineSeg.closestSeg_spec l m hl hm
    exact ⟨(LineSeg.getPoint_eq m _).symm ▸ pair_of_spec h (mem_seg_param _ _) (mem_seg_param _ _),
      h.1.trans (LineSeg.getPoint_eq l _).symm, h.2.1.1, h.2.1.2, h.2.2.1⟩

/-- The hypotheses of the closest-pair theorems are met by two parallel, by two crossing and by two
separated segments. -/
example : (⟨0, 0, 0⟩ : V3 ℚ) ≠ ⟨1, 0, 0⟩ ∧ (⟨0, 1, 0⟩ : V3 ℚ) ≠ ⟨5, 1, 0⟩ ∧ (⟨7, 1, 0⟩ : V3 ℚ) ≠ ⟨5, 5, 5⟩ := by
  refine ⟨by simp, by simp, by simp⟩

end Field

/-- C22: `Distance(point)` of a line, ray and segment. -/
theorem C22_distance (x : V3 ℝ) :
    (∀ l : Line ℝ, lenSq l.dir = 1 → Spec.IsSetDist (Spec.line l.pos l.dir) {x} (l.distance x)) ∧
    (∀ l : Ray ℝ, lenSq l.dir = 1 → Spec.IsSetDist (Spec.ray l.pos l.dir) {x} (l.distance x)) ∧
    (∀ l : LineSeg ℝ, l.a ≠ l.b → Spec.IsSetDist (Spec.seg l.a l.b) {x} (l.distance x) ∧
      l.distanceSq x = l.distance x * l.distance x) :=
  ⟨fun l h => setDist_of_point ((C22_closestPoint x).1 l h).1, fun l h => setDist_of_point ((C22_closestPoint x).2.1 l h).1,
    fun l h => ⟨setDist_of_point ((C22_closestPoint x).2.2 l h).1, (dist_mul_self _ _).symm⟩⟩

example := (C22_distance ⟨1, 2, 3⟩).1 ⟨⟨1, 0, 0⟩, ⟨3/5, 0, 4/5⟩⟩ (by norm_num [lenSq, dot])

/-- C22: `Distance(Sphere)` is the distance to the closed ball. -/
theorem C22_distance_sphere (s : Sphere ℝ) (hr : 0 ≤ s.r) :
    (∀ l : Line ℝ, lenSq l.dir = 1 → Spec.IsSetDist (Spec.line l.pos l.dir) (Spec.ball s.pos s.r) (l.distanceSphere s)) ∧
    (∀ l : Ray ℝ, lenSq l.dir = 1 → Spec.IsSetDist (Spec.ray l.pos l.dir) (Spec.ball s.pos s.r) (l.distanceSphere s)) ∧
    (∀ l : LineSeg ℝ, l.a ≠ l.b → Spec.IsSetDist (Spec.seg l.a l.b) (Spec.ball s.pos s.r) (l.distanceSphere s)) := by
  obtain ⟨h1, h2, h3⟩ := C22_distance s.pos
  simp only [Line.distanceSphere, Ray.distanceSphere, LineSeg.distanceSphere, max2_eq, ball_eq_thicken]
  exact ⟨fun l h => setDist_thicken (h1 l h) hr, fun l h => setDist_thicken (h2 l h) hr, fun l h => setDist_thicken (h3 l h).1 hr⟩

example := (C22_distance_sphere ⟨⟨1, 2, 3⟩, 2⟩ (by norm_num)).2.1 ⟨⟨1, 0, 0⟩, ⟨3/5, 0, 4/5⟩⟩ (by norm_num [lenSq, dot])

/-- C23: `Distance` between any two of line, ray and segment. -/
theorem C23_distance :
    (∀ l m : Line ℝ, lenSq l.dir = 1 → lenSq m.dir = 1 →
      Spec.IsSetDist (Spec.line l.pos l.dir) (Spec.line m.pos m.dir) (l.distanceLine m).1) ∧
    (∀ (l : Line ℝ) (m : Ray ℝ), lenSq l.dir = 1 → lenSq m.dir = 1 →
      Spec.IsSetDist (Spec.line l.pos l.dir) (Spec.ray m.pos m.dir) (l.distanceRay m).1 ∧
      Spec.IsSetDist (Spec.ray m.pos m.dir) (Spec.line l.pos l.dir) (m.distanceLine l).1) ∧
    (∀ (l : Line ℝ) (m : LineSeg ℝ), lenSq l.dir = 1 → m.a ≠ m.b →
      Spec.IsSetDist (Spec.line l.pos l.dir) (Spec.seg m.a m.b) (l.distanceSeg m).1 ∧
      Spec.IsSetDist (Spec.seg m.a m.b) (Spec.line l.pos l.dir) (m.distanceLine l).1) ∧
    (∀ l m : Ray ℝ, lenSq l.dir = 1 → lenSq m.dir = 1 →
      Spec.IsSetDist (Spec.ray l.pos l.dir) (Spec.ray m.pos m.dir) (l.distanceRay m).1) ∧
    (∀ (l : Ray ℝ) (m : LineSeg ℝ), lenSq l.dir = 1 → m.a ≠ m.b →
      Spec.IsSetDist (Spec.ray l.pos l.dir) (Spec.seg m.a m.b) (l.distanceSeg m).1 ∧
      Spec.IsSetDist (Spec.seg m.a m.b) (Spec.ray l.pos l.dir) (m.distanceRay l).1) ∧
    (∀ l m : LineSeg ℝ, l.a ≠ l.b → m.a ≠ m.b →
      Spec.IsSetDist (Spec.seg l.a l.b) (Spec.seg m.a m.b) (l.distanceSeg m).1 ∧
      l.distanceSqSeg m = (l.distanceSeg m).1 * (l.distanceSeg m).1) := by
  refine ⟨fun l m hl hm => setDist_of_pair ((C23_line l hl).1 m hm).1,
    fun l m hl hm => ⟨setDist_of_pair ((C23_line l hl).2.1 m hm).1, setDist_of_pair ((C23_ray m hm).1 l hl).1⟩,
    fun l m hl hm => ⟨setDist_of_pair ((C23_line l hl).2.2 m hm).1, ?_⟩,
    fun l m hl hm => setDist_of_pair ((C23_ray l hl).2.1 m hm).1,
    fun l m hl hm => ⟨setDist_of_pair ((C23_ray l hl).2.2 m hm).1, setDist_of_pair ((C23_segment m hm).2.1 l hl).1⟩,
    fun l m hl hm => ⟨?_, (dist_mul_self _ _).symm⟩⟩
  · have := setDist_symm (setDist_of_pair ((C23_line l hl).2.2 m hm).1)
    rw [V3.dist_comm] at this
    exact this
  · have h := (C23_segment l hl).2.2 m hm
    have := setDist_of_pair h.1
    rw [h.2.1] at this
    exact this

example := C23_distance.1 ⟨⟨1, 0, 0⟩, ⟨3/5, 0, 4/5⟩⟩ ⟨⟨1, 5, 0⟩, ⟨0, 0, 1⟩⟩ (by norm_num [lenSq, dot]) (by norm_num [lenSq, dot])

/-- C23: `LineSegment::Intersects(LineSegment, epsilon)` decides whether the segments come within
`epsilon` of each other. -/
theorem C23_intersects (l m : LineSeg ℝ) (hl : l.a ≠ l.b) (hm : m.a ≠ m.b) (e : ℝ) :
    l.intersectsSeg m e = true ↔ ∃ x ∈ Spec.seg l.a l.b, ∃ y ∈ Spec.seg m.a m.b, V3.dist x y ≤ e := by
  obtain ⟨h1, x, hx, y, hy, h2⟩ := (C23_distance.2.2.2.2.2 l m hl hm).1
  unfold LineSeg.intersectsSeg
  rw [decide_eq_true_iff]
  exact ⟨fun h => ⟨x, hx, y, hy, h2.le.trans h⟩, fun ⟨x, hx, y, hy, h⟩ => (h1 x hx y hy).trans h⟩

example := C23_intersects ⟨⟨1, 0, 0⟩, ⟨3, 0, 4⟩⟩ ⟨⟨1, 5, 0⟩, ⟨0, 0, 1⟩⟩ (by simp) (by simp) (1/1000)

/-- C23: `Distance(Capsule)`: the distance to all points within `r` of the capsule's segment. -/
theorem C23_distance_capsule (c : LineSeg ℝ) (hc : c.a ≠ c.b) (r : ℝ) (hr : 0 ≤ r) :
    (∀ l : Line ℝ, lenSq l.dir = 1 → Spec.IsSetDist (Spec.line l.pos l.dir) (Spec.capsule c.a c.b r) (l.distanceCapsule c r)) ∧
    (∀ l : Ray ℝ, lenSq l.dir = 1 → Spec.IsSetDist (Spec.ray l.pos l.dir) (Spec.capsule c.a c.b r) (l.distanceCapsule c r)) ∧
    (∀ l : LineSeg ℝ, l.a ≠ l.b → Spec.IsSetDist (Spec.seg l.a l.b) (Spec.capsule c.a c.b r) (l.distanceCapsule c r)) := by
  obtain ⟨-, -, h1, -, h2, h3⟩ := C23_distance
  simp only [Line.distanceCapsule, Ray.distanceCapsule, LineSeg.distanceCapsule, max2_eq]
  exact ⟨fun l h => setDist_thicken (h1 l c h hc).1 hr, fun l h => setDist_thicken (h2 l c h hc).1 hr,
    fun l h => setDist_thicken (h3 l c h hc).1 hr⟩

example := (C23_distance_capsule ⟨⟨1, 0, 0⟩, ⟨3, 0, 4⟩⟩ (by simp) 2 (by norm_num)).1 ⟨⟨1, 5, 0⟩, ⟨0, 0, 1⟩⟩ (by norm_num [lenSq, dot])

/-- C23: out-parameters. In every `Distance` overload but one the first parameter is this object's and
the second the other's. -/
theorem C23_distance_params_partial :
    (∀ (l : Ray ℝ) (m : LineSeg ℝ), lenSq l.dir = 1 → m.a ≠ m.b →
      (l.distanceSeg m).1 = V3.dist (l.getPoint (l.distanceSeg m).2.1) (m.getPoint (l.distanceSeg m).2.2) ∧
      (m.distanceRay l).1 = V3.dist (m.getPoint (m.distanceRay l).2.1) (l.getPoint (m.distanceRay l).2.2)) ∧
    (∀ (l m : Ray ℝ), lenSq l.dir = 1 → lenSq m.dir = 1 →
      (l.distanceRay m).1 = V3.dist (l.getPoint (l.distanceRay m).2.1) (m.getPoint (l.distanceRay m).2.2)) ∧
    (∀ (l : Line ℝ) (m : Ray ℝ), lenSq l.dir = 1 → lenSq m.dir = 1 →
      (l.distanceRay m).1 = V3.dist (l.getPoint (l.distanceRay m).2.1) (m.getPoint (l.distanceRay m).2.2) ∧
      (m.distanceLine l).1 = V3.dist (m.getPoint (m.distanceLine l).2.1) (l.getPoint (m.distanceLine l).2.2)) ∧
    (∀ (l : Line ℝ) (m : LineSeg ℝ), lenSq l.dir = 1 → m.a ≠ m.b →
      (l.distanceSeg m).1 = V3.dist (l.getPoint (l.distanceSeg m).2.1) (m.getPoint (l.distanceSeg m).2.2)) ∧
    (∀ (l m : Line ℝ), lenSq l.dir = 1 → lenSq m.dir = 1 →
      (l.distanceLine m).1 = V3.dist (l.getPoint (l.distanceLine m).2.1) (m.getPoint (l.distanceLine m).2.2)) ∧
    (∀ (l m : LineSeg ℝ), 
      (l.distanceSeg m).1 = V3.dist (l.getPoint (l.distanceSeg m).2.1) (m.getPoint (l.distanceSeg m).2.2)) := by
  refine ⟨fun l m hl hm => ⟨?_, rfl⟩, fun l m hl hm => ?_, fun l m hl hm => ⟨?_, ?_⟩, fun l m hl hm => ?_,
    fun l m hl hm => rfl, fun l m => rfl⟩
  · exact congrArg (fun z => V3.dist z _) ((C23_ray l hl).2.2 m hm).2.1
  · exact congrArg (fun z => V3.dist z _) ((C23_ray l hl).2.1 m hm).2.1
  · exact congrArg (fun z => V3.dist z _) ((C23_line l hl).2.1 m hm).2.1
  · exact congrArg (fun z => V3.dist z _) ((C23_ray m hm).1 l hl).2.1
  · exact congrArg (fun z => V3.dist z _) ((C23_line l hl).2.2 m hm).2.1

/-- C23 fails for `LineSegment::Distance(Line, d, d2)`: `d` is documented as the parameter of this
segment and `d2` as that of the line, but they come back exchanged. The segment from (0,0,0) to (0,1,0)
and the line through (5,0,0) along x: `d` should be 0, but it is -5. -/
theorem C23_distance_params_violation : ∃ (s : LineSeg ℝ) (l : Line ℝ), lenSq l.dir = 1 ∧ s.a ≠ s.b ∧
    (s.distanceLine l).2.1 = -5 ∧ (s.distanceLine l).2.2 = 0 ∧
    (s.distanceLine l).1 ≠ V3.dist (s.getPoint (s.distanceLine l).2.1) (l.getPoint (s.distanceLine l).2.2) := by
  have e1 : (LineSeg.distanceLine ⟨⟨0, 0, 0⟩, ⟨0, 1, 0⟩⟩ ⟨⟨5, 0, 0⟩, ⟨1, 0, 0⟩⟩).2 = ((-5 : ℝ), 0) := by
    simp [LineSeg.distanceLine, Line.closestSeg, closestPointLineLine, dot, Line.closestPoint, Line.getPoint]
    norm_num
  have e2 : (LineSeg.distanceLine ⟨⟨0, 0, 0⟩, ⟨0, 1, 0⟩⟩ ⟨⟨5, 0, 0⟩, ⟨1, 0, 0⟩⟩).1 = (0 : ℝ) := by
    have := (C23_distance.2.2.1 ⟨⟨5, 0, 0⟩, ⟨1, 0, 0⟩⟩ ⟨⟨0, 0, 0⟩, ⟨0, 1, 0⟩⟩ (by norm_num [lenSq, dot]) (by simp)).2
    rw [setDist_zero_iff this]
    exact ⟨⟨0, 0, 0⟩, ⟨0, le_rfl, zero_le_one, by ext <;> simp⟩, ⟨-5, by ext <;> simp⟩⟩
  refine ⟨⟨⟨0, 0, 0⟩, ⟨0, 1, 0⟩⟩, ⟨⟨5, 0, 0⟩, ⟨1, 0, 0⟩⟩, by norm_num [lenSq, dot], by simp, by rw [e1], by rw [e1], ?_⟩
  rw [e1, e2]
  intro h
  have := V3.dist_eq_zero.1 h.symm
  have := congrArg V3.y this
  norm_num [LineSeg.getPoint, Line.getPoint] at this

end MGL
