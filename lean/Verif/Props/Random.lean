import Verif.Proofs.Random

/-! # C96: random points, directions and rotations

For every state of the generator (with a modulus other than 0), every draw succeeds, and the value drawn belongs to the set it is
drawn from. Where the function is defined by successive calls of the generator, the theorem names these calls and the value made
from them. The state `g'` returned can be used for further draws: its modulus is not 0. -/

set_option linter.unusedSectionVars false

namespace MGL
open V3 Spec

private theorem c01 {u : ℚ} (h0 : 0 ≤ u) (h1 : u < 1) : (0 : ℝ) ≤ (u : ℝ) ∧ (u : ℝ) ≤ 1 :=
  ⟨by exact_mod_cast h0, by exact_mod_cast h1.le⟩

/-! ### Boxes -/

/-- C96: `AABB::RandomPointInside` interpolates each coordinate with the next number of the generator, and is in the box. -/
theorem C96_box_inside (b : AABB ℝ) (hb : b.Proper) (g : LCG) (hg : g.modulus ≠ 0) :
    ∃ (u v w : ℚ) (g1 g2 g' : LCG) (p : V3 ℝ), g.float = some (u, g1) ∧ g1.float = some (v, g2) ∧ g2.float = some (w, g') ∧ g'.modulus ≠ 0 ∧
      b.randomPointInside g = some (p, g') ∧ f3RandomBox b.minPoint b.maxPoint g = some (p, g') ∧
      p.x = (1 - u) * b.minPoint.x + u * b.maxPoint.x ∧ p.y = (1 - v) * b.minPoint.y + v * b.maxPoint.y ∧
      p.z = (1 - w) * b.minPoint.z + w * b.maxPoint.z ∧ p ∈ Spec.box b.minPoint b.maxPoint := by
  obtain ⟨u, g1, e1, k1, u0, u1⟩ := draw_float g hg
  obtain ⟨v, g2, e2, k2, v0, v1⟩ := draw_float g1 k1
  obtain ⟨w, g3, e3, k3, w0, w1⟩ := draw_float g2 k2
  have hx : b.randomPointInside g = some (b.pointInside u v w, g3) := by
    simp only [AABB.randomPointInside, Random.float3, e1, e2, e3, Option.bind_eq_bind, Option.bind_some, Option.pure_def]
  refine ⟨u, v, w, g1, g2, g3, _, e1, e2, e3, k3, hx, hx, ?_, ?_, ?_, (C19_pointInside b hb _).2 ⟨u, v, w, (c01 u0 u1).1, (c01 u0 u1).2,
    (c01 v0 v1).1, (c01 v0 v1).2, (c01 w0 w1).1, (c01 w0 w1).2, rfl⟩⟩ <;>
    simp [AABB.pointInside, f3Mul] <;> ring

example := C96_box_inside ⟨⟨0, 0, 0⟩, ⟨1, 2, 3⟩⟩ (by simp [AABB.Proper]) (LCG.seedDefault 5) (by decide)

/-- C96: `AABB::RandomPointOnSurface` is a point of the box on the face whose index is drawn first. -/
theorem C96_box_surface (rnd : ℚ → ℚ) (hr : RoundsToNearest rnd) (b : AABB ℝ) (hb : b.Proper) (g : LCG) (hg : g.modulus ≠ 0) :
    ∃ (i : Fin 6) (u v : ℚ) (g1 g2 g' : LCG) (p : V3 ℝ), g.intRange rnd 0 5 = some ((i.val : ℤ), g1) ∧ g1.float = some (u, g2) ∧
      g2.float = some (v, g') ∧ g'.modulus ≠ 0 ∧ b.randomPointOnSurface rnd g = some (p, g') ∧ p ∈ Spec.box b.minPoint b.maxPoint ∧
      p.toFun ⟨i.val / 2, by omega⟩ = (if i.val % 2 = 0 then b.minPoint else b.maxPoint).toFun ⟨i.val / 2, by omega⟩ := by
  obtain ⟨i, g1, e1, e1', k1⟩ := draw_index hr 5 (by norm_num) g hg
  obtain ⟨u, g2, e2, k2, u0, u1⟩ := draw_float g1 k1
  obtain ⟨v, g3, e3, k3, v0, v1⟩ := draw_float g2 k2
  refine ⟨i, u, v, g1, g2, g3, b.facePoint i u v, e1, e2, e3, k3, ?_, ((C19_facePoint b hb i _).2 ⟨u, v, (c01 u0 u1).1, (c01 u0 u1).2,
    (c01 v0 v1).1, (c01 v0 v1).2, rfl⟩).1, ?_⟩
  · simp only [AABB.randomPointOnSurface, e1', e2, e3, Option.bind_eq_bind, Option.bind_some, Option.pure_def]
  · fin_cases i <;> rfl

example := exists_rounding.elim fun r hr =>
  show True from (C96_box_surface r hr ⟨⟨0, 0, 0⟩, ⟨1, 2, 3⟩⟩ (by simp [AABB.Proper]) (LCG.seedDefault 5) (by decide)).elim fun _ _ => trivial

/-- C96: `AABB::RandomPointOnEdge` is on an edge of the box and `RandomCornerPoint` is a corner. -/
theorem C96_box_edge (rnd : ℚ → ℚ) (hr : RoundsToNearest rnd) (b : AABB ℝ) (g : LCG) (hg : g.modulus ≠ 0) :
    (∃ p g', b.randomPointOnEdge rnd g = some (p, g') ∧ g'.modulus ≠ 0 ∧ ∃ e : Fin 12, p ∈ Spec.seg (b.edge e).1 (b.edge e).2) ∧
    ∃ (i : Fin 8) (p : V3 ℝ) (g' : LCG), g.intRange rnd 0 7 = some ((i.val : ℤ), g') ∧ g'.modulus ≠ 0 ∧ b.randomCornerPoint rnd g = some (p, g') ∧
      p = ⟨if i.val.testBit 2 then b.maxPoint.x else b.minPoint.x, if i.val.testBit 1 then b.maxPoint.y else b.minPoint.y,
        if i.val.testBit 0 then b.maxPoint.z else b.minPoint.z⟩ := by
  constructor
  · obtain ⟨i, g1, e1, e1', k1⟩ := draw_index hr 11 (by norm_num) g hg
    obtain ⟨u, g2, e2, k2, u0, u1⟩ := draw_float g1 k1
    refine ⟨b.pointOnEdge i u, g2, ?_, k2, C19_pointOnEdge_partial b i u (c01 u0 u1).1 (c01 u0 u1).2⟩
    simp only [AABB.randomPointOnEdge, e1', e2, Option.bind_eq_bind, Option.bind_some, Option.pure_def]
  · obtain ⟨i, g1, e1, e1', k1⟩ := draw_index hr 7 (by norm_num) g hg
    refine ⟨i, b.cornerPoint i, g1, e1, k1, ?_, ?_⟩
    · simp only [AABB.randomCornerPoint, e1', Option.bind_eq_bind, Option.bind_some, Option.pure_def]
    · fin_cases i <;> rfl

example := exists_rounding.elim fun r hr =>
  show True from (C96_box_edge r hr ⟨⟨0, 0, 0⟩, ⟨1, 2, 3⟩⟩ (LCG.seedDefault 5) (by decide)).1.elim fun _ _ => trivial

/-- C96: the random points of an oriented box are in the box, on its surface, on an edge and at a corner. -/
theorem C96_obb (rnd : ℚ → ℚ) (hr : RoundsToNearest rnd) (o : OBB ℝ) (ho : o.Valid) (g : LCG) (hg : g.modulus ≠ 0) :
    (∃ (u v w : ℚ) (g1 g2 g' : LCG), g.float = some (u, g1) ∧ g1.float = some (v, g2) ∧ g2.float = some (w, g') ∧ g'.modulus ≠ 0 ∧
      ∃ p, o.randomPointInside g = some (p, g') ∧ p ∈ o.points ∧
      p = o.pos + ((2 * (u : ℝ) - 1) * o.r.x) • o.axis0 + ((2 * (v : ℝ) - 1) * o.r.y) • o.axis1 + ((2 * (w : ℝ) - 1) * o.r.z) • o.axis2) ∧
    (∃ p g', o.randomPointOnSurface rnd g = some (p, g') ∧ g'.modulus ≠ 0 ∧ p ∈ o.points ∧
      ∃ j, p ∈ Spec.plane (o.facePlane j).normal (o.facePlane j).d) ∧
    (∃ p g', o.randomPointOnEdge rnd g = some (p, g') ∧ g'.modulus ≠ 0 ∧ ∃ e : Fin 12, p ∈ Spec.seg (o.edge e).a (o.edge e).b) ∧
    ∃ (i : Fin 8) (p : V3 ℝ) (g' : LCG), g.intRange rnd 0 7 = some ((i.val : ℤ), g') ∧ g'.modulus ≠ 0 ∧ o.randomCornerPoint rnd g = some (p, g') ∧
      p = o.pos + (if i.val.testBit 2 then o.r.x else -o.r.x) • o.axis0 + (if i.val.testBit 1 then o.r.y else -o.r.y) • o.axis1 +
        (if i.val.testBit 0 then o.r.z else -o.r.z) • o.axis2 := by
  obtain ⟨-, hx, hy, hz⟩ := id ho
  refine ⟨?_, ?_, ?_, ?_⟩
  · obtain ⟨u, g1, e1, k1, u0, u1⟩ := draw_float g hg
    obtain ⟨v, g2, e2, k2, v0, v1⟩ := draw_float g1 k1
    obtain ⟨w, g3, e3, k3, w0, w1⟩ := draw_float g2 k2
    refine ⟨u, v, w, g1, g2, g3, e1, e2, e3, k3, o.pointInside u v w, ?_, (C67_pointInside o hx hy hz _).2 ⟨u, v, w, (c01 u0 u1).1, (c01 u0 u1).2,
      (c01 v0 v1).1, (c01 v0 v1).2, (c01 w0 w1).1, (c01 w0 w1).2, rfl⟩, ?_⟩
    · simp only [OBB.randomPointInside, Random.float3, e1, e2, e3, Option.bind_eq_bind, Option.bind_some, Option.pure_def]
    · ext <;> simp [OBB.pointInside] <;> ring
  · obtain ⟨i, g1, e1, e1', k1⟩ := draw_index hr 5 (by norm_num) g hg
    obtain ⟨u, g2, e2, k2, u0, u1⟩ := draw_float g1 k1
    obtain ⟨v, g3, e3, k3, v0, v1⟩ := draw_float g2 k2
    obtain ⟨a, c⟩ := C67_facePoint_partial o ho i u v (c01 u0 u1).1 (c01 u0 u1).2 (c01 v0 v1).1 (c01 v0 v1).2
    refine ⟨o.facePoint i u v, g3, ?_, k3, a, c⟩
    simp only [OBB.randomPointOnSurface, e1', e2, e3, Option.bind_eq_bind, Option.bind_some, Option.pure_def]
  · obtain ⟨i, g1, e1, e1', k1⟩ := draw_index hr 11 (by norm_num) g hg
    obtain ⟨u, g2, e2, k2, u0, u1⟩ := draw_float g1 k1
    refine ⟨o.pointOnEdge i u, g2, ?_, k2, C67_pointOnEdge_partial o i u (c01 u0 u1).1 (c01 u0 u1).2⟩
    simp only [OBB.randomPointOnEdge, e1', e2, Option.bind_eq_bind, Option.bind_some, Option.pure_def]
  · obtain ⟨i, g1, e1, e1', k1⟩ := draw_index hr 7 (by norm_num) g hg
    refine ⟨i, o.cornerPoint i, g1, e1, k1, ?_, (C67_corners o hx hy hz).1 i⟩
    simp only [OBB.randomCornerPoint, e1', Option.bind_eq_bind, Option.bind_some, Option.pure_def]

example : OBB.Valid (⟨0, ⟨1, 2, 3⟩, ⟨1, 0, 0⟩, ⟨0, 1, 0⟩, ⟨0, 0, 1⟩⟩ : OBB ℝ) := by
  refine ⟨⟨?_, ?_, ?_, ?_, ?_, ?_⟩, ?_, ?_, ?_⟩ <;> norm_num [lenSq, dot]

/-! ### Spheres, directions and rotations -/

private theorem range3_ok {rnd : ℚ → ℚ} (hr : RoundsToNearest rnd) {a b : ℚ} (ha : IsF32 a) (hb : IsF32 b) (hab : a ≤ b) (hd : b - a ≤ maxF32)
    (g : LCG) (hg : g.modulus ≠ 0) : ∃ t g', Random.range3 rnd a b g = some (t, g') ∧ g'.modulus ≠ 0 := by
  obtain ⟨u, g1, e1, k1, -⟩ := draw_range hr ha hb hab hd g hg
  obtain ⟨v, g2, e2, k2, -⟩ := draw_range hr ha hb hab hd g1 k1
  obtain ⟨w, g3, e3, k3, -⟩ := draw_range hr ha hb hab hd g2 k2
  exact ⟨(u, v, w), g3, by simp only [Random.range3, e1, e2, e3, Option.bind_eq_bind, Option.bind_some, Option.pure_def], k3⟩

/-- C96: `Sphere::RandomPointInside` is a point of the ball, also when every try is rejected. -/
theorem C96_sphere_inside (rnd : ℚ → ℚ) (hr : RoundsToNearest rnd) (pos : V3 ℝ) (r : ℚ) (h0 : 0 ≤ r) (hf : IsF32 r) (hd : 2 * r ≤ maxF32)
    (g : LCG) (hg : g.modulus ≠ 0) :
    ∃ p g', Sphere.randomPointInside rnd pos r g = some (p, g') ∧ g'.modulus ≠ 0 ∧ p ∈ Spec.ball pos (r : ℝ) := by
  have : ∀ n (g : LCG), g.modulus ≠ 0 → ∃ p g', Sphere.randomInsideLoop rnd pos r g n = some (p, g') ∧ g'.modulus ≠ 0 ∧
      p ∈ Spec.ball pos (r : ℝ) := by
    intro n
    induction n with
    | zero =>
      intro g hg
      refine ⟨pos, g, rfl, hg, ?_⟩
      show distSq pos pos ≤ (r : ℝ) * r
      have e : distSq pos pos = 0 := by rw [distSq_eq]; ring
      rw [e]; exact mul_self_nonneg _
    | succ n ih =>
      intro g hg
      obtain ⟨t, g1, e, k⟩ := range3_ok hr (isF32_neg hf) hf (by linarith) (by linarith) g hg
      rw [Sphere.randomInsideLoop, e]
      simp only [Option.bind_eq_bind, Option.bind_some]
      split
      · rename_i h
        refine ⟨_, _, rfl, k, ?_⟩
        show distSq (pos + Random.vec t) pos ≤ (r : ℝ) * r
        have : distSq (pos + Random.vec t) pos = lenSq (Random.vec t) := by simp [distSq_eq, lenSq, dot]
        rw [this]; exact h
      · exact ih g1 k
  exact this 1000 g hg

example := exists_rounding.elim fun r hr =>
  show True from (C96_sphere_inside r hr ⟨1, 2, 3⟩ 2 (by norm_num) (by simpa using isF32_int 2 (by norm_num)) (by unfold maxF32; norm_num)
    (LCG.seedDefault 5) (by decide)).elim fun _ _ => trivial

private theorem neg3_ok (g : LCG) (hg : g.modulus ≠ 0) : ∃ t g', Random.neg3 g = some (t, g') ∧ g'.modulus ≠ 0 := by
  obtain ⟨u, g1, e1, k1, -⟩ := draw_neg g hg
  obtain ⟨v, g2, e2, k2, -⟩ := draw_neg g1 k1
  obtain ⟨w, g3, e3, k3, -⟩ := draw_neg g2 k2
  exact ⟨(u, v, w), g3, by simp only [Random.neg3, e1, e2, e3, Option.bind_eq_bind, Option.bind_some, Option.pure_def], k3⟩

/-- C96: `Sphere::RandomPointOnSurface` is at the distance of the radius from the centre. -/
theorem C96_sphere_surface (s : Sphere ℝ) (g : LCG) (hg : g.modulus ≠ 0) :
    ∃ p g', s.randomPointOnSurface g = some (p, g') ∧ g'.modulus ≠ 0 ∧ p ∈ Spec.sphereSurface s.pos s.r := by
  have : ∀ n (g : LCG), g.modulus ≠ 0 → ∃ p g', s.randomSurfaceLoop g n = some (p, g') ∧ g'.modulus ≠ 0 ∧
      p ∈ Spec.sphereSurface s.pos s.r := by
    intro n
    induction n with
    | zero =>
      intro g hg
      refine ⟨_, g, rfl, hg, ?_⟩
      show distSq _ _ = _
      simp [distSq_eq]
    | succ n ih =>
      intro g hg
      obtain ⟨t, g1, e, k⟩ := neg3_ok g hg
      rw [Sphere.randomSurfaceLoop, e]
      simp only [Option.bind_eq_bind, Option.bind_some]
      split
      · rename_i h
        refine ⟨_, _, rfl, k, ?_⟩
        show distSq _ _ = _
        have hp : 0 < lenSq (Random.vec t) := lt_of_lt_of_le (by norm_num) h.1
        have e1 : distSq (s.pos + (s.r / √(lenSq (Random.vec t))) • Random.vec t) s.pos =
            (s.r / √(lenSq (Random.vec t))) ^ 2 * lenSq (Random.vec t) := by
          generalize s.r / √(lenSq (Random.vec t)) = c
          simp [distSq_eq, lenSq, dot]; ring
        rw [e1, div_pow, Real.sq_sqrt hp.le]
        field_simp
      · exact ih g1 k
  exact this 1000 g hg

example := C96_sphere_surface ⟨⟨1, 2, 3⟩, 2⟩ (LCG.seedDefault 5) (by decide)

/-- C96: `float3::RandomDir` has the length asked for. `RandomPerpendicular` draws a direction; if that is not almost parallel to
the vector, the result is a unit vector perpendicular to it. Missing: a drawn direction almost parallel to the vector, for which see
`C96_perpendicular_violation`. -/
theorem C96_dir_partial (k : ℝ) (v : V3 ℝ) (g : LCG) (hg : g.modulus ≠ 0) :
    (∃ p g', f3RandomDir k g = some (p, g') ∧ g'.modulus ≠ 0 ∧ lenSq p = k * k) ∧
    ∃ d p g', f3RandomDir 1 g = some (d, g') ∧ f3RandomPerpendicular v g = some (p, g') ∧
      (1 / 1000000 < len (cross v d) → lenSq p = 1 ∧ dot v p = 0) := by
  have key : ∀ k : ℝ, ∃ p g', f3RandomDir k g = some (p, g') ∧ g'.modulus ≠ 0 ∧ lenSq p = k * k := by
    intro k
    obtain ⟨p, g', e, h, m⟩ := C96_sphere_surface ⟨0, k⟩ g hg
    refine ⟨p, g', e, h, ?_⟩
    have m : distSq p 0 = k * k := m
    rw [← m]; simp [distSq_eq, lenSq, dot]
  refine ⟨key k, ?_⟩
  obtain ⟨d, g', e, -⟩ := key 1
  refine ⟨d, f3Perpendicular v d, g', e, ?_, ?_⟩
  · simp only [f3RandomPerpendicular, e, Option.bind_eq_bind, Option.bind_some, Option.pure_def]
  · intro h
    unfold f3Perpendicular
    have h0 : len (cross v d) ≠ 0 := by intro h0; rw [h0] at h; norm_num at h
    have h1 := lenSq_normalized (cross v d)
    unfold f3Normalized at h1
    rw [f3Normalize_pos h] at h1 ⊢
    simp only [h0, if_false]
    refine ⟨h1, ?_⟩
    generalize 1 / len (cross v d) = k
    simp only [dot, cross, smul_x, smul_y, smul_z]; ring

example := C96_dir_partial 3 ⟨1, 2, 3⟩ (LCG.seedDefault 5) (by decide)

/-- C96: the statement without the condition on the drawn direction fails. With this generator the direction drawn is (0,0,1), and
`RandomPerpendicular` of (0,0,1) returns the vector itself. -/
theorem C96_perpendicular_violation :
    ∃ (g g' : LCG), g.modulus ≠ 0 ∧ f3RandomPerpendicular ⟨0, 0, 1⟩ g = some (⟨0, 0, 1⟩, g') := by
  let g : LCG := ⟨8388608, 2, 0, 66060288⟩
  have hn : Random.neg3 g = some ((0, 0, 1 / 8), ⟨1048576, 2, 0, 66060288⟩) := by decide +kernel
  refine ⟨g, ⟨1048576, 2, 0, 66060288⟩, by decide, ?_⟩
  have hv : Random.vec (0, 0, 1 / 8) = ⟨0, 0, 1 / 8⟩ := by simp [Random.vec]
  have hl : lenSq (⟨0, 0, 1 / 8⟩ : V3 ℝ) = 1 / 64 := by norm_num [lenSq, dot]
  have hs : √(1 / 64 : ℝ) = 1 / 8 := by
    rw [show (1 / 64 : ℝ) = (1 / 8) ^ 2 by norm_num]; exact Real.sqrt_sq (by norm_num)
  have hd : f3RandomDir 1 g = some (⟨0, 0, 1⟩, ⟨1048576, 2, 0, 66060288⟩) := by
    unfold f3RandomDir Sphere.randomPointOnSurface
    rw [Sphere.randomSurfaceLoop, hn]
    simp only [Option.bind_eq_bind, Option.bind_some, hv, hl, hs]
    rw [if_pos (by norm_num)]
    simp only [Option.some.injEq, Prod.mk.injEq, and_true]
    ext <;> norm_num
  simp only [f3RandomPerpendicular, hd, Option.bind_eq_bind, Option.bind_some, Option.pure_def]
  have hc : cross (⟨0, 0, 1⟩ : V3 ℝ) ⟨0, 0, 1⟩ = 0 := by ext <;> simp [cross]
  have h1 : len (cross (⟨0, 0, 1⟩ : V3 ℝ) ⟨0, 0, 1⟩) = 0 := len_eq_zero.2 hc
  unfold f3Perpendicular
  rw [f3Normalize_neg (by rw [h1]; norm_num)]
  simp

/-- C96: `Quat::RandomRotation` is a unit quaternion and `float3x3::RandomRotation` a rotation. -/
theorem C96_rotation (rnd : ℚ → ℚ) (hr : RoundsToNearest rnd) (g : LCG) (hg : g.modulus ≠ 0) :
    (∃ q g', Quat.randomRotation rnd g = some (q, g') ∧ g'.modulus ≠ 0 ∧ q.x ^ 2 + q.y ^ 2 + q.z ^ 2 + q.w ^ 2 = 1) ∧
    ∃ m g', Mat3.randomRotation rnd g = some (m, g') ∧ g'.modulus ≠ 0 ∧ Spec.IsRotation m := by
  have : ∀ n (g : LCG), g.modulus ≠ 0 → ∃ q g', Quat.randomRotationLoop rnd g n = some (q, g') ∧ g'.modulus ≠ 0 ∧
      q.x ^ 2 + q.y ^ 2 + q.z ^ 2 + q.w ^ 2 = 1 := by
    intro n
    induction n with
    | zero => intro g hg; exact ⟨_, g, rfl, hg, by norm_num⟩
    | succ n ih =>
      intro g hg
      obtain ⟨x, g1, e1, k1, -⟩ := draw_unit hr g hg
      obtain ⟨y, g2, e2, k2, -⟩ := draw_unit hr g1 k1
      obtain ⟨z, g3, e3, k3, -⟩ := draw_unit hr g2 k2
      obtain ⟨w, g4, e4, k4, -⟩ := draw_unit hr g3 k3
      rw [Quat.randomRotationLoop]
      simp only [e1, e2, e3, e4, Option.bind_eq_bind, Option.bind_some]
      split
      · rename_i h
        refine ⟨_, _, rfl, k4, ?_⟩
        have hp : (0 : ℝ) < (x : ℝ) * x + (y : ℝ) * y + (z : ℝ) * z + (w : ℝ) * w := lt_of_lt_of_le (by norm_num) h.1
        have hs := Real.sq_sqrt hp.le
        have hs0 : √((x : ℝ) * x + (y : ℝ) * y + (z : ℝ) * z + (w : ℝ) * w) ≠ 0 := (Real.sqrt_pos.2 hp).ne'
        simp only [Quat.smul]
        generalize √((x : ℝ) * x + (y : ℝ) * y + (z : ℝ) * z + (w : ℝ) * w) = k at hs hs0
        field_simp
        rw [hs]; ring
      · exact ih g4 k4
  obtain ⟨q, g', e, k, h⟩ := this 1000 g hg
  refine ⟨⟨q, g', e, k, h⟩, Quat.toFloat3x3 q, g', ?_, k, ?_⟩
  · have e : Quat.randomRotation rnd g = some (q, g') := e
    simp only [Mat3.randomRotation, e, Option.bind_eq_bind, Option.bind_some, Option.pure_def]
  · exact (Quat.C40_matrix q).2.1 (by rw [← h]; unfold Quat.normSq; ring)

example := exists_rounding.elim fun r hr => show True from (C96_rotation r hr (LCG.seedDefault 5) (by decide)).1.elim fun _ _ => trivial

/-- C96: every element of a `RandomGeneral` matrix is in the range asked for. -/
theorem C96_general (rows cols : ℕ) (rnd : ℚ → ℚ) (hr : RoundsToNearest rnd) (a b : ℚ) (ha : IsF32 a) (hb : IsF32 b) (hab : a ≤ b)
    (hd : b - a ≤ maxF32) (g : LCG) (hg : g.modulus ≠ 0) :
    ∃ m g', Random.general rows cols rnd a b g = some (m, g') ∧ g'.modulus ≠ 0 ∧ ∀ y x, a ≤ m y x ∧ m y x ≤ b := by
  have : ∀ n (g : LCG), g.modulus ≠ 0 → ∃ l g', Random.ranges rnd a b n g = some (l, g') ∧ g'.modulus ≠ 0 ∧ l.length = n ∧
      ∀ x ∈ l, a ≤ x ∧ x ≤ b := by
    intro n
    induction n with
    | zero => intro g hg; exact ⟨[], g, rfl, hg, rfl, by simp⟩
    | succ n ih =>
      intro g hg
      obtain ⟨x, g1, e1, k1, x0, x1⟩ := draw_range hr ha hb hab hd g hg
      obtain ⟨l, g2, e2, k2, hl, h⟩ := ih g1 k1
      refine ⟨x :: l, g2, ?_, k2, by simp [hl], ?_⟩
      · simp only [Random.ranges, e1, e2, Option.bind_eq_bind, Option.bind_some, Option.pure_def]
      · intro z hz
        rcases List.mem_cons.1 hz with rfl | hz
        · exact ⟨x0, x1⟩
        · exact h z hz
  obtain ⟨l, g', e, k, hl, h⟩ := this (rows * cols) g hg
  refine ⟨fun y x => l.getD (y.val * cols + x.val) 0, g', by simp only [Random.general, e, Option.bind_eq_bind, Option.bind_some, Option.pure_def], k, ?_⟩
  intro y x
  have hi : y.val * cols + x.val < l.length := by
    rw [hl]
    have := y.isLt; have := x.isLt
    calc y.val * cols + x.val < y.val * cols + cols := by omega
      _ = (y.val + 1) * cols := by ring
      _ ≤ rows * cols := Nat.mul_le_mul_right _ (by omega)
  dsimp only
  rw [List.getD_eq_getElem?_getD, List.getElem?_eq_getElem hi, Option.getD_some]
  exact h _ (List.getElem_mem hi)

example := exists_rounding.elim fun r hr =>
  show True from (C96_general 3 4 r hr (-2) 5 (by simpa using isF32_int (-2) (by norm_num)) (by simpa using isF32_int 5 (by norm_num)) (by norm_num)
    (by unfold maxF32; norm_num) (LCG.seedDefault 5) (by decide)).elim fun _ _ => trivial

/-! ### Capsules -/

/-- C96: `Capsule::RandomPointInside` is a point of the capsule. -/
theorem C96_capsule_inside (nz : Bool) (c : Capsule ℝ) (h0 : 0 ≤ c.r) (g : LCG) (hg : g.modulus ≠ 0) :
    ∃ p g', c.randomPointInside nz g = some (p, g') ∧ g'.modulus ≠ 0 ∧ p ∈ Spec.capsule c.l.a c.l.b c.r := by
  have : ∀ n (g : LCG), g.modulus ≠ 0 → ∃ p g', c.randomInsideLoop (c.minimalEnclosingOBB nz) g n = some (p, g') ∧ g'.modulus ≠ 0 ∧
      p ∈ Spec.capsule c.l.a c.l.b c.r := by
    intro n
    induction n with
    | zero =>
      intro g hg
      refine ⟨_, g, rfl, hg, c.center, ⟨1 / 2, by norm_num, by norm_num, ?_⟩, ?_⟩
      · ext <;> simp [Capsule.center, LineSeg.centerPoint] <;> ring
      · rw [distSq_eq]; nlinarith
    | succ n ih =>
      intro g hg
      obtain ⟨u, g1, e1, k1, -⟩ := draw_float g hg
      obtain ⟨v, g2, e2, k2, -⟩ := draw_float g1 k1
      obtain ⟨w, g3, e3, k3, -⟩ := draw_float g2 k2
      rw [Capsule.randomInsideLoop]
      simp only [OBB.randomPointInside, Random.float3, e1, e2, e3, Option.bind_eq_bind, Option.bind_some, Option.pure_def]
      split
      · rename_i h
        exact ⟨_, _, rfl, k3, (C69_contains c h0 _).1 h⟩
      · exact ih g3 k3
  exact this 1000 g hg

example := C96_capsule_inside false ⟨⟨⟨0, 0, 0⟩, ⟨1, 2, 3⟩⟩, 2⟩ (by norm_num) (LCG.seedDefault 5) (by decide)

/-- C96: `Capsule::RandomPointOnSurface` is at exactly the distance of the radius from the segment: some point of the segment is at
that distance and none is closer. Missing: directions for which `Perpendicular` fails and segments shorter than 1e-6. -/
theorem C96_capsule_surface_partial (c : Capsule ℝ) (hr : 0 ≤ c.r) (h : c.l.a = c.l.b ∨ 1 / 1000000 < V3.dist c.l.a c.l.b)
    (hu : 1 / 1000000 < len (cross c.up ⟨0, 1, 0⟩) ∨ cross c.up ⟨0, 1, 0⟩ = 0) (g : LCG) (hg : g.modulus ≠ 0) :
    ∃ p g', c.randomPointOnSurface g = some (p, g') ∧ g'.modulus ≠ 0 ∧ (∃ s ∈ Spec.seg c.l.a c.l.b, distSq p s = c.r * c.r) ∧
      ∀ s ∈ Spec.seg c.l.a c.l.b, c.r * c.r ≤ distSq p s := by
  obtain ⟨u, g1, e1, k1, u0, u1⟩ := draw_float g hg
  obtain ⟨v, g2, e2, k2, v0, v1⟩ := draw_float g1 k1
  have hu0 := (c01 u0 u1).1
  have hu1 := (c01 u0 u1).2
  refine ⟨c.pointInside u v 1, g2, by simp only [Capsule.randomPointOnSurface, e1, e2, Option.bind_eq_bind, Option.bind_some, Option.pure_def], k2, ?_⟩
  obtain ⟨-, hn, hr0⟩ := C69_crossSection_partial c hr h u hu0 hu1
  have hwd : (c.crossSection u).WellDirected := by
    unfold Circle.WellDirected
    rw [hn]
    exact ⟨lenSq_normalized _, hu⟩
  obtain ⟨huu, hb⟩ := c.up_spec h
  have hL : 0 ≤ c.lineLength := V3.dist_nonneg _ _
  have hcirc : c.pointInside u v 1 ∈ Spec.circle (c.crossSection u).pos (c.crossSection u).normal (c.crossSection u).r := by
    rw [← (C70_getPoint_partial _ hwd hr0).2.1]; exact ⟨_, rfl⟩
  obtain ⟨c1, c2⟩ := hcirc
  rw [hn] at c1
  set x := c.pointInside u v 1 with hx
  set y : ℝ := (u : ℝ) * c.height with hy
  have hy0 : 0 ≤ y := mul_nonneg hu0 (by unfold Capsule.height Capsule.diameter; linarith)
  have hpos : (c.crossSection u).pos = c.bottom + y • c.up := by
    unfold Capsule.crossSection; dsimp only; split_ifs <;> rfl
  rw [hpos] at c1 c2
  have hd : ∀ t : ℝ, distSq x (c.l.a + t • (c.l.b - c.l.a)) = (c.crossSection u).r * (c.crossSection u).r + (y - c.r - t * c.lineLength) ^ 2 := by
    intro t
    rw [← c2]
    have hb' : c.l.b - c.l.a = c.lineLength • c.up := by rw [hb]; ext <;> simp
    rw [hb']
    simp only [Capsule.bottom, distSq_eq, dot, lenSq, sub_x, sub_y, sub_z, add_x, add_y, add_z, smul_x, smul_y, smul_z] at c1 huu ⊢
    linear_combination 2 * (y - c.r - t * c.lineLength) * c1 + (y - c.r - t * c.lineLength) ^ 2 * huu
  have hyl : y ≤ c.lineLength + 2 * c.r := by
    have : y ≤ 1 * c.height := mul_le_mul_of_nonneg_right hu1 (by unfold Capsule.height Capsule.diameter; linarith)
    unfold Capsule.height Capsule.diameter at this; linarith
  have hll : c.l.length = c.lineLength := rfl
  have hrr : (c.crossSection u).r * (c.crossSection u).r = if y < c.r then c.r * c.r - (c.r - y) * (c.r - y) else if y < c.lineLength + c.r then c.r * c.r
      else c.r * c.r - (y - c.r - c.lineLength) * (y - c.r - c.lineLength) := by
    unfold Capsule.crossSection
    dsimp only
    rw [← hy, hll]
    split_ifs with h1 h2
    · exact Real.mul_self_sqrt (by nlinarith)
    · rfl
    · exact Real.mul_self_sqrt (by nlinarith)
  constructor
  · rcases eq_or_lt_of_le hL with hL0 | hL0
    · refine ⟨_, ⟨0, le_rfl, zero_le_one, rfl⟩, ?_⟩
      rw [hd, hrr]
      split_ifs with h1 h2
      · ring
      · exfalso; linarith
      · rw [← hL0]; ring
    · by_cases h1 : y < c.r
      · refine ⟨_, ⟨0, le_rfl, zero_le_one, rfl⟩, ?_⟩
        rw [hd, hrr, if_pos h1]; ring
      · by_cases h2 : y < c.lineLength + c.r
        · refine ⟨_, ⟨(y - c.r) / c.lineLength, div_nonneg (by linarith) hL, (div_le_one hL0).2 (by linarith), rfl⟩, ?_⟩
          rw [hd, hrr, if_neg h1, if_pos h2, div_mul_cancel₀ _ hL0.ne']; ring
        · refine ⟨_, ⟨1, zero_le_one, le_rfl, rfl⟩, ?_⟩
          rw [hd, hrr, if_neg h1, if_neg h2]; ring
  · rintro _ ⟨t, t0, t1, rfl⟩
    rw [hd, hrr]
    have a1 : 0 ≤ t * c.lineLength := mul_nonneg t0 hL
    have a2 : t * c.lineLength ≤ c.lineLength := mul_le_of_le_one_left hL t1
    split_ifs with h1 h2
    · nlinarith
    · nlinarith [sq_nonneg (y - c.r - t * c.lineLength)]
    · nlinarith

example (g : LCG) (hg : g.modulus ≠ 0) := C96_capsule_surface_partial exCapsule (by norm_num [exCapsule]) (Or.inr (by
    rw [exCapsule_len]; norm_num)) (Or.inl (by
    rw [exCapsule_up]
    unfold len
    rw [show lenSq (cross (⟨3 / 5, 0, 4 / 5⟩ : V3 ℝ) ⟨0, 1, 0⟩) = 1 by norm_num [lenSq, dot, cross], Real.sqrt_one]
    norm_num)) g hg

/-! ### Triangles and polygons -/

private theorem eps_f32 : IsF32 Tri.randomEps := ⟨8589935, -33, by norm_num, by norm_num, by norm_num, by norm_num [Tri.randomEps, zpow_neg]⟩

/-- C96: `Triangle::RandomPointInside` is a point of the triangle, `RandomVertex` a vertex. -/
theorem C96_triangle (rnd : ℚ → ℚ) (hr : RoundsToNearest rnd) (t : Tri ℝ) (g : LCG) (hg : g.modulus ≠ 0) :
    (∃ p g', t.drawPointInside rnd g = some (p, g') ∧ g'.modulus ≠ 0 ∧ p ∈ Spec.tri t.a t.b t.c) ∧
    ∃ (i : Fin 3) (p : V3 ℝ) (g' : LCG), g.intRange rnd 0 2 = some ((i.val : ℤ), g') ∧ g'.modulus ≠ 0 ∧ t.drawVertex rnd g = some (p, g') ∧
      p = if i = 0 then t.a else if i = 1 then t.b else t.c := by
  constructor
  · have hb : IsF32 (rnd (1 - Tri.randomEps)) ∧ Tri.randomEps ≤ rnd (1 - Tri.randomEps) ∧ rnd (1 - Tri.randomEps) ≤ 1 := by
      have hm : |1 - Tri.randomEps| ≤ maxF32 := by unfold Tri.randomEps maxF32; norm_num
      refine ⟨(hr _ hm).1, ?_, ?_⟩
      · have := rnd_mono hr (x := Tri.randomEps) (y := 1 - Tri.randomEps) (by unfold Tri.randomEps maxF32; norm_num) hm (by unfold Tri.randomEps; norm_num)
        rwa [rnd_fix hr eps_f32] at this
      · have := rnd_mono hr (x := 1 - Tri.randomEps) (y := 1) hm (by unfold maxF32; norm_num) (by unfold Tri.randomEps; norm_num)
        rwa [rnd_fix hr isF32_one] at this
    have h0 : (0 : ℚ) ≤ Tri.randomEps := by unfold Tri.randomEps; norm_num
    have hd : rnd (1 - Tri.randomEps) - Tri.randomEps ≤ maxF32 := by have := two_le_max; linarith [hb.2.2]
    obtain ⟨u, g1, e1, k1, u0, u1⟩ := draw_range hr eps_f32 hb.1 hb.2.1 hd g hg
    obtain ⟨v, g2, e2, k2, v0, v1⟩ := draw_range hr eps_f32 hb.1 hb.2.1 hd g1 k1
    refine ⟨t.randomPointInside u v, g2, by simp only [Tri.drawPointInside, e1, e2, Option.bind_eq_bind, Option.bind_some, Option.pure_def], k2, ?_⟩
    have a0 : (0 : ℝ) ≤ u := by exact_mod_cast h0.trans u0
    have a1 : (u : ℝ) ≤ 1 := by exact_mod_cast u1.trans hb.2.2
    have b0 : (0 : ℝ) ≤ v := by exact_mod_cast h0.trans v0
    have b1 : (v : ℝ) ≤ 1 := by exact_mod_cast v1.trans hb.2.2
    unfold Tri.randomPointInside
    split
    · exact ⟨(u : ℝ) + v - 1, 1 - u, 1 - v, by linarith, by linarith, by linarith, by ring, by ext <;> simp [Tri.point2] <;> ring⟩
    · exact ⟨1 - u - v, u, v, by linarith, a0, b0, by ring, by ext <;> simp [Tri.point2] <;> ring⟩
  · obtain ⟨i, g1, e1, e1', k1⟩ := draw_index hr 2 (by norm_num) g hg
    refine ⟨i, t.randomVertex i, g1, e1, k1, ?_, rfl⟩
    simp only [Tri.drawVertex, e1', Option.bind_eq_bind, Option.bind_some, Option.pure_def]

example := exists_rounding.elim fun r hr =>
  show True from (C96_triangle r hr ⟨⟨0, 0, 0⟩, ⟨1, 2, 3⟩, ⟨0, 1, 0⟩⟩ (LCG.seedDefault 5) (by decide)).1.elim fun _ _ => trivial

/-- C96: `Triangle::RandomPointOnEdge` for every random number `r` from 0 to the perimeter is the point of the boundary at arc length
`r` from the first vertex. -/
theorem C96_triangle_edge (t : Tri ℝ) (h3 : t.c ≠ t.a) (r : ℝ) (h0 : 0 ≤ r) (h1 : r ≤ t.perimeter) :
    ∃ s : ℝ, 0 ≤ s ∧ s ≤ 1 ∧
      ((t.randomPointOnEdge r = t.a + s • (t.b - t.a) ∧ r = s * V3.dist t.a t.b) ∨
       (t.randomPointOnEdge r = t.b + s • (t.c - t.b) ∧ r = V3.dist t.a t.b + s * V3.dist t.b t.c) ∨
       (t.randomPointOnEdge r = t.c + s • (t.a - t.c) ∧ r = V3.dist t.a t.b + V3.dist t.b t.c + s * V3.dist t.c t.a)) := by
  have d1 := V3.dist_nonneg t.a t.b
  have d2 := V3.dist_nonneg t.b t.c
  have d3 : 0 < V3.dist t.c t.a := lt_of_le_of_ne (V3.dist_nonneg _ _) fun e => h3 (V3.dist_eq_zero.1 e.symm)
  unfold Tri.perimeter at h1
  unfold Tri.randomPointOnEdge
  dsimp only
  split_ifs with a b
  · have := h0.trans_lt a
    exact ⟨r / V3.dist t.a t.b, div_nonneg h0 d1, (div_le_one this).2 a.le, Or.inl ⟨by ext <;> simp <;> ring, by field_simp⟩⟩
  · have hp : 0 ≤ r - V3.dist t.a t.b := by linarith
    have := hp.trans_lt b
    exact ⟨(r - V3.dist t.a t.b) / V3.dist t.b t.c, div_nonneg hp d2, (div_le_one this).2 b.le, Or.inr (Or.inl ⟨by ext <;> simp <;> ring, by field_simp; ring⟩)⟩
  · exact ⟨(r - V3.dist t.a t.b - V3.dist t.b t.c) / V3.dist t.c t.a, div_nonneg (by linarith) d3.le, (div_le_one d3).2 (by linarith),
      Or.inr (Or.inr ⟨by ext <;> simp <;> ring, by field_simp; ring⟩)⟩

example := C96_triangle_edge ⟨⟨0, 0, 0⟩, ⟨1, 2, 3⟩, ⟨0, 1, 0⟩⟩ (by simp [V3.ext_iff]) 0 le_rfl (by
  unfold Tri.perimeter
  have := V3.dist_nonneg (⟨0, 0, 0⟩ : V3 ℝ) ⟨1, 2, 3⟩
  have := V3.dist_nonneg (⟨1, 2, 3⟩ : V3 ℝ) ⟨0, 1, 0⟩
  have := V3.dist_nonneg (⟨0, 1, 0⟩ : V3 ℝ) ⟨0, 0, 0⟩
  linarith)

/-- C96: `Polygon::RandomPointOnEdge` is on an edge of the polygon. -/
theorem C96_polygon_edge (p : List (V3 ℝ)) (hp : 2 ≤ p.length) (hne : ∀ e ∈ p.zip (p.rotate 1), e.1 ≠ e.2) (g : LCG) (hg : g.modulus ≠ 0) :
    ∃ x g', Polygon.randomPointOnEdge p g = some (x, g') ∧ g'.modulus ≠ 0 ∧ ∃ e ∈ p.zip (p.rotate 1), x ∈ Spec.seg e.1 e.2 := by
  obtain ⟨u, g1, e1, k1, u0, u1⟩ := draw_float g hg
  obtain ⟨k, e, s, he, s0, s1, h, -⟩ := Polygon.C84_pointOnEdge_partial p hp hne u
  refine ⟨_, g1, ?_, k1, e, List.mem_of_getElem? he, s, s0, s1, rfl⟩
  simp only [Polygon.randomPointOnEdge, e1, h, Option.bind_eq_bind, Option.bind_some, Option.pure_def]

example := C96_polygon_edge Polygon.exSquare (by simp [Polygon.exSquare]) (by
  intro e he
  simp only [Polygon.exSquare, List.rotate_cons_succ, List.rotate_zero, List.cons_append, List.nil_append, List.zip_cons_cons, List.zip_nil_right,
    List.mem_cons, List.not_mem_nil, or_false] at he
  rcases he with rfl | rfl | rfl | rfl <;> simp [V3.ext_iff]) (LCG.seedDefault 5) (by decide)

/-- C96: `Polygon::FastRandomPointInside` of any polygon is NaN or a point of a triangle of its vertices; of a convex polygon it is a
point of the polygon. -/
theorem C96_polygon_inside (rnd : ℚ → ℚ) (hr : RoundsToNearest rnd) (p : List (V3 ℝ)) (hl : p.length < 2 ^ 31) (g : LCG) (hg : g.modulus ≠ 0) :
    (∃ x g', Polygon.fastRandomPointInside rnd p g = some (x, g') ∧ g'.modulus ≠ 0 ∧
      (x = none ∨ ∃ y, x = some y ∧ ∃ a ∈ p, ∃ b ∈ p, ∃ c ∈ p, y ∈ Spec.tri a b c)) ∧
    ∀ n : V3 ℝ, ConvexPolygon n p → (p.length = 3 ∨ HasTriangle p) → FirstEdge p →
      ∃ y g', Polygon.fastRandomPointInside rnd p g = some (some y, g') ∧ g'.modulus ≠ 0 ∧ y ∈ hull3 p := by
  have key : ∀ ts, Polygon.triangulate p = some ts → ts.length ≤ p.length → ts ≠ [] →
      ∃ y g', Polygon.fastRandomPointInside rnd p g = some (some y, g') ∧ g'.modulus ≠ 0 ∧ ∃ t ∈ ts, y ∈ Spec.tri t.a t.b t.c := by
    intro ts hts hlen hne
    have hpos : 0 < ts.length := List.length_pos_iff.2 hne
    obtain ⟨v, g1, e1, k1, v0, v1⟩ := draw_int hr (ts.length - 1) (by omega) g hg
    have e1' : g.intRange rnd 0 ((ts.length : ℤ) - 1) = some (v, g1) := by
      have : ((ts.length : ℤ) - 1) = ((ts.length - 1 : ℕ) : ℤ) := by omega
      rw [this, e1]
    have hi : v.toNat < ts.length := by omega
    obtain ⟨y, g2, e2, k2, hy⟩ := (C96_triangle rnd hr ts[v.toNat] g1 k1).1
    refine ⟨y, g2, ?_, k2, ts[v.toNat], List.getElem_mem hi, hy⟩
    simp only [Polygon.fastRandomPointInside, hts, if_neg hne, e1', List.getElem?_eq_getElem hi, e2, Option.bind_eq_bind, Option.bind_some, Option.pure_def]
  constructor
  · obtain ⟨ts, hts, hlen, hv⟩ := Polygon.C86_triangulate_safe p
    by_cases hne : ts = []
    · refine ⟨none, g, ?_, hg, Or.inl rfl⟩
      simp only [Polygon.fastRandomPointInside, hts, if_pos hne, Option.bind_eq_bind, Option.bind_some, Option.pure_def]
    · obtain ⟨y, g', e, k, t, ht, hy⟩ := key ts hts (by omega) hne
      exact ⟨some y, g', e, k, Or.inr ⟨y, rfl, t.a, (hv t ht).1, t.b, (hv t ht).2.1, t.c, (hv t ht).2.2, hy⟩⟩
  · intro n hc ht he
    obtain ⟨ts, hts, hlen, -, hcov⟩ := Polygon.C86_triangulate_covers p n hc ht he
    have h3 : 3 ≤ p.length := hc.2.1
    obtain ⟨y, g', e, k, t, ht', hy⟩ := key ts hts (by omega) (by intro h; rw [h] at hlen; simp at hlen; omega)
    exact ⟨y, g', e, k, (hcov y).2 ⟨t, ht', hy⟩⟩

example (rnd : ℚ → ℚ) (hr : RoundsToNearest rnd) := (C96_polygon_inside rnd hr Polygon.exSquare (by simp [Polygon.exSquare]) (LCG.seedDefault 5) (by decide)).2
  ⟨0, 0, 1⟩ Polygon.exSquare_convex (Or.inr Polygon.exSquare_big) Polygon.exSquare_edge

/-! ### Frustums -/

/-- C96: `Frustum::FastRandomPointInside` is a point of the frustum. `UniformRandomPointInside` is a point of the frustum if that is
orthographic; for a perspective frustum it is a point that `Contains` accepts. Missing: that it is always a point of the perspective
frustum, as `Contains` has a tolerance (see C72). -/
theorem C96_frustum_partial (rnd : ℚ → ℚ) (hr : RoundsToNearest rnd) (o : FrustumObj) (f : Frustum) (ho : Frustum.Of o f) (h : f.Valid)
    (hs : f.space ≠ .invalid) (hh : f.hand ≠ .invalid) (g : LCG) (hg : g.modulus ≠ 0) :
    (∃ p g', f.fastRandomPointInside rnd g = some (p, g') ∧ g'.modulus ≠ 0 ∧ p ∈ f.points) ∧
    ∃ p g', f.uniformRandomPointInside rnd o.contains g = some (p, g') ∧ g'.modulus ≠ 0 ∧ o.contains p = true ∧
      (f.type = .orthographic → p ∈ f.points) ∧ p ∈ (f.minimalEnclosingOBB (1 / 100000)).points := by
  have fast : ∀ g : LCG, g.modulus ≠ 0 → ∃ p g', f.fastRandomPointInside rnd g = some (p, g') ∧ g'.modulus ≠ 0 ∧ p ∈ f.points := by
    intro g hg
    obtain ⟨x, g1, e1, k1, x0, x1⟩ := draw_unit hr g hg
    obtain ⟨y, g2, e2, k2, y0, y1⟩ := draw_unit hr g1 k1
    obtain ⟨z, g3, e3, k3, z0, z1⟩ := draw_range hr isF32_zero isF32_one (by norm_num) (by have := two_le_max; linarith) g2 k2
    refine ⟨f.pointInside x y z, g3, by simp only [Frustum.fastRandomPointInside, e1, e2, e3, Option.bind_eq_bind, Option.bind_some, Option.pure_def], k3, ?_⟩
    refine (Frustum.C71_pointInside f h).1 x y z (abs_le.2 ⟨by exact_mod_cast x0, by exact_mod_cast x1⟩) (abs_le.2 ⟨by exact_mod_cast y0, by exact_mod_cast y1⟩)
      (by exact_mod_cast z0) (by exact_mod_cast z1)
  have hin := (Frustum.C72_contains_complete o f ho h hs hh).1
  obtain ⟨hv, hsub, -⟩ := Frustum.C71_minimalEnclosingOBB f h (1 / 100000) (by norm_num)
  refine ⟨fast g hg, ?_⟩
  unfold Frustum.uniformRandomPointInside
  split
  · obtain ⟨p, g', e, k, hp⟩ := fast g hg
    exact ⟨p, g', e, k, hin p hp, fun _ => hp, hsub hp⟩
  · rename_i ht
    have : ∀ n (g : LCG), g.modulus ≠ 0 → ∃ p g', f.uniformLoop rnd o.contains (f.minimalEnclosingOBB (1 / 100000)) g n = some (p, g') ∧
        g'.modulus ≠ 0 ∧ o.contains p = true ∧ (f.type = .orthographic → p ∈ f.points) ∧ p ∈ (f.minimalEnclosingOBB (1 / 100000)).points := by
      intro n
      induction n with
      | zero =>
        intro g hg
        obtain ⟨p, g', e, k, hp⟩ := fast g hg
        exact ⟨p, g', e, k, hin p hp, fun _ => hp, hsub hp⟩
      | succ n ih =>
        intro g hg
        obtain ⟨⟨u, v, w, g1, g2, g3, -, -, -, k3, p, e, hp, -⟩, -⟩ := C96_obb rnd hr (f.minimalEnclosingOBB (1 / 100000)) hv g hg
        simp only [Frustum.uniformLoop, e, Option.bind_eq_bind, Option.bind_some]
        split
        · rename_i hc
          exact ⟨p, g3, rfl, k3, hc, fun h => absurd h ht, hp⟩
        · exact ih g3 k3
    exact this 1000 g hg

example (rnd : ℚ → ℚ) (hr : RoundsToNearest rnd) := C96_frustum_partial rnd hr Frustum.exObjPersp exPersp Frustum.exObjPersp_of exPersp_valid
  (by decide) (by decide) (LCG.seedDefault 5) (by decide)

end MGL
