import Verif.Proofs.TriTri
import Verif.Proofs.TriTriPlane

/-! C55: the intersection of two triangles and their closest points. -/

set_option linter.unusedSectionVars false

namespace MGL
open V3 Spec
namespace Tri

theorem len_cross_normals {t t2 : Tri ℝ} (h1 : cross (t.b - t.a) (t.c - t.a) ≠ 0) (h2 : cross (t2.b - t2.a) (t2.c - t2.a) ≠ 0) :
    len (cross t.planeCCW.normal t2.planeCCW.normal) =
      len (cross (cross (t.b - t.a) (t.c - t.a)) (cross (t2.b - t2.a) (t2.c - t2.a))) /
        (len (cross (t.b - t.a) (t.c - t.a)) * len (cross (t2.b - t2.a) (t2.c - t2.a))) := by
  have l1 := V3.len_pos h1
  have l2 := V3.len_pos h2
  have e1 : t.planeCCW.normal = (1 / len (cross (t.b - t.a) (t.c - t.a))) • cross (t.b - t.a) (t.c - t.a) := rfl
  have e2 : t2.planeCCW.normal = (1 / len (cross (t2.b - t2.a) (t2.c - t2.a))) • cross (t2.b - t2.a) (t2.c - t2.a) := rfl
  rw [e1, e2]
  generalize cross (t.b - t.a) (t.c - t.a) = m at *
  generalize cross (t2.b - t2.a) (t2.c - t2.a) = n at *
  have e : cross ((1 / len m) • m) ((1 / len n) • n) = (1 / (len m * len n)) • cross m n := by
    have : 1 / (len m * len n) = 1 / len m * (1 / len n) := by field_simp
    rw [this]
    generalize 1 / len m = x
    generalize 1 / len n = y
    ext <;> simp only [cross, smul_x, smul_y, smul_z] <;> ring
  rw [e, len_smul, abs_of_pos (by positivity)]
  ring

/-- Two triangles whose planes are not nearly parallel, each of which is either clearly on one side of the plane of the other, or has vertices
strictly on both sides of it with its second vertex not in it: `Intersects(Triangle, outLine)` returns true exactly if they have a common
point, and then the line segment written is the set of the common points. -/
theorem C55_intersects_partial (negZero : Bool) (t t2 : Tri ℝ) (h1 : cross (t.b - t.a) (t.c - t.a) ≠ 0) (h2 : cross (t2.b - t2.a) (t2.c - t2.a) ≠ 0)
    (hang : 1 / 1000 * (len (cross (t.b - t.a) (t.c - t.a)) * len (cross (t2.b - t2.a) (t2.c - t2.a))) ≤
      len (cross (cross (t.b - t.a) (t.c - t.a)) (cross (t2.b - t2.a) (t2.c - t2.a))))
    (hs1 : ClearSides (cross (t2.b - t2.a) (t2.c - t2.a)) t2.a t.a t.b t.c)
    (hs2 : ClearSides (cross (t.b - t.a) (t.c - t.a)) t.a t2.a t2.b t2.c) :
    (t.intersectsTri negZero t2 = none ∧ tri t.a t.b t.c ∩ tri t2.a t2.b t2.c = ∅) ∨
    ∃ l, t.intersectsTri negZero t2 = some (some l) ∧ seg l.a l.b = tri t.a t.b t.c ∩ tri t2.a t2.b t2.c := by
  have l1 := V3.len_pos h1
  have l2 := V3.len_pos h2
  have hang' : 1 / 1000 ≤ len (cross t.planeCCW.normal t2.planeCCW.normal) := by
    rw [len_cross_normals h1 h2, le_div_iff₀ (by positivity)]; exact hang
  have hz : f3IsZero (cross t.planeCCW.normal t2.planeCCW.normal) = false := by
    unfold f3IsZero
    rw [decide_eq_false_iff_not, not_le, ← V3.len_mul_self]
    nlinarith
  have d1 := clearSides_dist h2 hs1
  have d2 := clearSides_dist h1 hs2
  dsimp only at d1 d2
  unfold intersectsTri
  dsimp only
  rw [hz]
  simp only [max2_eq, min2_eq, Bool.not_false, if_true]
  have sep : ∀ a b c : ℝ, (1 / 10000 < a ∧ 1 / 10000 < b ∧ 1 / 10000 < c) ∨ (a < -(1 / 10000) ∧ b < -(1 / 10000) ∧ c < -(1 / 10000)) →
      (max (max a b) c < -(1 / 10000) ∨ min (min a b) c > 1 / 10000) := by
    rintro a b c (⟨x, y, z⟩ | ⟨x, y, z⟩)
    · exact Or.inr (lt_min (lt_min x y) z)
    · exact Or.inl (max_lt (max_lt x y) z)
  have strad : ∀ a b c : ℝ, (0 < a ∨ 0 < b ∨ 0 < c) → (a < 0 ∨ b < 0 ∨ c < 0) →
      ¬(max (max a b) c < -(1 / 10000) ∨ min (min a b) c > 1 / 10000) := by
    rintro a b c hp hn (h | h)
    · rw [max_lt_iff, max_lt_iff] at h
      rcases hp with hp | hp | hp <;> linarith [h.1.1, h.1.2, h.2]
    · rw [gt_iff_lt, lt_min_iff, lt_min_iff] at h
      rcases hn with hn | hn | hn <;> linarith [h.1.1, h.1.2, h.2]
  have signs : ∀ a b c : ℝ, (1 / 10000 < a ∧ 1 / 10000 < b ∧ 1 / 10000 < c) ∨ (a < -(1 / 10000) ∧ b < -(1 / 10000) ∧ c < -(1 / 10000)) →
      (0 < a ∧ 0 < b ∧ 0 < c) ∨ (a < 0 ∧ b < 0 ∧ c < 0) := by
    rintro a b c (⟨x, y, z⟩ | ⟨x, y, z⟩)
    · left; exact ⟨by linarith, by linarith, by linarith⟩
    · right; exact ⟨by linarith, by linarith, by linarith⟩
  rcases or_assoc.2 d2 with k2 | k2
  · left
    rw [if_pos (sep _ _ _ k2)]
    refine ⟨rfl, Set.eq_empty_iff_forall_notMem.2 fun x hx => ?_⟩
    exact one_side (signs _ _ _ k2) hx.2 (mem_planeCCW h1 hx.1)
  · rw [if_neg (strad _ _ _ k2.1 k2.2.1)]
    rcases or_assoc.2 d1 with k1 | k1
    · left
      rw [if_pos (sep _ _ _ k1)]
      refine ⟨rfl, Set.eq_empty_iff_forall_notMem.2 fun x hx => ?_⟩
      exact one_side (signs _ _ _ k1) hx.1 (mem_planeCCW h2 hx.2)
    · rw [if_neg (strad _ _ _ k1.1 k1.2.1)]
      exact intersectsTriLine_exact h1 h2 hang' k1 k2

/-- A triangle of the plane `z = 0` and one of the plane `x = 1` that cross along the segment from `(1, 0, 0)` to `(1, 1, 0)`. -/
example : let t : Tri ℝ := ⟨⟨0, 0, 0⟩, ⟨4, 0, 0⟩, ⟨0, 4, 0⟩⟩
    let t2 : Tri ℝ := ⟨⟨1, 1, -1⟩, ⟨1, 1, 1⟩, ⟨1, -3, 1⟩⟩
    cross (t.b - t.a) (t.c - t.a) ≠ 0 ∧ cross (t2.b - t2.a) (t2.c - t2.a) ≠ 0 ∧
    1 / 1000 * (len (cross (t.b - t.a) (t.c - t.a)) * len (cross (t2.b - t2.a) (t2.c - t2.a))) ≤
      len (cross (cross (t.b - t.a) (t.c - t.a)) (cross (t2.b - t2.a) (t2.c - t2.a))) ∧
    ClearSides (cross (t2.b - t2.a) (t2.c - t2.a)) t2.a t.a t.b t.c ∧
    ClearSides (cross (t.b - t.a) (t.c - t.a)) t.a t2.a t2.b t2.c ∧ (⟨1, 1 / 2, 0⟩ : V3 ℝ) ∈ tri t.a t.b t.c ∩ tri t2.a t2.b t2.c := by
  intro t t2
  have e1 : cross (t.b - t.a) (t.c - t.a) = ⟨0, 0, 16⟩ := by ext <;> norm_num [t, cross]
  have e2 : cross (t2.b - t2.a) (t2.c - t2.a) = ⟨8, 0, 0⟩ := by ext <;> norm_num [t2, cross]
  have e3 : cross (⟨0, 0, 16⟩ : V3 ℝ) ⟨8, 0, 0⟩ = ⟨0, 128, 0⟩ := by ext <;> norm_num [cross]
  have l1 : len (⟨0, 0, 16⟩ : V3 ℝ) = 16 := by
    unfold len; rw [show lenSq (⟨0, 0, 16⟩ : V3 ℝ) = 16 ^ 2 by norm_num [lenSq, dot]]; exact Real.sqrt_sq (by norm_num)
  have l2 : len (⟨8, 0, 0⟩ : V3 ℝ) = 8 := by
    unfold len; rw [show lenSq (⟨8, 0, 0⟩ : V3 ℝ) = 8 ^ 2 by norm_num [lenSq, dot]]; exact Real.sqrt_sq (by norm_num)
  have l3 : len (⟨0, 128, 0⟩ : V3 ℝ) = 128 := by
    unfold len; rw [show lenSq (⟨0, 128, 0⟩ : V3 ℝ) = 128 ^ 2 by norm_num [lenSq, dot]]; exact Real.sqrt_sq (by norm_num)
  rw [e1, e2, e3, l1, l2, l3]
  refine ⟨fun h => ?_, fun h => ?_, by norm_num, Or.inr (Or.inr ⟨⟨t.b, by simp, ?_⟩, ⟨t.a, by simp, ?_⟩, ?_⟩),
    Or.inr (Or.inr ⟨⟨t2.b, by simp, ?_⟩, ⟨t2.a, by simp, ?_⟩, ?_⟩), ⟨5 / 8, 1 / 4, 1 / 8, ?_⟩, ⟨1 / 2, 3 / 8, 1 / 8, ?_⟩⟩
  · have := congrArg V3.z h; norm_num at this
  · have := congrArg V3.x h; norm_num at this
  all_goals first
    | exact ⟨by norm_num, by norm_num, by norm_num, by norm_num, by ext <;> norm_num [t, t2]⟩
    | norm_num [dot, t, t2]

/-- Two triangles in parallel planes that are more than `1e-4` apart have no common point, and `Intersects(Triangle)` returns false. -/
theorem C55_parallel (negZero : Bool) (t t2 : Tri ℝ) (h1 : cross (t.b - t.a) (t.c - t.a) ≠ 0)
    (hpar : cross (cross (t.b - t.a) (t.c - t.a)) (cross (t2.b - t2.a) (t2.c - t2.a)) = 0) (h2 : cross (t2.b - t2.a) (t2.c - t2.a) ≠ 0)
    (hd : 1 / 10000 * len (cross (t.b - t.a) (t.c - t.a)) < |dot (cross (t.b - t.a) (t.c - t.a)) (t2.a - t.a)|) :
    t.intersectsTri negZero t2 = none ∧ tri t.a t.b t.c ∩ tri t2.a t2.b t2.c = ∅ := by
  have l1 := V3.len_pos h1
  have hz : f3IsZero (cross t.planeCCW.normal t2.planeCCW.normal) = true := by
    unfold f3IsZero
    have h0 : len (cross t.planeCCW.normal t2.planeCCW.normal) = 0 := by
      rw [len_cross_normals h1 h2, hpar]
      have : len (0 : V3 ℝ) = 0 := by unfold len; simp [lenSq, dot]
      rw [this, zero_div]
    rw [decide_eq_true_eq, ← V3.len_mul_self, h0]; norm_num
  have hdist : 1 / 10000 < |dot t.planeCCW.normal t.a - dot t.planeCCW.normal t2.a| := by
    have e : dot t.planeCCW.normal t.a - dot t.planeCCW.normal t2.a = -((1 / len (cross (t.b - t.a) (t.c - t.a))) * dot (cross (t.b - t.a) (t.c - t.a)) (t2.a - t.a)) := by
      show dot ((1 / len (cross (t.b - t.a) (t.c - t.a))) • cross (t.b - t.a) (t.c - t.a)) t.a - dot ((1 / len (cross (t.b - t.a) (t.c - t.a))) • cross (t.b - t.a) (t.c - t.a)) t2.a = _
      generalize 1 / len (cross (t.b - t.a) (t.c - t.a)) = k
      generalize cross (t.b - t.a) (t.c - t.a) = n
      simp only [dot, smul_x, smul_y, smul_z, sub_x, sub_y, sub_z]; ring
    rw [e, abs_neg, abs_mul, abs_of_pos (by positivity), one_div_mul_eq_div, lt_div_iff₀ l1]
    exact hd
  constructor
  · unfold intersectsTri
    dsimp only
    rw [hz]
    simp only [Bool.not_true, Bool.false_eq_true, if_false]
    unfold intersectsTriParallel
    rw [absF_eq, if_pos hdist]
  · refine Set.eq_empty_iff_forall_notMem.2 ?_
    rintro x ⟨hx, hx2⟩
    have hd0 : dot (cross (t.b - t.a) (t.c - t.a)) (t2.a - t.a) ≠ 0 := fun h => by
      rw [h, abs_zero] at hd
      have : 0 < 1 / 10000 * len (cross (t.b - t.a) (t.c - t.a)) := by positivity
      linarith
    apply hd0
    have e1 : dot (cross (t.b - t.a) (t.c - t.a)) (x - t.a) = 0 := by
      obtain ⟨u, v, w, -, -, -, h, rfl⟩ := hx
      obtain rfl : u = 1 - v - w := by linarith
      simp only [dot, cross, add_x, add_y, add_z, smul_x, smul_y, smul_z, sub_x, sub_y, sub_z]; ring
    have e2 : dot (cross (t2.b - t2.a) (t2.c - t2.a)) (x - t2.a) = 0 := by
      obtain ⟨u, v, w, -, -, -, h, rfl⟩ := hx2
      obtain rfl : u = 1 - v - w := by linarith
      simp only [dot, cross, add_x, add_y, add_z, smul_x, smul_y, smul_z, sub_x, sub_y, sub_z]; ring
    have e3 : dot (cross (t.b - t.a) (t.c - t.a)) (x - t2.a) = 0 := by
      generalize cross (t.b - t.a) (t.c - t.a) = m at *
      generalize cross (t2.b - t2.a) (t2.c - t2.a) = n at *
      have k : lenSq n * dot m (x - t2.a) = 0 := by
        have hx := congrArg V3.x hpar
        have hy := congrArg V3.y hpar
        have hz := congrArg V3.z hpar
        simp only [cross, zero_x, zero_y, zero_z] at hx hy hz
        generalize x - t2.a = y at *
        simp only [dot, lenSq] at *
        linear_combination (m.x * n.x + m.y * n.y + m.z * n.z) * e2 - (n.y * y.z - n.z * y.y) * hx - (n.z * y.x - n.x * y.z) * hy - (n.x * y.y - n.y * y.x) * hz
      exact (mul_eq_zero.1 k).resolve_left (fun h => h2 (lenSq_eq_zero.1 h))
    have e4 : dot (cross (t.b - t.a) (t.c - t.a)) (t2.a - t.a) =
        dot (cross (t.b - t.a) (t.c - t.a)) (x - t.a) - dot (cross (t.b - t.a) (t.c - t.a)) (x - t2.a) := by
      generalize cross (t.b - t.a) (t.c - t.a) = m
      simp only [dot, sub_x, sub_y, sub_z]; ring
    rw [e4, e1, e3, sub_zero]

/-- Triangles of the planes `z = 0` and `z = 3`. -/
example : let t : Tri ℝ := ⟨⟨0, 0, 0⟩, ⟨4, 0, 0⟩, ⟨0, 4, 0⟩⟩
    let t2 : Tri ℝ := ⟨⟨1, 1, 3⟩, ⟨2, 1, 3⟩, ⟨1, -3, 3⟩⟩
    cross (t.b - t.a) (t.c - t.a) ≠ 0 ∧ cross (t2.b - t2.a) (t2.c - t2.a) ≠ 0 ∧
    cross (cross (t.b - t.a) (t.c - t.a)) (cross (t2.b - t2.a) (t2.c - t2.a)) = 0 ∧
    1 / 10000 * len (cross (t.b - t.a) (t.c - t.a)) < |dot (cross (t.b - t.a) (t.c - t.a)) (t2.a - t.a)| := by
  intro t t2
  have e1 : cross (t.b - t.a) (t.c - t.a) = ⟨0, 0, 16⟩ := by ext <;> norm_num [t, cross]
  have e2 : cross (t2.b - t2.a) (t2.c - t2.a) = ⟨0, 0, -4⟩ := by ext <;> norm_num [t2, cross]
  have l1 : len (⟨0, 0, 16⟩ : V3 ℝ) = 16 := by
    unfold len; rw [show lenSq (⟨0, 0, 16⟩ : V3 ℝ) = 16 ^ 2 by norm_num [lenSq, dot]]; exact Real.sqrt_sq (by norm_num)
  rw [e1, e2, l1]
  refine ⟨fun h => ?_, fun h => ?_, by ext <;> norm_num [cross], by norm_num [dot, t, t2]⟩
  · have := congrArg V3.z h; norm_num at this
  · have := congrArg V3.z h; norm_num at this

/-- The second vertex of a triangle is exactly in the plane of the other and the remaining two are on different sides: the triangles cross
each other, but the code takes the triangle to touch the plane in that vertex alone, and returns false. -/
theorem C55_intersects_violation (negZero : Bool) : ∃ t t2 : Tri ℝ, cross (t.b - t.a) (t.c - t.a) ≠ 0 ∧ cross (t2.b - t2.a) (t2.c - t2.a) ≠ 0 ∧
    dot (cross (t.b - t.a) (t.c - t.a)) (cross (t2.b - t2.a) (t2.c - t2.a)) = 0 ∧ (∃ x, x ∈ tri t.a t.b t.c ∧ x ∈ tri t2.a t2.b t2.c) ∧
    t.intersectsTri negZero t2 = none := by
  let t : Tri ℝ := ⟨⟨0, 0, 1⟩, ⟨4, 0, 0⟩, ⟨0, 0, -1⟩⟩
  let t2 : Tri ℝ := ⟨⟨1 / 2, -1, 0⟩, ⟨2, -1, 0⟩, ⟨1, 1, 0⟩⟩
  have e1 : cross (t.b - t.a) (t.c - t.a) = ⟨0, 8, 0⟩ := by ext <;> norm_num [t, cross]
  have e2 : cross (t2.b - t2.a) (t2.c - t2.a) = ⟨0, 0, 3⟩ := by ext <;> norm_num [t2, cross]
  have l1 : len (⟨0, 8, 0⟩ : V3 ℝ) = 8 := by
    unfold len; rw [show lenSq (⟨0, 8, 0⟩ : V3 ℝ) = 8 ^ 2 by norm_num [lenSq, dot]]; exact Real.sqrt_sq (by norm_num)
  have l2 : len (⟨0, 0, 3⟩ : V3 ℝ) = 3 := by
    unfold len; rw [show lenSq (⟨0, 0, 3⟩ : V3 ℝ) = 3 ^ 2 by norm_num [lenSq, dot]]; exact Real.sqrt_sq (by norm_num)
  have h1 : cross (t.b - t.a) (t.c - t.a) ≠ 0 := fun h => by rw [e1] at h; have := congrArg V3.y h; norm_num at this
  have h2 : cross (t2.b - t2.a) (t2.c - t2.a) ≠ 0 := fun h => by rw [e2] at h; have := congrArg V3.z h; norm_num at this
  have n1 : t.planeCCW = ⟨⟨0, 1, 0⟩, 0⟩ := by
    have : t.planeCCW = ⟨(1 / len (cross (t.b - t.a) (t.c - t.a))) • cross (t.b - t.a) (t.c - t.a),
      dot ((1 / len (cross (t.b - t.a) (t.c - t.a))) • cross (t.b - t.a) (t.c - t.a)) t.a⟩ := rfl
    rw [this, e1, l1]
    congr 1
    · ext <;> norm_num
    · norm_num [dot, t]
  have n2 : t2.planeCCW = ⟨⟨0, 0, 1⟩, 0⟩ := by
    have : t2.planeCCW = ⟨(1 / len (cross (t2.b - t2.a) (t2.c - t2.a))) • cross (t2.b - t2.a) (t2.c - t2.a),
      dot ((1 / len (cross (t2.b - t2.a) (t2.c - t2.a))) • cross (t2.b - t2.a) (t2.c - t2.a)) t2.a⟩ := rfl
    rw [this, e2, l2]
    congr 1
    · ext <;> norm_num
    · norm_num [dot, t2]
  refine ⟨t, t2, h1, h2, by rw [e1, e2]; norm_num [dot], ⟨⟨1, 0, 0⟩,
    ⟨3 / 8, 1 / 4, 3 / 8, by norm_num, by norm_num, by norm_num, by norm_num, by ext <;> norm_num [t]⟩,
    ⟨1 / 3, 1 / 6, 1 / 2, by norm_num, by norm_num, by norm_num, by norm_num, by ext <;> norm_num [t2]⟩⟩, ?_⟩
  have hang : 1 / 1000 ≤ len (cross t.planeCCW.normal t2.planeCCW.normal) := by
    rw [n1, n2]
    have : cross (⟨0, 1, 0⟩ : V3 ℝ) ⟨0, 0, 1⟩ = ⟨1, 0, 0⟩ := by ext <;> norm_num [cross]
    rw [this]
    unfold len; exact Real.le_sqrt_of_sq_le (by norm_num [lenSq, dot])
  obtain ⟨l, hl, hu, hline⟩ := (C64_intersects_plane_angle_partial t.planeCCW t2.planeCCW (C64_setPoints t.a t.b t.c h1).1
    (C64_setPoints t2.a t2.b t2.c h2).1 hang).2
  have hm2 : ∀ x ∈ tri t2.a t2.b t2.c, x ∈ plane t2.planeCCW.normal t2.planeCCW.d := fun x hx => mem_planeCCW h2 hx
  have s2 := section_segs (t := t2) (n := t.planeCCW.normal) (d := t.planeCCW.d) hu
    (fun x hx hx0 => by rw [hline]; exact ⟨hx0, hm2 x hx⟩) (fun x hx => by rw [hline] at hx; exact hx.1)
    (by rw [n1]; right; right; norm_num [dot, t2]) (by rw [n1]; left; norm_num [dot, t2]) (by rw [n1]; norm_num [dot, t2])
  have hb : t.b ∈ line l.pos l.dir := by
    rw [hline, n1, n2]
    exact ⟨by show dot _ _ = _; norm_num [dot, t], by show dot _ _ = _; norm_num [dot, t]⟩
  have hz : ∀ k, (l.getPoint k).z = 0 := fun k => by
    have : l.getPoint k ∈ line l.pos l.dir := ⟨k, rfl⟩
    rw [hline, n2] at this
    have h : dot (⟨0, 0, 1⟩ : V3 ℝ) (l.getPoint k) = 0 := this.2
    simpa [dot] using h
  have g1 : l.getPoint (l.distanceSeg ⟨t.a, t.b⟩).2.1 = t.b := by
    obtain ⟨k, k0, k1, hk⟩ := distanceSeg_meet (s := ⟨t.a, t.b⟩) hu (fun h => by have := congrArg V3.x h; norm_num [t] at this) hb
      ⟨1, zero_le_one, le_rfl, by ext <;> simp⟩
    have h0 := hz (l.distanceSeg ⟨t.a, t.b⟩).2.1
    rw [hk] at h0 ⊢
    simp [t] at h0
    obtain rfl : k = 1 := by linarith
    ext <;> simp
  have g2 : l.getPoint (l.distanceSeg ⟨t.b, t.c⟩).2.1 = t.b := by
    obtain ⟨k, k0, k1, hk⟩ := distanceSeg_meet (s := ⟨t.b, t.c⟩) hu (fun h => by have := congrArg V3.x h; norm_num [t] at this) hb
      ⟨0, le_rfl, zero_le_one, by ext <;> simp⟩
    have h0 := hz (l.distanceSeg ⟨t.b, t.c⟩).2.1
    rw [hk] at h0 ⊢
    simp [t] at h0
    obtain rfl : k = 0 := by linarith
    ext <;> simp
  have hxy := getPoint_inj hu (g1.trans g2.symm)
  have hzero : f3IsZero (cross t.planeCCW.normal t2.planeCCW.normal) = false := by
    unfold f3IsZero
    rw [decide_eq_false_iff_not, not_le, ← V3.len_mul_self]
    nlinarith
  unfold intersectsTri
  dsimp only
  rw [hzero]
  simp only [max2_eq, min2_eq, Bool.not_false, if_true]
  rw [if_neg (by rw [n1]; norm_num [Plane.signedDistance, dot, t2]), if_neg (by rw [n2]; norm_num [Plane.signedDistance, dot, t])]
  unfold intersectsTriLine
  rw [hl]
  have hs : t.intersectingSegs (t2.planeCCW.signedDistance t.a) (t2.planeCCW.signedDistance t.b) (t2.planeCCW.signedDistance t.c) =
      (⟨t.a, t.b⟩, ⟨t.b, t.c⟩) := by
    rw [n2]
    unfold intersectingSegs
    rw [if_neg (by norm_num [Plane.signedDistance, dot, t]), if_neg (by norm_num [Plane.signedDistance, dot, t])]
  rw [hs]
  dsimp only [Plane.signedDistance]
  rw [swap_eq, swap_eq]
  generalize (l.distanceSeg (t2.intersectingSegs _ _ _).1).2.1 = x2 at *
  generalize (l.distanceSeg (t2.intersectingSegs _ _ _).2).2.1 = y2 at *
  dsimp only
  rw [max2_eq, min2_eq, ← hxy, min_self, max_self, if_neg]
  intro hle
  have hin : t.b ∈ seg (l.getPoint x2) (l.getPoint y2) := by
    rw [seg_params]
    exact ⟨_, (le_max_right _ _).trans (hle.trans (min_le_left _ _)), (le_max_left _ _).trans (hle.trans (min_le_right _ _)), g1.symm⟩
  rw [← s2] at hin
  obtain ⟨⟨u, v, w, u0, v0, w0, h, he⟩, -⟩ := hin
  have := congrArg V3.x he
  simp [t, t2] at this
  linarith

theorem ne_of_cross {t : Tri ℝ} (h : cross (t.b - t.a) (t.c - t.a) ≠ 0) : t.a ≠ t.b ∧ t.a ≠ t.c ∧ t.b ≠ t.c := by
  refine ⟨fun e => h ?_, fun e => h ?_, fun e => h ?_⟩
  · rw [e]; ext <;> simp [cross]
  · rw [e]; ext <;> simp [cross]
  · rw [e]; ext <;> simp [cross] <;> ring

/-- Under the same conditions `ClosestPoint(Triangle, otherPt)` returns a closest pair of points of the two triangles. -/
theorem C55_closestPoint_partial (negZero : Bool) (t t2 : Tri ℝ) (h1 : cross (t.b - t.a) (t.c - t.a) ≠ 0) (h2 : cross (t2.b - t2.a) (t2.c - t2.a) ≠ 0)
    (h : (1 / 1000 * (len (cross (t.b - t.a) (t.c - t.a)) * len (cross (t2.b - t2.a) (t2.c - t2.a))) ≤
        len (cross (cross (t.b - t.a) (t.c - t.a)) (cross (t2.b - t2.a) (t2.c - t2.a))) ∧
        ClearSides (cross (t2.b - t2.a) (t2.c - t2.a)) t2.a t.a t.b t.c ∧
        ClearSides (cross (t.b - t.a) (t.c - t.a)) t.a t2.a t2.b t2.c) ∨
      (cross (cross (t.b - t.a) (t.c - t.a)) (cross (t2.b - t2.a) (t2.c - t2.a)) = 0 ∧
        1 / 10000 * len (cross (t.b - t.a) (t.c - t.a)) < |dot (cross (t.b - t.a) (t.c - t.a)) (t2.a - t.a)|)) :
    ∃ r, t.closestTri negZero t2 = some r ∧ IsClosestPair (tri t.a t.b t.c) (tri t2.a t2.b t2.c) r.1 r.2 := by
  obtain ⟨hab, hac, hbc⟩ := ne_of_cross h1
  obtain ⟨hab', hac', hbc'⟩ := ne_of_cross h2
  have key : (t.intersectsTri negZero t2 = none ∧ tri t.a t.b t.c ∩ tri t2.a t2.b t2.c = ∅) ∨
    ∃ l, t.intersectsTri negZero t2 = some (some l) ∧ seg l.a l.b = tri t.a t.b t.c ∩ tri t2.a t2.b t2.c := by
    rcases h with ⟨a, b, c⟩ | ⟨a, b⟩
    · exact C55_intersects_partial negZero t t2 h1 h2 a b c
    · exact Or.inl (C55_parallel negZero t t2 h1 a h2 b)
  rcases key with ⟨hn, hd⟩ | ⟨l, hl, hs⟩
  · exact closestTri_apart hab hac hbc hab' hac' hbc' hn hd
  · have hc : l.centerPoint ∈ seg l.a l.b := ⟨1 / 2, by norm_num, by norm_num, by unfold LineSeg.centerPoint; ext <;> simp <;> ring⟩
    rw [hs] at hc
    refine ⟨(l.centerPoint, l.centerPoint), by unfold closestTri; rw [hl], hc.1, hc.2, fun x _ y _ => ?_⟩
    show distSq l.centerPoint l.centerPoint ≤ _
    rw [distSq_self]
    exact distSq_nonneg _ _

/-! ### Triangles of one plane -/

/-- What the coplanar case rests on. -/
theorem coplanar_setup (nz : Bool) {t t2 : Tri ℝ} (h1 : cross (t.b - t.a) (t.c - t.a) ≠ 0) (h2 : cross (t2.b - t2.a) (t2.c - t2.a) ≠ 0)
    (hb : dot (cross (t.b - t.a) (t.c - t.a)) (t2.b - t.a) = 0) (hc : dot (cross (t.b - t.a) (t.c - t.a)) (t2.c - t.a) = 0)
    (ha : dot (cross (t.b - t.a) (t.c - t.a)) (t2.a - t.a) = 0) :
    t.intersectsTri nz t2 = t.intersectsTriParallel nz t2 t.planeCCW.normal ∧ dot t.planeCCW.normal t.a = dot t.planeCCW.normal t2.a ∧
    PlaneBasis t.planeCCW.normal (f3PerpendicularBasis nz t.planeCCW.normal).1 (f3PerpendicularBasis nz t.planeCCW.normal).2 ∧
    (∀ x ∈ tri t2.a t2.b t2.c, dot (cross (t.b - t.a) (t.c - t.a)) (x - t.a) = 0) ∧
    (∀ x ∈ tri t.a t.b t.c, dot (cross (t2.b - t2.a) (t2.c - t2.a)) (x - t2.a) = 0) ∧
    (∀ x y, x ∈ tri t.a t.b t.c ∨ x ∈ tri t2.a t2.b t2.c → y ∈ tri t.a t.b t.c ∨ y ∈ tri t2.a t2.b t2.c → dot t.planeCCW.normal (y - x) = 0) := by
  have p1 : ∀ x ∈ tri t2.a t2.b t2.c, dot (cross (t.b - t.a) (t.c - t.a)) (x - t.a) = 0 := by
    rintro x ⟨u, v, w, -, -, -, h, rfl⟩
    generalize cross (t.b - t.a) (t.c - t.a) = n at *
    have e : dot n (u • t2.a + v • t2.b + w • t2.c - t.a) = u * dot n (t2.a - t.a) + v * dot n (t2.b - t.a) + w * dot n (t2.c - t.a) := by
      obtain rfl : u = 1 - v - w := by linarith
      simp only [dot, add_x, add_y, add_z, smul_x, smul_y, smul_z, sub_x, sub_y, sub_z]; ring
    rw [e, ha, hb, hc]; ring
  have nrm : ∀ x, dot t.planeCCW.normal x = 1 / len (cross (t.b - t.a) (t.c - t.a)) * dot (cross (t.b - t.a) (t.c - t.a)) x := fun x => by
    show dot ((1 / len (cross (t.b - t.a) (t.c - t.a))) • cross (t.b - t.a) (t.c - t.a)) x = _
    rw [smul_dot]
  have p1' : ∀ x, x ∈ tri t.a t.b t.c ∨ x ∈ tri t2.a t2.b t2.c → dot (cross (t.b - t.a) (t.c - t.a)) (x - t.a) = 0 := by
    rintro x (hx | hx)
    · exact tri_plane hx
    · exact p1 x hx
  have p3 : ∀ x y, x ∈ tri t.a t.b t.c ∨ x ∈ tri t2.a t2.b t2.c → y ∈ tri t.a t.b t.c ∨ y ∈ tri t2.a t2.b t2.c →
      dot (cross (t.b - t.a) (t.c - t.a)) (y - x) = 0 := by
    intro x y hx hy
    have e : dot (cross (t.b - t.a) (t.c - t.a)) (y - x) =
        dot (cross (t.b - t.a) (t.c - t.a)) (y - t.a) - dot (cross (t.b - t.a) (t.c - t.a)) (x - t.a) := by
      generalize cross (t.b - t.a) (t.c - t.a) = n
      simp only [dot, sub_x, sub_y, sub_z]; ring
    rw [e, p1' x hx, p1' y hy, sub_zero]
  have va : t.a ∈ tri t.a t.b t.c := ⟨1, 0, 0, by norm_num, le_rfl, le_rfl, by norm_num, by ext <;> simp⟩
  have wa : t2.a ∈ tri t2.a t2.b t2.c := ⟨1, 0, 0, by norm_num, le_rfl, le_rfl, by norm_num, by ext <;> simp⟩
  have wb : t2.b ∈ tri t2.a t2.b t2.c := ⟨0, 1, 0, le_rfl, by norm_num, le_rfl, by norm_num, by ext <;> simp⟩
  have wc : t2.c ∈ tri t2.a t2.b t2.c := ⟨0, 0, 1, le_rfl, le_rfl, by norm_num, by norm_num, by ext <;> simp⟩
  have hpar : cross (cross (t.b - t.a) (t.c - t.a)) (cross (t2.b - t2.a) (t2.c - t2.a)) = 0 := by
    have z : ∀ n v w : V3 ℝ, cross n (cross v w) = dot n w • v - dot n v • w := fun n v w => by
      ext <;> simp only [cross, dot, sub_x, sub_y, sub_z, smul_x, smul_y, smul_z] <;> ring
    rw [z, p3 t2.a t2.b (Or.inr wa) (Or.inr wb), p3 t2.a t2.c (Or.inr wa) (Or.inr wc)]
    ext <;> simp
  have hz : f3IsZero (cross t.planeCCW.normal t2.planeCCW.normal) = true := by
    unfold f3IsZero
    have h0 : len (cross t.planeCCW.normal t2.planeCCW.normal) = 0 := by
      rw [len_cross_normals h1 h2, hpar]
      have : len (0 : V3 ℝ) = 0 := by unfold len; simp [lenSq, dot]
      rw [this, zero_div]
    rw [decide_eq_true_eq, ← V3.len_mul_self, h0]; norm_num
  refine ⟨?_, ?_, ?_, p1, ?_, ?_⟩
  · unfold intersectsTri
    dsimp only
    rw [hz]
    simp only [Bool.not_true, Bool.false_eq_true, if_false]
  · have := p3 t.a t2.a (Or.inl va) (Or.inr wa)
    have e : dot t.planeCCW.normal t2.a - dot t.planeCCW.normal t.a = dot t.planeCCW.normal (t2.a - t.a) := by
      simp only [dot, sub_x, sub_y, sub_z]; ring
    rw [nrm (t2.a - t.a), this, mul_zero] at e
    linarith
  · obtain ⟨a, b, c, d, e, f⟩ := C54_perpendicularBasis_partial nz t.planeCCW.normal (C64_setPoints t.a t.b t.c h1).1
    exact ⟨a, b, c, d, e, f⟩
  · intro x hx
    have hm := p3 t2.a x (Or.inr wa) (Or.inl hx)
    generalize cross (t.b - t.a) (t.c - t.a) = m at *
    generalize cross (t2.b - t2.a) (t2.c - t2.a) = n at *
    have k : lenSq m * dot n (x - t2.a) = 0 := by
      have hx := congrArg V3.x hpar
      have hy := congrArg V3.y hpar
      have hz := congrArg V3.z hpar
      simp only [cross, zero_x, zero_y, zero_z] at hx hy hz
      generalize x - t2.a = y at *
      simp only [dot, lenSq] at *
      linear_combination (m.x * n.x + m.y * n.y + m.z * n.z) * hm + (m.y * y.z - m.z * y.y) * hx + (m.z * y.x - m.x * y.z) * hy + (m.x * y.y - m.y * y.x) * hz
    exact (mul_eq_zero.1 k).resolve_left (fun h => h1 (lenSq_eq_zero.1 h))
  · intro x y hx hy
    rw [nrm, p3 x y hx hy, mul_zero]

/-- The two triangles are in one plane, and any two of their edges are parallel or at an angle of more than `1e-4`: if the triangles have a
common point, `Intersects(Triangle)` returns true. -/
theorem C55_coplanar_complete_partial (negZero : Bool) (t t2 : Tri ℝ) (h1 : cross (t.b - t.a) (t.c - t.a) ≠ 0)
    (h2 : cross (t2.b - t2.a) (t2.c - t2.a) ≠ 0) (hpl : ∀ v ∈ [t2.a, t2.b, t2.c], dot (cross (t.b - t.a) (t.c - t.a)) (v - t.a) = 0)
    (he : ∀ e ∈ triEdges t.a t.b t.c, ∀ f ∈ triEdges t2.a t2.b t2.c, EdgesParallel e f ∨ EdgesAcross e f)
    (hm : ∃ x, x ∈ tri t.a t.b t.c ∧ x ∈ tri t2.a t2.b t2.c) : (t.intersectsTri negZero t2).isSome = true := by
  obtain ⟨s1, s2, hB, p1, p2, p3⟩ := coplanar_setup negZero h1 h2 (hpl t2.b (by simp)) (hpl t2.c (by simp)) (hpl t2.a (by simp))
  rw [s1, parallel_isSome _ _ _ _ s2]
  obtain ⟨x, hx, hx2⟩ := hm
  have cont : ∀ {s : Tri ℝ} {p : V3 ℝ}, cross (s.b - s.a) (s.c - s.a) ≠ 0 → p ∈ tri s.a s.b s.c → s.containsAnyThickness p = true := by
    intro s p hs hp
    obtain ⟨q, hq, -, -, -, hin, -⟩ := C32_barycentric s hs p (tri_plane hp)
    obtain ⟨a, b, c⟩ := hin.2 hp
    unfold containsAnyThickness
    rw [hq]
    simp only [Bool.and_eq_true, decide_eq_true_eq]
    exact ⟨⟨by linarith, by linarith⟩, by linarith⟩
  by_cases ha : t.a ∈ tri t2.a t2.b t2.c
  · exact Or.inl (cont h2 ha)
  by_cases ha2 : t2.a ∈ tri t.a t.b t.c
  · exact Or.inr (Or.inl (cont h1 ha2))
  refine Or.inr (Or.inr ?_)
  obtain ⟨e, hee, f, hf, y, hye, hyf⟩ := edges_cross h1 h2 p1 p2 hx hx2 ha ha2
  have end1 : ∀ p q : V3 ℝ, p ∈ seg p q ∧ q ∈ seg p q := fun p q =>
    ⟨⟨0, le_rfl, zero_le_one, by ext <;> simp⟩, ⟨1, zero_le_one, le_rfl, by ext <;> simp⟩⟩
  have de : dot t.planeCCW.normal (e.2 - e.1) = 0 :=
    p3 _ _ (Or.inl (triEdges_sub hee _ (end1 _ _).1)) (Or.inl (triEdges_sub hee _ (end1 _ _).2))
  have df : dot t.planeCCW.normal (f.2 - f.1) = 0 :=
    p3 _ _ (Or.inr (triEdges_sub hf _ (end1 _ _).1)) (Or.inr (triEdges_sub hf _ (end1 _ _).2))
  have hne : e.1 ≠ e.2 := by
    obtain ⟨a, b, c⟩ := ne_of_cross h1
    simp only [triEdges, List.mem_cons, List.not_mem_nil, or_false] at hee
    rcases hee with rfl | rfl | rfl
    · exact a
    · exact c
    · exact b.symm
  obtain ⟨s, a1, a2, rfl⟩ := hye
  obtain ⟨k, b1, b2, hk⟩ := hyf
  refine ⟨e, hee, f, hf, seg2D_complete _ _ _ _ ?_ ?_ s k a1 a2 b1 b2 ?_⟩
  · rw [coord_sub, coord_sub, hB.lenSq2 de, hB.lenSq2 df, hB.perp2 de df]
    rcases he e hee f hf with h | h
    · left
      have := hB.perp2 de df
      rw [show cross (e.2 - e.1) (f.2 - f.1) = 0 from h] at this
      have h0 : lenSq (0 : V3 ℝ) = 0 := by simp [lenSq, dot]
      rw [h0] at this
      exact mul_self_eq_zero.1 this
    · right; exact h
  · rw [coord_sub, hB.lenSq2 de]
    exact lenSq_pos (sub_ne_zero.2 hne.symm)
  · rw [coord_sub, coord_sub]
    have hx := congrArg V3.x hk
    have hy := congrArg V3.y hk
    have hz := congrArg V3.z hk
    simp only [add_x, add_y, add_z, smul_x, smul_y, smul_z, sub_x, sub_y, sub_z] at hx hy hz
    generalize (f3PerpendicularBasis negZero t.planeCCW.normal).1 = U
    generalize (f3PerpendicularBasis negZero t.planeCCW.normal).2 = V
    ext
    · simp only [coord, V2.add_x, V2.smul_x, dot, sub_x, sub_y, sub_z]
      linear_combination U.x * hx + U.y * hy + U.z * hz
    · simp only [coord, V2.add_y, V2.smul_y, dot, sub_x, sub_y, sub_z]
      linear_combination V.x * hx + V.y * hy + V.z * hz

/-- The two triangles are in one plane, any two of their edges are at an angle of more than `1e-4`, and the first vertex of each is in the
other or clearly outside it: `Intersects(Triangle)` returns true exactly if the triangles have a common point. -/
theorem C55_coplanar_partial (negZero : Bool) (t t2 : Tri ℝ) (h1 : cross (t.b - t.a) (t.c - t.a) ≠ 0)
    (h2 : cross (t2.b - t2.a) (t2.c - t2.a) ≠ 0) (hpl : ∀ v ∈ [t2.a, t2.b, t2.c], dot (cross (t.b - t.a) (t.c - t.a)) (v - t.a) = 0)
    (he : ∀ e ∈ triEdges t.a t.b t.c, ∀ f ∈ triEdges t2.a t2.b t2.c, EdgesAcross e f)
    (hc1 : ClearlyInOut t2.a t2.b t2.c t.a) (hc2 : ClearlyInOut t.a t.b t.c t2.a) :
    (t.intersectsTri negZero t2).isSome = true ↔ ∃ x, x ∈ tri t.a t.b t.c ∧ x ∈ tri t2.a t2.b t2.c := by
  refine ⟨?_, fun hm => C55_coplanar_complete_partial negZero t t2 h1 h2 hpl (fun e a f b => Or.inr (he e a f b)) hm⟩
  obtain ⟨s1, s2, hB, p1, p2, p3⟩ := coplanar_setup negZero h1 h2 (hpl t2.b (by simp)) (hpl t2.c (by simp)) (hpl t2.a (by simp))
  rw [s1, parallel_isSome _ _ _ _ s2]
  have va : t.a ∈ tri t.a t.b t.c := ⟨1, 0, 0, by norm_num, le_rfl, le_rfl, by norm_num, by ext <;> simp⟩
  have wa : t2.a ∈ tri t2.a t2.b t2.c := ⟨1, 0, 0, by norm_num, le_rfl, le_rfl, by norm_num, by ext <;> simp⟩
  have cont : ∀ {s : Tri ℝ} {p : V3 ℝ}, cross (s.b - s.a) (s.c - s.a) ≠ 0 → dot (cross (s.b - s.a) (s.c - s.a)) (p - s.a) = 0 →
      ClearlyInOut s.a s.b s.c p → s.containsAnyThickness p = true → p ∈ tri s.a s.b s.c := by
    intro s p hs hp hcl hct
    obtain ⟨q, hq, hq1, hq2, -, hin, -⟩ := C32_barycentric s hs p hp
    unfold containsAnyThickness at hct
    rw [hq] at hct
    simp only [Bool.and_eq_true, decide_eq_true_eq] at hct
    obtain ⟨⟨a, b⟩, c⟩ := hct
    rcases hcl q.x q.y q.z hq1 hq2 with h | h | h | h
    · exact hin.1 h
    · linarith
    · linarith
    · linarith
  rintro (h | h | ⟨e, hee, f, hf, h⟩)
  · exact ⟨t.a, va, cont h2 (p2 _ va) hc1 h⟩
  · exact ⟨t2.a, cont h1 (p1 _ wa) hc2 h, wa⟩
  · have end1 : ∀ p q : V3 ℝ, p ∈ seg p q ∧ q ∈ seg p q := fun p q =>
      ⟨⟨0, le_rfl, zero_le_one, by ext <;> simp⟩, ⟨1, zero_le_one, le_rfl, by ext <;> simp⟩⟩
    have ie := triEdges_sub hee _ (end1 _ _).1
    have jf := triEdges_sub hf _ (end1 _ _).1
    have de : dot t.planeCCW.normal (e.2 - e.1) = 0 := p3 _ _ (Or.inl ie) (Or.inl (triEdges_sub hee _ (end1 _ _).2))
    have df : dot t.planeCCW.normal (f.2 - f.1) = 0 := p3 _ _ (Or.inr jf) (Or.inr (triEdges_sub hf _ (end1 _ _).2))
    have hx := he e hee f hf
    unfold EdgesAcross at hx
    rw [← hB.perp2 de df, ← hB.lenSq2 de, ← hB.lenSq2 df] at hx
    rw [coord_sub, coord_sub] at h
    obtain ⟨s, k, a1, a2, b1, b2, hk, -⟩ := seg2D_sound _ _ _ _ hx h
    refine ⟨e.1 + s • (e.2 - e.1), triEdges_sub hee _ ⟨s, a1, a2, rfl⟩, triEdges_sub hf _ ⟨k, b1, b2, ?_⟩⟩
    have d0 : dot t.planeCCW.normal (e.1 + s • (e.2 - e.1) - (f.1 + k • (f.2 - f.1))) = 0 := by
      have := p3 _ _ (Or.inr jf) (Or.inl ie)
      have e0 : dot t.planeCCW.normal (e.1 + s • (e.2 - e.1) - (f.1 + k • (f.2 - f.1))) =
          dot t.planeCCW.normal (e.1 - f.1) + s * dot t.planeCCW.normal (e.2 - e.1) - k * dot t.planeCCW.normal (f.2 - f.1) := by
        simp only [dot, add_x, add_y, add_z, smul_x, smul_y, smul_z, sub_x, sub_y, sub_z]; ring
      rw [e0, this, de, df]; ring
    have ex := hB.expand d0
    have hu : dot (f3PerpendicularBasis negZero t.planeCCW.normal).1 (e.1 + s • (e.2 - e.1) - (f.1 + k • (f.2 - f.1))) = 0 := by
      have := congrArg V2.x hk
      simp only [coord, V2.add_x, V2.smul_x] at this
      generalize (f3PerpendicularBasis negZero t.planeCCW.normal).1 = U at *
      simp only [dot, add_x, add_y, add_z, smul_x, smul_y, smul_z, sub_x, sub_y, sub_z] at *
      linarith
    have hv : dot (f3PerpendicularBasis negZero t.planeCCW.normal).2 (e.1 + s • (e.2 - e.1) - (f.1 + k • (f.2 - f.1))) = 0 := by
      have := congrArg V2.y hk
      simp only [coord, V2.add_y, V2.smul_y] at this
      generalize (f3PerpendicularBasis negZero t.planeCCW.normal).2 = V at *
      simp only [dot, add_x, add_y, add_z, smul_x, smul_y, smul_z, sub_x, sub_y, sub_z] at *
      linarith
    rw [hu, hv] at ex
    have e0 : e.1 + s • (e.2 - e.1) - (f.1 + k • (f.2 - f.1)) = 0 := by rw [ex]; ext <;> simp
    exact sub_eq_zero.1 e0

/-- Two triangles of the plane `z = 0`, with edges of different directions, that overlap; neither contains the first vertex of the other. -/
example : let t : Tri ℝ := ⟨⟨0, 0, 0⟩, ⟨4, 0, 0⟩, ⟨0, 4, 0⟩⟩
    let t2 : Tri ℝ := ⟨⟨5, 2, 0⟩, ⟨1, 1, 0⟩, ⟨2, 6, 0⟩⟩
    cross (t.b - t.a) (t.c - t.a) ≠ 0 ∧ cross (t2.b - t2.a) (t2.c - t2.a) ≠ 0 ∧
    (∀ v ∈ [t2.a, t2.b, t2.c], dot (cross (t.b - t.a) (t.c - t.a)) (v - t.a) = 0) ∧
    (∀ e ∈ triEdges t.a t.b t.c, ∀ f ∈ triEdges t2.a t2.b t2.c, EdgesAcross e f) ∧
    ClearlyInOut t2.a t2.b t2.c t.a ∧ ClearlyInOut t.a t.b t.c t2.a ∧ (∃ x, x ∈ tri t.a t.b t.c ∧ x ∈ tri t2.a t2.b t2.c) := by
  intro t t2
  refine ⟨fun h => ?_, fun h => ?_, ?_, ?_, ?_, ?_, ⟨1, 1, 0⟩, ?_, ?_⟩
  · have := congrArg V3.z h; norm_num [t, cross] at this
  · have := congrArg V3.z h; norm_num [t2, cross] at this
  · simp only [List.mem_cons, List.not_mem_nil, or_false]
    rintro v (rfl | rfl | rfl) <;> norm_num [t, t2, cross, dot]
  · simp only [triEdges, List.mem_cons, List.not_mem_nil, or_false]
    rintro e (rfl | rfl | rfl) f (rfl | rfl | rfl) <;> norm_num [t, t2, EdgesAcross, cross, dot, lenSq]
  · intro u v w h1 h2
    have hx := congrArg V3.x h2
    have hy := congrArg V3.y h2
    simp [t, t2] at hx hy
    right; left; linarith
  · intro u v w h1 h2
    have hx := congrArg V3.x h2
    have hy := congrArg V3.y h2
    simp [t, t2] at hx hy
    right; left; linarith
  · exact ⟨1 / 2, 1 / 4, 1 / 4, by norm_num, by norm_num, by norm_num, by norm_num, by ext <;> norm_num [t]⟩
  · exact ⟨0, 1, 0, by norm_num, by norm_num, by norm_num, by norm_num, by ext <;> norm_num [t2]⟩

/-- Two triangles of one plane, one of which contains the first vertex of the other: `Intersects(Triangle, outLine)` returns true without
writing to `outLine`, so that the result of `ClosestPoint(Triangle)` is not determined. -/
theorem C55_unwritten_violation (negZero : Bool) (t t2 : Tri ℝ) (h1 : cross (t.b - t.a) (t.c - t.a) ≠ 0)
    (h2 : cross (t2.b - t2.a) (t2.c - t2.a) ≠ 0) (hpl : ∀ v ∈ [t2.a, t2.b, t2.c], dot (cross (t.b - t.a) (t.c - t.a)) (v - t.a) = 0)
    (ha : t2.a ∈ tri t.a t.b t.c) : t.intersectsTri negZero t2 = some none ∧ t.closestTri negZero t2 = none := by
  obtain ⟨s1, s2, -⟩ := coplanar_setup negZero h1 h2 (hpl t2.b (by simp)) (hpl t2.c (by simp)) (hpl t2.a (by simp))
  have hc : t.containsAnyThickness t2.a = true := by
    obtain ⟨q, hq, -, -, -, hin, -⟩ := C32_barycentric t h1 t2.a (tri_plane ha)
    obtain ⟨a, b, c⟩ := hin.2 ha
    unfold containsAnyThickness
    rw [hq]
    simp only [Bool.and_eq_true, decide_eq_true_eq]
    exact ⟨⟨by linarith, by linarith⟩, by linarith⟩
  have : t.intersectsTri negZero t2 = some none := by
    rw [s1]
    unfold intersectsTriParallel
    rw [s2, sub_self, absF_eq, abs_zero, if_neg (by norm_num), if_pos (by simp [hc])]
  exact ⟨this, by unfold closestTri; rw [this]⟩

/-- A triangle inside another. -/
example : let t : Tri ℝ := ⟨⟨0, 0, 0⟩, ⟨4, 0, 0⟩, ⟨0, 4, 0⟩⟩
    let t2 : Tri ℝ := ⟨⟨1, 1, 0⟩, ⟨2, 1, 0⟩, ⟨1, 2, 0⟩⟩
    cross (t.b - t.a) (t.c - t.a) ≠ 0 ∧ cross (t2.b - t2.a) (t2.c - t2.a) ≠ 0 ∧
    (∀ v ∈ [t2.a, t2.b, t2.c], dot (cross (t.b - t.a) (t.c - t.a)) (v - t.a) = 0) ∧ t2.a ∈ tri t.a t.b t.c := by
  intro t t2
  refine ⟨fun h => ?_, fun h => ?_, ?_, ?_⟩
  · have := congrArg V3.z h; norm_num [t, cross] at this
  · have := congrArg V3.z h; norm_num [t2, cross] at this
  · simp only [List.mem_cons, List.not_mem_nil, or_false]
    rintro v (rfl | rfl | rfl) <;> norm_num [t, t2, cross, dot]
  · exact ⟨1 / 2, 1 / 4, 1 / 4, by norm_num, by norm_num, by norm_num, by norm_num, by ext <;> norm_num [t, t2]⟩

/-- Two triangles of one plane at a distance of 1/2 of each other: `Intersects(Triangle)` returns true. -/
theorem C55_apart_violation (negZero : Bool) : ∃ t t2 : Tri ℝ, cross (t.b - t.a) (t.c - t.a) ≠ 0 ∧ cross (t2.b - t2.a) (t2.c - t2.a) ≠ 0 ∧
    (∀ x ∈ tri t.a t.b t.c, ∀ y ∈ tri t2.a t2.b t2.c, 1 / 2 ≤ V3.dist x y) ∧ (t.intersectsTri negZero t2).isSome = true := by
  let t : Tri ℝ := ⟨⟨0, 0, 0⟩, ⟨1000, 0, 0⟩, ⟨0, 1000, 0⟩⟩
  let t2 : Tri ℝ := ⟨⟨-1 / 2, 0, 0⟩, ⟨-100, 0, 0⟩, ⟨-100, -100, 0⟩⟩
  have h1 : cross (t.b - t.a) (t.c - t.a) ≠ 0 := fun h => by have := congrArg V3.z h; norm_num [t, cross] at this
  have h2 : cross (t2.b - t2.a) (t2.c - t2.a) ≠ 0 := fun h => by have := congrArg V3.z h; norm_num [t2, cross] at this
  refine ⟨t, t2, h1, h2, ?_, ?_⟩
  · rintro _ ⟨u, v, w, hu, hv, hw, h, rfl⟩ _ ⟨u', v', w', hu', hv', hw', h', rfl⟩
    unfold V3.dist
    apply Real.le_sqrt_of_sq_le
    have e : ∀ p q : V3 ℝ, (p.x - q.x) ^ 2 ≤ distSq p q := fun p q => by
      have : distSq p q = (p.x - q.x) ^ 2 + (p.y - q.y) ^ 2 + (p.z - q.z) ^ 2 := by
        simp only [distSq, lenSq, dot, sub_x, sub_y, sub_z]; ring
      rw [this]; nlinarith [sq_nonneg (p.y - q.y), sq_nonneg (p.z - q.z)]
    refine le_trans ?_ (e _ _)
    have k : 1 / 2 ≤ (u • t.a + v • t.b + w • t.c).x - (u' • t2.a + v' • t2.b + w' • t2.c).x := by
      simp [t, t2]; linarith
    nlinarith
  · obtain ⟨s1, s2, -⟩ := coplanar_setup (t := t) (t2 := t2) negZero h1 h2 (by norm_num [t, t2, cross, dot]) (by norm_num [t, t2, cross, dot])
      (by norm_num [t, t2, cross, dot])
    rw [s1, parallel_isSome _ _ _ _ s2]
    right; left
    have hz : t.barycentricUVW t2.a = some ⟨1 + 1 / 2000, -1 / 2000, 0⟩ := by
      norm_num [barycentricUVW, triArea2D, t, t2, cross, absF]
    unfold containsAnyThickness
    rw [hz]
    norm_num

/-- Two triangles of one plane that overlap, with the second edge of the first crossing an edge of the other: the point written to `outLine`,
which `ClosestPoint(Triangle)` returns, is in neither of them, as the code takes the second edge to begin at the first vertex. -/
theorem C55_closestPoint_violation (negZero : Bool) : ∃ t t2 : Tri ℝ, cross (t.b - t.a) (t.c - t.a) ≠ 0 ∧ cross (t2.b - t2.a) (t2.c - t2.a) ≠ 0 ∧
    (∃ x, x ∈ tri t.a t.b t.c ∧ x ∈ tri t2.a t2.b t2.c) ∧
    ∃ r, t.closestTri negZero t2 = some r ∧ r.1 ∉ tri t.a t.b t.c ∧ r.2 ∉ tri t2.a t2.b t2.c := by
  let t : Tri ℝ := ⟨⟨0, 0, 0⟩, ⟨10, 0, 0⟩, ⟨10, 10, 0⟩⟩
  let t2 : Tri ℝ := ⟨⟨12, 6, 0⟩, ⟨12, 8, 0⟩, ⟨8, 7, 0⟩⟩
  have h1 : cross (t.b - t.a) (t.c - t.a) ≠ 0 := fun h => by have := congrArg V3.z h; norm_num [t, cross] at this
  have h2 : cross (t2.b - t2.a) (t2.c - t2.a) ≠ 0 := fun h => by have := congrArg V3.z h; norm_num [t2, cross] at this
  have e1 : cross (t.b - t.a) (t.c - t.a) = ⟨0, 0, 100⟩ := by ext <;> norm_num [t, cross]
  have l1 : len (⟨0, 0, 100⟩ : V3 ℝ) = 100 := by
    unfold len; rw [show lenSq (⟨0, 0, 100⟩ : V3 ℝ) = 100 ^ 2 by norm_num [lenSq, dot]]; exact Real.sqrt_sq (by norm_num)
  have n1 : t.planeCCW.normal = ⟨0, 0, 1⟩ := by
    have : t.planeCCW.normal = (1 / len (cross (t.b - t.a) (t.c - t.a))) • cross (t.b - t.a) (t.c - t.a) := rfl
    rw [this, e1, l1]
    ext <;> norm_num
  have hb : f3PerpendicularBasis negZero ⟨0, 0, 1⟩ = (⟨1, 0, 0⟩, ⟨0, 1, 0⟩) := by
    norm_num [f3PerpendicularBasis, copysign1]
  have hi : t.intersectsTri negZero t2 = some (some ⟨⟨0, 15 / 2, 0⟩, ⟨0, 15 / 2, 0⟩⟩) := by
    obtain ⟨s1, s2, -⟩ := coplanar_setup (t := t) (t2 := t2) negZero h1 h2 (by norm_num [t, t2, cross, dot]) (by norm_num [t, t2, cross, dot])
      (by norm_num [t, t2, cross, dot])
    rw [s1]
    unfold intersectsTriParallel
    have c1 : t2.containsAnyThickness t.a = false := by
      norm_num [containsAnyThickness, barycentricUVW, triArea2D, t, t2, cross, absF]
    have c2 : t.containsAnyThickness t2.a = false := by
      norm_num [containsAnyThickness, barycentricUVW, triArea2D, t, t2, cross, absF]
    rw [s2, sub_self, absF_eq, abs_zero, if_neg (by norm_num), c1, c2, n1, hb]
    simp only [Bool.or_self, Bool.false_eq_true, if_false]
    have no : ∀ (p q r s : V2 ℝ), (seg2DIntersect p (q - p) r (s - r)).1 = false → edgeEdge t.a ⟨1, 0, 0⟩ ⟨0, 1, 0⟩ p q r s = none := by
      intro p q r s h
      have := edgeEdge_isSome t.a ⟨1, 0, 0⟩ ⟨0, 1, 0⟩ p q r s
      rw [h] at this
      simpa using this
    rw [no _ _ _ _ (by norm_num [seg2DIntersect, MinAreaRect.perpDot, V2.lenSq, V2.dot, dot, t, t2]),
      no _ _ _ _ (by norm_num [seg2DIntersect, MinAreaRect.perpDot, V2.lenSq, V2.dot, dot, t, t2]),
      no _ _ _ _ (by norm_num [seg2DIntersect, MinAreaRect.perpDot, V2.lenSq, V2.dot, dot, t, t2]),
      no _ _ _ _ (by norm_num [seg2DIntersect, MinAreaRect.perpDot, V2.lenSq, V2.dot, dot, t, t2])]
    have yes : edgeEdge t.a ⟨1, 0, 0⟩ ⟨0, 1, 0⟩ (⟨dot ⟨1, 0, 0⟩ (t.b - t.a), dot ⟨0, 1, 0⟩ (t.b - t.a)⟩ : V2 ℝ)
        ⟨dot ⟨1, 0, 0⟩ (t.c - t.a), dot ⟨0, 1, 0⟩ (t.c - t.a)⟩ ⟨dot ⟨1, 0, 0⟩ (t2.b - t.a), dot ⟨0, 1, 0⟩ (t2.b - t.a)⟩
        ⟨dot ⟨1, 0, 0⟩ (t2.c - t.a), dot ⟨0, 1, 0⟩ (t2.c - t.a)⟩ = some (some ⟨⟨0, 15 / 2, 0⟩, ⟨0, 15 / 2, 0⟩⟩) := by
      have hs : seg2DIntersect (⟨dot ⟨1, 0, 0⟩ (t.b - t.a), dot ⟨0, 1, 0⟩ (t.b - t.a)⟩ : V2 ℝ)
          (⟨dot ⟨1, 0, 0⟩ (t.c - t.a), dot ⟨0, 1, 0⟩ (t.c - t.a)⟩ - ⟨dot ⟨1, 0, 0⟩ (t.b - t.a), dot ⟨0, 1, 0⟩ (t.b - t.a)⟩)
          ⟨dot ⟨1, 0, 0⟩ (t2.b - t.a), dot ⟨0, 1, 0⟩ (t2.b - t.a)⟩
          (⟨dot ⟨1, 0, 0⟩ (t2.c - t.a), dot ⟨0, 1, 0⟩ (t2.c - t.a)⟩ - ⟨dot ⟨1, 0, 0⟩ (t2.b - t.a), dot ⟨0, 1, 0⟩ (t2.b - t.a)⟩) = (true, some (3 / 4, 1 / 2)) := by
        norm_num [seg2DIntersect, MinAreaRect.perpDot, V2.lenSq, V2.dot, dot, t, t2]
      unfold edgeEdge
      rw [hs]
      dsimp only
      congr 2
      congr 1 <;> ext <;> norm_num [dot, t]
    rw [yes]
    rfl
  refine ⟨t, t2, h1, h2, ⟨⟨10, 7, 0⟩, ⟨0, 3 / 10, 7 / 10, by norm_num, by norm_num, by norm_num, by norm_num, by ext <;> norm_num [t]⟩,
    ⟨1 / 4, 1 / 4, 1 / 2, by norm_num, by norm_num, by norm_num, by norm_num, by ext <;> norm_num [t2]⟩⟩,
    (⟨0, 15 / 2, 0⟩, ⟨0, 15 / 2, 0⟩), ?_, ?_, ?_⟩
  · unfold closestTri
    rw [hi]
    simp only [LineSeg.centerPoint, Option.some.injEq, Prod.mk.injEq, and_self]
    ext <;> norm_num
  · rintro ⟨u, v, w, hu, hv, hw, h, he⟩
    have hx := congrArg V3.x he
    have hy := congrArg V3.y he
    simp [t] at hx hy
    linarith
  · rintro ⟨u, v, w, hu, hv, hw, h, he⟩
    have hx := congrArg V3.x he
    simp [t2] at hx
    linarith

end Tri
end MGL
