import Verif.Proofs.Frustum
import Verif.Proofs.SetDist
import Verif.Proofs.Similarity
import Verif.Props.OBBMore
import Verif.Props.AABBEnclose
import Mathlib.Data.List.Perm.Basic

/-! C71: the planes, corners, points, extents, enclosing boxes and transforms of a frustum all describe the same set. -/

set_option linter.unusedSectionVars false
set_option linter.unusedSimpArgs false

namespace MGL
open V3

noncomputable section

/-- A perspective camera at (1,2,3) looking along -z. -/
def exPersp : Frustum := ⟨.perspective, .gl, .right, ⟨1, 2, 3⟩, ⟨0, 0, -1⟩, ⟨0, 1, 0⟩, 1, 100, Real.pi / 2, Real.pi / 3⟩
/-- An orthographic camera, left-handed, looking along (3/5, 0, 4/5). -/
def exOrtho : Frustum := ⟨.orthographic, .d3d, .left, ⟨1, 2, 3⟩, ⟨3/5, 0, 4/5⟩, ⟨0, 1, 0⟩, 1, 10, 4, 3⟩

theorem exPersp_valid : exPersp.Valid := by
  have := Real.pi_pos
  refine ⟨by norm_num [exPersp, lenSq, dot], by norm_num [exPersp, lenSq, dot], by norm_num [exPersp, dot],
    by norm_num [exPersp], Or.inl ⟨rfl, ?_⟩⟩
  simp only [exPersp]; refine ⟨?_, ?_, ?_, ?_, ?_⟩ <;> linarith

theorem exOrtho_valid : exOrtho.Valid := by
  refine ⟨?_, ?_, ?_, ?_, Or.inr ⟨rfl, ?_⟩⟩ <;> norm_num [exOrtho, lenSq, dot]

namespace Frustum

/-- C71: `CenterPoint()` is a point of the frustum, half way between the centres of the near and the far rectangle. -/
theorem C71_centerPoint (f : Frustum) (h : f.Valid) :
    f.centerPoint ∈ f.points ∧ (2 : ℝ) • f.centerPoint = f.nearPlanePos 0 0 + f.farPlanePos 0 0 ∧
      dot (f.centerPoint - f.pos) f.front = (f.near + f.far) / 2 := by
  have hnf := h.depth
  have hc : f.centerPoint = f.pos + ((f.near + f.far) * (1 / 2)) • f.front + (0 : ℝ) • f.worldRight + (0 : ℝ) • f.up := by
    unfold centerPoint; ext <;> simp
  refine ⟨?_, ?_, ?_⟩
  · rw [h.points_eq, hc]
    have hd : f.near ≤ (f.near + f.far) * (1 / 2) := by linarith
    obtain ⟨p1, p2⟩ := h.half_pos hd
    exact ⟨_, _, _, hd, by linarith, by rw [abs_zero]; exact p1.le, by rw [abs_zero]; exact p2.le, rfl⟩
  · rw [nearPlanePos_eq, farPlanePos_eq]
    unfold centerPoint
    ext <;> simp <;> ring
  · rw [hc, (h.frame.coords _ _ _ _).1]; ring

example := C71_centerPoint exPersp exPersp_valid

/-- C71: `PointInside(x, y, z)` for `x, y` in [-1, 1] and `z` in [0, 1] is a point of the frustum, and every point of the
frustum is reached; `z` is the linear depth and `(x, y)` the position in the cross section. -/
theorem C71_pointInside (f : Frustum) (h : f.Valid) :
    (∀ x y z : ℝ, |x| ≤ 1 → |y| ≤ 1 → 0 ≤ z → z ≤ 1 → f.pointInside x y z ∈ f.points) ∧
    (∀ p ∈ f.points, ∃ x y z : ℝ, |x| ≤ 1 ∧ |y| ≤ 1 ∧ 0 ≤ z ∧ z ≤ 1 ∧ p = f.pointInside x y z) ∧
    (∀ x y z : ℝ, dot (f.pointInside x y z - f.pos) f.front = f.near + z * (f.far - f.near)) := by
  have hnf := h.depth
  refine ⟨?_, ?_, ?_⟩
  · intro x y z hx hy h0 h1
    rw [pointInside_eq, h.points_eq]
    have hd : f.near ≤ f.near + z * (f.far - f.near) := by nlinarith
    obtain ⟨p1, p2⟩ := h.half_pos hd
    refine ⟨_, _, _, hd, by nlinarith, ?_, ?_, rfl⟩
    · rw [abs_mul, abs_of_pos p1]; nlinarith [abs_nonneg x]
    · rw [abs_mul, abs_of_pos p2]; nlinarith [abs_nonneg y]
  · intro p hp
    rw [h.points_eq] at hp
    obtain ⟨d, x, y, h1, h2, h3, h4, rfl⟩ := hp
    obtain ⟨p1, p2⟩ := h.half_pos h1
    have hnf' : f.far - f.near ≠ 0 := by linarith
    have e : f.near + (d - f.near) / (f.far - f.near) * (f.far - f.near) = d := by field_simp; ring
    refine ⟨x / f.half f.h d, y / f.half f.v d, (d - f.near) / (f.far - f.near), ?_, ?_, ?_, ?_, ?_⟩
    · rw [abs_div, abs_of_pos p1, div_le_one p1]; exact h3
    · rw [abs_div, abs_of_pos p2, div_le_one p2]; exact h4
    · exact div_nonneg (by linarith) (by linarith)
    · rw [div_le_one (by linarith)]; linarith
    · rw [pointInside_eq, e, div_mul_cancel₀ _ p1.ne', div_mul_cancel₀ _ p2.ne']
  · intro x y z
    rw [pointInside_eq]
    exact (h.frame.coords _ _ _ _).1

example := C71_pointInside exPersp exPersp_valid
example := C71_pointInside exOrtho exOrtho_valid

/-- `CornerPoint(i)` is the point inside at the corner of the parameter box that the documentation lists. -/
theorem cornerPoint_eq (f : Frustum) (i : Fin 8) :
    f.cornerPoint i = f.pointInside (![-1, -1, -1, -1, 1, 1, 1, 1] i) (![-1, -1, 1, 1, -1, -1, 1, 1] i)
      (![0, 1, 0, 1, 0, 1, 0, 1] i) := by
  fin_cases i <;> simp [cornerPoint, pointInside, unProjectLineSegment, LineSeg.getPoint] <;> ext <;> simp

theorem corner_mem (f : Frustum) (h : f.Valid) (i : Fin 8) : f.cornerPoint i ∈ f.points := by
  rw [cornerPoint_eq]
  apply (C71_pointInside f h).1 <;> fin_cases i <;> simp

/-- Every point of the frustum is a convex combination of the corners. -/
theorem corner_span (f : Frustum) (h : f.Valid) (p : V3 ℝ) (hp : p ∈ f.points) :
    ∃ w : Fin 8 → ℝ, (∀ i, 0 ≤ w i) ∧ ∑ i, w i = 1 ∧ p = ∑ i, w i • f.cornerPoint i := by
  obtain ⟨x, y, z, hx, hy, h0, h1, rfl⟩ := (C71_pointInside f h).2.1 p hp
  obtain ⟨x1, x2⟩ := abs_le.1 hx
  obtain ⟨y1, y2⟩ := abs_le.1 hy
  have a0 : 0 ≤ (1 - x) / 2 := by linarith
  have a1 : 0 ≤ (1 + x) / 2 := by linarith
  have b0 : 0 ≤ (1 - y) / 2 := by linarith
  have b1 : 0 ≤ (1 + y) / 2 := by linarith
  have c0 : 0 ≤ 1 - z := by linarith
  refine ⟨![(1 - x) / 2 * ((1 - y) / 2) * (1 - z), (1 - x) / 2 * ((1 - y) / 2) * z,
    (1 - x) / 2 * ((1 + y) / 2) * (1 - z), (1 - x) / 2 * ((1 + y) / 2) * z,
    (1 + x) / 2 * ((1 - y) / 2) * (1 - z), (1 + x) / 2 * ((1 - y) / 2) * z,
    (1 + x) / 2 * ((1 + y) / 2) * (1 - z), (1 + x) / 2 * ((1 + y) / 2) * z], ?_, ?_, ?_⟩
  · intro i; fin_cases i <;> simp <;> positivity
  · rw [Fin.sum_univ_eight]; simp; ring
  · rw [Fin.sum_univ_eight]
    simp [cornerPoint, nearPlanePos_eq, farPlanePos_eq, pointInside, unProjectLineSegment, LineSeg.getPoint]
    ext <;> simp <;> ring

theorem points_convex (f : Frustum) (h : f.Valid) :
    ∀ p ∈ f.points, ∀ q ∈ f.points, ∀ t : ℝ, 0 ≤ t → t ≤ 1 → p + t • (q - p) ∈ f.points := by
  rw [h.points_eq]
  rintro _ ⟨d, x, y, h1, h2, h3, h4, rfl⟩ _ ⟨d', x', y', h1', h2', h3', h4', rfl⟩ t h0 ht
  obtain ⟨a1, a2⟩ := abs_le.1 h3
  obtain ⟨b1, b2⟩ := abs_le.1 h4
  obtain ⟨a1', a2'⟩ := abs_le.1 h3'
  obtain ⟨b1', b2'⟩ := abs_le.1 h4'
  refine ⟨d + t * (d' - d), x + t * (x' - x), y + t * (y' - y), by nlinarith, by nlinarith, ?_, ?_, ?_⟩
  · rw [half_lerp, abs_le]; constructor <;> nlinarith
  · rw [half_lerp, abs_le]; constructor <;> nlinarith
  · ext <;> simp <;> ring

/-- The order of `GetCornerPoints`. -/
theorem getCornerPoints_eq (f : Frustum) : f.getCornerPoints =
    [f.cornerPoint 0, f.cornerPoint 4, f.cornerPoint 2, f.cornerPoint 6,
     f.cornerPoint 1, f.cornerPoint 5, f.cornerPoint 3, f.cornerPoint 7] := by
  unfold getCornerPoints cornerPoint nearPlanePos farPlanePos
  split_ifs <;> simp only [List.cons.injEq, and_true] <;> refine ⟨?_, ?_, ?_, ?_, ?_, ?_, ?_, ?_⟩ <;> ext <;> simp <;> ring

theorem mem_getCornerPoints (f : Frustum) (p : V3 ℝ) : p ∈ f.getCornerPoints ↔ ∃ i, p = f.cornerPoint i := by
  rw [getCornerPoints_eq]
  constructor
  · intro h
    simp only [List.mem_cons, List.not_mem_nil, or_false] at h
    rcases h with h | h | h | h | h | h | h | h <;> exact ⟨_, h⟩
  · rintro ⟨i, rfl⟩
    fin_cases i <;> simp

/-- C71: `CornerPoint(i)` runs through the corners in the documented order (x, y, z least significant last), the frustum is
exactly the convex hull of the corners, and `GetCornerPoints` returns the same eight points. -/
theorem C71_corners (f : Frustum) (h : f.Valid) :
    (∀ i : Fin 8,
      dot (f.cornerPoint i - f.pos) f.front = (if i.val % 2 = 0 then f.near else f.far) ∧
      (0 < dot (f.cornerPoint i - f.pos) f.up ↔ i.val / 2 % 2 = 1) ∧
      (0 < dot (f.cornerPoint i - f.pos) f.worldRight ↔ i.val / 4 = 1)) ∧
    f.points = {p | ∃ w : Fin 8 → ℝ, (∀ i, 0 ≤ w i) ∧ ∑ i, w i = 1 ∧ p = ∑ i, w i • f.cornerPoint i} ∧
    f.getCornerPoints.Perm ((List.finRange 8).map f.cornerPoint) := by
  have hnf := h.depth
  refine ⟨?_, ?_, ?_⟩
  · intro i
    obtain ⟨n1, n2⟩ := h.half_pos le_rfl
    obtain ⟨f1, f2⟩ := h.half_pos hnf.le
    rw [cornerPoint_eq, pointInside_eq]
    obtain ⟨e1, e2, e3⟩ := h.frame.coords f.pos (f.near + ![0, 1, 0, 1, 0, 1, 0, 1] i * (f.far - f.near))
      (![-1, -1, -1, -1, 1, 1, 1, 1] i * f.half f.h (f.near + ![0, 1, 0, 1, 0, 1, 0, 1] i * (f.far - f.near)))
      (![-1, -1, 1, 1, -1, -1, 1, 1] i * f.half f.v (f.near + ![0, 1, 0, 1, 0, 1, 0, 1] i * (f.far - f.near)))
    rw [e1, e2, e3]
    fin_cases i <;> simp <;> (try constructor) <;> linarith
  · ext p
    constructor
    · exact corner_span f h p
    · rintro ⟨w, hw, hs, rfl⟩
      exact sum_mem_of_convex (points_convex f h) _ _ _ (fun i _ => corner_mem f h i) (fun i _ => hw i) hs
  · rw [getCornerPoints_eq]
    exact List.Perm.map f.cornerPoint (by decide : [0, 4, 2, 6, 1, 5, 3, 7].Perm (List.finRange 8))

/-- The loop of `ExtremePoint`. -/
theorem extremeLoop_spec (d : V3 ℝ) (cs : List (V3 ℝ)) : ∀ m : V3 ℝ,
    ∃ q, extremeLoop d (some (m, dot d m)) cs = some (q, dot d q) ∧ (q = m ∨ q ∈ cs) ∧ dot d m ≤ dot d q ∧
      ∀ c ∈ cs, dot d c ≤ dot d q := by
  induction cs with
  | nil => intro m; exact ⟨m, rfl, Or.inl rfl, le_rfl, by simp⟩
  | cons c cs ih =>
    intro m
    rw [extremeLoop]
    by_cases hc : dot d c > dot d m
    · rw [if_pos hc]
      obtain ⟨q, e, hq, h1, h2⟩ := ih c
      refine ⟨q, e, ?_, hc.le.trans h1, ?_⟩
      · rcases hq with rfl | hq
        · exact Or.inr (by simp)
        · exact Or.inr (by simp [hq])
      · intro x hx
        rcases List.mem_cons.1 hx with rfl | hx
        · exact h1
        · exact h2 x hx
    · rw [if_neg hc]
      obtain ⟨q, e, hq, h1, h2⟩ := ih m
      refine ⟨q, e, ?_, h1, ?_⟩
      · rcases hq with rfl | hq
        · exact Or.inl rfl
        · exact Or.inr (by simp [hq])
      · intro x hx
        rcases List.mem_cons.1 hx with rfl | hx
        · exact (not_lt.1 hc).trans h1
        · exact h2 x hx

theorem projectLoop_spec (d : V3 ℝ) (cs : List (V3 ℝ)) : ∀ mn mx : ℝ,
    ∃ lo hi, projectLoop d (some (mn, mx)) cs = some (lo, hi) ∧ lo ≤ mn ∧ mx ≤ hi ∧
      (lo = mn ∨ ∃ c ∈ cs, lo = dot d c) ∧ (hi = mx ∨ ∃ c ∈ cs, hi = dot d c) ∧ ∀ c ∈ cs, lo ≤ dot d c ∧ dot d c ≤ hi := by
  induction cs with
  | nil => intro mn mx; exact ⟨mn, mx, rfl, le_rfl, le_rfl, Or.inl rfl, Or.inl rfl, by simp⟩
  | cons c cs ih =>
    intro mn mx
    rw [projectLoop]
    obtain ⟨lo, hi, e, h1, h2, h3, h4, h5⟩ := ih (min2 mn (dot d c)) (max2 mx (dot d c))
    rw [min2_eq] at h1 h3
    rw [max2_eq] at h2 h4
    refine ⟨lo, hi, e, h1.trans (min_le_left _ _), (le_max_left _ _).trans h2, ?_, ?_, ?_⟩
    · rcases h3 with h3 | ⟨x, hx, h3⟩
      · rcases min_choice mn (dot d c) with m | m
        · exact Or.inl (h3.trans m)
        · exact Or.inr ⟨c, by simp, h3.trans m⟩
      · exact Or.inr ⟨x, by simp [hx], h3⟩
    · rcases h4 with h4 | ⟨x, hx, h4⟩
      · rcases max_choice mx (dot d c) with m | m
        · exact Or.inl (h4.trans m)
        · exact Or.inr ⟨c, by simp, h4.trans m⟩
      · exact Or.inr ⟨x, by simp [hx], h4⟩
    · intro x hx
      rcases List.mem_cons.1 hx with rfl | hx
      · exact ⟨h1.trans (min_le_right _ _), (le_max_right _ _).trans h2⟩
      · exact h5 x hx

theorem dot_sum (d : V3 ℝ) (w : Fin 8 → ℝ) (c : Fin 8 → V3 ℝ) : dot d (∑ i, w i • c i) = ∑ i, w i * dot d (c i) := by
  simp only [Fin.sum_univ_eight, dot, add_x, add_y, add_z, smul_x, smul_y, smul_z]; ring

/-- A linear function on the frustum is bounded by its values in the corners. -/
theorem dot_le_of_corners (f : Frustum) (h : f.Valid) (d : V3 ℝ) (k : ℝ) (hk : ∀ i, dot d (f.cornerPoint i) ≤ k) :
    ∀ p ∈ f.points, dot d p ≤ k := by
  intro p hp
  obtain ⟨w, hw, hs, rfl⟩ := corner_span f h p hp
  rw [dot_sum]
  calc ∑ i, w i * dot d (f.cornerPoint i) ≤ ∑ i, w i * k :=
        Finset.sum_le_sum fun i _ => mul_le_mul_of_nonneg_left (hk i) (hw i)
    _ = k := by rw [← Finset.sum_mul, hs, one_mul]

/-- C71: `ExtremePoint` returns a corner that is a farthest point of the frustum in the direction, with its distance along
the direction. -/
theorem C71_extremePoint (f : Frustum) (h : f.Valid) (d : V3 ℝ) :
    ∃ q, f.extremePoint d = some (q, dot d q) ∧ (∃ i, q = f.cornerPoint i) ∧ Spec.IsExtreme f.points d q := by
  have hm := mem_getCornerPoints f
  unfold extremePoint
  rw [getCornerPoints_eq] at hm ⊢
  rw [extremeLoop]
  obtain ⟨q, e, hq, h1, h2⟩ := extremeLoop_spec d [f.cornerPoint 4, f.cornerPoint 2, f.cornerPoint 6,
     f.cornerPoint 1, f.cornerPoint 5, f.cornerPoint 3, f.cornerPoint 7] (f.cornerPoint 0)
  have hi : ∃ i, q = f.cornerPoint i := by
    apply (hm q).1
    rcases hq with hq | hq
    · simp [hq]
    · exact List.mem_cons_of_mem _ hq
  refine ⟨q, e, hi, ?_, ?_⟩
  · obtain ⟨i, rfl⟩ := hi; exact corner_mem f h i
  · apply dot_le_of_corners f h
    intro i
    rcases List.mem_cons.1 ((hm _).2 ⟨i, rfl⟩) with hh | hh
    · rw [hh]; exact h1
    · exact h2 _ hh

example := C71_extremePoint exPersp exPersp_valid ⟨1, 2, 3⟩

/-- C71: `ProjectToAxis` returns exactly the range of the frustum along the axis. -/
theorem C71_projectToAxis (f : Frustum) (h : f.Valid) (d : V3 ℝ) :
    ∃ lo hi, f.projectToAxis d = some (lo, hi) ∧ Spec.IsProjection f.points d lo hi := by
  have hm := mem_getCornerPoints f
  unfold projectToAxis
  rw [getCornerPoints_eq] at hm ⊢
  rw [projectLoop]
  obtain ⟨lo, hi, e, h1, h2, h3, h4, h5⟩ := projectLoop_spec d [f.cornerPoint 4, f.cornerPoint 2, f.cornerPoint 6,
     f.cornerPoint 1, f.cornerPoint 5, f.cornerPoint 3, f.cornerPoint 7] (dot d (f.cornerPoint 0)) (dot d (f.cornerPoint 0))
  have hb : ∀ i, lo ≤ dot d (f.cornerPoint i) ∧ dot d (f.cornerPoint i) ≤ hi := by
    intro i
    rcases List.mem_cons.1 ((hm _).2 ⟨i, rfl⟩) with hh | hh
    · rw [hh]; exact ⟨h1, h2⟩
    · exact h5 _ hh
  have neg : ∀ x : V3 ℝ, dot (-d) x = -dot d x := by intro x; simp [dot]; ring
  refine ⟨lo, hi, e, ?_, ?_, ?_⟩
  · intro p hp
    constructor
    · have := dot_le_of_corners f h (-d) (-lo) (fun i => by rw [neg]; linarith [(hb i).1]) p hp
      rw [neg] at this; linarith
    · exact dot_le_of_corners f h d hi (fun i => (hb i).2) p hp
  · rcases h3 with h3 | ⟨c, hc, h3⟩
    · exact ⟨_, corner_mem f h 0, h3.symm⟩
    · obtain ⟨i, rfl⟩ := (hm c).1 (List.mem_cons_of_mem _ hc)
      exact ⟨_, corner_mem f h i, h3.symm⟩
  · rcases h4 with h4 | ⟨c, hc, h4⟩
    · exact ⟨_, corner_mem f h 0, h4.symm⟩
    · obtain ⟨i, rfl⟩ := (hm c).1 (List.mem_cons_of_mem _ hc)
      exact ⟨_, corner_mem f h i, h4.symm⟩

example := C71_projectToAxis exOrtho exOrtho_valid ⟨1, 2, 3⟩

/-- A unit normal is not changed by normalising a positive multiple of it that is at least 1 long. -/
theorem normalized_side {n : V3 ℝ} (hn : 1 ≤ lenSq n) :
    f3Normalized n = (1 / len n) • n ∧ 0 < len n ∧ lenSq ((1 / len n) • n) = 1 := by
  have h1 : 1 ≤ len n := Real.le_sqrt_of_sq_le (by simpa using hn)
  have h0 : 0 < len n := by linarith
  refine ⟨f3Normalized_pos (by linarith), h0, ?_⟩
  have := len_mul_self n
  rw [lenSq_smul, ← this]
  field_simp

theorem Valid.crosses {f : Frustum} (h : f.Valid) :
    (f.hand = .right → cross f.up f.front = -f.worldRight ∧ cross f.front f.up = f.worldRight ∧
      cross f.up f.worldRight = f.front ∧ cross f.worldRight f.up = -f.front ∧
      cross f.worldRight f.front = f.up) ∧
    (f.hand ≠ .right → cross f.up f.front = f.worldRight ∧ cross f.front f.up = -f.worldRight ∧
      cross f.worldRight f.up = f.front ∧ cross f.up f.worldRight = -f.front ∧
      cross f.front f.worldRight = f.up) := by
  have h1 := h.front; have h2 := h.up; have h3 := h.perp
  simp only [lenSq, dot] at h1 h2 h3
  unfold worldRight worldRightOf
  constructor
  · intro e
    rw [if_pos e]
    refine ⟨by ext <;> simp [cross] <;> ring, rfl, ?_, ?_, ?_⟩ <;> ext <;> simp [cross]
    · linear_combination f.front.x * h2 - f.up.x * h3
    · linear_combination f.front.y * h2 - f.up.y * h3
    · linear_combination f.front.z * h2 - f.up.z * h3
    · linear_combination -f.front.x * h2 + f.up.x * h3
    · linear_combination -f.front.y * h2 + f.up.y * h3
    · linear_combination -f.front.z * h2 + f.up.z * h3
    · linear_combination f.up.x * h1 - f.front.x * h3
    · linear_combination f.up.y * h1 - f.front.y * h3
    · linear_combination f.up.z * h1 - f.front.z * h3
  · intro e
    rw [if_neg e]
    refine ⟨rfl, by ext <;> simp [cross] <;> ring, ?_, ?_, ?_⟩ <;> ext <;> simp [cross]
    · linear_combination f.front.x * h2 - f.up.x * h3
    · linear_combination f.front.y * h2 - f.up.y * h3
    · linear_combination f.front.z * h2 - f.up.z * h3
    · linear_combination -f.front.x * h2 + f.up.x * h3
    · linear_combination -f.front.y * h2 + f.up.y * h3
    · linear_combination -f.front.z * h2 + f.up.z * h3
    · linear_combination f.up.x * h1 - f.front.x * h3
    · linear_combination f.up.y * h1 - f.front.y * h3
    · linear_combination f.up.z * h1 - f.front.z * h3

theorem cross_add (a b c : V3 ℝ) : cross a (b + c) = cross a b + cross a c := by ext <;> simp [cross] <;> ring
theorem add_cross (a b c : V3 ℝ) : cross (a + b) c = cross a c + cross b c := by ext <;> simp [cross] <;> ring
theorem cross_sub (a b c : V3 ℝ) : cross a (b - c) = cross a b - cross a c := by ext <;> simp [cross] <;> ring
theorem sub_cross (a b c : V3 ℝ) : cross (a - b) c = cross a c - cross b c := by ext <;> simp [cross] <;> ring
theorem cross_smul' (a b : V3 ℝ) (k : ℝ) : cross a (k • b) = k • cross a b := by ext <;> simp [cross] <;> ring
theorem smul_cross' (a b : V3 ℝ) (k : ℝ) : cross (k • a) b = k • cross a b := by ext <;> simp [cross] <;> ring
theorem cross_neg' (a b : V3 ℝ) : cross a (-b) = -cross a b := by ext <;> simp [cross] <;> ring
theorem neg_cross' (a b : V3 ℝ) : cross (-a) b = -cross a b := by ext <;> simp [cross] <;> ring

theorem scaleToLength_unit {v : V3 ℝ} (hv : lenSq v = 1) (k : ℝ) : (f3ScaleToLength v k).1 = k • v := by
  unfold f3ScaleToLength
  rw [hv, if_neg (by norm_num)]
  simp

/-- The outward normals of the side planes of a perspective frustum, before normalisation. -/
theorem Valid.side_normals {f : Frustum} (h : f.Valid) (t s : ℝ) :
    (if f.hand = .right then cross f.up (f.front + t • -f.worldRight) else cross (f.front + t • -f.worldRight) f.up) =
      -f.worldRight - t • f.front ∧
    (if f.hand = .right then cross (f.front + t • f.worldRight) f.up else cross f.up (f.front + t • f.worldRight)) =
      f.worldRight - t • f.front ∧
    (if f.hand = .right then cross f.worldRight (f.front + s • f.up) else cross (f.front + s • f.up) f.worldRight) =
      f.up - s • f.front ∧
    (if f.hand = .right then cross (-f.worldRight) (f.front - s • f.up) else cross (f.front - s • f.up) (-f.worldRight)) =
      -f.up - s • f.front := by
  obtain ⟨hr, hl⟩ := h.crosses
  by_cases e : f.hand = .right
  · obtain ⟨c1, c2, c3, c4, c5⟩ := hr e
    simp only [if_pos e, cross_add, add_cross, cross_sub, sub_cross, cross_smul', smul_cross', cross_neg', neg_cross', c1, c2, c3, c4, c5]
    refine ⟨?_, ?_, ?_, ?_⟩ <;> ext <;> simp <;> ring
  · obtain ⟨c1, c2, c3, c4, c5⟩ := hl e
    simp only [if_neg e, cross_add, add_cross, cross_sub, sub_cross, cross_smul', smul_cross', cross_neg', neg_cross', c1, c2, c3, c4, c5]
    refine ⟨?_, ?_, ?_, ?_⟩ <;> ext <;> simp <;> ring

theorem signed_setPointNormal (c n p : V3 ℝ) (k : ℝ) :
    (Plane.setPointNormal c (k • n)).signedDistance p = k * dot n (p - c) := by
  simp [Plane.setPointNormal, Plane.signedDistance, dot]; ring

theorem signed_setPointNormal' (c n p : V3 ℝ) :
    (Plane.setPointNormal c n).signedDistance p = dot n (p - c) := by
  simp [Plane.setPointNormal, Plane.signedDistance, dot]; ring

/-- C71: the six planes of `GetPlane` have unit normals, and the frustum is exactly the intersection of their negative half
spaces. `ToPBVolume` has the same planes. -/
theorem C71_planes (f : Frustum) (h : f.Valid) :
    (∀ i, lenSq (f.getPlane i).normal = 1) ∧
    (∀ p : V3 ℝ, p ∈ f.points ↔ ∀ i, (f.getPlane i).signedDistance p ≤ 0) ∧
    f.toPBVolume.Perm ((List.finRange 6).map f.getPlane) := by
  have hF := h.frame
  have hn := h.frame.uu; have hR := h.frame.vv; have hU := h.frame.ww
  have nR := h.frame.uv; have nU := h.frame.uw; have RU := h.frame.vw
  have negsq : ∀ v : V3 ℝ, lenSq (-v) = lenSq v := by intro v; simp [lenSq, dot]
  have key : ∀ p : V3 ℝ, (∀ i, lenSq (f.getPlane i).normal = 1) ∧
      ∃ a b c d : ℝ, 0 < a ∧ 0 < b ∧ 0 < c ∧ 0 < d ∧
      f.leftPlane.signedDistance p = a * (-dot (p - f.pos) f.worldRight - f.half f.h (dot (p - f.pos) f.front)) ∧
      f.rightPlane.signedDistance p = b * (dot (p - f.pos) f.worldRight - f.half f.h (dot (p - f.pos) f.front)) ∧
      f.topPlane.signedDistance p = c * (dot (p - f.pos) f.up - f.half f.v (dot (p - f.pos) f.front)) ∧
      f.bottomPlane.signedDistance p = d * (-dot (p - f.pos) f.up - f.half f.v (dot (p - f.pos) f.front)) := by
    intro p
    have hRs : lenSq (-f.worldRight) = 1 := by rw [negsq]; exact hR
    rcases h.kind with ⟨e, -⟩ | ⟨e, -⟩
    · have eh : f.h * (1 / 2) = f.h / 2 := by ring
      have ev : f.v * (1 / 2) = f.v / 2 := by ring
      obtain ⟨s1, s2, s3, s4⟩ := h.side_normals (Real.tan (f.h / 2)) (Real.tan (f.v / 2))
      have sq : ∀ (u : V3 ℝ) (t : ℝ), dot u u = 1 → dot f.front u = 0 → 1 ≤ lenSq (u - t • f.front) := by
        intro u t h1 h2
        have : lenSq (u - t • f.front) = 1 + t * t := by
          simp only [dot] at h1 h2 hn
          simp only [lenSq, dot, sub_x, sub_y, sub_z, smul_x, smul_y, smul_z]
          linear_combination h1 - 2 * t * h2 + t * t * hn
        nlinarith [mul_self_nonneg t]
      have q1 := normalized_side (sq (-f.worldRight) (Real.tan (f.h / 2)) hRs (by rw [dot_neg, nR, neg_zero]))
      have q2 := normalized_side (sq f.worldRight (Real.tan (f.h / 2)) hR nR)
      have q3 := normalized_side (sq f.up (Real.tan (f.v / 2)) hU nU)
      have q4 := normalized_side (sq (-f.up) (Real.tan (f.v / 2)) (by rw [← lenSq, negsq]; exact hU) (by rw [dot_neg, nU, neg_zero]))
      have el : f.leftPlane = Plane.setPointNormal f.pos ((1 / len (-f.worldRight - Real.tan (f.h / 2) • f.front)) • (-f.worldRight - Real.tan (f.h / 2) • f.front)) := by
        unfold leftPlane; rw [if_pos e]; dsimp only; rw [eh, scaleToLength_unit hRs, s1, q1.1]
      have er : f.rightPlane = Plane.setPointNormal f.pos ((1 / len (f.worldRight - Real.tan (f.h / 2) • f.front)) • (f.worldRight - Real.tan (f.h / 2) • f.front)) := by
        unfold rightPlane; rw [if_pos e]; dsimp only; rw [eh, scaleToLength_unit hR, s2, q2.1]
      have et : f.topPlane = Plane.setPointNormal f.pos ((1 / len (f.up - Real.tan (f.v / 2) • f.front)) • (f.up - Real.tan (f.v / 2) • f.front)) := by
        unfold topPlane; rw [if_pos e]; dsimp only; rw [ev, s3, q3.1]
      have eb : f.bottomPlane = Plane.setPointNormal f.pos ((1 / len (-f.up - Real.tan (f.v / 2) • f.front)) • (-f.up - Real.tan (f.v / 2) • f.front)) := by
        unfold bottomPlane; rw [if_pos e]; dsimp only; rw [ev, s4, q4.1]
      constructor
      · intro i
        fin_cases i
        · exact (negsq _).trans hn
        · exact hn
        · show lenSq f.leftPlane.normal = 1; rw [el]; exact q1.2.2
        · show lenSq f.rightPlane.normal = 1; rw [er]; exact q2.2.2
        · show lenSq f.topPlane.normal = 1; rw [et]; exact q3.2.2
        · show lenSq f.bottomPlane.normal = 1; rw [eb]; exact q4.2.2
      · refine ⟨_, _, _, _, one_div_pos.2 q1.2.1, one_div_pos.2 q2.2.1, one_div_pos.2 q3.2.1, one_div_pos.2 q4.2.1, ?_, ?_, ?_, ?_⟩
        · rw [el, signed_setPointNormal]; simp only [half, if_pos e]; congr 1; simp [dot]; ring
        · rw [er, signed_setPointNormal]; simp only [half, if_pos e]; congr 1; simp [dot]; ring
        · rw [et, signed_setPointNormal]; simp only [half, if_pos e]; congr 1; simp [dot]; ring
        · rw [eb, signed_setPointNormal]; simp only [half, if_pos e]; congr 1; simp [dot]; ring
    · have e' : f.type ≠ .perspective := by rw [e]; decide
      have el : f.leftPlane = Plane.setPointNormal (f.nearPlanePos (-1) 0) (-f.worldRight) := by
        unfold leftPlane; rw [if_neg e', f3Normalized_unit hRs]
      have er : f.rightPlane = Plane.setPointNormal (f.nearPlanePos 1 0) f.worldRight := by
        unfold rightPlane; rw [if_neg e', f3Normalized_unit hR]
      have et : f.topPlane = Plane.setPointNormal (f.nearPlanePos 0 1) f.up := by unfold topPlane; rw [if_neg e']
      have eb : f.bottomPlane = Plane.setPointNormal (f.nearPlanePos 0 (-1)) (-f.up) := by unfold bottomPlane; rw [if_neg e']
      constructor
      · intro i
        fin_cases i
        · exact (negsq _).trans hn
        · exact hn
        · show lenSq f.leftPlane.normal = 1; rw [el]; exact hRs
        · show lenSq f.rightPlane.normal = 1; rw [er]; exact hR
        · show lenSq f.topPlane.normal = 1; rw [et]; exact hU
        · show lenSq f.bottomPlane.normal = 1; rw [eb]; exact (negsq _).trans hU
      · simp only [dot] at hn hR hU nR nU RU
        refine ⟨1, 1, 1, 1, one_pos, one_pos, one_pos, one_pos, ?_, ?_, ?_, ?_⟩
        · rw [el, signed_setPointNormal', nearPlanePos_eq]; simp only [half, if_neg e']; simp [dot]
          linear_combination f.near * nR - (f.h / 2) * hR
        · rw [er, signed_setPointNormal', nearPlanePos_eq]; simp only [half, if_neg e']; simp [dot]
          linear_combination -f.near * nR - (f.h / 2) * hR
        · rw [et, signed_setPointNormal', nearPlanePos_eq]; simp only [half, if_neg e']; simp [dot]
          linear_combination -f.near * nU - (f.v / 2) * hU
        · rw [eb, signed_setPointNormal', nearPlanePos_eq]; simp only [half, if_neg e']; simp [dot]
          linear_combination f.near * nU - (f.v / 2) * hU
  refine ⟨(key 0).1, ?_, ?_⟩
  · intro p
    obtain ⟨a, b, c, d, ha, hb, hc, hd, e1, e2, e3, e4⟩ := (key p).2
    have n1 : f.nearPlane.signedDistance p = f.near - dot (p - f.pos) f.front := by
      unfold nearPlane; rw [signed_setPointNormal']
      simp only [dot] at hn; simp [dot]; linear_combination f.near * hn
    have n2 : f.farPlane.signedDistance p = dot (p - f.pos) f.front - f.far := by
      unfold farPlane; rw [signed_setPointNormal']
      simp only [dot] at hn; simp [dot]; linear_combination -f.far * hn
    rw [h.mem, abs_le, abs_le]
    have pos_iff : ∀ k x : ℝ, 0 < k → (k * x ≤ 0 ↔ x ≤ 0) := fun k x hk =>
      ⟨fun H => by by_contra hx; push Not at hx; nlinarith [mul_pos hk hx], fun H => by nlinarith⟩
    constructor
    · rintro ⟨h1, h2, ⟨h3, h4⟩, h5, h6⟩ i
      fin_cases i
      · show f.nearPlane.signedDistance p ≤ 0; rw [n1]; linarith
      · show f.farPlane.signedDistance p ≤ 0; rw [n2]; linarith
      · show f.leftPlane.signedDistance p ≤ 0; rw [e1, pos_iff _ _ ha]; linarith
      · show f.rightPlane.signedDistance p ≤ 0; rw [e2, pos_iff _ _ hb]; linarith
      · show f.topPlane.signedDistance p ≤ 0; rw [e3, pos_iff _ _ hc]; linarith
      · show f.bottomPlane.signedDistance p ≤ 0; rw [e4, pos_iff _ _ hd]; linarith
    · intro H
      have H0 : f.nearPlane.signedDistance p ≤ 0 := H 0
      have H1 : f.farPlane.signedDistance p ≤ 0 := H 1
      have H2 : f.leftPlane.signedDistance p ≤ 0 := H 2
      have H3 : f.rightPlane.signedDistance p ≤ 0 := H 3
      have H4 : f.topPlane.signedDistance p ≤ 0 := H 4
      have H5 : f.bottomPlane.signedDistance p ≤ 0 := H 5
      rw [n1] at H0; rw [n2] at H1
      rw [e1, pos_iff _ _ ha] at H2; rw [e2, pos_iff _ _ hb] at H3
      rw [e3, pos_iff _ _ hc] at H4; rw [e4, pos_iff _ _ hd] at H5
      refine ⟨by linarith, by linarith, ⟨by linarith, by linarith⟩, by linarith, by linarith⟩
  · exact List.Perm.map f.getPlane (by decide : [0, 2, 3, 4, 5, 1].Perm (List.finRange 6))

example := C71_planes exPersp exPersp_valid
example := C71_planes exOrtho exOrtho_valid

end Frustum
end
end MGL
