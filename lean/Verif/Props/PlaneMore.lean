import Verif.Model.PlaneMore
import Verif.Props.Polygon
import Verif.Props.Line

/-! C110: projections of lines, rays and polygons to planes and axes, containment of polygons in planes, equality of lines. -/

set_option linter.unusedSectionVars false

namespace MGL
open V3 Spec

section Field
variable {α : Type*} [Field α] [LinearOrder α] [IsStrictOrderedRing α]

/-- C110: `Ray::ProjectToAxis` for a ray that is perpendicular to the axis, or whose direction has a scalar product with the axis above `1/10000` or below
`-10000`: the interval is exactly the range of the scalar product over the ray. Missing: every other ray that points backwards along the axis
(`C110_ray_axis_violation`), and rays nearly perpendicular to the axis. -/
theorem C110_ray_axis_partial (r : Ray α) (d : V3 α) (h : dot d r.dir = 0 ∨ 1 / 10000 < dot d r.dir ∨ dot d r.dir < -10000) (x : α) :
    ((r.projectToAxis d).1 ≤ Ext.of x ∧ Ext.of x ≤ (r.projectToAxis d).2) ↔ ∃ p ∈ Spec.ray r.pos r.dir, dot d p = x := by
  have e : ∀ t : α, dot d (r.pos + t • r.dir) = dot d r.pos + t * dot d r.dir := by
    intro t; rw [dot_add, dot_smul]
  unfold Ray.projectToAxis
  dsimp only
  rcases h with h | h | h
  · rw [if_neg (by rw [h]; norm_num), if_neg (by rw [h]; norm_num)]
    simp only [WithBot.coe_le_coe, WithTop.coe_le_coe]
    constructor
    · rintro ⟨h1, h2⟩
      exact ⟨_, ⟨0, le_rfl, rfl⟩, by rw [e]; linarith [le_antisymm h1 h2]⟩
    · rintro ⟨_, ⟨t, -, rfl⟩, rfl⟩
      rw [e, h]; constructor <;> linarith
  · rw [if_pos h]
    have hp : 0 < dot d r.dir := lt_trans (by norm_num) h
    simp only [WithBot.coe_le_coe, WithTop.coe_le_coe]
    constructor
    · rintro ⟨h1, -⟩
      exact ⟨_, ⟨(x - dot d r.pos) / dot d r.dir, div_nonneg (by linarith) hp.le, rfl⟩, by rw [e]; field_simp; ring⟩
    · rintro ⟨_, ⟨t, ht, rfl⟩, rfl⟩
      rw [e]
      exact ⟨by nlinarith, le_top⟩
  · have hn : dot d r.dir < 0 := lt_trans h (by norm_num)
    rw [if_neg (by rw [gt_iff_lt, not_lt]; linarith), if_pos h]
    simp only [WithBot.coe_le_coe, WithTop.coe_le_coe]
    constructor
    · rintro ⟨-, h1⟩
      exact ⟨_, ⟨(x - dot d r.pos) / dot d r.dir, div_nonneg_of_nonpos (by linarith) hn.le, rfl⟩, by
        rw [e]; field_simp [hn.ne]; ring⟩
    · rintro ⟨_, ⟨t, ht, rfl⟩, rfl⟩
      rw [e]
      exact ⟨bot_le, by nlinarith⟩

example := C110_ray_axis_partial (⟨⟨1, 2, 3⟩, ⟨3/5, 4/5, 0⟩⟩ : Ray ℚ) ⟨1, 0, 0⟩ (Or.inr (Or.inl (by norm_num [dot])))
example := C110_ray_axis_partial (⟨⟨1, 2, 3⟩, ⟨3/5, 4/5, 0⟩⟩ : Ray ℚ) ⟨-20000, 0, 0⟩ (Or.inr (Or.inr (by norm_num [dot])))

/-- C110 fails for a ray and an axis of unit length whenever the ray points backwards along the axis: the reported interval is the single point of the
start, and there are points of the ray below it. -/
theorem C110_ray_axis_violation (r : Ray α) (d : V3 α) (hr : lenSq r.dir = 1) (hd : lenSq d = 1) (h : dot d r.dir < 0) :
    r.projectToAxis d = (Ext.of (dot d r.pos), Ext.of (dot d r.pos)) ∧ ∃ p ∈ Spec.ray r.pos r.dir, Ext.of (dot d p) < (r.projectToAxis d).1 := by
  have hb : -1 ≤ dot d r.dir := by
    have h0 := lenSq_nonneg (d + r.dir)
    have e : lenSq (d + r.dir) = lenSq d + 2 * dot d r.dir + lenSq r.dir := by
      simp only [lenSq, dot, add_x, add_y, add_z]; ring
    rw [e, hr, hd] at h0
    linarith
  have e1 : r.projectToAxis d = (Ext.of (dot d r.pos), Ext.of (dot d r.pos)) := by
    unfold Ray.projectToAxis
    dsimp only
    rw [if_neg (by rw [gt_iff_lt, not_lt]; linarith), if_neg (by rw [not_lt]; linarith)]
  refine ⟨e1, r.pos + (1 : α) • r.dir, ⟨1, zero_le_one, rfl⟩, ?_⟩
  rw [e1, dot_add, dot_smul]
  simp only [WithBot.coe_lt_coe, WithTop.coe_lt_coe]
  linarith

example := C110_ray_axis_violation (⟨⟨1, 2, 3⟩, ⟨-3/5, 4/5, 0⟩⟩ : Ray ℚ) ⟨1, 0, 0⟩ (by norm_num [lenSq, dot]) (by norm_num [lenSq, dot]) (by norm_num [dot])

/-- C110: two lines with unit directions that have the same points are reported equal, for each positive tolerance; and if two lines are reported equal, the squared distance
of the position of the second from the first is within the tolerance, and so is the difference of the cosine of their angle from one. -/
theorem C110_line_equals (l m : Line α) (hl : lenSq l.dir = 1) (hm : lenSq m.dir = 1) (e : α) :
    (0 < e → Spec.line l.pos l.dir = Spec.line m.pos m.dir → l.equals m e = true) ∧
    (l.equals m e = true → (∃ p ∈ Spec.line l.pos l.dir, distSq p m.pos ≤ e) ∧ 1 - e < |dot l.dir m.dir|) := by
  constructor
  · intro he h
    obtain ⟨t, ht⟩ : m.pos ∈ Spec.line l.pos l.dir := by rw [h]; exact ⟨0, by ext <;> simp⟩
    obtain ⟨s, hs⟩ : m.pos + (1 : α) • m.dir ∈ Spec.line l.pos l.dir := by rw [h]; exact ⟨1, rfl⟩
    have hd : m.dir = (s - t) • l.dir := by
      have e1 : m.dir = m.pos + (1 : α) • m.dir - m.pos := by ext <;> simp
      rw [e1, hs, ht]
      ext <;> simp only [add_x, add_y, add_z, sub_x, sub_y, sub_z, smul_x, smul_y, smul_z] <;> ring
    have hk : (s - t) * (s - t) = 1 := by
      rw [hd] at hm
      have : lenSq ((s - t) • l.dir) = (s - t) * (s - t) * lenSq l.dir := by simp only [lenSq, dot, smul_x, smul_y, smul_z]; ring
      rw [this, hl] at hm
      linarith
    have ha : |dot l.dir m.dir| = 1 := by
      rw [hd, dot_smul]
      have : dot l.dir l.dir = 1 := hl
      rw [this, mul_one]
      have := abs_mul_abs_self (s - t)
      rw [hk] at this
      nlinarith [abs_nonneg (s - t)]
    unfold Line.equals Line.contains equalAbs
    rw [absF_eq, absF_eq, ha]
    simp only [Bool.and_eq_true, decide_eq_true_iff, sub_self, abs_zero]
    refine ⟨?_, he⟩
    have hc : (l.closestPoint m.pos).1 = m.pos := by
      unfold Line.closestPoint Line.getPoint
      dsimp only
      have : dot (m.pos - l.pos) l.dir = t := by
        rw [ht]
        have e1 : l.pos + t • l.dir - l.pos = t • l.dir := by ext <;> simp
        rw [e1, dot_comm, dot_smul]
        have : dot l.dir l.dir = 1 := hl
        rw [this, mul_one]
      rw [this, ← ht]
    rw [hc]
    have : distSq m.pos m.pos = 0 := by simp only [distSq, lenSq, dot, sub_x, sub_y, sub_z]; ring
    rw [this]
    exact he.le
  · intro h
    unfold Line.equals Line.contains equalAbs at h
    rw [absF_eq, absF_eq] at h
    simp only [Bool.and_eq_true, decide_eq_true_iff] at h
    refine ⟨⟨_, ⟨_, rfl⟩, h.1⟩, ?_⟩
    have := (abs_lt.1 h.2).1
    linarith

example : (⟨⟨1, 2, 3⟩, ⟨3/5, 4/5, 0⟩⟩ : Line ℚ).equals ⟨⟨1 + 3, 2 + 4, 3⟩, ⟨-3/5, -4/5, 0⟩⟩ = true := by decide +kernel

/-- C110 fails for tolerances: the default tolerance takes lines as equal that are more than two degrees apart; they have points as far from each other
as one likes, here more than 3 apart. -/
theorem C110_line_equals_violation : ∃ l m : Line ℚ, lenSq l.dir = 1 ∧ lenSq m.dir = 1 ∧ l.equals m = true ∧
    ∃ p ∈ Spec.line m.pos m.dir, ∀ q ∈ Spec.line l.pos l.dir, 9 < distSq p q := by
  refine ⟨⟨⟨0, 0, 0⟩, ⟨1, 0, 0⟩⟩, ⟨⟨0, 0, 0⟩, ⟨2499 / 2501, 100 / 2501, 0⟩⟩, by norm_num [lenSq, dot], by norm_num [lenSq, dot], by decide +kernel,
    ⟨2499 / 25, 4, 0⟩, ⟨2501 / 25, by ext <;> norm_num⟩, ?_⟩
  rintro _ ⟨t, rfl⟩
  simp only [distSq, lenSq, dot, sub_x, sub_y, sub_z, add_x, add_y, add_z, smul_x, smul_y, smul_z]
  nlinarith [mul_self_nonneg (2499 / 25 - (0 + t * 1))]

/-- C110: `Plane::Project(Polygon)` has as many vertices as the polygon; each is in the plane, and the nearest point of the plane to the vertex with
the same number. -/
theorem C110_project_polygon (p : Plane α) (hn : lenSq p.normal = 1) (q : List (V3 α)) :
    (p.projectPolygon q).length = q.length ∧ ∀ (i : ℕ) (x : V3 α), q[i]? = some x → ∃ y, (p.projectPolygon q)[i]? = some y ∧
      Spec.IsClosestPoint (Spec.plane p.normal p.d) x y := by
  refine ⟨by simp [Plane.projectPolygon], fun i x hx => ⟨p.project x, by simp [Plane.projectPolygon, hx], ?_⟩⟩
  have hn' : dot p.normal p.normal = 1 := hn
  constructor
  · show dot p.normal (p.project x) = p.d
    unfold Plane.project
    rw [dot_sub, dot_smul, hn']; ring
  · intro s hs
    have hs' : dot p.normal s = p.d := hs
    have e : distSq s x - distSq (p.project x) x = distSq s (p.project x) := by
      unfold Plane.project
      simp only [distSq, lenSq, dot, sub_x, sub_y, sub_z, smul_x, smul_y, smul_z] at hn' hs' ⊢
      set k := p.normal.x * x.x + p.normal.y * x.y + p.normal.z * x.z - p.d with hk
      linear_combination (-2 * k) * hs' - 2 * k * k * hn'
    have h0 := lenSq_nonneg (s - p.project x)
    have : distSq s (p.project x) = lenSq (s - p.project x) := rfl
    rw [distSq_comm x, distSq_comm x]
    linarith

example := C110_project_polygon (⟨⟨3/5, 4/5, 0⟩, 2⟩ : Plane ℚ) (by norm_num [lenSq, dot]) [⟨1, 2, 3⟩, ⟨4, 5, 6⟩, ⟨7, 8, 10⟩]

end Field

namespace Plane

/-- C110: `Project(Line)` and `Project(Ray)` put the position into the plane. The direction they return is a unit vector parallel to the plane if they set
`nonDegenerate`. It is the direction of the projection of the line only if the uninitialised memory that is read happens to hold the direction of the line. -/
theorem C110_project_line_partial (p : Plane ℝ) (hn : lenSq p.normal = 1) (pos dir junk : V3 ℝ) :
    dot p.normal (p.projectLine pos dir junk).1 = p.d ∧ (p.projectLine pos dir junk).1 = p.project pos ∧
    ((p.projectLine pos dir junk).2.2 = true → lenSq (p.projectLine pos dir junk).2.1 = 1 ∧ dot p.normal (p.projectLine pos dir junk).2.1 = 0 ∧
      (junk = dir → p.project '' Spec.line pos dir = Spec.line (p.projectLine pos dir junk).1 (p.projectLine pos dir junk).2.1)) := by
  have hn' : dot p.normal p.normal = 1 := hn
  refine ⟨?_, rfl, fun h => ?_⟩
  · show dot p.normal (p.project pos) = p.d
    unfold Plane.project
    rw [dot_sub, dot_smul, hn']; ring
  · unfold projectLine at h ⊢
    dsimp only at h ⊢
    rw [decide_eq_true_iff] at h
    set w := junk - dot junk p.normal • p.normal with hw
    unfold f3Normalize at h ⊢
    split_ifs at h ⊢ with hl
    · dsimp only at h ⊢
      have hlen : f3Length w * f3Length w = lenSq w := by unfold f3Length; exact Real.mul_self_sqrt (lenSq_nonneg w)
      have hne : f3Length w ≠ 0 := h.ne'
      refine ⟨?_, ?_, fun hj => ?_⟩
      · have : lenSq ((1 / f3Length w) • w) = 1 / (f3Length w * f3Length w) * lenSq w := by
          simp only [lenSq, dot, smul_x, smul_y, smul_z]; field_simp
        rw [this, ← hlen]; field_simp
      · rw [dot_smul, hw, dot_sub, dot_smul, hn', dot_comm junk]; ring
      · have key : ∀ t : ℝ, p.project (pos + t • dir) = p.project pos + t • w := by
          intro t
          rw [hw, hj]
          unfold Plane.project
          ext <;> simp only [dot, add_x, add_y, add_z, sub_x, sub_y, sub_z, smul_x, smul_y, smul_z] <;> ring
        ext y
        constructor
        · rintro ⟨_, ⟨t, rfl⟩, rfl⟩
          refine ⟨t * f3Length w, ?_⟩
          rw [key]
          ext <;> simp only [add_x, add_y, add_z, smul_x, smul_y, smul_z] <;> field_simp
        · rintro ⟨t, rfl⟩
          refine ⟨_, ⟨t / f3Length w, rfl⟩, ?_⟩
          rw [key]
          ext <;> simp only [add_x, add_y, add_z, smul_x, smul_y, smul_z] <;> field_simp
    · exact absurd h (by simp)

/-- C110 fails for `Project(Line)` and `Project(Ray)`: the result does not depend on the direction of the line, and every unit vector parallel to the plane
can come out. In particular the projection of a line of the plane to the plane need not be that line. -/
theorem C110_project_line_violation (p : Plane ℝ) (hn : lenSq p.normal = 1) (pos dir : V3 ℝ) :
    (∀ dir' junk, p.projectLine pos dir junk = p.projectLine pos dir' junk) ∧
    ∀ u, lenSq u = 1 → dot p.normal u = 0 → ∃ junk, p.projectLine pos dir junk = (p.project pos, u, true) := by
  refine ⟨fun _ _ => rfl, fun u hu h0 => ⟨u, ?_⟩⟩
  have e : u - dot u p.normal • p.normal = u := by
    rw [dot_comm, h0]
    ext <;> simp
  have hl : f3Length u = 1 := by unfold f3Length; rw [hu, Real.sqrt_one]
  unfold projectLine
  dsimp only
  rw [e]
  unfold f3Normalize
  rw [if_pos (by rw [hl]; norm_num), hl]
  simp only [Prod.mk.injEq, true_and]
  refine ⟨by ext <;> simp, ?_⟩
  rw [decide_eq_true_iff]
  norm_num

example := C110_project_line_partial ⟨⟨0, 0, 1⟩, 2⟩ (by norm_num [lenSq, dot]) ⟨1, 2, 3⟩ ⟨3/5, 0, 4/5⟩ ⟨3/5, 0, 4/5⟩

/-- The plane `z = 2` and the direction of the x axis: a direction along the y axis may come out. -/
example : ∃ junk, (⟨⟨0, 0, 1⟩, 2⟩ : Plane ℝ).projectLine ⟨1, 2, 2⟩ ⟨1, 0, 0⟩ junk = ((⟨⟨0, 0, 1⟩, 2⟩ : Plane ℝ).project ⟨1, 2, 2⟩, ⟨0, 1, 0⟩, true) :=
  (C110_project_line_violation _ (by norm_num [lenSq, dot]) _ _).2 _ (by norm_num [lenSq, dot]) (by norm_num [dot])

/-- C110: `Contains(Polygon)` of a polygon in the plane is true, for each positive tolerance, if some three vertices span a large enough triangle. If it is true
for a polygon in some plane with such a triangle, every vertex is nearly in the plane, up to the tolerance and a thousandth of the
sum of the coordinates. Missing: tilted polygons within the tolerance (`C110_contains_polygon_violation`) and polygons without such a triangle. -/
theorem C110_contains_polygon_partial (p : Plane ℝ) (hn : lenSq p.normal = 1) (q : List (V3 ℝ)) (ht : Spec.HasTriangle q) (e : ℝ) (he : 0 < e) :
    ((∀ x ∈ q, dot p.normal x = p.d) → p.containsPolygon q e = some true) ∧
    ∀ (m : V3 ℝ) (f : ℝ), dot m m = 1 → (∀ x ∈ q, dot m x = f) → p.containsPolygon q e = some true →
      ∀ x ∈ q, p.distance x ≤ e + 1 / 1000 * (|x.x| + |x.y| + |x.z|) := by
  have h3 : ∃ a b c r, q = a :: b :: c :: r := by
    obtain ⟨a, b, c, hs, -⟩ := Polygon.hasTriangle_iff ht
    have := hs.length_le
    rcases q with _ | ⟨a, _ | ⟨b, _ | ⟨c, r⟩⟩⟩
    · simp at this
    · simp at this
    · simp at this
    · exact ⟨a, b, c, r, rfl⟩
  have hc : p.containsPolygon q e = (Polygon.planeCCW q).map fun pl => p.setEquals pl e := by
    obtain ⟨a, b, c, r, rfl⟩ := h3
    rfl
  have a0 : ∀ v : ℝ, absF v = |v| := fun v => absF_eq v
  constructor
  · intro hp
    rw [hc]
    rcases Polygon.C84_plane q p.normal p.d hn hp ht with ⟨h, -⟩ | ⟨h, -⟩ <;> rw [h] <;>
      simp only [Option.map_some, setEquals, isParallel, equalAbs, reverseNormal, a0, Option.some.injEq, Bool.or_eq_true, Bool.and_eq_true, decide_eq_true_iff,
        neg_x, neg_y, neg_z, sub_self, abs_zero, neg_neg]
    · left; norm_num [he]
    · right; norm_num [he]
  · intro m f hm hp h x hx
    have fin : ∀ n' : V3 ℝ, ∀ k : ℝ, dot n' x = k → |p.normal.x - n'.x| < 1 / 1000 → |p.normal.y - n'.y| < 1 / 1000 → |p.normal.z - n'.z| < 1 / 1000 →
        |p.d - k| < e → p.distance x ≤ e + 1 / 1000 * (|x.x| + |x.y| + |x.z|) := by
      intro n' k hk h1 h2 h3 h4
      have ed : p.distance x = |dot p.normal x - p.d| := by
        unfold Plane.distance Plane.signedDistance
        rw [a0]
      have es : dot p.normal x - p.d = (p.normal.x - n'.x) * x.x + (p.normal.y - n'.y) * x.y + (p.normal.z - n'.z) * x.z - (p.d - k) := by
        rw [← hk]; simp only [dot]; ring
      rw [ed, es]
      have t1 := abs_sub ((p.normal.x - n'.x) * x.x + (p.normal.y - n'.y) * x.y + (p.normal.z - n'.z) * x.z) (p.d - k)
      have t2 := abs_add_le ((p.normal.x - n'.x) * x.x + (p.normal.y - n'.y) * x.y) ((p.normal.z - n'.z) * x.z)
      have t3 := abs_add_le ((p.normal.x - n'.x) * x.x) ((p.normal.y - n'.y) * x.y)
      rw [abs_mul, abs_mul] at t3
      rw [abs_mul] at t2
      have u1 := mul_le_mul_of_nonneg_right h1.le (abs_nonneg x.x)
      have u2 := mul_le_mul_of_nonneg_right h2.le (abs_nonneg x.y)
      have u3 := mul_le_mul_of_nonneg_right h3.le (abs_nonneg x.z)
      linarith
    rw [hc] at h
    have two : ∀ m' : V3 ℝ, ∀ f' : ℝ, dot m' x = f' → p.setEquals ⟨m', f'⟩ e = true → p.distance x ≤ e + 1 / 1000 * (|x.x| + |x.y| + |x.z|) := by
      intro m' f' hm' hs
      simp only [setEquals, isParallel, equalAbs, reverseNormal, a0, Bool.or_eq_true, Bool.and_eq_true, decide_eq_true_iff, neg_x, neg_y, neg_z] at hs
      rcases hs with ⟨⟨⟨h1, h2⟩, h3⟩, h4⟩ | ⟨⟨⟨h1, h2⟩, h3⟩, h4⟩
      · exact fin m' f' hm' h1 h2 h3 h4
      · refine fin (-m') (-f') (by rw [Polygon.dot_neg', hm']) h1 h2 h3 ?_
        rw [show p.d - -f' = -(-p.d - f') by ring, abs_neg]; exact h4
    rcases Polygon.C84_plane q m f hm hp ht with ⟨h', -⟩ | ⟨h', -⟩
    · rw [h'] at h
      exact two m f (hp x hx) (by simpa using h)
    · rw [h'] at h
      exact two (-m) (-f) (by rw [Polygon.dot_neg', hp x hx]) (by simpa using h)

example := C110_contains_polygon_partial ⟨⟨0, 0, 1⟩, 0⟩ (by norm_num [lenSq, dot]) Polygon.exEll Polygon.exEll_big (1 / 1000) (by norm_num)

/-- C110 fails for `Contains(Polygon)` with the default tolerance: each vertex of the triangle is in the plane up to the tolerance, but the triangle is not. The documentation
says that an object is contained if it is in the plane up to the tolerance. -/
theorem C110_contains_polygon_violation : ∃ (p : Plane ℝ) (q : List (V3 ℝ)), lenSq p.normal = 1 ∧ (∀ x ∈ q, p.contains x = true) ∧ p.containsPolygon q = some false := by
  have hpl : Polygon.planeCCW [⟨0, 0, 0⟩, ⟨100, 0, 0⟩, ⟨0, 0, 1 / 1000⟩] = some ⟨⟨0, -1, 0⟩, 0⟩ ∨
      Polygon.planeCCW [⟨0, 0, 0⟩, ⟨100, 0, 0⟩, ⟨0, 0, 1 / 1000⟩] = some ⟨-⟨0, -1, 0⟩, -0⟩ := by
    refine (Polygon.C84_plane [⟨0, 0, 0⟩, ⟨100, 0, 0⟩, ⟨0, 0, 1 / 1000⟩] ⟨0, -1, 0⟩ 0 (by norm_num [dot]) ?_ ?_).imp And.left And.left
    · intro x hx
      simp only [List.mem_cons, List.not_mem_nil, or_false] at hx
      rcases hx with rfl | rfl | rfl <;> norm_num [dot]
    · refine ⟨⟨0, 0, 0⟩, ⟨100, 0, 0⟩, ⟨0, 0, 1 / 1000⟩, by simp, ?_⟩
      have e : cross ((⟨100, 0, 0⟩ : V3 ℝ) - ⟨0, 0, 0⟩) (⟨0, 0, 1 / 1000⟩ - ⟨0, 0, 0⟩) = ⟨0, -(1 / 10), 0⟩ := by ext <;> norm_num [cross]
      rw [e]
      unfold len
      rw [show lenSq (⟨0, -(1 / 10), 0⟩ : V3 ℝ) = (1 / 10) * (1 / 10) by norm_num [lenSq, dot], Real.sqrt_mul_self (by norm_num)]
      norm_num
  have a0 : ∀ v : ℝ, absF v = |v| := fun v => absF_eq v
  refine ⟨⟨⟨0, 0, 1⟩, 0⟩, [⟨0, 0, 0⟩, ⟨100, 0, 0⟩, ⟨0, 0, 1 / 1000⟩], by norm_num [lenSq, dot], ?_, ?_⟩
  · intro x hx
    simp only [List.mem_cons, List.not_mem_nil, or_false] at hx
    rcases hx with rfl | rfl | rfl <;> simp only [Plane.contains, Plane.distance, Plane.signedDistance, a0, decide_eq_true_iff] <;> norm_num [dot]
  · rw [show (⟨⟨0, 0, 1⟩, 0⟩ : Plane ℝ).containsPolygon [⟨0, 0, 0⟩, ⟨100, 0, 0⟩, ⟨0, 0, 1 / 1000⟩] =
      (Polygon.planeCCW [⟨0, 0, 0⟩, ⟨100, 0, 0⟩, ⟨0, 0, 1 / 1000⟩]).map fun pl => (⟨⟨0, 0, 1⟩, 0⟩ : Plane ℝ).setEquals pl (1 / 1000) from rfl]
    rcases hpl with h | h <;> rw [h] <;> simp only [Option.map_some, setEquals, isParallel, equalAbs, reverseNormal, a0, neg_x, neg_y, neg_z] <;> norm_num

end Plane
end MGL
