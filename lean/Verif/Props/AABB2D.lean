import Verif.Model.AABB2DMore
import Verif.Proofs.Scalar
import Mathlib.Tactic.Linarith
import Mathlib.Tactic.Ring

/-! C101: rectangles with sides parallel to the axes. -/

set_option linter.unusedSectionVars false

namespace MGL.Rect

section Order
variable {α : Type*} [LinearOrder α]

/-- C101: a rectangle that is reset with `SetNegativeInfinity` and then encloses points one by one, any number of them in any order, has all
the points, is contained in every other rectangle that has them, and is empty if there were none. -/
theorem C101_enclose_history (ps : List (V2 α)) : let r := ps.foldl (fun r p => r.enclose (toExt p)) (negInf : Rect (Ext α))
    (∀ p ∈ ps, toExt p ∈ Spec.rect r) ∧ (∀ r' : Rect (Ext α), (∀ p ∈ ps, toExt p ∈ Spec.rect r') → Spec.rect r ⊆ Spec.rect r') ∧
    (ps = [] → Spec.rect r = ∅) := by
  let le (r r' : Rect (Ext α)) : Prop := r'.minPoint.x ≤ r.minPoint.x ∧ r.maxPoint.x ≤ r'.maxPoint.x ∧ r'.minPoint.y ≤ r.minPoint.y ∧ r.maxPoint.y ≤ r'.maxPoint.y
  have key : ∀ (ps : List (V2 α)) (r r' : Rect (Ext α)), le (ps.foldl (fun r p => r.enclose (toExt p)) r) r' ↔ le r r' ∧ ∀ p ∈ ps, toExt p ∈ Spec.rect r' := by
    intro ps
    induction ps with
    | nil => intro r r'; simp
    | cons p ps ih =>
      intro r r'
      rw [List.foldl_cons, ih]
      have e : le (r.enclose (toExt p)) r' ↔ le r r' ∧ toExt p ∈ Spec.rect r' := by
        show _ ∧ _ ↔ (_ ∧ _) ∧ _
        simp only [enclose, min2_eq, max2_eq, le_min_iff, max_le_iff, Spec.rect, Set.mem_ofPred_eq]
        tauto
      rw [e, List.forall_mem_cons]
      tauto
  have sub : ∀ r r' : Rect (Ext α), le r r' → Spec.rect r ⊆ Spec.rect r' := fun r r' h x hx =>
    ⟨h.1.trans hx.1, hx.2.1.trans h.2.1, h.2.2.1.trans hx.2.2.1, hx.2.2.2.trans h.2.2.2⟩
  refine ⟨((key ps negInf _).1 ⟨le_rfl, le_rfl, le_rfl, le_rfl⟩).2, fun r' h => sub _ _ ((key ps negInf r').2 ⟨⟨le_top, bot_le, le_top, bot_le⟩, h⟩), ?_⟩
  rintro rfl
  ext x
  simp only [List.foldl_nil, negInf, Spec.rect, Set.mem_ofPred_eq, Set.mem_empty_iff_false, iff_false]
  rintro ⟨h1, h2, -⟩
  exact absurd (h1.trans h2) (by simp)

example : (([⟨1, 5⟩, ⟨3, 2⟩] : List (V2 ℚ)).foldl (fun r p => r.enclose (toExt p)) negInf) = ⟨toExt ⟨1, 2⟩, toExt ⟨3, 5⟩⟩ := by decide +kernel

/-- C101: the tests of points, of emptiness and of having an interior agree with the set of points of the rectangle. -/
theorem C101_tests (r : Rect α) :
    (∀ p, r.containsPoint p = true ↔ p ∈ Spec.rect r) ∧ (∀ p : V3 α, r.containsPoint3 p = true ↔ (⟨p.x, p.y⟩ : V2 α) ∈ Spec.rect r) ∧
    (r.hasNegativeVolume = true ↔ Spec.rect r = ∅) ∧
    (r.isDegenerate = true ↔ ¬ ∃ p ∈ Spec.rect r, ∃ q ∈ Spec.rect r, p.x < q.x ∧ p.y < q.y) := by
  refine ⟨fun p => ?_, fun p => ?_, ?_, ?_⟩
  · simp only [containsPoint, Spec.rect, Bool.and_eq_true, decide_eq_true_eq, Set.mem_ofPred_eq]; tauto
  · simp only [containsPoint3, Spec.rect, Bool.and_eq_true, decide_eq_true_eq, Set.mem_ofPred_eq]; tauto
  · simp only [hasNegativeVolume, Bool.or_eq_true, decide_eq_true_eq]
    constructor
    · intro h
      ext p
      simp only [Spec.rect, Set.mem_ofPred_eq, Set.mem_empty_iff_false, iff_false]
      rintro ⟨h1, h2, h3, h4⟩
      rcases h with h | h
      · exact absurd (h1.trans h2) (not_le.2 h)
      · exact absurd (h3.trans h4) (not_le.2 h)
    · intro h
      by_contra hc
      push Not at hc
      have : r.minPoint ∈ Spec.rect r := ⟨le_rfl, hc.1, le_rfl, hc.2⟩
      rw [h] at this; exact this
  · simp only [isDegenerate, Bool.or_eq_true, decide_eq_true_eq]
    constructor
    · rintro h ⟨p, ⟨p1, p2, p3, p4⟩, q, ⟨q1, q2, q3, q4⟩, hx, hy⟩
      rcases h with h | h
      · exact absurd (p1.trans_lt (hx.trans_le q2)) (not_lt.2 h)
      · exact absurd (p3.trans_lt (hy.trans_le q4)) (not_lt.2 h)
    · intro h
      by_contra hc
      push Not at hc
      exact h ⟨r.minPoint, ⟨le_rfl, hc.1.le, le_rfl, hc.2.le⟩, r.maxPoint, ⟨hc.1.le, le_rfl, hc.2.le, le_rfl⟩, hc.1, hc.2⟩

/-- C101: the corners 0 to 3 come in the documented order --, -+, +-, ++, every other index gives corner 0, and together they are the
corners of the rectangle: a rectangle has all four of them exactly if it contains this one. -/
theorem C101_corners (r : Rect α) (h : r.minPoint.x ≤ r.maxPoint.x ∧ r.minPoint.y ≤ r.maxPoint.y) :
    r.cornerPoint 0 = ⟨r.minPoint.x, r.minPoint.y⟩ ∧ r.cornerPoint 1 = ⟨r.minPoint.x, r.maxPoint.y⟩ ∧
    r.cornerPoint 2 = ⟨r.maxPoint.x, r.minPoint.y⟩ ∧ r.cornerPoint 3 = ⟨r.maxPoint.x, r.maxPoint.y⟩ ∧
    (∀ i : ℤ, ¬(0 ≤ i ∧ i ≤ 3) → r.cornerPoint i = r.cornerPoint 0) ∧ (∀ i, r.cornerPoint i ∈ Spec.rect r) ∧
    (∀ r' : Rect α, (∀ i, r.cornerPoint i ∈ Spec.rect r') ↔ Spec.rect r ⊆ Spec.rect r') := by
  have hm : ∀ i, r.cornerPoint i ∈ Spec.rect r := by
    intro i
    unfold cornerPoint
    split_ifs
    exacts [⟨le_rfl, h.1, h.2, le_rfl⟩, ⟨h.1, le_rfl, le_rfl, h.2⟩, ⟨h.1, le_rfl, h.2, le_rfl⟩, ⟨le_rfl, h.1, le_rfl, h.2⟩]
  refine ⟨rfl, rfl, rfl, rfl, fun i hi => ?_, hm, fun r' => ⟨fun hr x hx => ?_, fun hr i => hr (hm i)⟩⟩
  · unfold cornerPoint
    rw [if_neg (by rintro rfl; exact hi (by norm_num)), if_neg (by rintro rfl; exact hi (by norm_num)), if_neg (by rintro rfl; exact hi (by norm_num))]
    rfl
  · obtain ⟨a1, a2, a3, a4⟩ := hr 0
    obtain ⟨b1, b2, b3, b4⟩ := hr 3
    exact ⟨a1.trans hx.1, hx.2.1.trans b2, a3.trans hx.2.2.1, hx.2.2.2.trans b4⟩

example := C101_corners (⟨⟨1, 2⟩, ⟨3, 5⟩⟩ : Rect ℚ) (by norm_num)

end Order

section Field
variable {α : Type*} [Field α] [LinearOrder α] [IsStrictOrderedRing α]

/-- C101: `DistanceSq(point)` is the squared distance of the point to the nearest point of the rectangle, zero exactly for the points of the
rectangle. -/
theorem C101_distanceSq (r : Rect α) (h : r.minPoint.x ≤ r.maxPoint.x ∧ r.minPoint.y ≤ r.maxPoint.y) (p : V2 α) :
    (∃ q, Spec.IsClosestPoint2 (Spec.rect r) p q ∧ r.distanceSq p = Spec.distSq2 p q) ∧ (r.distanceSq p = 0 ↔ p ∈ Spec.rect r) := by
  have c1 : ∀ v lo hi : α, lo ≤ hi → lo ≤ clamp v lo hi ∧ clamp v lo hi ≤ hi ∧ (∀ x, lo ≤ x → x ≤ hi → (v - clamp v lo hi) ^ 2 ≤ (v - x) ^ 2) ∧
      (clamp v lo hi = v ↔ lo ≤ v ∧ v ≤ hi) := by
    intro v lo hi hl
    unfold clamp
    split_ifs with h1 h2
    · exact ⟨h2, h1, fun x _ _ => by rw [sub_self]; nlinarith [sq_nonneg (v - x)], ⟨fun _ => ⟨h2, h1⟩, fun _ => rfl⟩⟩
    · push Not at h2
      exact ⟨le_rfl, hl, fun x hx _ => by nlinarith, ⟨fun e => absurd e h2.ne', fun e => absurd e.1 (not_le.2 h2)⟩⟩
    · push Not at h1
      exact ⟨hl, le_rfl, fun x _ hx => by nlinarith, ⟨fun e => absurd e h1.ne, fun e => absurd e.2 (not_le.2 h1)⟩⟩
  obtain ⟨x1, x2, x3, x4⟩ := c1 p.x _ _ h.1
  obtain ⟨y1, y2, y3, y4⟩ := c1 p.y _ _ h.2
  have e : r.distanceSq p = Spec.distSq2 p (r.clampPoint p) := by simp only [distanceSq, Spec.distSq2]; ring
  refine ⟨⟨r.clampPoint p, ⟨⟨x1, x2, y1, y2⟩, fun s hs => add_le_add (x3 _ hs.1 hs.2.1) (y3 _ hs.2.2.1 hs.2.2.2)⟩, e⟩, ?_⟩
  rw [e]
  unfold Spec.distSq2 clampPoint
  dsimp only
  constructor
  · intro h0
    have hx : (p.x - clamp p.x r.minPoint.x r.maxPoint.x) ^ 2 = 0 := by nlinarith [sq_nonneg (p.x - clamp p.x r.minPoint.x r.maxPoint.x), sq_nonneg (p.y - clamp p.y r.minPoint.y r.maxPoint.y)]
    have hy : (p.y - clamp p.y r.minPoint.y r.maxPoint.y) ^ 2 = 0 := by nlinarith [sq_nonneg (p.x - clamp p.x r.minPoint.x r.maxPoint.x), sq_nonneg (p.y - clamp p.y r.minPoint.y r.maxPoint.y)]
    have hx := x4.1 (sub_eq_zero.1 (pow_eq_zero_iff (n := 2) (by norm_num) |>.1 hx)).symm
    have hy := y4.1 (sub_eq_zero.1 (pow_eq_zero_iff (n := 2) (by norm_num) |>.1 hy)).symm
    exact ⟨hx.1, hx.2, hy.1, hy.2⟩
  · rintro ⟨a, b, c, d⟩
    rw [x4.2 ⟨a, b⟩, y4.2 ⟨c, d⟩]; ring

example := C101_distanceSq (⟨⟨1, 2⟩, ⟨3, 5⟩⟩ : Rect ℚ) (by norm_num) ⟨7, 0⟩

/-- C101: `PosInside` and `ToNormalizedLocalSpace` undo each other, and the unit square corresponds to the rectangle. -/
theorem C101_local (r : Rect α) (h : r.minPoint.x < r.maxPoint.x ∧ r.minPoint.y < r.maxPoint.y) (p : V2 α) :
    r.posInside (r.toNormalizedLocalSpace p) = p ∧ r.toNormalizedLocalSpace (r.posInside p) = p ∧
    (r.posInside p ∈ Spec.rect r ↔ (0 ≤ p.x ∧ p.x ≤ 1) ∧ 0 ≤ p.y ∧ p.y ≤ 1) := by
  have hx := sub_pos.2 h.1
  have hy := sub_pos.2 h.2
  refine ⟨?_, ?_, ?_⟩
  · ext <;> simp only [posInside, toNormalizedLocalSpace] <;> field_simp <;> ring
  · ext <;> simp only [posInside, toNormalizedLocalSpace] <;> field_simp <;> ring
  · have key : ∀ lo hi v : α, 0 < hi - lo → (lo ≤ lo + v * (hi - lo) ∧ lo + v * (hi - lo) ≤ hi ↔ 0 ≤ v ∧ v ≤ 1) := by
      intro lo hi v hl
      constructor
      · rintro ⟨h1, h2⟩
        exact ⟨by by_contra hc; push Not at hc; nlinarith [mul_neg_of_neg_of_pos hc hl], by by_contra hc; push Not at hc; nlinarith [mul_pos (sub_pos.2 hc) hl]⟩
      · rintro ⟨h1, h2⟩
        exact ⟨by nlinarith [mul_nonneg h1 hl.le], by nlinarith [mul_nonneg (sub_nonneg.2 h2) hl.le]⟩
    simp only [Spec.rect, posInside, Set.mem_ofPred_eq]
    rw [← key _ _ p.x hx, ← key _ _ p.y hy]
    tauto

example := C101_local (⟨⟨1, 2⟩, ⟨3, 5⟩⟩ : Rect ℚ) (by norm_num) ⟨7, 0⟩

/-- C101: `+` and `-` move the points of the rectangle, and the integer test is the test of the point with integer coordinates. -/
theorem C101_translate (r : Rect α) :
    (∀ o p, p ∈ Spec.rect (r.translate o) ↔ p - o ∈ Spec.rect r) ∧ (∀ o p, p ∈ Spec.rect (r.translateNeg o) ↔ p + o ∈ Spec.rect r) ∧
    (∀ x y : ℤ, r.containsInt x y = true ↔ (⟨x, y⟩ : V2 α) ∈ Spec.rect r) ∧
    (∀ o, (r.translate o).width = r.width ∧ (r.translate o).height = r.height) ∧
    (∀ p ∈ Spec.rect r, ∀ q ∈ Spec.rect r, q.x - p.x ≤ r.width ∧ q.y - p.y ≤ r.height) := by
  refine ⟨fun o p => ?_, fun o p => ?_, fun x y => ?_, fun o => ?_, fun p hp q hq => ?_⟩
  · simp only [Spec.rect, translate, Set.mem_ofPred_eq, V2.add_x, V2.add_y, V2.sub_x, V2.sub_y, le_sub_iff_add_le, sub_le_iff_le_add]
  · simp only [Spec.rect, translateNeg, Set.mem_ofPred_eq, V2.add_x, V2.add_y, V2.sub_x, V2.sub_y, sub_le_iff_le_add, le_sub_iff_add_le]
  · simp only [containsInt, Spec.rect, Bool.and_eq_true, decide_eq_true_eq, Set.mem_ofPred_eq]; tauto
  · simp only [width, height, translate, V2.add_x, V2.add_y]; constructor <;> ring
  · unfold width height; exact ⟨by linarith [hp.1, hq.2.1], by linarith [hp.2.2.1, hq.2.2.2]⟩

/-- The image of the points of the plane `z = 0` under the first two rows of an affine map. -/
def image (a b c d e f : α) (S : Set (V2 α)) : Set (V2 α) := {q | ∃ p ∈ S, q = ⟨a * p.x + b * p.y + e, c * p.x + d * p.y + f⟩}

theorem transformWith_tight (r : Rect α) (h : r.minPoint.x ≤ r.maxPoint.x ∧ r.minPoint.y ≤ r.maxPoint.y) (m : Fin 2 → Fin 4 → α) :
    Spec.TightRect (image (m 0 0) (m 0 1) (m 1 0) (m 1 1) (m 0 3) (m 1 3) (Spec.rect r)) (r.transformWith m) := by
  have key : ∀ k lo hi x : α, lo ≤ x → x ≤ hi → min (k * lo) (k * hi) ≤ k * x ∧ k * x ≤ max (k * lo) (k * hi) := by
    intro k lo hi x h1 h2
    rcases le_total 0 k with hk | hk
    · exact ⟨(min_le_left _ _).trans (mul_le_mul_of_nonneg_left h1 hk), (mul_le_mul_of_nonneg_left h2 hk).trans (le_max_right _ _)⟩
    · exact ⟨(min_le_right _ _).trans (mul_le_mul_of_nonpos_left h2 hk), (mul_le_mul_of_nonpos_left h1 hk).trans (le_max_left _ _)⟩
  have ch : ∀ k lo hi : α, lo ≤ hi → (∃ x, (lo ≤ x ∧ x ≤ hi) ∧ min (k * lo) (k * hi) = k * x) ∧ ∃ x, (lo ≤ x ∧ x ≤ hi) ∧ max (k * lo) (k * hi) = k * x := by
    intro k lo hi hl
    constructor
    · rcases min_choice (k * lo) (k * hi) with e | e
      exacts [⟨lo, ⟨le_rfl, hl⟩, e⟩, ⟨hi, ⟨hl, le_rfl⟩, e⟩]
    · rcases max_choice (k * lo) (k * hi) with e | e
      exacts [⟨lo, ⟨le_rfl, hl⟩, e⟩, ⟨hi, ⟨hl, le_rfl⟩, e⟩]
  simp only [transformWith, min2_eq, max2_eq]
  constructor
  · rintro _ ⟨p, ⟨p1, p2, p3, p4⟩, rfl⟩
    have k1 := key (m 0 0) _ _ _ p1 p2
    have k2 := key (m 0 1) _ _ _ p3 p4
    have k3 := key (m 1 0) _ _ _ p1 p2
    have k4 := key (m 1 1) _ _ _ p3 p4
    exact ⟨add_le_add (add_le_add k1.1 k2.1) le_rfl, add_le_add (add_le_add k1.2 k2.2) le_rfl,
      add_le_add (add_le_add k3.1 k4.1) le_rfl, add_le_add (add_le_add k3.2 k4.2) le_rfl⟩
  · intro r' hr x ⟨x1, x2, x3, x4⟩
    obtain ⟨⟨u1, a1, e1⟩, ⟨u2, a2, e2⟩⟩ := ch (m 0 0) _ _ h.1
    obtain ⟨⟨v1, b1, f1⟩, ⟨v2, b2, f2⟩⟩ := ch (m 0 1) _ _ h.2
    obtain ⟨⟨u3, a3, e3⟩, ⟨u4, a4, e4⟩⟩ := ch (m 1 0) _ _ h.1
    obtain ⟨⟨v3, b3, f3⟩, ⟨v4, b4, f4⟩⟩ := ch (m 1 1) _ _ h.2
    have i1 := hr ⟨⟨u1, v1⟩, ⟨a1.1, a1.2, b1.1, b1.2⟩, rfl⟩
    have i2 := hr ⟨⟨u2, v2⟩, ⟨a2.1, a2.2, b2.1, b2.2⟩, rfl⟩
    have i3 := hr ⟨⟨u3, v3⟩, ⟨a3.1, a3.2, b3.1, b3.2⟩, rfl⟩
    have i4 := hr ⟨⟨u4, v4⟩, ⟨a4.1, a4.2, b4.1, b4.2⟩, rfl⟩
    dsimp only at x1 x2 x3 x4
    rw [e1, f1] at x1
    rw [e2, f2] at x2
    rw [e3, f3] at x3
    rw [e4, f4] at x4
    exact ⟨i1.1.trans x1, x2.trans i2.2.1, i3.2.2.1.trans x3, x4.trans i4.2.2.2⟩

/-- C101 (the part that holds): `TransformAsAABB` with a `float3x4` or `float4x4` gives the smallest rectangle around the image of the
rectangle under the map of the plane given by the matrix: `(x, y)` goes to the first two coordinates of the image of `(x, y, 0)`. -/
theorem C101_transform_partial (r : Rect α) (h : r.minPoint.x ≤ r.maxPoint.x ∧ r.minPoint.y ≤ r.maxPoint.y) :
    (∀ m : Mat34 α, Spec.TightRect {q | ∃ p ∈ Spec.rect r, q = ⟨m 0 0 * p.x + m 0 1 * p.y + m 0 3, m 1 0 * p.x + m 1 1 * p.y + m 1 3⟩} (r.transform34 m)) ∧
    (∀ m : Mat4 α, Spec.TightRect {q | ∃ p ∈ Spec.rect r, q = ⟨m 0 0 * p.x + m 0 1 * p.y + m 0 3, m 1 0 * p.x + m 1 1 * p.y + m 1 3⟩} (r.transform4 m)) :=
  ⟨fun m => transformWith_tight r h fun i j => m (i.castLE (by decide)) j, fun m => transformWith_tight r h fun i j => m (i.castLE (by decide)) j⟩

example := (C101_transform_partial (⟨⟨1, 2⟩, ⟨3, 5⟩⟩ : Rect ℚ) (by norm_num)).1 !![0, -1, 0, 7; 1, 0, 0, 2; 0, 0, 1, 3]

/-- C101 (what the transform by a `float3x3` computes): the smallest rectangle around the image, but moved by the first numbers of the last
two rows, which the code takes for a translation. It is right if these are zero. -/
theorem C101_transform3_partial (r : Rect α) (h : r.minPoint.x ≤ r.maxPoint.x ∧ r.minPoint.y ≤ r.maxPoint.y) (m : Mat3 α) :
    Spec.TightRect {q | ∃ p ∈ Spec.rect r, q = ⟨m 0 0 * p.x + m 0 1 * p.y + m 1 0, m 1 0 * p.x + m 1 1 * p.y + m 2 0⟩} (r.transform3 m) := by
  obtain ⟨f, hf, e0, e1, e2, e3, e4, e5⟩ : ∃ f : Fin 2 → Fin 4 → α, r.transform3 m = r.transformWith f ∧ f 0 0 = m 0 0 ∧ f 0 1 = m 0 1 ∧
      f 1 0 = m 1 0 ∧ f 1 1 = m 1 1 ∧ f 0 3 = m 1 0 ∧ f 1 3 = m 2 0 := by
    refine ⟨fun i j => m ⟨(3 * i.val + j.val) / 3 % 3, by omega⟩ ⟨(3 * i.val + j.val) % 3, by omega⟩, rfl, ?_, ?_, ?_, ?_, ?_, ?_⟩ <;> rfl
  have := transformWith_tight r h f
  rw [e0, e1, e2, e3, e4, e5] at this
  rw [hf]; exact this

example := C101_transform3_partial (⟨⟨1, 2⟩, ⟨3, 5⟩⟩ : Rect ℚ) (by norm_num) !![0, -1, 0; 1, 0, 0; 0, 0, 1]

end Field

/-- C101 fails for `TransformAsAABB(float3x3)`, which reads past the end of the rows: turning the unit square by 90 degrees gives a square
moved by one, that does not have the image of the centre of the unit square. -/
theorem C101_transform_violation : ∃ (r : Rect ℚ) (m : Mat3 ℚ) (p : V2 ℚ), m * m.transpose = 1 ∧ m 2 2 = 1 ∧ p ∈ Spec.rect r ∧
    (⟨m 0 0 * p.x + m 0 1 * p.y, m 1 0 * p.x + m 1 1 * p.y⟩ : V2 ℚ) ∉ Spec.rect (r.transform3 m) := by
  refine ⟨⟨⟨0, 0⟩, ⟨1, 1⟩⟩, !![0, -1, 0; 1, 0, 0; 0, 0, 1], ⟨1 / 2, 1 / 2⟩, by decide +kernel, rfl, by norm_num [Spec.rect], ?_⟩
  intro hx
  have := hx.1
  norm_num [transform3, transformWith, min2, Matrix.of_apply] at this

end MGL.Rect
