import Verif.Model.PolygonBox
import Verif.Spec.PolygonEdge
import Verif.Props.PolygonPolygon
import Verif.Props.GJK
import Verif.Props.AABBLine
import Verif.Props.OBBLine

/-! Property C85: polygons against boxes. -/

set_option linter.unusedSectionVars false

namespace MGL
open V3 Spec
namespace Polygon

theorem edgeLoop_iff (o : V3 ℝ) (r : List (V3 ℝ)) (a b : V3 ℝ) : (a, b) ∈ edgeLoop o r ↔ IsEdge (o :: r) a b := by
  have hlast : (o :: r)[r.length]? = some ((o :: r).getLastD o) := by
    rw [List.getLastD_eq_getLast?, List.getLast?_eq_getElem?]
    simp
  have hlen : (o :: r).length = r.length + 1 := rfl
  unfold edgeLoop IsEdge
  constructor
  · intro h
    obtain ⟨j, hj⟩ := List.mem_iff_getElem?.1 h
    rw [List.getElem?_zip_eq_some] at hj
    obtain ⟨h1, h2⟩ := hj
    have hjl : j < r.length + 1 := by
      have := (List.getElem?_eq_some_iff.1 h2).1
      rwa [hlen] at this
    cases j with
    | zero =>
      refine ⟨r.length, ?_, ?_⟩
      · rw [hlast]; simpa using h1
      · rw [hlen, Nat.mod_self]; exact h2
    | succ k =>
      refine ⟨k, by simpa using h1, ?_⟩
      rw [hlen, Nat.mod_eq_of_lt hjl]; exact h2
  · rintro ⟨i, h1, h2⟩
    have hi : i < r.length + 1 := by
      have := (List.getElem?_eq_some_iff.1 h1).1
      rwa [hlen] at this
    rw [List.mem_iff_getElem?]
    by_cases hl : i = r.length
    · subst hl
      rw [hlen, Nat.mod_self] at h2
      refine ⟨0, ?_⟩
      rw [List.getElem?_zip_eq_some]
      rw [hlast] at h1
      exact ⟨by simpa using h1, h2⟩
    · rw [hlen, Nat.mod_eq_of_lt (by omega)] at h2
      refine ⟨i + 1, ?_⟩
      rw [List.getElem?_zip_eq_some]
      exact ⟨by simpa using h1, h2⟩

theorem isEdge_mem {p : List (V3 ℝ)} {a b : V3 ℝ} (h : IsEdge p a b) : a ∈ p ∧ b ∈ p := by
  obtain ⟨i, h1, h2⟩ := h
  exact ⟨List.mem_of_getElem? h1, List.mem_of_getElem? h2⟩

/-- The edges of a box belong to it. -/
theorem box_edge {b : AABB ℝ} (hb : b.Proper) (i : Fin 12) {x : V3 ℝ} (hx : x ∈ seg (b.edge i).1 (b.edge i).2) : x ∈ box b.minPoint b.maxPoint := by
  obtain ⟨h1, h2, h3⟩ := hb
  have key : ∀ p q : V3 ℝ, p ∈ box b.minPoint b.maxPoint → q ∈ box b.minPoint b.maxPoint → x ∈ seg p q → x ∈ box b.minPoint b.maxPoint := by
    rintro p q hp hq ⟨t, t0, t1, rfl⟩
    have e : p + t • (q - p) = (1 - t) • p + t • q := by
      ext <;> simp only [add_x, add_y, add_z, sub_x, sub_y, sub_z, smul_x, smul_y, smul_z] <;> ring
    rw [e]
    exact box_convex3 _ _ p hp q hq (1 - t) t (by linarith) t0 (by ring)
  refine key _ _ ?_ ?_ hx <;> fin_cases i <;> simp [AABB.edge, box, h1, h2, h3]

/-- A segment which `AABB::Intersects(LineSegment)` judges exactly: longer than `1e-4`, with direction components that are zero or at least
`1e-4` of the length. -/
def ClearSeg (a b : V3 ℝ) : Prop := 1 / 10000 < len (b - a) ∧ ClearDir ((b.x - a.x) / len (b - a)) ∧ ClearDir ((b.y - a.y) / len (b - a)) ∧
  ClearDir ((b.z - a.z) / len (b - a))

/-- C85: a planar polygon that is reported to intersect a box comes within `2e-4` of it, if the edges of the polygon are not nearly parallel
to the axes unless exactly so, and no edge of the box is nearly parallel to the plane. Missing: the other polygons. -/
theorem C85_box_near_partial (o : V3 ℝ) (r : List (V3 ℝ)) (n : V3 ℝ) (d : ℝ) (hn : dot n n = 1) (hp : ∀ x ∈ o :: r, dot n x = d)
    (ht : HasTriangle (o :: r)) (he : FirstEdge (o :: r)) (b : AABB ℝ) (hb : b.Proper) (hc : ∀ x y, IsEdge (o :: r) x y → ClearSeg x y)
    (hs : ∀ i, 1 / 10000 ≤ |dot n ((b.edge i).2 - (b.edge i).1)|) (h : intersectsAABB o r b = some true) :
    ∃ x ∈ hull3 (o :: r), ∃ y ∈ box b.minPoint b.maxPoint, dist x y ≤ 2 / 10000 := by
  unfold intersectsAABB at h
  obtain ⟨c, -, h⟩ := Option.bind_eq_some_iff.1 h
  split_ifs at h with h1
  · simp at h
  unfold convexIntersectsAABBEdges at h
  dsimp only at h
  split_ifs at h with h2 h3
  · obtain ⟨⟨x, y⟩, hm, hi⟩ := List.any_eq_true.1 h2
    rw [edgeLoop_iff] at hm
    obtain ⟨k1, k2, k3, k4⟩ := hc x y hm
    obtain ⟨z, hz1, hz2⟩ := (C21_segment_partial b x y hb k1 k2 k3 k4).1.1 hi
    refine ⟨z, seg_hull (isEdge_mem hm).1 (isEdge_mem hm).2 hz1, z, hz2, ?_⟩
    rw [dist_le_iff (by norm_num)]
    have : distSq z z = 0 := by simp [distSq, lenSq, dot]
    rw [this]; norm_num
  · simp only [Option.some.injEq, List.any_eq_true, List.mem_map] at h
    obtain ⟨q, ⟨i, -, rfl⟩, hq⟩ := h
    have hq' : intersectsSeg (o :: r) ⟨(b.edge i).1, (b.edge i).2⟩ = some true := by
      rcases e : intersectsSeg (o :: r) ⟨(b.edge i).1, (b.edge i).2⟩ with _ | v
      · rw [e] at hq; cases hq
      · rw [e] at hq; rw [show v = true from hq]
    obtain ⟨x, hx, y, hy, hd⟩ := (C85_intersects_near (o :: r) n d hn hp ht he).1 _ (hs i) hq'
    refine ⟨y, hy, x, box_edge hb i hx, ?_⟩
    rw [dist_le_iff (by norm_num)] at hd ⊢
    have e : distSq y x = distSq x y := by simp only [distSq, lenSq, dot, sub_x, sub_y, sub_z]; ring
    rw [e]; exact hd

theorem intersectsSeg_some {p : List (V3 ℝ)} {pl : Plane ℝ} (hp : p ≠ []) (h : planeCCW p = some pl) (l : LineSeg ℝ) : intersectsSeg p l ≠ none := by
  obtain ⟨o, r, rfl⟩ := List.exists_cons_of_ne_nil hp
  unfold intersectsSeg
  simp only [h, Option.bind_eq_bind, Option.bind_some]
  split_ifs <;> simp [mapTo2D]

/-- C85: a planar polygon is reported to intersect a box if an edge of the polygon meets the box, or if the polygon is strictly convex and an
edge of the box passes through a point of it that is more than `2e-4` away from its boundary, unless the first test, by GJK, gives up. -/
theorem C85_box_meets_partial (o : V3 ℝ) (r : List (V3 ℝ)) (n : V3 ℝ) (hp : ConvexPolygon n (o :: r))
    (ht : (o :: r).length = 3 ∨ HasTriangle (o :: r)) (he : FirstEdge (o :: r)) (b : AABB ℝ) (hb : b.Proper)
    (hg : GJK.run (polygonSupport o r) b.support ≠ some .gaveUp)
    (h : (∃ x y, IsEdge (o :: r) x y ∧ ClearSeg x y ∧ (seg x y ∩ box b.minPoint b.maxPoint).Nonempty) ∨
      ∃ i, ∃ q ∈ seg (b.edge i).1 (b.edge i).2, 1 / 10000 ≤ |dot n ((b.edge i).2 - (b.edge i).1)| ∧ (∀ x ∈ o :: r, dot n q = dot n x) ∧
        ∃ ρ : ℝ, 2 / 10000 < ρ ∧ ∀ y, dot n y = dot n q → dist q y ≤ ρ → y ∈ hull3 (o :: r)) :
    intersectsAABB o r b = some true := by
  obtain ⟨c, hc, -, hf⟩ := C76_intersect_partial (polygon_describes o r) (b.describes hb) (hull3_convex3 _) (box_convex3 _ _)
  have hmeet : ∃ x ∈ hull3 (o :: r), x ∈ box b.minPoint b.maxPoint := by
    rcases h with ⟨x, y, h1, -, z, h2, h3⟩ | ⟨i, q, hq, -, -, ρ, h1, h2⟩
    · exact ⟨z, seg_hull (isEdge_mem h1).1 (isEdge_mem h1).2 h2, h3⟩
    · refine ⟨q, h2 q rfl ?_, box_edge hb i hq⟩
      rw [dist_le_iff (by linarith)]
      have : distSq q q = 0 := by simp [distSq, lenSq, dot]
      rw [this]; positivity
  have hct : c = true := by
    rcases Bool.eq_false_or_eq_true c with hc' | hc'
    · exact hc'
    · rcases hf hc' with h' | h'
      · obtain ⟨x, h1, h2⟩ := hmeet
        exact absurd h2 (h' x h1)
      · exact absurd h' hg
  unfold intersectsAABB polygonConvexIntersectsAABB
  rw [hc, hct]
  simp only [Option.bind_some, Bool.not_true, Bool.false_eq_true, if_false]
  unfold convexIntersectsAABBEdges
  dsimp only
  split_ifs with h1 h2
  · rfl
  · exfalso
    obtain ⟨i, -, hi⟩ := List.mem_map.1 h2
    exact intersectsSeg_some (by simp) (planeCCW_convex hp (o := o) rfl (ht.imp id hasTriangle_iff)) _ hi
  · rcases h with ⟨x, y, hm, ⟨k1, k2, k3, k4⟩, hz⟩ | ⟨i, q, hq, hl, hqp, ρ, hρ, hin⟩
    · exfalso
      apply h1
      exact List.any_eq_true.2 ⟨(x, y), (edgeLoop_iff o r x y).2 hm, (C21_segment_partial b x y hb k1 k2 k3 k4).1.2 hz⟩
    · have := (C85_intersects_inside (o :: r) n hp ht he q hqp ρ hρ hin).1 ⟨(b.edge i).1, (b.edge i).2⟩ hl hq
      rw [Option.some.injEq, List.any_eq_true]
      exact ⟨_, List.mem_map.2 ⟨i, List.mem_finRange i, rfl⟩, by rw [this]; rfl⟩

/-! A square of side three, tilted against the axes, with a corner in a corner of the unit box. -/

def exTilted : List (V3 ℝ) := [⟨2, 1, -2⟩, ⟨4, -1, -1⟩, ⟨2, -2, 1⟩]

theorem exTilted_len {v : V3 ℝ} (h : lenSq v = 9) : len v = 3 := by
  rw [len, h, Real.sqrt_eq_iff_mul_self_eq] <;> norm_num

theorem exTilted_convex : ConvexPolygon ⟨-1 / 3, -2 / 3, -2 / 3⟩ (0 :: exTilted) := by
  refine ⟨by norm_num [dot], by simp [exTilted], ?_⟩
  simp only [exTilted, List.triplewise_cons, List.pairwise_cons, List.mem_cons, List.not_mem_nil]
  refine ⟨⟨?_, ?_, ?_, ?_⟩, ⟨?_, ?_, ?_⟩, ⟨?_, ?_⟩, ?_, List.Triplewise.nil⟩
  · rintro c (rfl | rfl | h) <;> first | exact h.elim | exact ⟨9, by norm_num, by ext <;> norm_num [cross]⟩
  · rintro c (rfl | h) <;> first | exact h.elim | exact ⟨9, by norm_num, by ext <;> norm_num [cross]⟩
  · rintro c h; exact h.elim
  · exact List.Pairwise.nil
  · rintro c (rfl | h) <;> first | exact h.elim | exact ⟨9, by norm_num, by ext <;> norm_num [cross]⟩
  · rintro c h; exact h.elim
  · exact List.Pairwise.nil
  · rintro c h; exact h.elim
  · exact List.Pairwise.nil
  · exact List.Pairwise.nil

theorem exTilted_edge : FirstEdge (0 :: exTilted) := by
  refine ⟨_, _, _, rfl, ?_⟩
  have e : V3.dist (0 : V3 ℝ) ⟨2, 1, -2⟩ = 3 := by
    rw [V3.dist, Real.sqrt_eq_iff_mul_self_eq] <;> norm_num [distSq, lenSq, dot]
  rw [e]; norm_num

theorem exTilted_big : HasTriangle (0 :: exTilted) := by
  refine ⟨0, ⟨2, 1, -2⟩, ⟨4, -1, -1⟩, by simp [exTilted], ?_⟩
  have e : cross ((⟨2, 1, -2⟩ : V3 ℝ) - 0) (⟨4, -1, -1⟩ - 0) = ⟨-3, -6, -6⟩ := by ext <;> norm_num [cross]
  have e2 : len (⟨-3, -6, -6⟩ : V3 ℝ) = 9 := by
    rw [len, Real.sqrt_eq_iff_mul_self_eq] <;> norm_num [lenSq, dot]
  rw [e, e2]; norm_num

theorem exTilted_clear : ∀ x y, IsEdge (0 :: exTilted) x y → ClearSeg x y := by
  intro x y h
  have h := (edgeLoop_iff 0 exTilted x y).2 h
  simp only [edgeLoop, exTilted, List.getLastD_cons, List.getLastD_nil, List.zip_cons_cons, List.zip_nil_right, List.mem_cons, List.not_mem_nil,
    or_false, Prod.mk.injEq] at h
  rcases h with ⟨rfl, rfl⟩ | ⟨rfl, rfl⟩ | ⟨rfl, rfl⟩ | ⟨rfl, rfl⟩ <;> unfold ClearSeg <;>
    rw [exTilted_len (by norm_num [lenSq, dot])] <;>
    norm_num [ClearDir, abs_of_pos, abs_of_neg]

theorem exTilted_meets : intersectsAABB 0 exTilted ⟨0, ⟨1, 1, 1⟩⟩ = some true := by
  refine C85_box_meets_partial 0 exTilted _ exTilted_convex (Or.inr exTilted_big) exTilted_edge ⟨0, ⟨1, 1, 1⟩⟩ (by norm_num [AABB.Proper]) ?_
    (Or.inl ⟨0, ⟨2, 1, -2⟩, ⟨0, rfl, rfl⟩, exTilted_clear _ _ ⟨0, rfl, rfl⟩, 0, ⟨0, le_rfl, by norm_num, by ext <;> simp⟩, by norm_num [box]⟩)
  unfold GJK.run
  dsimp only [polygonSupport, AABB.support]
  rw [if_pos (by norm_num [lenSq, dot])]
  simp

example := C85_box_near_partial 0 exTilted ⟨-1 / 3, -2 / 3, -2 / 3⟩ 0 (by norm_num [dot])
  (by intro x hx; simp only [exTilted, List.mem_cons, List.not_mem_nil, or_false] at hx
      rcases hx with rfl | rfl | rfl | rfl <;> norm_num [dot])
  exTilted_big exTilted_edge ⟨0, ⟨1, 1, 1⟩⟩ (by norm_num [AABB.Proper]) exTilted_clear
  (by intro i; fin_cases i <;> norm_num [AABB.edge, dot, abs_of_neg]) exTilted_meets

/-! ### Oriented boxes -/

/-- The edges of an oriented box belong to it. -/
theorem obb_edge {b : OBB ℝ} (hb : b.Valid) (i : Fin 12) {x : V3 ℝ} (hx : x ∈ seg (b.edge i).a (b.edge i).b) : x ∈ b.points := by
  obtain ⟨-, h1, h2, h3⟩ := hb
  have key : ∀ p q : V3 ℝ, p ∈ b.points → q ∈ b.points → x ∈ seg p q → x ∈ b.points := by
    rintro p q hp hq ⟨t, t0, t1, rfl⟩
    have e : p + t • (q - p) = (1 - t) • p + t • q := by
      ext <;> simp only [add_x, add_y, add_z, sub_x, sub_y, sub_z, smul_x, smul_y, smul_z] <;> ring
    rw [e]
    exact obb_convex3 b p hp q hq (1 - t) t (by linarith) t0 (by ring)
  have corner : ∀ j : Fin 8, b.cornerPoint j ∈ b.points := by
    intro j
    have mk : ∀ s t k : ℝ, (s = b.r.x ∨ s = -b.r.x) → (t = b.r.y ∨ t = -b.r.y) → (k = b.r.z ∨ k = -b.r.z) →
        b.pos + s • b.axis0 + t • b.axis1 + k • b.axis2 ∈ b.points := by
      intro s t k hs ht hk
      refine ⟨s, t, k, ?_, ?_, ?_, ?_, ?_, ?_, rfl⟩
      · rcases hs with rfl | rfl <;> linarith
      · rcases hs with rfl | rfl <;> linarith
      · rcases ht with rfl | rfl <;> linarith
      · rcases ht with rfl | rfl <;> linarith
      · rcases hk with rfl | rfl <;> linarith
      · rcases hk with rfl | rfl <;> linarith
    have e : ∃ s t k : ℝ, (s = b.r.x ∨ s = -b.r.x) ∧ (t = b.r.y ∨ t = -b.r.y) ∧ (k = b.r.z ∨ k = -b.r.z) ∧
        b.cornerPoint j = b.pos + s • b.axis0 + t • b.axis1 + k • b.axis2 := by
      fin_cases j
      · exact ⟨-b.r.x, -b.r.y, -b.r.z, by simp, by simp, by simp, by ext <;> simp [OBB.cornerPoint] <;> ring⟩
      · exact ⟨-b.r.x, -b.r.y, b.r.z, by simp, by simp, by simp, by ext <;> simp [OBB.cornerPoint] <;> ring⟩
      · exact ⟨-b.r.x, b.r.y, -b.r.z, by simp, by simp, by simp, by ext <;> simp [OBB.cornerPoint] <;> ring⟩
      · exact ⟨-b.r.x, b.r.y, b.r.z, by simp, by simp, by simp, by ext <;> simp [OBB.cornerPoint] <;> ring⟩
      · exact ⟨b.r.x, -b.r.y, -b.r.z, by simp, by simp, by simp, by ext <;> simp [OBB.cornerPoint] <;> ring⟩
      · exact ⟨b.r.x, -b.r.y, b.r.z, by simp, by simp, by simp, by ext <;> simp [OBB.cornerPoint] <;> ring⟩
      · exact ⟨b.r.x, b.r.y, -b.r.z, by simp, by simp, by simp, by ext <;> simp [OBB.cornerPoint] <;> ring⟩
      · exact ⟨b.r.x, b.r.y, b.r.z, by simp, by simp, by simp, by ext <;> simp [OBB.cornerPoint]⟩
    obtain ⟨s, t, k, hs, ht, hk, e⟩ := e
    rw [e]; exact mk s t k hs ht hk
  refine key _ _ ?_ ?_ hx <;> fin_cases i <;> simp only [OBB.edge, corner]

/-- A segment which `OBB::Intersects(LineSegment)` judges exactly. -/
def ClearSegOBB (o : OBB ℝ) (a b : V3 ℝ) : Prop := 1 / 10000 < len (b - a) ∧ ClearDir (dot (b - a) o.axis0 / len (b - a)) ∧
  ClearDir (dot (b - a) o.axis1 / len (b - a)) ∧ ClearDir (dot (b - a) o.axis2 / len (b - a))

/-- C85: a planar polygon that is reported to intersect an oriented box comes within `2e-4` of it, if the edges of the polygon are not nearly
parallel to the faces of the box unless exactly so, and no edge of the box is nearly parallel to the plane. Missing: the other polygons. -/
theorem C85_obb_near_partial (o : V3 ℝ) (r : List (V3 ℝ)) (n : V3 ℝ) (d : ℝ) (hn : dot n n = 1) (hp : ∀ x ∈ o :: r, dot n x = d)
    (ht : HasTriangle (o :: r)) (he : FirstEdge (o :: r)) (b : OBB ℝ) (hb : b.Valid) (hc : ∀ x y, IsEdge (o :: r) x y → ClearSegOBB b x y)
    (hs : ∀ i, 1 / 10000 ≤ |dot n ((b.edge i).b - (b.edge i).a)|) (h : intersectsOBB o r b = some true) :
    ∃ x ∈ hull3 (o :: r), ∃ y ∈ b.points, dist x y ≤ 2 / 10000 := by
  unfold intersectsOBB at h
  obtain ⟨c, -, h⟩ := Option.bind_eq_some_iff.1 h
  split_ifs at h with h1
  · simp at h
  unfold convexIntersectsOBBEdges at h
  dsimp only at h
  split_ifs at h with h2 h3
  · obtain ⟨⟨x, y⟩, hm, hi⟩ := List.any_eq_true.1 h2
    rw [edgeLoop_iff] at hm
    obtain ⟨k1, k2, k3, k4⟩ := hc x y hm
    obtain ⟨z, hz1, hz2⟩ := (C65_segment_partial b hb ⟨x, y⟩ k1 k2 k3 k4).1.1 hi
    refine ⟨z, seg_hull (isEdge_mem hm).1 (isEdge_mem hm).2 hz1, z, hz2, ?_⟩
    rw [dist_le_iff (by norm_num)]
    have : distSq z z = 0 := by simp [distSq, lenSq, dot]
    rw [this]; norm_num
  · simp only [Option.some.injEq, List.any_eq_true, List.mem_map] at h
    obtain ⟨q, ⟨i, -, rfl⟩, hq⟩ := h
    have hq' : intersectsSeg (o :: r) (b.edge i) = some true := by
      rcases e : intersectsSeg (o :: r) (b.edge i) with _ | v
      · rw [e] at hq; cases hq
      · rw [e] at hq; rw [show v = true from hq]
    obtain ⟨x, hx, y, hy, hd⟩ := (C85_intersects_near (o :: r) n d hn hp ht he).1 _ (hs i) hq'
    refine ⟨y, hy, x, obb_edge hb i hx, ?_⟩
    rw [dist_le_iff (by norm_num)] at hd ⊢
    have e : distSq y x = distSq x y := by simp only [distSq, lenSq, dot, sub_x, sub_y, sub_z]; ring
    rw [e]; exact hd

/-- C85: a planar polygon is reported to intersect an oriented box if an edge of the polygon meets the box, or if the polygon is strictly
convex and an edge of the box passes through a point of it that is more than `2e-4` away from its boundary, unless GJK gives up. -/
theorem C85_obb_meets_partial (o : V3 ℝ) (r : List (V3 ℝ)) (n : V3 ℝ) (hp : ConvexPolygon n (o :: r))
    (ht : (o :: r).length = 3 ∨ HasTriangle (o :: r)) (he : FirstEdge (o :: r)) (b : OBB ℝ) (hb : b.Valid)
    (hg : GJK.run (polygonSupport o r) b.support ≠ some .gaveUp)
    (h : (∃ x y, IsEdge (o :: r) x y ∧ ClearSegOBB b x y ∧ (seg x y ∩ b.points).Nonempty) ∨
      ∃ i, ∃ q ∈ seg (b.edge i).a (b.edge i).b, 1 / 10000 ≤ |dot n ((b.edge i).b - (b.edge i).a)| ∧ (∀ x ∈ o :: r, dot n q = dot n x) ∧
        ∃ ρ : ℝ, 2 / 10000 < ρ ∧ ∀ y, dot n y = dot n q → dist q y ≤ ρ → y ∈ hull3 (o :: r)) :
    intersectsOBB o r b = some true := by
  obtain ⟨c, hc, -, hf⟩ := C76_intersect_partial (polygon_describes o r) (b.describes hb.rx hb.ry hb.rz) (hull3_convex3 _) (obb_convex3 b)
  have hmeet : ∃ x ∈ hull3 (o :: r), x ∈ b.points := by
    rcases h with ⟨x, y, h1, -, z, h2, h3⟩ | ⟨i, q, hq, -, -, ρ, h1, h2⟩
    · exact ⟨z, seg_hull (isEdge_mem h1).1 (isEdge_mem h1).2 h2, h3⟩
    · refine ⟨q, h2 q rfl ?_, obb_edge hb i hq⟩
      rw [dist_le_iff (by linarith)]
      have : distSq q q = 0 := by simp [distSq, lenSq, dot]
      rw [this]; positivity
  have hct : c = true := by
    rcases Bool.eq_false_or_eq_true c with hc' | hc'
    · exact hc'
    · rcases hf hc' with h' | h'
      · obtain ⟨x, h1, h2⟩ := hmeet
        exact absurd h2 (h' x h1)
      · exact absurd h' hg
  unfold intersectsOBB polygonConvexIntersectsOBB
  rw [hc, hct]
  simp only [Option.bind_some, Bool.not_true, Bool.false_eq_true, if_false]
  unfold convexIntersectsOBBEdges
  dsimp only
  split_ifs with h1 h2
  · rfl
  · exfalso
    obtain ⟨i, -, hi⟩ := List.mem_map.1 h2
    exact intersectsSeg_some (by simp) (planeCCW_convex hp (o := o) rfl (ht.imp id hasTriangle_iff)) _ hi
  · rcases h with ⟨x, y, hm, ⟨k1, k2, k3, k4⟩, hz⟩ | ⟨i, q, hq, hl, hqp, ρ, hρ, hin⟩
    · exfalso
      apply h1
      exact List.any_eq_true.2 ⟨(x, y), (edgeLoop_iff o r x y).2 hm, (C65_segment_partial b hb ⟨x, y⟩ k1 k2 k3 k4).1.2 hz⟩
    · have := (C85_intersects_inside (o :: r) n hp ht he q hqp ρ hρ hin).1 (b.edge i) hl hq
      rw [Option.some.injEq, List.any_eq_true]
      exact ⟨_, List.mem_map.2 ⟨i, List.mem_finRange i, rfl⟩, by rw [this]; rfl⟩

/-- A rotated box around the first corner of the tilted square. -/
noncomputable def exTurned : OBB ℝ := ⟨0, ⟨1, 1, 1⟩, ⟨3 / 5, 4 / 5, 0⟩, ⟨-4 / 5, 3 / 5, 0⟩, ⟨0, 0, 1⟩⟩

theorem exTurned_valid : exTurned.Valid := by
  refine ⟨⟨?_, ?_, ?_, ?_, ?_, ?_⟩, ?_, ?_, ?_⟩ <;> norm_num [exTurned, dot, lenSq]

theorem exTilted_clearOBB : ∀ x y, IsEdge (0 :: exTilted) x y → ClearSegOBB exTurned x y := by
  intro x y h
  have h := (edgeLoop_iff 0 exTilted x y).2 h
  simp only [edgeLoop, exTilted, List.getLastD_cons, List.getLastD_nil, List.zip_cons_cons, List.zip_nil_right, List.mem_cons, List.not_mem_nil,
    or_false, Prod.mk.injEq] at h
  rcases h with ⟨rfl, rfl⟩ | ⟨rfl, rfl⟩ | ⟨rfl, rfl⟩ | ⟨rfl, rfl⟩ <;> unfold ClearSegOBB <;>
    rw [exTilted_len (by norm_num [lenSq, dot])] <;>
    norm_num [ClearDir, exTurned, dot, abs_of_pos, abs_of_neg]

theorem exTurned_meets : intersectsOBB 0 exTilted exTurned = some true := by
  refine C85_obb_meets_partial 0 exTilted _ exTilted_convex (Or.inr exTilted_big) exTilted_edge exTurned exTurned_valid ?_
    (Or.inl ⟨0, ⟨2, 1, -2⟩, ⟨0, rfl, rfl⟩, exTilted_clearOBB _ _ ⟨0, rfl, rfl⟩, 0, ⟨0, le_rfl, by norm_num, by ext <;> simp⟩,
      0, 0, 0, by norm_num [exTurned], by norm_num [exTurned], by norm_num [exTurned], by norm_num [exTurned], by norm_num [exTurned],
      by norm_num [exTurned], by ext <;> simp [exTurned]⟩)
  unfold GJK.run
  dsimp only [polygonSupport, OBB.support]
  rw [if_pos (by norm_num [lenSq, dot, exTurned])]
  simp

example := C85_obb_near_partial 0 exTilted ⟨-1 / 3, -2 / 3, -2 / 3⟩ 0 (by norm_num [dot])
  (by intro x hx; simp only [exTilted, List.mem_cons, List.not_mem_nil, or_false] at hx
      rcases hx with rfl | rfl | rfl | rfl <;> norm_num [dot])
  exTilted_big exTilted_edge exTurned exTurned_valid exTilted_clearOBB
  (by intro i; fin_cases i <;> norm_num [OBB.edge, OBB.cornerPoint, exTurned, dot, abs_of_neg, abs_of_pos]) exTurned_meets

end Polygon
end MGL
