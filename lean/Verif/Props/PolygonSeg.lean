import Verif.Model.PolygonSeg
import Verif.Spec.MeshMeasure
import Verif.Props.PolygonTriangulate
import Verif.Props.Capsule

/-! Property C86, continued: the queries of polygons with line segments and capsules. -/

set_option linter.unusedSectionVars false

namespace MGL
open V3 Spec

/-- The line through the segment is clear of the triangle (see `Spec.ClearOfTriangle`), and either crosses the triangle's plane or the
segment misses the triangle. -/
def Spec.SegClearOf (l m : V3 ℝ) (t : V3 ℝ × V3 ℝ × V3 ℝ) : Prop :=
  Spec.ClearOfTriangle l (m - l) t.1 t.2.1 t.2.2 ∧
    (dot (m - l) (cross (t.2.1 - t.1) (t.2.2 - t.1)) ≠ 0 ∨ ∀ x ∈ Spec.tri t.1 t.2.1 t.2.2, x ∉ Spec.seg l m)

namespace Polygon

theorem closestSegLoop_spec (l : LineSeg ℝ) (T : Set (V3 ℝ)) (S : Tri ℝ → Set (V3 ℝ)) :
    ∀ (ts : List (Tri ℝ)) (best : Option (V3 ℝ × V3 ℝ)) (d : ℝ),
    (∀ t ∈ ts, ∃ q r, t.closestSeg l = some (q, r) ∧ IsClosestPair (S t) T q r) →
    (closestSegLoop l ts best d = best ∧ ∀ t ∈ ts, ∀ y ∈ S t, ∀ s ∈ T, d ≤ distSq y s) ∨
    ∃ q r, closestSegLoop l ts best d = some (q, r) ∧ (∃ t ∈ ts, q ∈ S t) ∧ r ∈ T ∧ distSq q r < d ∧
      ∀ t ∈ ts, ∀ y ∈ S t, ∀ s ∈ T, distSq q r ≤ distSq y s := by
  intro ts
  induction ts with
  | nil => intro best d _; exact Or.inl ⟨rfl, by simp⟩
  | cons t ts ih =>
    intro best d h
    obtain ⟨q, r, hq, hqS, hrT, hmin⟩ := h t (by simp)
    have hts : ∀ t ∈ ts, ∃ q r, t.closestSeg l = some (q, r) ∧ IsClosestPair (S t) T q r := fun t' h' => h t' (by simp [h'])
    rw [closestSegLoop, hq]
    dsimp only
    split_ifs with h1
    · rcases ih (some (q, r)) (distSq q r) hts with ⟨e, h2⟩ | ⟨q', r', e, ⟨t', h3, h4⟩, hr', h5, h6⟩
      · refine Or.inr ⟨q, r, e, ⟨t, by simp, hqS⟩, hrT, h1, ?_⟩
        intro t' h' y hy
        rcases List.mem_cons.1 h' with rfl | h'
        · exact hmin y hy
        · exact h2 t' h' y hy
      · refine Or.inr ⟨q', r', e, ⟨t', by simp [h3], h4⟩, hr', h5.trans h1, ?_⟩
        intro t' h' y hy s hs
        rcases List.mem_cons.1 h' with rfl | h'
        · exact h5.le.trans (hmin y hy s hs)
        · exact h6 t' h' y hy s hs
    · rcases ih best d hts with ⟨e, h2⟩ | ⟨q', r', e, ⟨t', h3, h4⟩, hr', h5, h6⟩
      · refine Or.inl ⟨e, ?_⟩
        intro t' h' y hy s hs
        rcases List.mem_cons.1 h' with rfl | h'
        · exact (not_lt.1 h1).trans (hmin y hy s hs)
        · exact h2 t' h' y hy s hs
      · refine Or.inr ⟨q', r', e, ⟨t', by simp [h3], h4⟩, hr', h5, ?_⟩
        intro t' h' y hy s hs
        rcases List.mem_cons.1 h' with rfl | h'
        · exact (h5.le.trans (not_lt.1 h1)).trans (hmin y hy s hs)
        · exact h6 t' h' y hy s hs

/-- C86: `ClosestPoint(LineSegment)` on a strictly convex polygon returns a nearest pair of the polygon and the segment, as long as some
pair has a squared distance below `FLT_MAX` and the segment is clear of the triangles of the fan from the first vertex. Missing: segments
that pass the edges of these triangles within the tolerances of the triangle test. -/
theorem C86_closestSeg_partial (p : List (V3 ℝ)) (n : V3 ℝ) (hc : ConvexPolygon n p) (ht : p.length = 3 ∨ HasTriangle p) (he : FirstEdge p)
    (l : LineSeg ℝ) (hl : l.a ≠ l.b) (hclear : ∀ t ∈ Spec.fanOf p, Spec.SegClearOf l.a l.b t)
    (hx : ∃ y ∈ hull3 p, ∃ s ∈ seg l.a l.b, distSq y s < Polyhedron.fltMax) :
    ∃ q r, closestSeg p l = some (some (q, r)) ∧ IsClosestPair (hull3 p) (seg l.a l.b) q r := by
  rcases p with _ | ⟨a, r⟩
  · have := hc.2.1; simp at this
  · unfold closestSeg
    rw [C86_triangulate_convex a r n hc ht he, Option.map_some]
    obtain ⟨y, hy, s, hs, hy2⟩ := hx
    rcases closestSegLoop_spec l (seg l.a l.b) (fun t => tri t.a t.b t.c) ((fan a r).map fun t => ⟨t.1, t.2.1, t.2.2⟩) none Polyhedron.fltMax (by
      intro t h
      obtain ⟨t', h', rfl⟩ := List.mem_map.1 h
      have := fan_distinct hc h'
      exact C31_closest_segment_partial ⟨t'.1, t'.2.1, t'.2.2⟩ this.1 this.2.1 this.2.2 l hl (hclear t' h').1 (hclear t' h').2)
      with ⟨-, h⟩ | ⟨q, w, e, ⟨t, h1, h2⟩, hw, -, h3⟩
    · obtain ⟨t, h1, h2⟩ := (fan_hull hc ht he y).1 hy
      exact absurd hy2 (not_lt.2 (h _ (List.mem_map_of_mem h1) y h2 s hs))
    · refine ⟨q, w, by rw [e], ?_, hw, ?_⟩
      · obtain ⟨t', h', rfl⟩ := List.mem_map.1 h1
        exact (fan_hull hc ht he q).2 ⟨t', h', h2⟩
      · intro s hs u hu
        obtain ⟨t, h4, h5⟩ := (fan_hull hc ht he s).1 hs
        exact h3 _ (List.mem_map_of_mem h4) s h5 u hu

/-- C86: `Intersects(Capsule)` on a strictly convex polygon decides whether it has a point in the capsule, if the capsule's segment is
clear of the triangles of the fan from the first vertex. Missing: the same segments as in `C86_closestSeg_partial`. -/
theorem C86_intersectsCapsule_partial (p : List (V3 ℝ)) (n : V3 ℝ) (hc : ConvexPolygon n p) (ht : p.length = 3 ∨ HasTriangle p)
    (he : FirstEdge p) (a b : V3 ℝ) (rad : ℝ) (hr : 0 ≤ rad) (hl : a ≠ b) (hclear : ∀ t ∈ Spec.fanOf p, Spec.SegClearOf a b t) :
    ∃ v, intersectsCapsule p ⟨⟨a, b⟩, rad⟩ = some v ∧ (v = true ↔ ∃ x ∈ hull3 p, x ∈ Spec.capsule a b rad) := by
  rcases p with _ | ⟨o, r⟩
  · have := hc.2.1; simp at this
  · unfold intersectsCapsule
    rw [C86_triangulate_convex o r n hc ht he, Option.map_some]
    refine ⟨_, rfl, ?_⟩
    rw [List.any_eq_true]
    have key : ∀ t ∈ fan o r, (((⟨⟨a, b⟩, rad⟩ : Capsule ℝ).intersectsTri ⟨t.1, t.2.1, t.2.2⟩).getD false = true ↔
        ∃ x ∈ tri t.1 t.2.1 t.2.2, x ∈ Spec.capsule a b rad) := by
      intro t h
      have hd := fan_distinct hc h
      obtain ⟨v, e, hv⟩ := C69_intersects_triangle_partial ⟨⟨a, b⟩, rad⟩ hr hl ⟨t.1, t.2.1, t.2.2⟩ hd.1 hd.2.1 hd.2.2
        (hclear t h).1 (hclear t h).2
      rw [e, Option.getD_some, hv]
      constructor
      · rintro ⟨x, h1, h2⟩; exact ⟨x, h2, h1⟩
      · rintro ⟨x, h1, h2⟩; exact ⟨x, h2, h1⟩
    constructor
    · rintro ⟨t, h1, h2⟩
      obtain ⟨t', h', rfl⟩ := List.mem_map.1 h1
      obtain ⟨x, hx, hb⟩ := (key t' h').1 h2
      exact ⟨x, (fan_hull hc ht he x).2 ⟨t', h', hx⟩, hb⟩
    · rintro ⟨x, hx, hb⟩
      obtain ⟨t, h1, h2⟩ := (fan_hull hc ht he x).1 hx
      exact ⟨_, List.mem_map_of_mem h1, (key t h1).2 ⟨x, h2, hb⟩⟩

/-- A segment beside the square that runs towards its plane. -/
theorem exSeg_clear : ∀ t ∈ Spec.fanOf exSquare, Spec.SegClearOf ⟨-3, 0, 1⟩ ⟨-3, 0, 2⟩ t := by
  have e : (⟨-3, 0, 2⟩ : V3 ℝ) - ⟨-3, 0, 1⟩ = ⟨0, 0, 1⟩ := by ext <;> norm_num
  intro t h
  simp only [exSquare, Spec.fanOf, Spec.fan, List.mem_cons, List.not_mem_nil, or_false] at h
  rcases h with rfl | rfl
  all_goals
    refine ⟨⟨Or.inr ?_, fun t u v e hu hv huv => ?_⟩, Or.inl ?_⟩
    · rw [e]; norm_num [dot, cross]
    · have ex := congrArg V3.x e
      simp at ex
      exact absurd hu (by linarith)
    · rw [e]; norm_num [dot, cross]

example := C86_closestSeg_partial exSquare ⟨0, 0, 1⟩ exSquare_convex (Or.inr exSquare_big) exSquare_edge ⟨⟨-3, 0, 1⟩, ⟨-3, 0, 2⟩⟩
  (by simp) exSeg_clear
  ⟨⟨0, 0, 0⟩, exSquare_hull (by norm_num) (by norm_num) (by norm_num) (by norm_num), ⟨-3, 0, 1⟩, ⟨0, by simp, by simp, by ext <;> simp⟩,
    by norm_num [distSq, lenSq, dot, Polyhedron.fltMax]⟩

example := C86_intersectsCapsule_partial exSquare ⟨0, 0, 1⟩ exSquare_convex (Or.inr exSquare_big) exSquare_edge ⟨-3, 0, 1⟩ ⟨-3, 0, 2⟩ 4
  (by norm_num) (by simp) exSeg_clear

end Polygon
end MGL
