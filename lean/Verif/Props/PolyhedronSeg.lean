import Verif.Model.PolyhedronSeg
import Verif.Props.PolyhedronContains
import Verif.Props.PolygonSeg

/-! Property C98, continued: the point of a convex polyhedron closest to a line segment, and the test against capsules. -/

set_option linter.unusedSectionVars false

namespace MGL
open V3 Spec
namespace Polyhedron

/-- The loop keeps the closest of the pairs found. -/
theorem closestSegLoop_spec (p : Polyhedron ℝ) (l : LineSeg ℝ) (T : Set (V3 ℝ)) (S : List ℤ → Set (V3 ℝ)) :
    ∀ (fs : List (List ℤ)) (best : Option (V3 ℝ × V3 ℝ)) (d : ℝ),
    (∀ f ∈ fs, ∃ poly q r, f.mapM p.vertex = some poly ∧ Polygon.closestSeg poly l = some (some (q, r)) ∧ IsClosestPair (S f) T q r) →
    (p.closestSegLoop l fs best d = some best ∧ ∀ f ∈ fs, ∀ y ∈ S f, ∀ s ∈ T, d ≤ distSq y s) ∨
    ∃ q r, p.closestSegLoop l fs best d = some (some (q, r)) ∧ (∃ f ∈ fs, q ∈ S f) ∧ r ∈ T ∧ distSq q r < d ∧
      ∀ f ∈ fs, ∀ y ∈ S f, ∀ s ∈ T, distSq q r ≤ distSq y s := by
  intro fs
  induction fs with
  | nil => intro best d _; exact Or.inl ⟨rfl, by simp⟩
  | cons f fs ih =>
    intro best d h
    obtain ⟨poly, q, r, h1, h2, h3, hr, hq⟩ := h f (by simp)
    have e : p.closestSegLoop l (f :: fs) best d =
        if distSq q r < d then p.closestSegLoop l fs (some (q, r)) (distSq q r) else p.closestSegLoop l fs best d := by
      rw [closestSegLoop, h1]
      simp only [Option.bind_eq_bind, Option.bind_some, h2]
    rw [e]
    have ih' := fun best d => ih best d fun g hg => h g (by simp [hg])
    split_ifs with hc
    · right
      rcases ih' (some (q, r)) (distSq q r) with ⟨e, h⟩ | ⟨q', r', e, ⟨g, hg, hg'⟩, hr', h5, h6⟩
      · refine ⟨q, r, e, ⟨f, by simp, h3⟩, hr, hc, fun g hg y hy => ?_⟩
        rcases List.mem_cons.1 hg with rfl | hg
        · exact hq y hy
        · exact h g hg y hy
      · refine ⟨q', r', e, ⟨g, by simp [hg], hg'⟩, hr', h5.trans hc, fun g hg y hy s hs => ?_⟩
        rcases List.mem_cons.1 hg with rfl | hg
        · exact h5.le.trans (hq y hy s hs)
        · exact h6 g hg y hy s hs
    · rw [not_lt] at hc
      rcases ih' best d with ⟨e, h⟩ | ⟨q', r', e, ⟨g, hg, hg'⟩, hr', h5, h6⟩
      · refine Or.inl ⟨e, fun g hg y hy s hs => ?_⟩
        rcases List.mem_cons.1 hg with rfl | hg
        · exact hc.trans (hq y hy s hs)
        · exact h g hg y hy s hs
      · refine Or.inr ⟨q', r', e, ⟨g, by simp [hg], hg'⟩, hr', h5, fun g hg y hy s hs => ?_⟩
        rcases List.mem_cons.1 hg with rfl | hg
        · exact h5.le.trans (hc.trans (hq y hy s hs))
        · exact h6 g hg y hy s hs

/-- C98: on a convex polyhedron as in `C98_contains_partial`, `ClosestPoint(LineSegment)` returns a nearest pair of points of the convex hull
of the vertices and the segment, if both ends of the segment meet the conditions of `C98_contains_partial` and, when both are outside, the
segment is clear of the triangles of the faces. Missing: as there, and segments that pass the edges of these triangles within the tolerances
of the triangle test. -/
theorem C98_closestSeg_partial (p : Polyhedron ℝ) (hs : ConvexSurface p.v p.f) (h4 : 4 ≤ p.v.length) (h0 : p.f ≠ [])
    (hcop : NoTwoCoplanar p.v p.f)
    (hf : ∀ f ∈ p.f, (∃ n, ConvexPolygon n (f.map (corner p.v))) ∧ HasTriangle (f.map (corner p.v)) ∧ FirstEdge (f.map (corner p.v)))
    (l : LineSeg ℝ) (ha : ClearPoint (11184811 / 33554432) p.v p.f l.a) (hb : ClearPoint (11184811 / 33554432) p.v p.f l.b)
    (hclear : l.a ∉ hull3 p.v → l.b ∉ hull3 p.v →
      l.a ≠ l.b ∧ ∀ f ∈ p.f, ∀ t ∈ Spec.fanOf (f.map (corner p.v)), Spec.SegClearOf l.a l.b t) :
    ∃ q r, p.closestSeg l = some (some (q, r)) ∧ IsClosestPair (hull3 p.v) (seg l.a l.b) q r := by
  obtain ⟨ba, a1, a2⟩ := C98_contains_partial p hs h4 h0 hcop hf l.a ha
  obtain ⟨bb, b1, b2⟩ := C98_contains_partial p hs h4 h0 hcop hf l.b hb
  have hself : ∀ x ∈ hull3 p.v, x ∈ seg l.a l.b → IsClosestPair (hull3 p.v) (seg l.a l.b) x x := fun x h1 h2 =>
    ⟨h1, h2, fun s _ t _ => by rw [distSq_self]; exact distSq_nonneg _ _⟩
  have hA : l.a ∈ seg l.a l.b := ⟨0, by simp, by simp, by ext <;> simp⟩
  have hB : l.b ∈ seg l.a l.b := ⟨1, by simp, by simp, by ext <;> simp⟩
  rcases ba with _ | _
  swap
  · exact ⟨l.a, l.a, by rw [closestSeg, a1]; rfl, hself _ (a2.1 rfl) hA⟩
  rcases bb with _ | _
  swap
  · exact ⟨l.b, l.b, by rw [closestSeg, a1, b1]; rfl, hself _ (b2.1 rfl) hB⟩
  have houtA : l.a ∉ hull3 p.v := fun h => by have := a2.2 h; cases this
  have houtB : l.b ∉ hull3 p.v := fun h => by have := b2.2 h; cases this
  have hcall : p.closestSeg l = p.closestSegLoop l p.f none fltMax := by rw [closestSeg, a1, b1]; rfl
  obtain ⟨hne, hclr⟩ := hclear houtA houtB
  have hcor : ∀ f ∈ p.f, ∀ i ∈ f, corner p.v i ∈ p.v := by
    intro f hf i hi
    have := (hs.valid f hf).2.2 i hi
    obtain ⟨m, rfl⟩ := Int.eq_ofNat_of_zero_le this.1
    have hm : m < p.v.length := by exact_mod_cast this.2
    simp [corner, List.getD_eq_getElem?_getD, List.getElem?_eq_getElem hm]
  have hsub : ∀ f ∈ p.f, ∀ y ∈ hull3 (f.map (corner p.v)), y ∈ hull3 p.v := fun f hf y hy =>
    hull_mono (fun v hv => by
      obtain ⟨i, hi, rfl⟩ := List.mem_map.1 hv
      exact mem_hull (hcor f hf i hi)) hy
  have hx : ∀ v ∈ p.v, distSq v l.a < fltMax := fun v hv => by
    have a1 := ha.near v hv
    have a2 : V3.dist l.a v * V3.dist l.a v = distSq l.a v := len_mul_self (l.a - v)
    have a3 : 0 ≤ V3.dist l.a v := len_nonneg (l.a - v)
    rw [distSq_comm, ← a2]
    have a4 : (10000 * 10000 : ℝ) < fltMax := by norm_num [fltMax]
    nlinarith
  have hnear : ∀ f ∈ p.f, ∃ y ∈ hull3 (f.map (corner p.v)), ∃ s ∈ seg l.a l.b, distSq y s < fltMax := by
    intro f hf
    rcases f with _ | ⟨a, f⟩
    · have := (hs.valid _ hf).1; simp at this
    · exact ⟨corner p.v a, mem_hull (by simp), l.a, hA, hx _ (hcor _ hf a (by simp))⟩
  have hloop := closestSegLoop_spec p l (seg l.a l.b) (fun f => hull3 (f.map (corner p.v))) p.f none fltMax fun f hfm => by
    obtain ⟨⟨n, hc⟩, ht, hfe⟩ := hf f hfm
    obtain ⟨q, r, h1, h2⟩ := Polygon.C86_closestSeg_partial _ n hc (Or.inr ht) hfe l hne (hclr f hfm) (hnear f hfm)
    exact ⟨_, q, r, mapM_vertex hs.valid hfm, h1, h2⟩
  rcases hloop with ⟨-, h⟩ | ⟨q, r, e, ⟨f, hfm, hq⟩, hr, -, hmin⟩
  · obtain ⟨f, hfm⟩ := List.exists_mem_of_ne_nil _ h0
    obtain ⟨y, hy, s, hs', hy'⟩ := hnear f hfm
    exact absurd hy' (not_lt.2 (h f hfm y hy s hs'))
  refine ⟨q, r, hcall.trans e, hsub f hfm q hq, hr, fun y hy s hsg => ?_⟩
  have hsec : ∀ g ∈ p.f, ∀ z ∈ hull3 p.v, (∀ a ∈ g, dot (cornerNormal (g.map (corner p.v))) (z - corner p.v a) = 0) →
      z ∈ hull3 (g.map (corner p.v)) := by
    intro g hg z hz hpl
    obtain ⟨⟨n, hc⟩, ht, o, q', r', e', hfe⟩ := hf g hg
    have B : Polygon.LocalBasis (g.map (corner p.v)) n := by
      rw [e'] at hc ht ⊢
      exact Polygon.convexBasis hc (Or.inr (Polygon.hasTriangle_iff ht)) hfe
    exact face_eq_section hs h0 (sharp_of_noTwoCoplanar hs hcop) hg hc B hz hpl
  by_cases hin : s ∈ hull3 p.v
  · obtain ⟨g, hg, t, t0, t1, hz, hpl⟩ := exit_face hs h0 hin houtA
    have hzs : s + t • (l.a - s) ∈ seg l.a l.b := by
      obtain ⟨k, k0, k1, rfl⟩ := hsg
      refine ⟨k * (1 - t), by nlinarith, by nlinarith, ?_⟩
      ext <;> simp only [sub_x, sub_y, sub_z, add_x, add_y, add_z, smul_x, smul_y, smul_z] <;> ring
    have := hmin g hg _ (hsec g hg _ hz hpl) _ hzs
    rw [distSq_self] at this
    exact this.trans (distSq_nonneg _ _)
  · obtain ⟨g, hg, t, t0, t1, hz, hpl⟩ := exit_face hs h0 hy hin
    exact (hmin g hg _ (hsec g hg _ hz hpl) s hsg).trans
      (distSq_shrink t0 t1 (by ext <;> simp only [sub_x, sub_y, sub_z, add_x, add_y, add_z, smul_x, smul_y, smul_z] <;> ring))

/-- C98: under the same conditions, `Intersects(Capsule)` tells whether the polyhedron has a point in the capsule. -/
theorem C98_intersectsCapsule_partial (p : Polyhedron ℝ) (hs : ConvexSurface p.v p.f) (h4 : 4 ≤ p.v.length) (h0 : p.f ≠ [])
    (hcop : NoTwoCoplanar p.v p.f)
    (hf : ∀ f ∈ p.f, (∃ n, ConvexPolygon n (f.map (corner p.v))) ∧ HasTriangle (f.map (corner p.v)) ∧ FirstEdge (f.map (corner p.v)))
    (l : LineSeg ℝ) (rad : ℝ) (ha : ClearPoint (11184811 / 33554432) p.v p.f l.a) (hb : ClearPoint (11184811 / 33554432) p.v p.f l.b)
    (hclear : l.a ∉ hull3 p.v → l.b ∉ hull3 p.v →
      l.a ≠ l.b ∧ ∀ f ∈ p.f, ∀ t ∈ Spec.fanOf (f.map (corner p.v)), Spec.SegClearOf l.a l.b t) :
    ∃ b, p.intersectsCapsule ⟨l, rad⟩ = some b ∧ (b = true ↔ ∃ x ∈ hull3 p.v, x ∈ Spec.capsule l.a l.b rad) := by
  obtain ⟨q, r, h1, h2, h3, h4⟩ := C98_closestSeg_partial p hs h4 h0 hcop hf l ha hb hclear
  refine ⟨_, by unfold intersectsCapsule; rw [h1]; rfl, ?_⟩
  simp only [Option.any_some, decide_eq_true_eq]
  constructor
  · intro h; exact ⟨q, h2, r, h3, h⟩
  · rintro ⟨x, hx, s, hs, h⟩; exact (h4 x hx s hs).trans h

/-! ### A segment through the corner tetrahedron, both ends of which are outside -/

set_option maxHeartbeats 1000000 in
theorem exCorner_clearA : ClearPoint (11184811 / 33554432) exCorner.v exCorner.f ⟨-3/2, -1, -1⟩ := by
  obtain ⟨c0, c1, c2, c3⟩ := exCorner_corners
  refine ⟨exCorner_off (by norm_num [lt_abs]) (by norm_num [lt_abs]) (by norm_num [lt_abs]) (by norm_num [lt_abs]), ?_, ?_⟩
  · intro v hv
    have : lenSq ((⟨-3/2, -1, -1⟩ : V3 ℝ) - v) ≤ 100 := by
      simp only [exCorner, List.mem_cons, List.not_mem_nil, or_false] at hv
      rcases hv with rfl | rfl | rfl | rfl <;> norm_num [lenSq, dot]
    have h3 := len_mul_self ((⟨-3/2, -1, -1⟩ : V3 ℝ) - v)
    have h4 := len_nonneg ((⟨-3/2, -1, -1⟩ : V3 ℝ) - v)
    have h5 : V3.dist (⟨-3/2, -1, -1⟩ : V3 ℝ) v = len ((⟨-3/2, -1, -1⟩ : V3 ℝ) - v) := rfl
    rw [h5]
    nlinarith
  · intro f hf
    refine ⟨_, rfl, ?_, exCorner_clear ?_⟩
    · refine exCorner_len ?_
      have hf' : f = [0, 2, 1] ∨ f = [0, 1, 3] ∨ f = [0, 3, 2] ∨ f = [1, 2, 3] := by simpa [exCorner] using hf
      rcases hf' with rfl | rfl | rfl | rfl <;> simp only [List.map_cons, List.map_nil, c0, c1, c2, c3] <;>
        norm_num [cornerSum, lenSq, dot]
    · intro t ht q hq hz
      have hf' : f = [0, 2, 1] ∨ f = [0, 1, 3] ∨ f = [0, 3, 2] ∨ f = [1, 2, 3] := by simpa [exCorner] using hf
      rcases hf' with rfl | rfl | rfl | rfl <;> simp only [List.map_cons, List.map_nil, c0, c1, c2, c3, cornerSum] at hq <;>
        have qx := congrArg V3.x hq <;> have qy := congrArg V3.y hq <;> have qz := congrArg V3.z hq <;>
        simp only [add_x, add_y, add_z, sub_x, sub_y, sub_z, smul_x, smul_y, smul_z] at qx qy qz <;>
        rcases hz with h | h | h | h
      · right; exact ⟨q.z, by simp, by linarith⟩
      · right; exact ⟨q.x, by simp, by linarith⟩
      · obtain rfl : t = (1) := by linarith
        left
        rw [qx, qy, qz]; norm_num [List.count_cons]
      · obtain rfl : t = (25165824 / 23301689) := by linarith
        left
        rw [qx, qy, qz]; norm_num [List.count_cons]
      · right; exact ⟨q.y, by simp, by linarith⟩
      · obtain rfl : t = (1) := by linarith
        left
        rw [qx, qy, qz]; norm_num [List.count_cons]
      · right; exact ⟨q.x, by simp, by linarith⟩
      · obtain rfl : t = (25165824 / 23301689) := by linarith
        left
        rw [qx, qy, qz]; norm_num [List.count_cons]
      · obtain rfl : t = (1) := by linarith
        left
        rw [qx, qy, qz]; norm_num [List.count_cons]
      · right; exact ⟨q.x, by simp, by linarith⟩
      · right; exact ⟨q.x, by simp, by linarith⟩
      · obtain rfl : t = (25165824 / 23301689) := by linarith
        left
        rw [qx, qy, qz]; norm_num [List.count_cons]
      · obtain rfl : t = (50331648 / 61516459) := by linarith
        left
        rw [qx, qy, qz]; norm_num [List.count_cons]
      · right; exact ⟨q.x, by simp, by linarith⟩
      · right; exact ⟨q.x, by simp, by linarith⟩
      · obtain rfl : t = (150994944 / 150994945) := by linarith
        left
        rw [qx, qy, qz]; norm_num [List.count_cons]

set_option maxHeartbeats 1000000 in
theorem exCorner_clearB : ClearPoint (11184811 / 33554432) exCorner.v exCorner.f ⟨1/2, 1/2, 1⟩ := by
  obtain ⟨c0, c1, c2, c3⟩ := exCorner_corners
  refine ⟨exCorner_off (by norm_num [lt_abs]) (by norm_num [lt_abs]) (by norm_num [lt_abs]) (by norm_num [lt_abs]), ?_, ?_⟩
  · intro v hv
    have : lenSq ((⟨1/2, 1/2, 1⟩ : V3 ℝ) - v) ≤ 100 := by
      simp only [exCorner, List.mem_cons, List.not_mem_nil, or_false] at hv
      rcases hv with rfl | rfl | rfl | rfl <;> norm_num [lenSq, dot]
    have h3 := len_mul_self ((⟨1/2, 1/2, 1⟩ : V3 ℝ) - v)
    have h4 := len_nonneg ((⟨1/2, 1/2, 1⟩ : V3 ℝ) - v)
    have h5 : V3.dist (⟨1/2, 1/2, 1⟩ : V3 ℝ) v = len ((⟨1/2, 1/2, 1⟩ : V3 ℝ) - v) := rfl
    rw [h5]
    nlinarith
  · intro f hf
    refine ⟨_, rfl, ?_, exCorner_clear ?_⟩
    · refine exCorner_len ?_
      have hf' : f = [0, 2, 1] ∨ f = [0, 1, 3] ∨ f = [0, 3, 2] ∨ f = [1, 2, 3] := by simpa [exCorner] using hf
      rcases hf' with rfl | rfl | rfl | rfl <;> simp only [List.map_cons, List.map_nil, c0, c1, c2, c3] <;>
        norm_num [cornerSum, lenSq, dot]
    · intro t ht q hq hz
      have hf' : f = [0, 2, 1] ∨ f = [0, 1, 3] ∨ f = [0, 3, 2] ∨ f = [1, 2, 3] := by simpa [exCorner] using hf
      rcases hf' with rfl | rfl | rfl | rfl <;> simp only [List.map_cons, List.map_nil, c0, c1, c2, c3, cornerSum] at hq <;>
        have qx := congrArg V3.x hq <;> have qy := congrArg V3.y hq <;> have qz := congrArg V3.z hq <;>
        simp only [add_x, add_y, add_z, sub_x, sub_y, sub_z, smul_x, smul_y, smul_z] at qx qy qz <;>
        rcases hz with h | h | h | h
      · right; exact ⟨q.z, by simp, by linarith⟩
      · right; exact ⟨q.z, by simp, by linarith⟩
      · obtain rfl : t = (1) := by linarith
        left
        rw [qx, qy, qz]; norm_num [List.count_cons]
      · obtain rfl : t = (16777216 / 22369621) := by linarith
        left
        rw [qx, qy, qz]; norm_num [List.count_cons]
      · right; exact ⟨q.y, by simp, by linarith⟩
      · obtain rfl : t = (1) := by linarith
        left
        rw [qx, qy, qz]; norm_num [List.count_cons]
      · right; exact ⟨q.y, by simp, by linarith⟩
      · obtain rfl : t = (16777216 / 22369621) := by linarith
        left
        rw [qx, qy, qz]; norm_num [List.count_cons]
      · obtain rfl : t = (1) := by linarith
        left
        rw [qx, qy, qz]; norm_num [List.count_cons]
      · right; exact ⟨q.x, by simp, by linarith⟩
      · right; exact ⟨q.x, by simp, by linarith⟩
      · obtain rfl : t = (16777216 / 22369621) := by linarith
        left
        rw [qx, qy, qz]; norm_num [List.count_cons]
      · right; exact ⟨q.z, by simp, by linarith⟩
      · right; exact ⟨q.z, by simp, by linarith⟩
      · obtain rfl : t = (33554432 / 22369621) := by linarith
        left
        rw [qx, qy, qz]; norm_num [List.count_cons]
      · obtain rfl : t = (33554432 / 33554431) := by linarith
        left
        rw [qx, qy, qz]; norm_num [List.count_cons]

theorem exSegThrough_clear : ∀ f ∈ exCorner.f, ∀ t ∈ Spec.fanOf (f.map (corner exCorner.v)),
    Spec.SegClearOf ⟨-3/2, -1, -1⟩ ⟨1/2, 1/2, 1⟩ t := by
  obtain ⟨c0, c1, c2, c3⟩ := exCorner_corners
  have e0 : (⟨1/2, 1/2, 1⟩ : V3 ℝ) - ⟨-3/2, -1, -1⟩ = ⟨2, 3/2, 2⟩ := by ext <;> norm_num
  intro f hf t h
  have hf' : f = [0, 2, 1] ∨ f = [0, 1, 3] ∨ f = [0, 3, 2] ∨ f = [1, 2, 3] := by simpa [exCorner] using hf
  rcases hf' with rfl | rfl | rfl | rfl <;>
    simp only [List.map_cons, List.map_nil, c0, c1, c2, c3, Spec.fanOf, Spec.fan, List.mem_cons, List.not_mem_nil, or_false] at h <;>
    subst h
  all_goals
    refine ⟨⟨Or.inr ?_, fun t u v e hu hv huv => ?_⟩, Or.inl ?_⟩
    · rw [e0]; norm_num [dot, cross, lt_abs]
    · rw [e0] at e
      have ex := congrArg V3.x e
      have ey := congrArg V3.y e
      have ez := congrArg V3.z e
      simp at ex ey ez
      refine ⟨?_, ?_, ?_⟩ <;> linarith
    · rw [e0]; norm_num [dot, cross]

example := C98_closestSeg_partial exCorner exCorner_convex (by simp [exCorner]) (by simp [exCorner]) exCorner_noTwoCoplanar exCorner_faces
  ⟨⟨-3/2, -1, -1⟩, ⟨1/2, 1/2, 1⟩⟩ exCorner_clearA exCorner_clearB fun _ _ => ⟨by norm_num [V3.ext_iff], exSegThrough_clear⟩

example := C98_intersectsCapsule_partial exCorner exCorner_convex (by simp [exCorner]) (by simp [exCorner]) exCorner_noTwoCoplanar exCorner_faces
  ⟨⟨-3/2, -1, -1⟩, ⟨1/2, 1/2, 1⟩⟩ 2 exCorner_clearA exCorner_clearB fun _ _ => ⟨by norm_num [V3.ext_iff], exSegThrough_clear⟩

end Polyhedron
end MGL
