import Verif.Spec.SharpEdges
import Verif.Proofs.PolyhedronClosest
import Verif.Proofs.Exit
import Verif.Props.PolygonTriangulate
import Verif.Props.PolyhedronMeasure
import Verif.Props.PolyhedronConvex

/-! C88: the closest point of a convex polyhedron. -/

set_option linter.unusedSectionVars false

namespace MGL
open V3 Spec
namespace Polyhedron

/-- The loop keeps the closest of the points found. -/
theorem closestConvexLoop_spec (p : Polyhedron ℝ) (x : V3 ℝ) (S : List ℤ → Set (V3 ℝ)) : ∀ (fs : List (List ℤ)) (best : Option (V3 ℝ)) (d : ℝ),
    (∀ f ∈ fs, ∃ poly q, f.mapM p.vertex = some poly ∧ Polygon.closestPoint poly x = some (some q) ∧ IsClosestPoint (S f) x q) →
    (p.closestConvexLoop x fs best d = some best ∧ ∀ f ∈ fs, ∀ y ∈ S f, d ≤ distSq y x) ∨
    ∃ q, p.closestConvexLoop x fs best d = some (some q) ∧ (∃ f ∈ fs, q ∈ S f) ∧ distSq q x < d ∧
      ∀ f ∈ fs, ∀ y ∈ S f, distSq q x ≤ distSq y x := by
  intro fs
  induction fs with
  | nil => intro best d _; exact Or.inl ⟨rfl, by simp⟩
  | cons f fs ih =>
    intro best d h
    obtain ⟨poly, q, h1, h2, h3, h4⟩ := h f (by simp)
    have hq : ∀ y ∈ S f, distSq q x ≤ distSq y x := fun y hy => by
      have := h4 y hy; rwa [distSq_comm x q, distSq_comm x y] at this
    have e : p.closestConvexLoop x (f :: fs) best d =
        if distSq q x < d then p.closestConvexLoop x fs (some q) (distSq q x) else p.closestConvexLoop x fs best d := by
      rw [closestConvexLoop, h1]
      simp only [Option.bind_eq_bind, Option.bind_some, h2]
    rw [e]
    have ih' := fun best d => ih best d fun g hg => h g (by simp [hg])
    split_ifs with hc
    · right
      rcases ih' (some q) (distSq q x) with ⟨e, h⟩ | ⟨q', e, ⟨g, hg, hg'⟩, h5, h6⟩
      · refine ⟨q, e, ⟨f, by simp, h3⟩, hc, fun g hg y hy => ?_⟩
        rcases List.mem_cons.1 hg with rfl | hg
        · exact hq y hy
        · exact h g hg y hy
      · refine ⟨q', e, ⟨g, by simp [hg], hg'⟩, h5.trans hc, fun g hg y hy => ?_⟩
        rcases List.mem_cons.1 hg with rfl | hg
        · exact h5.le.trans (hq y hy)
        · exact h6 g hg y hy
    · rw [not_lt] at hc
      rcases ih' best d with ⟨e, h⟩ | ⟨q', e, ⟨g, hg, hg'⟩, h5, h6⟩
      · refine Or.inl ⟨e, fun g hg y hy => ?_⟩
        rcases List.mem_cons.1 hg with rfl | hg
        · exact hc.trans (hq y hy)
        · exact h g hg y hy
      · refine Or.inr ⟨q', e, ⟨g, by simp [hg], hg'⟩, h5, fun g hg y hy => ?_⟩
        rcases List.mem_cons.1 hg with rfl | hg
        · exact h5.le.trans (hc.trans (hq y hy))
        · exact h6 g hg y hy

/-- The search over the faces, for a point outside. -/
theorem closestConvexLoop_out (p : Polyhedron ℝ) (hs : ConvexSurface p.v p.f) (h0 : p.f ≠ []) (he : SharpEdges p.v p.f)
    (hf : ∀ f ∈ p.f, ProperFace (f.map (corner p.v)) ∧ FirstEdge (f.map (corner p.v))) (x : V3 ℝ) (hx : ∀ v ∈ p.v, distSq v x < fltMax)
    (hout : x ∉ hull3 p.v) : ∃ q, p.closestConvexLoop x p.f none fltMax = some (some q) ∧ IsClosestPoint (hull3 p.v) x q := by
  have hcor : ∀ f ∈ p.f, ∀ i ∈ f, corner p.v i ∈ p.v := by
    intro f hf i hi
    have := (hs.valid f hf).2.2 i hi
    obtain ⟨m, rfl⟩ := Int.eq_ofNat_of_zero_le this.1
    have hm : m < p.v.length := by exact_mod_cast this.2
    simp [corner, List.getD_eq_getElem?_getD, List.getElem?_eq_getElem hm]
  have hsub : ∀ f ∈ p.f, ∀ y ∈ hull3 (f.map (corner p.v)), y ∈ hull3 p.v := fun f hf y hy =>
    hull_mono (fun v hv => by
      obtain ⟨i, hi, rfl⟩ := List.mem_map.1 hv
      exact mem_hull (hcor f hf i hi)) hy
  have hnear : ∀ f ∈ p.f, ∃ y ∈ hull3 (f.map (corner p.v)), distSq y x < fltMax := by
    intro f hf
    rcases f with _ | ⟨a, f⟩
    · have := (hs.valid _ hf).1; simp at this
    · exact ⟨corner p.v a, mem_hull (by simp), hx _ (hcor _ hf a (by simp))⟩
  have hloop := closestConvexLoop_spec p x (fun f => hull3 (f.map (corner p.v))) p.f none fltMax fun f hfm => by
    obtain ⟨⟨n, hc, ht⟩, hfe⟩ := hf f hfm
    obtain ⟨q, h1, h2⟩ := Polygon.C86_closestPoint _ n hc ht hfe x (hnear f hfm)
    exact ⟨_, q, mapM_vertex hs.valid hfm, h1, h2⟩
  rcases hloop with ⟨-, h⟩ | ⟨q, e, ⟨f, hfm, hq⟩, -, hmin⟩
  · obtain ⟨f, hfm⟩ := List.exists_mem_of_ne_nil _ h0
    obtain ⟨y, hy, hy'⟩ := hnear f hfm
    exact absurd hy' (not_lt.2 (h f hfm y hy))
  refine ⟨q, e, hsub f hfm q hq, fun s hs' => ?_⟩
  obtain ⟨g, hg, t, t0, t1, hz, hpl⟩ := exit_face hs h0 hs' hout
  have hzg : s + t • (x - s) ∈ hull3 (g.map (corner p.v)) := by
    obtain ⟨⟨n, hc, ht⟩, o, q', r', e', hfe⟩ := hf g hg
    have B : Polygon.LocalBasis (g.map (corner p.v)) n := by
      rw [e'] at hc ht ⊢
      exact Polygon.convexBasis hc (ht.imp id Polygon.hasTriangle_iff) hfe
    exact face_eq_section hs h0 he hg hc B hz hpl
  have h1 := hmin g hg _ hzg
  have h2 : distSq (s + t • (x - s)) x ≤ distSq s x :=
    distSq_shrink t0 t1 (by ext <;> simp only [sub_x, sub_y, sub_z, add_x, add_y, add_z, smul_x, smul_y, smul_z] <;> ring)
  rw [distSq_comm x q, distSq_comm x s]
  exact h1.trans h2

/-- C88: on a convex polyhedron that is bent at every edge, and whose faces are strictly convex and not too small, `ClosestPointConvex`
returns the point itself if `ContainsConvex` accepts it (so in particular for the points of the polyhedron), and otherwise the point of
the convex hull of the vertices that is closest to the given point. Missing: neighbouring faces in one plane (such as the two halves of
the side of a triangulated box), and the points that `ContainsConvex` accepts although they are outside, by its tolerance (see
`C88_closestPoint_violation`). -/
theorem C88_closestPoint_partial (p : Polyhedron ℝ) (hs : ConvexSurface p.v p.f) (h0 : p.f ≠ []) (he : SharpEdges p.v p.f)
    (hf : ∀ f ∈ p.f, ProperFace (f.map (corner p.v)) ∧ FirstEdge (f.map (corner p.v))) (x : V3 ℝ) (hx : ∀ v ∈ p.v, distSq v x < fltMax) :
    ∃ q, p.closestPointConvex x = some (some q) ∧ (p.containsConvex x = some true → q = x) ∧
      (p.containsConvex x = some false → IsClosestPoint (hull3 p.v) x q) ∧ (x ∈ hull3 p.v → IsClosestPoint (hull3 p.v) x q) := by
  obtain ⟨b, hb, -, hb'⟩ := C83_contains_tolerance p hs h0 x (1 / 10000) (by norm_num)
  have hself : x ∈ hull3 p.v → IsClosestPoint (hull3 p.v) x x := fun h => ⟨h, fun s _ => by rw [distSq_self]; exact distSq_nonneg _ _⟩
  rcases b with _ | _
  swap
  · refine ⟨x, ?_, fun _ => rfl, fun h => ?_, hself⟩
    · rw [closestPointConvex, hb]; rfl
    · rw [hb] at h; cases h
  have hout : x ∉ hull3 p.v := fun h => by have := hb' h; cases this
  have hcall : p.closestPointConvex x = p.closestConvexLoop x p.f none fltMax := by rw [closestPointConvex, hb]; rfl
  obtain ⟨q, e, h⟩ := closestConvexLoop_out p hs h0 he hf x hx hout
  exact ⟨q, hcall.trans e, fun h => (by rw [hb] at h; cases h), fun _ => h, fun h => absurd h hout⟩

/-! ### A case that meets the hypotheses -/

theorem triangle_proper {a b c : V3 ℝ} (h : cross (b - a) (c - a) ≠ 0) : ProperFace [a, b, c] := by
  have hl : 0 < len (cross (b - a) (c - a)) := by
    refine lt_of_le_of_ne (len_nonneg _) fun h' => h ?_
    have h2 := len_mul_self (cross (b - a) (c - a))
    rw [← h', mul_zero] at h2
    exact lenSq_eq_zero.1 h2.symm
  refine ⟨(1 / len (cross (b - a) (c - a))) • cross (b - a) (c - a), ⟨?_, by simp, ?_⟩, Or.inl rfl⟩
  · have h2 := len_mul_self (cross (b - a) (c - a))
    have e : ∀ (k : ℝ) (v : V3 ℝ), dot (k • v) (k • v) = k * k * lenSq v := by
      intro k v; simp only [dot, lenSq, smul_x, smul_y, smul_z]; ring
    rw [e, ← h2]
    field_simp
  · rw [List.triplewise_cons]
    refine ⟨?_, by simp⟩
    simp only [List.pairwise_cons, List.mem_singleton, forall_eq, List.not_mem_nil, false_imp_iff, implies_true, List.Pairwise.nil, and_true]
    refine ⟨len (cross (b - a) (c - a)), hl, ?_⟩
    ext <;> simp only [smul_x, smul_y, smul_z] <;> field_simp

theorem exCorner_sharp : SharpEdges exCorner.v exCorner.f := by
  obtain ⟨c0, c1, c2, c3⟩ := exCorner_corners
  have hf : ∀ f ∈ exCorner.f, f = [0, 2, 1] ∨ f = [0, 1, 3] ∨ f = [0, 3, 2] ∨ f = [1, 2, 3] := by
    intro f hf; simpa [exCorner] using hf
  intro f h1 g h2 a b hab hba
  rcases hf f h1 with rfl | rfl | rfl | rfl <;> rcases hf g h2 with rfl | rfl | rfl | rfl <;>
    simp [faceEdges] at hab hba <;> rcases hab with ⟨rfl, rfl⟩ | ⟨rfl, rfl⟩ | ⟨rfl, rfl⟩ <;> simp at hba <;>
    norm_num [c0, c1, c2, c3, cornerNormal, dot, cross]

theorem exCorner_proper : ∀ f ∈ exCorner.f, ProperFace (f.map (corner exCorner.v)) ∧ FirstEdge (f.map (corner exCorner.v)) := by
  obtain ⟨c0, c1, c2, c3⟩ := exCorner_corners
  have hd : ∀ a b : V3 ℝ, 1 ≤ lenSq (b - a) → 1 / 1000000 < V3.dist a b := by
    intro a b h
    rw [V3.dist_comm, dist_eq_len]
    have := len_mul_self (b - a)
    have := len_nonneg (b - a)
    by_contra hn
    rw [not_lt] at hn
    nlinarith
  intro f hf
  have hf' : f = [0, 2, 1] ∨ f = [0, 1, 3] ∨ f = [0, 3, 2] ∨ f = [1, 2, 3] := by simpa [exCorner] using hf
  rcases hf' with rfl | rfl | rfl | rfl <;> simp only [List.map_cons, List.map_nil, c0, c1, c2, c3] <;>
    refine ⟨triangle_proper ?_, _, _, _, rfl, hd _ _ ?_⟩ <;> norm_num [V3.ext_iff, cross, lenSq, dot]

theorem exCorner_near (x : V3 ℝ) (h : |x.x| ≤ 10 ∧ |x.y| ≤ 10 ∧ |x.z| ≤ 10) : ∀ v ∈ exCorner.v, distSq v x < fltMax := by
  have hM : (1000 : ℝ) < fltMax := by norm_num [fltMax]
  obtain ⟨h1, h2, h3⟩ := h
  rw [abs_le] at h1 h2 h3
  intro v hv
  have hv' : v = ⟨0, 0, 0⟩ ∨ v = ⟨1, 0, 0⟩ ∨ v = ⟨0, 1, 0⟩ ∨ v = ⟨0, 0, 1⟩ := by simpa [exCorner] using hv
  refine lt_trans ?_ hM
  rcases hv' with rfl | rfl | rfl | rfl <;> rw [distSq_eq] <;> dsimp only <;> nlinarith

example := C88_closestPoint_partial exCorner exCorner_convex (by simp [exCorner]) exCorner_sharp exCorner_proper ⟨2, 3, -1⟩
  (exCorner_near _ (by norm_num))

/-- C88: because of the tolerance of `ContainsConvex`, `ClosestPointConvex` can return a point that is not in the polyhedron: the given
point `5e-5` below the face `z = 0` of the corner tetrahedron. -/
theorem C88_closestPoint_violation : ∃ x, exCorner.closestPointConvex x = some (some x) ∧ x ∉ hull3 exCorner.v := by
  have hout : (⟨1/4, 1/4, -1/20000⟩ : V3 ℝ) ∉ hull3 exCorner.v := by
    rw [← region_eq_hull exCorner_convex (by simp [exCorner])]
    intro h
    have := h [0, 2, 1] (by simp [exCorner])
    norm_num [exCorner_corners, InFront, dot, cross] at this
  refine ⟨⟨1/4, 1/4, -1/20000⟩, ?_, hout⟩
  obtain ⟨b, hb, h2, -⟩ := C83_contains_tolerance exCorner exCorner_convex (by simp [exCorner]) ⟨1/4, 1/4, -1/20000⟩ (1 / 10000) (by norm_num)
  have hbt : b = true := by
    rw [h2]
    intro f hf
    have hf' : f = [0, 2, 1] ∨ f = [0, 1, 3] ∨ f = [0, 3, 2] ∨ f = [1, 2, 3] := by simpa [exCorner] using hf
    refine ⟨⟨1/4, 1/4, 0⟩, ?_, ?_⟩
    · rcases hf' with rfl | rfl | rfl | rfl <;> norm_num [exCorner_corners, InFront, dot, cross]
    · rw [dist_eq_len]
      have h1 := len_mul_self ((⟨1/4, 1/4, -1/20000⟩ : V3 ℝ) - ⟨1/4, 1/4, 0⟩)
      have h2 := len_nonneg ((⟨1/4, 1/4, -1/20000⟩ : V3 ℝ) - ⟨1/4, 1/4, 0⟩)
      have h3 : lenSq ((⟨1/4, 1/4, -1/20000⟩ : V3 ℝ) - ⟨1/4, 1/4, 0⟩) = 1 / 400000000 := by norm_num [lenSq, dot]
      rw [h3] at h1
      nlinarith
  rw [closestPointConvex, hb, hbt]; rfl

end Polyhedron
end MGL
