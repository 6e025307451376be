import Verif.Model.PolyhedronBox
import Verif.Props.PolyhedronPair
import Verif.Props.PolyhedronConvex
import Verif.Props.OBBLine

/-! A convex polyhedron and a region bounded by planes that meet do so in a point of an edge of one of them. -/

set_option linter.unusedSectionVars false

namespace MGL
open V3 Spec
namespace Polyhedron

theorem meet_planes {p : Polyhedron ℝ} (hs : ConvexSurface p.v p.f) (h0 : p.f ≠ []) (hcop : NoTwoCoplanar p.v p.f)
    (hgood : ∀ f ∈ p.f, ∃ n, GoodFace p f n) (Q : List (V3 ℝ × ℝ)) (E : Set (V3 ℝ))
    (hE : ∀ y, (∀ c ∈ Q, dot c.1 y ≤ c.2) → ∀ c ∈ Q, ∀ c' ∈ Q, dot c.1 y = c.2 → dot c'.1 y = c'.2 → cross c.1 c'.1 ≠ 0 → y ∈ E)
    {x : V3 ℝ} (hx : x ∈ hull3 p.v) (hx' : ∀ c ∈ Q, dot c.1 x ≤ c.2) :
    (∃ e ∈ meshEdges p.f, e.1 < e.2 ∧ ∃ y ∈ seg (corner p.v e.1) (corner p.v e.2), ∀ c ∈ Q, dot c.1 y ≤ c.2) ∨
    ∃ y ∈ E, y ∈ hull3 p.v := by
  let P : List ℤ → V3 ℝ × ℝ := fun f => (cornerNormal (f.map (corner p.v)), -height p.v f 0)
  have hh : ∀ (V : List (V3 ℝ)) (f : List ℤ) (y : V3 ℝ), height V f y = height V f 0 + dot (cornerNormal (f.map (corner V))) y := by
    intro V f y
    have := height_line V f 0 y 1
    rw [show (0 : V3 ℝ) + (1 : ℝ) • y = y by ext <;> simp] at this
    linarith
  obtain ⟨y, hy, c1, m1, c2, m2, c3, m3, t1, t2, t3, x12, x13, x23⟩ := exists_corner (p.f.map P ++ Q) (x := x) (by
    intro c hc
    rcases List.mem_append.1 hc with hc | hc
    · obtain ⟨f, hf, rfl⟩ := List.mem_map.1 hc
      have := (mem_hull_iff hs h0 x).1 hx f hf
      rw [hh] at this; show dot _ x ≤ -_; linarith
    · exact hx' c hc) (by
    intro y d hd
    obtain ⟨T, hT, hout⟩ := far_out p.v y hd 0
    rw [mem_hull_iff hs h0] at hout
    push Not at hout
    obtain ⟨f, hf, hlt⟩ := hout
    refine ⟨T, hT, P f, List.mem_append.2 (Or.inl (List.mem_map.2 ⟨f, hf, rfl⟩)), ?_⟩
    rw [hh] at hlt
    show -_ < dot _ _; linarith)
  have hyp : y ∈ hull3 p.v := (mem_hull_iff hs h0 y).2 fun f hf => by
    have := hy (P f) (List.mem_append.2 (Or.inl (List.mem_map.2 ⟨f, hf, rfl⟩)))
    have h2 : dot (cornerNormal (f.map (corner p.v))) y ≤ -height p.v f 0 := this
    rw [hh]; linarith
  have hyq : ∀ c ∈ Q, dot c.1 y ≤ c.2 := fun c hc => hy c (List.mem_append.2 (Or.inr hc))
  have kp : ∀ {c c' : V3 ℝ × ℝ}, c ∈ p.f.map P → c' ∈ p.f.map P → dot c.1 y = c.2 → dot c'.1 y = c'.2 → cross c.1 c'.1 ≠ 0 →
      ∃ e ∈ meshEdges p.f, e.1 < e.2 ∧ ∃ y ∈ seg (corner p.v e.1) (corner p.v e.2), ∀ c ∈ Q, dot c.1 y ≤ c.2 := by
    intro c c' hc hc' h1 h2 h3
    obtain ⟨f, hf, rfl⟩ := List.mem_map.1 hc
    obtain ⟨g, hg, rfl⟩ := List.mem_map.1 hc'
    have h1 : dot (cornerNormal (f.map (corner p.v))) y = -height p.v f 0 := h1
    have h2 : dot (cornerNormal (g.map (corner p.v))) y = -height p.v g 0 := h2
    obtain ⟨e, he, hlt, hsg⟩ := on_two_faces hs h0 hcop hgood hf hg hyp (by rw [hh]; linarith) (by rw [hh]; linarith) h3
    exact ⟨e, he, hlt, y, hsg, hyq⟩
  have kq : ∀ {c c' : V3 ℝ × ℝ}, c ∈ Q → c' ∈ Q → dot c.1 y = c.2 → dot c'.1 y = c'.2 → cross c.1 c'.1 ≠ 0 → ∃ y ∈ E, y ∈ hull3 p.v :=
    fun hc hc' h1 h2 h3 => ⟨y, hE y hyq _ hc _ hc' h1 h2 h3, hyp⟩
  rcases List.mem_append.1 m1 with m1 | m1 <;> rcases List.mem_append.1 m2 with m2 | m2
  · exact Or.inl (kp m1 m2 t1 t2 x12)
  · rcases List.mem_append.1 m3 with m3 | m3
    · exact Or.inl (kp m1 m3 t1 t3 x13)
    · exact Or.inr (kq m2 m3 t2 t3 x23)
  · rcases List.mem_append.1 m3 with m3 | m3
    · exact Or.inl (kp m2 m3 t2 t3 x23)
    · exact Or.inr (kq m1 m3 t1 t3 x13)
  · exact Or.inr (kq m1 m2 t1 t2 x12)

theorem seg_in_hull {p : Polyhedron ℝ} (hs : ConvexSurface p.v p.f) {e : ℤ × ℤ} (hm : e ∈ meshEdges p.f) {x : V3 ℝ}
    (hx : x ∈ seg (corner p.v e.1) (corner p.v e.2)) : x ∈ hull3 p.v := by
  obtain ⟨s, s0, s1, rfl⟩ := hx
  intro K hK hS
  obtain ⟨f, hmf, -, hef⟩ := mem_meshEdges.1 hm
  have hmem := List.of_mem_zip hef
  have h1 := (hs.valid f hmf).2.2 _ hmem.1
  have h2 := (hs.valid f hmf).2.2 _ (List.mem_rotate.1 hmem.2)
  have := hK _ (hS _ (corner_mem h1.1 h1.2)) _ (hS _ (corner_mem h2.1 h2.2)) (1 - s) s (by linarith) s0 (by ring)
  convert this using 1
  ext <;> simp only [add_x, add_y, add_z, sub_x, sub_y, sub_z, smul_x, smul_y, smul_z] <;> ring

theorem anySeg_spec {p : Polyhedron ℝ} (H : LineSeg ℝ → Prop) : ∀ (L : List (LineSeg ℝ)),
    (∀ l ∈ L, ∃ b, p.intersectsSeg l = some b ∧ (b = true ↔ H l)) →
    ∃ b, p.anySeg L = some b ∧ (b = true ↔ ∃ l ∈ L, H l)
  | [], _ => ⟨false, rfl, by simp⟩
  | l :: L, h => by
    obtain ⟨b, hb, hiff⟩ := anySeg_spec H L fun m hm => h m (by simp [hm])
    obtain ⟨b', hb', hiff'⟩ := h l (by simp)
    rw [anySeg, hb']
    simp only [Option.bind_eq_bind, Option.bind_some]
    cases b' with
    | true => exact ⟨true, rfl, by simp [hiff'.1 rfl]⟩
    | false =>
      refine ⟨b, hb, ?_⟩
      have : ¬ H l := fun h => by have := hiff'.2 h; cases this
      rw [hiff]; simp [this]

/-- The common part of the two theorems on boxes. -/
theorem boxLike_spec (p : Polyhedron ℝ)
    (hs : ConvexSurface p.v p.f) (h4 : 4 ≤ p.v.length) (h0 : p.f ≠ []) (hcop : NoTwoCoplanar p.v p.f)
    (hf : ∀ f ∈ p.f, (∃ n, ConvexPolygon n (f.map (corner p.v))) ∧ HasTriangle (f.map (corner p.v)) ∧ FirstEdge (f.map (corner p.v)))
    (B : Set (V3 ℝ)) (Q : List (V3 ℝ × ℝ)) (center : V3 ℝ) (contains : V3 ℝ → Bool) (edges : List (LineSeg ℝ)) (meets : LineSeg ℝ → Bool)
    (hB : ∀ y, y ∈ B ↔ ∀ c ∈ Q, dot c.1 y ≤ c.2)
    (hE : ∀ y, y ∈ B → ∀ c ∈ Q, ∀ c' ∈ Q, dot c.1 y = c.2 → dot c'.1 y = c'.2 → cross c.1 c'.1 ≠ 0 → ∃ l ∈ edges, y ∈ seg l.a l.b)
    (hEB : ∀ l ∈ edges, ∀ y ∈ seg l.a l.b, y ∈ B) (hcen : center ∈ B) (hcont : ∀ y, contains y = true ↔ y ∈ B)
    (hc : ClearPoint (11184811 / 33554432) p.v p.f center)
    (he : ∀ l ∈ edges, ClearPoint (11184811 / 33554432) p.v p.f l.a ∧ ClearPoint (11184811 / 33554432) p.v p.f l.b ∧
      ClearRay p.v p.f l.a (l.b - l.a))
    (hm : ∀ i j, (i, j) ∈ meshEdges p.f → i < j →
      (meets ⟨corner p.v i, corner p.v j⟩ = true ↔ (seg (corner p.v i) (corner p.v j) ∩ B).Nonempty)) :
    ∃ r, p.intersectsBoxLike center contains edges meets = some r ∧ (r = true ↔ ∃ x, x ∈ hull3 p.v ∧ x ∈ B) := by
  have hgood : ∀ f ∈ p.f, ∃ n, GoodFace p f n := fun f hm => by
    obtain ⟨⟨n, h1⟩, h2, h3⟩ := hf f hm
    exact ⟨n, h1, h2, h3, (hs.valid f hm).2.2⟩
  obtain ⟨b1, e1, i1⟩ := C98_contains_partial p hs h4 h0 hcop hf center hc
  obtain ⟨b3, e3, i3⟩ := anySeg_spec (p := p) (fun l => ∃ x ∈ seg l.a l.b, x ∈ hull3 p.v) edges fun l hl => by
    obtain ⟨k1, k2, k3⟩ := he l hl
    exact C108_segment_partial p hs h4 h0 hcop hf l k1 k2 k3
  obtain ⟨b4, e4, i4⟩ := anyEdge_spec (p := p) (fun l => some (meets l))
    (fun e => (seg (corner p.v e.1) (corner p.v e.2) ∩ B).Nonempty) p.f (fun f hm => ⟨(hs.valid f hm).1, (hs.valid f hm).2.2⟩)
    (fun e h hlt => ⟨_, rfl, hm e.1 e.2 h hlt⟩)
  have hcent : p.approximateConvexCentroid ∈ hull3 p.v := (C83_centroid p hs h0).2.1
  refine ⟨b1 || contains p.approximateConvexCentroid || b3 || b4, ?_, ?_⟩
  · unfold intersectsBoxLike
    rw [e1, e3, e4]
    simp only [Option.bind_eq_bind, Option.bind_some]
    cases b1 <;> cases contains p.approximateConvexCentroid <;> cases b3 <;> simp
  · rw [Bool.or_eq_true, Bool.or_eq_true, Bool.or_eq_true, i1, i3, i4, hcont]
    constructor
    · rintro (((h | h) | ⟨l, hl, x, hx, h⟩) | ⟨e, h, -, x, hx, h'⟩)
      · exact ⟨_, h, hcen⟩
      · exact ⟨_, hcent, h⟩
      · exact ⟨x, h, hEB l hl x hx⟩
      · exact ⟨x, seg_in_hull hs h hx, h'⟩
    · rintro ⟨x, hx, hx'⟩
      rcases meet_planes hs h0 hcop hgood Q {y | ∃ l ∈ edges, y ∈ seg l.a l.b} (fun y hy c hc c' hc' h1 h2 h3 => hE y ((hB y).2 hy) c hc c' hc' h1 h2 h3)
        hx ((hB x).1 hx') with ⟨e, h, hlt, y, hy, hq⟩ | ⟨y, ⟨l, hl, hy⟩, hq⟩
      · exact Or.inr ⟨e, h, hlt, y, hy, (hB y).2 hq⟩
      · exact Or.inl (Or.inr ⟨l, hl, y, hy, hq⟩)

end Polyhedron
end MGL
