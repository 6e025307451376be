import Verif.Proofs.PolyhedronPair

/-! C109: intersection of two polyhedra. -/

set_option linter.unusedSectionVars false

namespace MGL
open V3 Spec
namespace Polyhedron

theorem edgeLoop_spec {p : Polyhedron ℝ} (test : LineSeg ℝ → Option Bool) (H : ℤ × ℤ → Prop) : ∀ (r : List ℤ) (v0 : ℤ),
    (∀ i ∈ r, 0 ≤ i ∧ i < p.v.length) →
    (∀ e ∈ (v0 :: r).zip r, e.1 < e.2 → ∃ b, test ⟨corner p.v e.1, corner p.v e.2⟩ = some b ∧ (b = true ↔ H e)) →
    ∃ b, p.edgeLoop test v0 (corner p.v v0) r = some b ∧ (b = true ↔ ∃ e ∈ (v0 :: r).zip r, e.1 < e.2 ∧ H e)
  | [], v0, _, _ => ⟨false, rfl, by simp⟩
  | v1 :: r, v0, hr, h => by
    have hv := hr v1 (by simp)
    obtain ⟨b, hb, hiff⟩ := edgeLoop_spec test H r v1 (fun i hi => hr i (by simp [hi])) fun e he => h e (by
      rw [List.zip_cons_cons]; exact List.mem_cons_of_mem _ he)
    rw [edgeLoop, vertex_corner hv.1 hv.2]
    simp only [Option.bind_eq_bind, Option.bind_some, List.zip_cons_cons, List.mem_cons, exists_eq_or_imp]
    split
    · next hlt =>
      obtain ⟨b', hb', hiff'⟩ := h (v0, v1) (by simp) hlt
      dsimp only at hb'
      rw [hb']
      simp only [Option.bind_some]
      cases b' with
      | true => exact ⟨true, rfl, by simp [hlt, hiff'.1 rfl]⟩
      | false =>
        refine ⟨b, hb, ?_⟩
        have : ¬ H (v0, v1) := fun h => by have := hiff'.2 h; cases this
        rw [hiff]; simp [this]
    · next hlt =>
      refine ⟨b, hb, ?_⟩
      rw [hiff]; simp [hlt]

theorem anyEdge_spec {p : Polyhedron ℝ} (test : LineSeg ℝ → Option Bool) (H : ℤ × ℤ → Prop) : ∀ (fs : List (List ℤ)),
    (∀ f ∈ fs, 3 ≤ f.length ∧ ∀ i ∈ f, 0 ≤ i ∧ i < p.v.length) →
    (∀ e ∈ meshEdges fs, e.1 < e.2 → ∃ b, test ⟨corner p.v e.1, corner p.v e.2⟩ = some b ∧ (b = true ↔ H e)) →
    ∃ b, p.anyEdge test fs = some b ∧ (b = true ↔ ∃ e ∈ meshEdges fs, e.1 < e.2 ∧ H e)
  | [], _, _ => ⟨false, rfl, by simp [meshEdges]⟩
  | f :: fs, hv, h => by
    obtain ⟨b, hb, hiff⟩ := anyEdge_spec test H fs (fun g hg => hv g (by simp [hg])) fun e he => h e (by
      obtain ⟨g, hg, h1, h2⟩ := mem_meshEdges.1 he
      exact mem_meshEdges.2 ⟨g, by simp [hg], h1, h2⟩)
    obtain ⟨h3, hr⟩ := hv f (by simp)
    have hfe : ∀ e : ℤ × ℤ, e ∈ meshEdges (f :: fs) ↔ e ∈ closedEdges f ∨ e ∈ meshEdges fs := by
      intro e
      rw [mem_meshEdges, mem_meshEdges, ← closed_iff]
      constructor
      · rintro ⟨g, hg, h1, h2⟩
        rcases List.mem_cons.1 hg with rfl | hg
        · exact Or.inl h2
        · exact Or.inr ⟨g, hg, h1, h2⟩
      · rintro (h | ⟨g, hg, h1, h2⟩)
        · exact ⟨f, by simp, by omega, h⟩
        · exact ⟨g, by simp [hg], h1, h2⟩
    obtain ⟨z, hz⟩ : ∃ z, f.getLast? = some z := by
      cases hl : f.getLast? with
      | none => rw [List.getLast?_eq_none_iff] at hl; rw [hl] at h3; simp at h3
      | some z => exact ⟨z, rfl⟩
    have hc : closedEdges f = (z :: f).zip f := by unfold closedEdges; rw [hz]
    have hzr := hr z (List.mem_of_getLast? hz)
    obtain ⟨b', hb', hiff'⟩ := edgeLoop_spec (p := p) test H f z hr fun e he => h e ((hfe e).2 (Or.inl (hc ▸ he)))
    rw [anyEdge, hz]
    simp only [Option.bind_eq_bind, Option.bind_some, vertex_corner hzr.1 hzr.2, hb']
    have hsplit : (∃ e ∈ meshEdges (f :: fs), e.1 < e.2 ∧ H e) ↔ (∃ e ∈ (z :: f).zip f, e.1 < e.2 ∧ H e) ∨ ∃ e ∈ meshEdges fs, e.1 < e.2 ∧ H e := by
      simp only [hfe, hc]
      constructor
      · rintro ⟨e, h | h, hh⟩
        · exact Or.inl ⟨e, h, hh⟩
        · exact Or.inr ⟨e, h, hh⟩
      · rintro (⟨e, h, hh⟩ | ⟨e, h, hh⟩)
        · exact ⟨e, Or.inl h, hh⟩
        · exact ⟨e, Or.inr h, hh⟩
    rw [hsplit]
    cases b' with
    | true => exact ⟨true, rfl, by simp [hiff'.1 rfl]⟩
    | false =>
      refine ⟨b, hb, ?_⟩
      rw [hiff, ← hiff']; simp

/-- C109: for two convex polyhedra, each as in `C98_contains_partial`, `Intersects(Polyhedron)` tells whether the convex hulls of their vertices
have a point in common, if the centroids of the vertices are clear points of both and each edge of one of them, run through from the lower
to the higher number, is clear of the borders of the faces of the other as in `C108_segment_partial`. Missing: as there. -/
theorem C109_polyhedron_partial (p q : Polyhedron ℝ)
    (hs : ConvexSurface p.v p.f) (h4 : 4 ≤ p.v.length) (h0 : p.f ≠ []) (hcop : NoTwoCoplanar p.v p.f)
    (hf : ∀ f ∈ p.f, (∃ n, ConvexPolygon n (f.map (corner p.v))) ∧ HasTriangle (f.map (corner p.v)) ∧ FirstEdge (f.map (corner p.v)))
    (hs' : ConvexSurface q.v q.f) (h4' : 4 ≤ q.v.length) (h0' : q.f ≠ []) (hcop' : NoTwoCoplanar q.v q.f)
    (hf' : ∀ f ∈ q.f, (∃ n, ConvexPolygon n (f.map (corner q.v))) ∧ HasTriangle (f.map (corner q.v)) ∧ FirstEdge (f.map (corner q.v)))
    (hc : ∀ c, c = (1 / (p.v.length : ℝ)) • p.v.foldl (fun c x => c + x) ⟨0, 0, 0⟩ ∨ c = (1 / (q.v.length : ℝ)) • q.v.foldl (fun c x => c + x) ⟨0, 0, 0⟩ →
      ClearPoint (11184811 / 33554432) p.v p.f c ∧ ClearPoint (11184811 / 33554432) q.v q.f c)
    (he : ∀ i j, (i, j) ∈ meshEdges p.f → i < j → ClearPoint (11184811 / 33554432) q.v q.f (corner p.v i) ∧
      ClearPoint (11184811 / 33554432) q.v q.f (corner p.v j) ∧ ClearRay q.v q.f (corner p.v i) (corner p.v j - corner p.v i))
    (he' : ∀ i j, (i, j) ∈ meshEdges q.f → i < j → ClearPoint (11184811 / 33554432) p.v p.f (corner q.v i) ∧
      ClearPoint (11184811 / 33554432) p.v p.f (corner q.v j) ∧ ClearRay p.v p.f (corner q.v i) (corner q.v j - corner q.v i)) :
    ∃ r, p.intersectsPolyhedron q = some r ∧ (r = true ↔ ∃ x, x ∈ hull3 p.v ∧ x ∈ hull3 q.v) := by
  have hgood : ∀ f ∈ p.f, ∃ n, GoodFace p f n := fun f hm => by
    obtain ⟨⟨n, h1⟩, h2, h3⟩ := hf f hm
    exact ⟨n, h1, h2, h3, (hs.valid f hm).2.2⟩
  have hgood' : ∀ f ∈ q.f, ∃ n, GoodFace q f n := fun f hm => by
    obtain ⟨⟨n, h1⟩, h2, h3⟩ := hf' f hm
    exact ⟨n, h1, h2, h3, (hs'.valid f hm).2.2⟩
  have hboth : ∀ c, ClearPoint (11184811 / 33554432) p.v p.f c ∧ ClearPoint (11184811 / 33554432) q.v q.f c →
      ∃ b, (do if ← q.contains c then p.contains c else some false : Option Bool) = some b ∧ (b = true ↔ c ∈ hull3 p.v ∧ c ∈ hull3 q.v) := by
    rintro c ⟨k1, k2⟩
    obtain ⟨b1, e1, i1⟩ := C98_contains_partial p hs h4 h0 hcop hf c k1
    obtain ⟨b2, e2, i2⟩ := C98_contains_partial q hs' h4' h0' hcop' hf' c k2
    refine ⟨b2 && b1, ?_, ?_⟩
    · rw [e1, e2]
      simp only [Option.bind_eq_bind, Option.bind_some]
      cases b2 <;> simp
    · rw [Bool.and_eq_true, i1, i2, and_comm]
  obtain ⟨b1, e1, i1⟩ := hboth _ (hc _ (Or.inl rfl))
  obtain ⟨b2, e2, i2⟩ := hboth _ (hc _ (Or.inr rfl))
  obtain ⟨b3, e3, i3⟩ := anyEdge_spec (p := p) q.intersectsSeg
    (fun e => ∃ x ∈ seg (corner p.v e.1) (corner p.v e.2), x ∈ hull3 q.v) p.f (fun f hm => ⟨(hs.valid f hm).1, (hs.valid f hm).2.2⟩)
    (fun e hm hlt => by
      obtain ⟨k1, k2, k3⟩ := he e.1 e.2 hm hlt
      exact C108_segment_partial q hs' h4' h0' hcop' hf' ⟨_, _⟩ k1 k2 k3)
  obtain ⟨b4, e4, i4⟩ := anyEdge_spec (p := q) p.intersectsSeg
    (fun e => ∃ x ∈ seg (corner q.v e.1) (corner q.v e.2), x ∈ hull3 p.v) q.f (fun f hm => ⟨(hs'.valid f hm).1, (hs'.valid f hm).2.2⟩)
    (fun e hm hlt => by
      obtain ⟨k1, k2, k3⟩ := he' e.1 e.2 hm hlt
      exact C108_segment_partial p hs h4 h0 hcop hf ⟨_, _⟩ k1 k2 k3)
  have et : p.intersectsPolyhedron q = some (b1 || b2 || b3 || b4) := by
    unfold intersectsPolyhedron approximateConvexCentroid
    dsimp only
    simp only [Option.bind_eq_bind] at e1 e2 ⊢
    rw [e1, e2, e3, e4]
    simp only [Option.bind_some]
    cases b1 <;> cases b2 <;> cases b3 <;> simp
  have inEdge : ∀ (P : Polyhedron ℝ), ConvexSurface P.v P.f → ∀ e ∈ meshEdges P.f, ∀ x ∈ seg (corner P.v e.1) (corner P.v e.2), x ∈ hull3 P.v := by
    rintro P hP e hm x ⟨s, s0, s1, rfl⟩ K hK hS
    obtain ⟨f, hmf, -, hef⟩ := mem_meshEdges.1 hm
    have hmem := List.of_mem_zip hef
    have h1 := (hP.valid f hmf).2.2 _ hmem.1
    have h2 := (hP.valid f hmf).2.2 _ (List.mem_rotate.1 hmem.2)
    have := hK _ (hS _ (corner_mem h1.1 h1.2)) _ (hS _ (corner_mem h2.1 h2.2)) (1 - s) s (by linarith) s0 (by ring)
    convert this using 1
    ext <;> simp only [add_x, add_y, add_z, sub_x, sub_y, sub_z, smul_x, smul_y, smul_z] <;> ring
  refine ⟨_, et, ?_⟩
  rw [Bool.or_eq_true, Bool.or_eq_true, Bool.or_eq_true, i1, i2, i3, i4]
  constructor
  · rintro (((h | h) | ⟨e, hm, -, x, hx, hq⟩) | ⟨e, hm, -, x, hx, hq⟩)
    · exact ⟨_, h⟩
    · exact ⟨_, h⟩
    · exact ⟨x, inEdge p hs e hm x hx, hq⟩
    · exact ⟨x, hq, inEdge q hs' e hm x hx⟩
  · rintro ⟨x, hx, hx'⟩
    rcases meet_edge hs h0 hcop hgood hs' h0' hcop' hgood' hx hx' with h | h
    · exact Or.inl (Or.inr h)
    · exact Or.inr h

/-! ### An example: the corner tetrahedron and a copy of it that is moved by `(1/10, 2/5, -1/5)` -/

noncomputable def exShift : Polyhedron ℝ :=
  ⟨[⟨1/10, 2/5, -1/5⟩, ⟨11/10, 2/5, -1/5⟩, ⟨1/10, 7/5, -1/5⟩, ⟨1/10, 2/5, 4/5⟩], [[0, 2, 1], [0, 1, 3], [0, 3, 2], [1, 2, 3]]⟩

theorem exShift_convex : ConvexSurface exShift.v exShift.f := by
  have hf : ∀ f ∈ exShift.f, f = [0, 2, 1] ∨ f = [0, 1, 3] ∨ f = [0, 3, 2] ∨ f = [1, 2, 3] := by
    intro f hf; simpa [exShift] using hf
  have hr : ∀ f ∈ exShift.f, ∀ a ∈ f, a = 0 ∨ a = 1 ∨ a = 2 ∨ a = 3 := by
    intro f hf' a ha
    rcases hf f hf' with rfl | rfl | rfl | rfl <;> simp at ha <;> tauto
  have hV : ∀ x ∈ exShift.v, x = ⟨1/10, 2/5, -1/5⟩ ∨ x = ⟨11/10, 2/5, -1/5⟩ ∨ x = ⟨1/10, 7/5, -1/5⟩ ∨ x = ⟨1/10, 2/5, 4/5⟩ := by
    intro x hx; simpa [exShift] using hx
  have c0 : corner exShift.v 0 = ⟨1/10, 2/5, -1/5⟩ := rfl
  have c1 : corner exShift.v 1 = ⟨11/10, 2/5, -1/5⟩ := rfl
  have c2 : corner exShift.v 2 = ⟨1/10, 7/5, -1/5⟩ := rfl
  have c3 : corner exShift.v 3 = ⟨1/10, 2/5, 4/5⟩ := rfl
  have hE : ∀ a b, (a, b) ∈ meshEdges exShift.f → (a = 0 ∨ a = 1 ∨ a = 2 ∨ a = 3) ∧ (b = 0 ∨ b = 1 ∨ b = 2 ∨ b = 3) ∧ a ≠ b := by
    have : ∀ e ∈ meshEdges exShift.f, (e.1 = 0 ∨ e.1 = 1 ∨ e.1 = 2 ∨ e.1 = 3) ∧ (e.2 = 0 ∨ e.2 = 1 ∨ e.2 = 2 ∨ e.2 = 3) ∧ e.1 ≠ e.2 := by
      show ∀ e ∈ meshEdges [[0, 2, 1], [0, 1, 3], [0, 3, 2], [1, 2, 3]], _
      decide +kernel
    exact fun a b h => this _ h
  refine ⟨(validFaces_of (by decide +kernel) : ValidFaces 4 _), closed_of (by decide +kernel), ?_, ?_, ?_, ?_, ?_⟩
  · intro f hf'
    rcases hf f hf' with rfl | rfl | rfl | rfl <;> simp only [List.map_cons, List.map_nil, c0, c1, c2, c3] <;>
      refine faceOutward_of (fun x hx => ?_) (by simp) ?_
    all_goals first
      | (rcases hV x hx with rfl | rfl | rfl | rfl <;> norm_num [dot, cross])
      | (refine ⟨⟨9, 9, 9⟩, ?_⟩; norm_num [dot, cross]; done)
      | (refine ⟨⟨0, 0, 0⟩, ?_⟩; norm_num [dot, cross]; done)
  · intro f hf' e he
    rcases hf f hf' with rfl | rfl | rfl | rfl <;> simp only [List.map_cons, List.map_nil, c0, c1, c2, c3] at he ⊢ <;>
      simp at he <;> rcases he with rfl | rfl | rfl <;> norm_num [cornerNormal, dot, cross]
  · intro f hf'
    rcases hf f hf' with rfl | rfl | rfl | rfl <;> simp only [List.map_cons, List.map_nil, c0, c1, c2, c3, cornerNormal]
    · exact ⟨⟨1/10, 2/5, 4/5⟩, by simp [exShift], 0, by simp, by rw [c0]; norm_num [dot, cross]⟩
    · exact ⟨⟨1/10, 7/5, -1/5⟩, by simp [exShift], 0, by simp, by rw [c0]; norm_num [dot, cross]⟩
    · exact ⟨⟨11/10, 2/5, -1/5⟩, by simp [exShift], 0, by simp, by rw [c0]; norm_num [dot, cross]⟩
    · exact ⟨⟨1/10, 2/5, -1/5⟩, by simp [exShift], 1, by simp, by rw [c1]; norm_num [dot, cross]⟩
  · intro f hf' g hg a ha b hb hab h
    rcases hr f hf' a ha with rfl | rfl | rfl | rfl <;> rcases hr g hg b hb with rfl | rfl | rfl | rfl <;>
      first | exact absurd rfl hab | (simp [c0, c1, c2, c3] at h; norm_num at h; done) | (simp [c0, c1, c2, c3] at h; done)
  · intro a b c hab hac hbc s hs h
    obtain ⟨ha, hb, n1⟩ := hE a b hab
    obtain ⟨-, hc, n2⟩ := hE a c hac
    have hx := congrArg V3.x h
    have hy := congrArg V3.y h
    have hz := congrArg V3.z h
    simp only [sub_x, sub_y, sub_z, smul_x, smul_y, smul_z] at hx hy hz
    rcases ha with rfl | rfl | rfl | rfl <;> rcases hb with rfl | rfl | rfl | rfl <;> rcases hc with rfl | rfl | rfl | rfl <;>
      first
        | exact absurd rfl n1
        | exact absurd rfl n2
        | exact absurd rfl hbc
        | (simp only [c0, c1, c2, c3] at hx hy hz; first | linarith | nlinarith)

theorem exShift_corners : corner exShift.v 0 = ⟨1/10, 2/5, -1/5⟩ ∧ corner exShift.v 1 = ⟨11/10, 2/5, -1/5⟩ ∧
    corner exShift.v 2 = ⟨1/10, 7/5, -1/5⟩ ∧ corner exShift.v 3 = ⟨1/10, 2/5, 4/5⟩ := ⟨rfl, rfl, rfl, rfl⟩

theorem exShift_noTwoCoplanar : NoTwoCoplanar exShift.v exShift.f := by
  obtain ⟨c0, c1, c2, c3⟩ := exShift_corners
  have hlen : exShift.f.length = 4 := rfl
  intro i j hi hj hij
  rw [hlen] at hi hj
  have h0 : exShift.f = [[0, 2, 1], [0, 1, 3], [0, 3, 2], [1, 2, 3]] := rfl
  simp only [h0]
  interval_cases i <;> interval_cases j <;> first | exact absurd rfl hij |
    (simp only [List.getElem_cons_zero, List.getElem_cons_succ, List.map_cons, List.map_nil, List.mem_cons, List.not_mem_nil, or_false,
      exists_eq_or_imp, forall_eq_or_imp, forall_eq, exists_eq_left, c0, c1, c2, c3, cornerNormal]; norm_num [dot, cross])

theorem exShift_proper : ∀ f ∈ exShift.f, ProperFace (f.map (corner exShift.v)) ∧ FirstEdge (f.map (corner exShift.v)) := by
  obtain ⟨c0, c1, c2, c3⟩ := exShift_corners
  have hd : ∀ a b : V3 ℝ, 1 ≤ lenSq (b - a) → 1 / 1000000 < V3.dist a b := by
    intro a b h
    rw [V3.dist_comm, dist_eq_len]
    have := len_mul_self (b - a)
    have := len_nonneg (b - a)
    by_contra hn
    rw [not_lt] at hn
    nlinarith
  intro f hf
  have hf' : f = [0, 2, 1] ∨ f = [0, 1, 3] ∨ f = [0, 3, 2] ∨ f = [1, 2, 3] := by simpa [exShift] using hf
  rcases hf' with rfl | rfl | rfl | rfl <;> simp only [List.map_cons, List.map_nil, c0, c1, c2, c3] <;>
    refine ⟨triangle_proper ?_, _, _, _, rfl, hd _ _ ?_⟩ <;> norm_num [V3.ext_iff, cross, lenSq, dot]

theorem exShift_faces : ∀ f ∈ exShift.f, (∃ n, ConvexPolygon n (f.map (corner exShift.v))) ∧ HasTriangle (f.map (corner exShift.v)) ∧
    FirstEdge (f.map (corner exShift.v)) := by
  obtain ⟨c0, c1, c2, c3⟩ := exShift_corners
  intro f hf
  obtain ⟨⟨n, h1, -⟩, h2⟩ := exShift_proper f hf
  refine ⟨⟨n, h1⟩, ?_, h2⟩
  have hd : ∀ a : V3 ℝ, 1 ≤ lenSq a → 1 / 10000 < len a := by
    intro a h
    have := len_mul_self a
    have := len_nonneg a
    by_contra hn
    rw [not_lt] at hn
    nlinarith
  have hf' : f = [0, 2, 1] ∨ f = [0, 1, 3] ∨ f = [0, 3, 2] ∨ f = [1, 2, 3] := by simpa [exShift] using hf
  rcases hf' with rfl | rfl | rfl | rfl <;> simp only [List.map_cons, List.map_nil, c0, c1, c2, c3] <;>
    exact ⟨_, _, _, List.Sublist.refl _, hd _ (by norm_num [cross, lenSq, dot])⟩


theorem hull_shift (l : List (V3 ℝ)) (d y : V3 ℝ) : y ∈ hull3 (l.map (· + d)) ↔ y - d ∈ hull3 l := by
  constructor
  · intro h K hK hS
    have := h {z | z - d ∈ K} (by
      intro a ha b hb s t hs ht hst
      show s • a + t • b - d ∈ K
      have := hK _ ha _ hb s t hs ht hst
      convert this using 1
      have e : t = 1 - s := by linarith
      subst e
      ext <;> simp only [add_x, add_y, add_z, sub_x, sub_y, sub_z, smul_x, smul_y, smul_z] <;> ring) (by
      intro s hs
      obtain ⟨v, hv, rfl⟩ := List.mem_map.1 hs
      show v + d - d ∈ K
      rw [show v + d - d = v by ext <;> simp]
      exact hS v hv)
    exact this
  · intro h K hK hS
    have := h {z | z + d ∈ K} (by
      intro a ha b hb s t hs ht hst
      show s • a + t • b + d ∈ K
      have := hK _ ha _ hb s t hs ht hst
      convert this using 1
      have e : t = 1 - s := by linarith
      subst e
      ext <;> simp only [add_x, add_y, add_z, smul_x, smul_y, smul_z] <;> ring) (by
      intro s hs
      exact hS _ (List.mem_map.2 ⟨s, hs, rfl⟩))
    have e : y - d + d = y := by ext <;> simp
    rw [← e]; exact this

theorem normal_shift (l : List (V3 ℝ)) (d : V3 ℝ) : cornerNormal (l.map (· + d)) = cornerNormal l := by
  rcases l with _ | ⟨a, _ | ⟨b, _ | ⟨c, r⟩⟩⟩
  · rfl
  · rfl
  · rfl
  · have e : ∀ u v : V3 ℝ, u + d - (v + d) = u - v := fun u v => by ext <;> simp
    simp only [List.map_cons, cornerNormal, e]

theorem exShift_poly {f : List ℤ} (hf : f ∈ exShift.f) : f.map (corner exShift.v) = (f.map (corner exCorner.v)).map (· + ⟨1/10, 2/5, -1/5⟩) := by
  have hf' : f = [0, 2, 1] ∨ f = [0, 1, 3] ∨ f = [0, 3, 2] ∨ f = [1, 2, 3] := by simpa [exShift] using hf
  obtain ⟨c0, c1, c2, c3⟩ := exCorner_corners
  obtain ⟨d0, d1, d2, d3⟩ := exShift_corners
  rcases hf' with rfl | rfl | rfl | rfl <;> simp only [List.map_cons, List.map_nil, c0, c1, c2, c3, d0, d1, d2, d3] <;>
    simp only [List.cons.injEq, and_true, V3.ext_iff, add_x, add_y, add_z] <;> norm_num

theorem exShift_clear {x w : V3 ℝ} (h : ClearRay exCorner.v exCorner.f (x - ⟨1/10, 2/5, -1/5⟩) w) : ClearRay exShift.v exShift.f x w := by
  intro f hf t ht hp
  have e : ∀ a ∈ f, corner exShift.v a = corner exCorner.v a + ⟨1/10, 2/5, -1/5⟩ := by
    intro a ha
    have h1 := exShift_poly hf
    rw [List.map_map] at h1
    exact List.map_inj_left.1 h1 a ha
  rw [exShift_poly hf] at hp ⊢
  rw [normal_shift] at hp
  have hx : ∀ y : V3 ℝ, y - ⟨1/10, 2/5, -1/5⟩ = x - ⟨1/10, 2/5, -1/5⟩ + t • w ↔ y = x + t • w := by
    intro y
    simp only [V3.ext_iff, add_x, add_y, add_z, sub_x, sub_y, sub_z]
    constructor <;> rintro ⟨h1, h2, h3⟩ <;> refine ⟨?_, ?_, ?_⟩ <;> linarith
  have hq := (hx _).2 rfl
  have := h f hf t ht (by
    intro a ha
    rw [← hp a ha, e a ha]
    congr 1
    ext <;> simp only [add_x, add_y, add_z, sub_x, sub_y, sub_z] <;> ring)
  rw [← hq] at this
  have hd : ∀ u v : V3 ℝ, V3.dist (u - ⟨1/10, 2/5, -1/5⟩) (v - ⟨1/10, 2/5, -1/5⟩) = V3.dist u v := by
    intro u v
    rw [dist_eq_len, dist_eq_len]
    congr 1
    ext <;> simp
  rcases this with ⟨r, hr, hin⟩ | hfar
  · refine Or.inl ⟨r, hr, fun y hy hdy => ?_⟩
    rw [hull_shift]
    refine hin _ ?_ (by rw [hd]; exact hdy)
    rw [normal_shift] at hy
    rw [← hy]
    congr 1
    ext <;> simp
  · refine Or.inr fun y hy => ?_
    rw [hull_shift] at hy
    rw [← hd]
    exact hfar _ hy

/-- The condition of `exCorner_clear`, from lower bounds for three of the four coordinates. -/
theorem one_zero {a b c d : ℝ} (h : a = 0 ∧ 1 / 100 ≤ b ∧ 1 / 100 ≤ c ∧ 1 / 100 ≤ d ∨ b = 0 ∧ 1 / 100 ≤ a ∧ 1 / 100 ≤ c ∧ 1 / 100 ≤ d ∨
    c = 0 ∧ 1 / 100 ≤ a ∧ 1 / 100 ≤ b ∧ 1 / 100 ≤ d ∨ d = 0 ∧ 1 / 100 ≤ a ∧ 1 / 100 ≤ b ∧ 1 / 100 ≤ c) :
    (∀ x ∈ [a, b, c, d], x = 0 ∨ 1 / 100 ≤ x) ∧ [a, b, c, d].count 0 = 1 := by
  have nz : ∀ x : ℝ, 1 / 100 ≤ x → (x == 0) = false := fun x hx => by
    rw [beq_eq_false_iff_ne]; intro h; rw [h] at hx; norm_num at hx
  rcases h with ⟨rfl, h1, h2, h3⟩ | ⟨rfl, h1, h2, h3⟩ | ⟨rfl, h1, h2, h3⟩ | ⟨rfl, h1, h2, h3⟩ <;>
    refine ⟨by simp only [List.mem_cons, List.not_mem_nil, or_false]; rintro x (rfl | rfl | rfl | rfl) <;> first | exact Or.inl rfl | (right; assumption), ?_⟩ <;>
    simp [List.count_cons, nz _ h1, nz _ h2, nz _ h3]

theorem clear_of_coords {x w : V3 ℝ} (h : ∀ t : ℝ, 0 ≤ t → ∀ a b c : ℝ, a = x.x + t * w.x → b = x.y + t * w.y → c = x.z + t * w.z →
      (a = 0 → (1 / 100 ≤ b ∧ 1 / 100 ≤ c ∧ 1 / 100 ≤ 1 - a - b - c) ∨ b ≤ -(1 / 1000) ∨ c ≤ -(1 / 1000) ∨ 1 - a - b - c ≤ -(1 / 1000)) ∧
      (b = 0 → (1 / 100 ≤ a ∧ 1 / 100 ≤ c ∧ 1 / 100 ≤ 1 - a - b - c) ∨ a ≤ -(1 / 1000) ∨ c ≤ -(1 / 1000) ∨ 1 - a - b - c ≤ -(1 / 1000)) ∧
      (c = 0 → (1 / 100 ≤ a ∧ 1 / 100 ≤ b ∧ 1 / 100 ≤ 1 - a - b - c) ∨ a ≤ -(1 / 1000) ∨ b ≤ -(1 / 1000) ∨ 1 - a - b - c ≤ -(1 / 1000)) ∧
      (1 - a - b - c = 0 → (1 / 100 ≤ a ∧ 1 / 100 ≤ b ∧ 1 / 100 ≤ c) ∨ a ≤ -(1 / 1000) ∨ b ≤ -(1 / 1000) ∨ c ≤ -(1 / 1000))) :
    ClearRay exCorner.v exCorner.f x w := by
  refine exCorner_clear fun t ht q hq hz => ?_
  obtain ⟨h1, h2, h3, h4⟩ := h t ht q.x q.y q.z (by rw [hq]; rfl) (by rw [hq]; rfl) (by rw [hq]; rfl)
  have out : ∀ {c}, c ∈ [q.x, q.y, q.z, 1 - q.x - q.y - q.z] → c ≤ -(1 / 1000) → ∃ c ∈ [q.x, q.y, q.z, 1 - q.x - q.y - q.z], c ≤ -(1 / 1000) :=
    fun hc h => ⟨_, hc, h⟩
  rcases hz with h | h | h | h
  · rcases h1 h with g | g | g | g
    · exact Or.inl (one_zero (Or.inl ⟨h, g⟩))
    all_goals exact Or.inr (out (by simp) g)
  · rcases h2 h with g | g | g | g
    · exact Or.inl (one_zero (Or.inr (Or.inl ⟨h, g⟩)))
    all_goals exact Or.inr (out (by simp) g)
  · rcases h3 h with g | g | g | g
    · exact Or.inl (one_zero (Or.inr (Or.inr (Or.inl ⟨h, g⟩))))
    all_goals exact Or.inr (out (by simp) g)
  · rcases h4 h with g | g | g | g
    · exact Or.inl (one_zero (Or.inr (Or.inr (Or.inr ⟨h, g⟩))))
    all_goals exact Or.inr (out (by simp) g)

/-- Clear rays of the corner tetrahedron, coordinate by coordinate. -/
macro "clear_coords" : tactic => `(tactic| (
  refine clear_of_coords fun t ht a b c ha hb hc => ?_
  norm_num at ha hb hc
  refine ⟨fun h => ?_, fun h => ?_, fun h => ?_, fun h => ?_⟩ <;> first
    | (exfalso; linarith)
    | (left; refine ⟨?_, ?_, ?_⟩ <;> linarith)
    | (right; left; linarith)
    | (right; right; left; linarith)
    | (right; right; right; linarith)))

theorem near_small {V : List (V3 ℝ)} {x : V3 ℝ} (hx : |x.x| ≤ 10 ∧ |x.y| ≤ 10 ∧ |x.z| ≤ 10) (hV : ∀ v ∈ V, |v.x| ≤ 10 ∧ |v.y| ≤ 10 ∧ |v.z| ≤ 10) :
    ∀ v ∈ V, V3.dist x v < 10000 := by
  intro v hv
  obtain ⟨h1, h2, h3⟩ := hx
  obtain ⟨g1, g2, g3⟩ := hV v hv
  rw [abs_le] at h1 h2 h3 g1 g2 g3
  have h := len_mul_self (x - v)
  have h0 := len_nonneg (x - v)
  have e : lenSq (x - v) = (x.x - v.x) * (x.x - v.x) + (x.y - v.y) * (x.y - v.y) + (x.z - v.z) * (x.z - v.z) := by
    simp only [lenSq, dot, sub_x, sub_y, sub_z]
  rw [dist_eq_len]
  have k1 : (x.x - v.x) * (x.x - v.x) ≤ 400 := by nlinarith
  have k2 : (x.y - v.y) * (x.y - v.y) ≤ 400 := by nlinarith
  have k3 : (x.z - v.z) * (x.z - v.z) ≤ 400 := by nlinarith
  by_contra hn
  rw [not_lt] at hn
  nlinarith

theorem exCorner_small : ∀ v ∈ exCorner.v, |v.x| ≤ 10 ∧ |v.y| ≤ 10 ∧ |v.z| ≤ 10 := by
  intro v hv
  simp only [exCorner, List.mem_cons, List.not_mem_nil, or_false] at hv
  rcases hv with rfl | rfl | rfl | rfl <;> norm_num

theorem exShift_small : ∀ v ∈ exShift.v, |v.x| ≤ 10 ∧ |v.y| ≤ 10 ∧ |v.z| ≤ 10 := by
  intro v hv
  simp only [exShift, List.mem_cons, List.not_mem_nil, or_false] at hv
  rcases hv with rfl | rfl | rfl | rfl <;> norm_num [abs_le]

/-- Clear points of the corner tetrahedron. -/
macro "clear_point" : tactic => `(tactic| (
  obtain ⟨c0, c1, c2, c3⟩ := exCorner_corners
  refine ⟨exCorner_off (by norm_num) (by norm_num) (by norm_num) (by norm_num), near_small (by norm_num [abs_le]) exCorner_small, fun f hf => ?_⟩
  have hf' : f = [0, 2, 1] ∨ f = [0, 1, 3] ∨ f = [0, 3, 2] ∨ f = [1, 2, 3] := by simpa [exCorner] using hf
  rcases hf' with h | h | h | h <;> subst h <;>
    refine ⟨_, rfl, exCorner_len (by simp only [List.map_cons, List.map_nil, c0, c1, c2, c3]; norm_num [cornerSum, lenSq, dot]), ?_⟩ <;>
    simp only [List.map_cons, List.map_nil, c0, c1, c2, c3, cornerSum] <;> clear_coords))

theorem exShift_off {x : V3 ℝ} (h : ∀ f ∈ exCorner.f, ∀ a ∈ f, 1 / 1000 * len (cornerNormal (f.map (corner exCorner.v))) <
      |dot (cornerNormal (f.map (corner exCorner.v))) (x - ⟨1/10, 2/5, -1/5⟩ - corner exCorner.v a)|) :
    ∀ f ∈ exShift.f, ∀ a ∈ f, 1 / 1000 * len (cornerNormal (f.map (corner exShift.v))) <
      |dot (cornerNormal (f.map (corner exShift.v))) (x - corner exShift.v a)| := by
  intro f hf a ha
  have h1 := exShift_poly hf
  rw [List.map_map] at h1
  have e : corner exShift.v a = corner exCorner.v a + ⟨1/10, 2/5, -1/5⟩ := List.map_inj_left.1 h1 a ha
  rw [exShift_poly hf, normal_shift, e]
  convert h f hf a ha using 3
  ext <;> simp only [add_x, add_y, add_z, sub_x, sub_y, sub_z] <;> ring

/-- Clear points of the moved tetrahedron. -/
macro "clear_point'" : tactic => `(tactic| (
  obtain ⟨c0, c1, c2, c3⟩ := exShift_corners
  refine ⟨exShift_off (exCorner_off (by norm_num) (by norm_num) (by norm_num) (by norm_num)), near_small (by norm_num [abs_le]) exShift_small,
    fun f hf => ?_⟩
  have hf' : f = [0, 2, 1] ∨ f = [0, 1, 3] ∨ f = [0, 3, 2] ∨ f = [1, 2, 3] := by simpa [exShift] using hf
  rcases hf' with h | h | h | h <;> subst h <;>
    refine ⟨_, rfl, exCorner_len (by simp only [List.map_cons, List.map_nil, c0, c1, c2, c3]; norm_num [cornerSum, lenSq, dot]), exShift_clear ?_⟩ <;>
    simp only [List.map_cons, List.map_nil, c0, c1, c2, c3, cornerSum] <;> clear_coords))

theorem exPair_centroids : ∀ c : V3 ℝ, c = (1 / (exCorner.v.length : ℝ)) • exCorner.v.foldl (fun c x => c + x) ⟨0, 0, 0⟩ ∨
    c = (1 / (exShift.v.length : ℝ)) • exShift.v.foldl (fun c x => c + x) ⟨0, 0, 0⟩ →
    ClearPoint (11184811 / 33554432) exCorner.v exCorner.f c ∧ ClearPoint (11184811 / 33554432) exShift.v exShift.f c := by
  have e1 : (1 / (exCorner.v.length : ℝ)) • exCorner.v.foldl (fun c x => c + x) ⟨0, 0, 0⟩ = ⟨1/4, 1/4, 1/4⟩ := by
    simp only [exCorner, List.foldl_cons, List.foldl_nil, List.length_cons, List.length_nil]
    ext <;> norm_num
  have e2 : (1 / (exShift.v.length : ℝ)) • exShift.v.foldl (fun c x => c + x) ⟨0, 0, 0⟩ = ⟨7/20, 13/20, 1/20⟩ := by
    simp only [exShift, List.foldl_cons, List.foldl_nil, List.length_cons, List.length_nil]
    ext <;> norm_num
  rw [e1, e2]
  rintro c (rfl | rfl)
  · exact ⟨exCorner_clearPoint, by clear_point'⟩
  · exact ⟨by clear_point, by clear_point'⟩

set_option maxHeartbeats 2000000 in
theorem exPair_corners : ∀ i : ℤ, 0 ≤ i → i < 4 → ClearPoint (11184811 / 33554432) exShift.v exShift.f (corner exCorner.v i) ∧
    ClearPoint (11184811 / 33554432) exCorner.v exCorner.f (corner exShift.v i) := by
  obtain ⟨c0, c1, c2, c3⟩ := exCorner_corners
  obtain ⟨d0, d1, d2, d3⟩ := exShift_corners
  intro i h0 h4
  obtain rfl | rfl | rfl | rfl : i = 0 ∨ i = 1 ∨ i = 2 ∨ i = 3 := by omega
  · rw [c0, d0]; exact ⟨by clear_point', by clear_point⟩
  · rw [c1, d1]; exact ⟨by clear_point', by clear_point⟩
  · rw [c2, d2]; exact ⟨by clear_point', by clear_point⟩
  · rw [c3, d3]; exact ⟨by clear_point', by clear_point⟩

theorem exPair_edges : ∀ i j : ℤ, 0 ≤ i → i < j → j < 4 →
    ClearRay exShift.v exShift.f (corner exCorner.v i) (corner exCorner.v j - corner exCorner.v i) ∧
    ClearRay exCorner.v exCorner.f (corner exShift.v i) (corner exShift.v j - corner exShift.v i) := by
  obtain ⟨c0, c1, c2, c3⟩ := exCorner_corners
  obtain ⟨d0, d1, d2, d3⟩ := exShift_corners
  intro i j h0 hij h4
  obtain ⟨rfl, rfl⟩ | ⟨rfl, rfl⟩ | ⟨rfl, rfl⟩ | ⟨rfl, rfl⟩ | ⟨rfl, rfl⟩ | ⟨rfl, rfl⟩ : i = 0 ∧ j = 1 ∨ i = 0 ∧ j = 2 ∨ i = 0 ∧ j = 3 ∨ i = 1 ∧ j = 2 ∨
    i = 1 ∧ j = 3 ∨ i = 2 ∧ j = 3 := by omega
  all_goals
    simp only [c0, c1, c2, c3, d0, d1, d2, d3]
    exact ⟨exShift_clear (by clear_coords), by clear_coords⟩

theorem exPair_range {p : Polyhedron ℝ} (hs : ConvexSurface p.v p.f) (h : p.v.length = 4) {i j : ℤ} (he : (i, j) ∈ meshEdges p.f) :
    (0 ≤ i ∧ i < 4) ∧ 0 ≤ j ∧ j < 4 := by
  obtain ⟨f, hf, -, hm⟩ := mem_meshEdges.1 he
  have hmem := List.of_mem_zip hm
  have h1 := (hs.valid f hf).2.2 _ hmem.1
  have h2 := (hs.valid f hf).2.2 _ (List.mem_rotate.1 hmem.2)
  rw [h] at h1 h2
  exact ⟨h1, h2⟩

/-- The two tetrahedra intersect, and the test says so. -/
example : exCorner.intersectsPolyhedron exShift = some true := by
  obtain ⟨r, h1, h2⟩ := C109_polyhedron_partial exCorner exShift exCorner_convex (by simp [exCorner]) (by simp [exCorner]) exCorner_noTwoCoplanar
    exCorner_faces exShift_convex (by simp [exShift]) (by simp [exShift]) exShift_noTwoCoplanar exShift_faces exPair_centroids
    (fun i j he hij => by
      obtain ⟨⟨i0, i4⟩, j0, j4⟩ := exPair_range exCorner_convex rfl he
      exact ⟨(exPair_corners i i0 i4).1, (exPair_corners j j0 j4).1, (exPair_edges i j i0 hij j4).1⟩)
    (fun i j he hij => by
      obtain ⟨⟨i0, i4⟩, j0, j4⟩ := exPair_range exShift_convex rfl he
      exact ⟨(exPair_corners i i0 i4).2, (exPair_corners j j0 j4).2, (exPair_edges i j i0 hij j4).2⟩)
  have hm : ∀ (p : Polyhedron ℝ), ConvexSurface p.v p.f → p.f ≠ [] → (∀ f ∈ p.f, height p.v f ⟨1/5, 1/2, 1/10⟩ ≤ 0) → (⟨1/5, 1/2, 1/10⟩ : V3 ℝ) ∈ hull3 p.v :=
    fun p hs h0 h => (mem_hull_iff hs h0 _).2 h
  rw [h1, h2.2 ⟨⟨1/5, 1/2, 1/10⟩, hm _ exCorner_convex (by simp [exCorner]) ?_, hm _ exShift_convex (by simp [exShift]) ?_⟩]
  · obtain ⟨c0, c1, c2, c3⟩ := exCorner_corners
    intro f hf
    have hf' : f = [0, 2, 1] ∨ f = [0, 1, 3] ∨ f = [0, 3, 2] ∨ f = [1, 2, 3] := by simpa [exCorner] using hf
    rcases hf' with rfl | rfl | rfl | rfl <;> simp only [height, List.map_cons, List.map_nil, List.head?_cons, Option.getD_some, c0, c1, c2, c3] <;>
      norm_num [cornerNormal, cross, dot]
  · obtain ⟨c0, c1, c2, c3⟩ := exShift_corners
    intro f hf
    have hf' : f = [0, 2, 1] ∨ f = [0, 1, 3] ∨ f = [0, 3, 2] ∨ f = [1, 2, 3] := by simpa [exShift] using hf
    rcases hf' with rfl | rfl | rfl | rfl <;> simp only [height, List.map_cons, List.map_nil, List.head?_cons, Option.getD_some, c0, c1, c2, c3] <;>
      norm_num [cornerNormal, cross, dot]

end Polyhedron
end MGL
