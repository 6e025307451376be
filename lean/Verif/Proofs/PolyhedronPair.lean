import Verif.Model.PolyhedronPair
import Verif.Proofs.PolygonMore
import Verif.Props.PolyhedronIntersect

/-! Lemmas for C109: two convex polyhedra that meet do so in a point of an edge of one of them. -/

set_option linter.unusedSectionVars false

namespace MGL
open V3 Spec
namespace Polyhedron

theorem dot_ray (n x d : V3 ℝ) (t : ℝ) : dot n (x + t • d) = dot n x + t * dot n d := by
  simp only [dot, add_x, add_y, add_z, smul_x, smul_y, smul_z]; ring

/-- Going from a point of a region bounded by planes until the first plane is met. -/
theorem first_plane (C : List (V3 ℝ × ℝ)) {x d : V3 ℝ} (hx : ∀ c ∈ C, dot c.1 x ≤ c.2)
    (hb : ∃ T : ℝ, 0 < T ∧ ∃ c ∈ C, c.2 < dot c.1 (x + T • d)) :
    ∃ t : ℝ, (∀ c ∈ C, dot c.1 (x + t • d) ≤ c.2) ∧ ∃ c ∈ C, dot c.1 (x + t • d) = c.2 ∧ 0 < dot c.1 d := by
  classical
  obtain ⟨T, hT, c0, hc0, hlt⟩ := hb
  rw [dot_ray] at hlt
  have hp0 : 0 < dot c0.1 d := by
    have := hx c0 hc0
    by_contra hn
    have := mul_nonneg hT.le (neg_nonneg.2 (not_lt.1 hn))
    linarith
  let r : V3 ℝ × ℝ → ℝ := fun c => (c.2 - dot c.1 x) / dot c.1 d
  have hne : ∃ c, c ∈ C.filter fun c => 0 < dot c.1 d := ⟨c0, by simp [hc0, hp0]⟩
  obtain ⟨c, hc, hmin⟩ : ∃ c ∈ C.filter (fun c => 0 < dot c.1 d), ∀ c' ∈ C.filter (fun c => 0 < dot c.1 d), r c ≤ r c' := by
    have key : ∀ l : List (V3 ℝ × ℝ), (∃ c, c ∈ l) → ∃ c ∈ l, ∀ c' ∈ l, r c ≤ r c' := by
      intro l
      induction l with
      | nil => rintro ⟨c, hc⟩; cases hc
      | cons a l ih =>
        intro _
        by_cases hl : ∃ c, c ∈ l
        · obtain ⟨c, hc, hm⟩ := ih hl
          rcases le_total (r a) (r c) with h | h
          · refine ⟨a, by simp, fun c' hc' => ?_⟩
            rcases List.mem_cons.1 hc' with rfl | hc'
            · exact le_rfl
            · exact h.trans (hm c' hc')
          · refine ⟨c, by simp [hc], fun c' hc' => ?_⟩
            rcases List.mem_cons.1 hc' with rfl | hc'
            · exact h
            · exact hm c' hc'
        · refine ⟨a, by simp, fun c' hc' => ?_⟩
          rcases List.mem_cons.1 hc' with rfl | hc'
          · exact le_rfl
          · exact absurd ⟨c', hc'⟩ hl
    exact key _ hne
  rw [List.mem_filter, decide_eq_true_iff] at hc
  obtain ⟨hc, hpos⟩ := hc
  have t0 : 0 ≤ r c := div_nonneg (by linarith [hx c hc]) hpos.le
  refine ⟨r c, fun c' hc' => ?_, c, hc, ?_, hpos⟩
  · rw [dot_ray]
    by_cases hp : 0 < dot c'.1 d
    · have h1 := hmin c' (by simp [hc', hp])
      have h2 := mul_le_mul_of_nonneg_right h1 hp.le
      have e3 : r c' * dot c'.1 d = c'.2 - dot c'.1 x := div_mul_cancel₀ _ hp.ne'
      linarith
    · have := hx c' hc'
      have := mul_nonneg t0 (neg_nonneg.2 (not_lt.1 hp))
      linarith
  · rw [dot_ray]
    have e3 : r c * dot c.1 d = c.2 - dot c.1 x := div_mul_cancel₀ _ hpos.ne'
    linarith

theorem ne_zero_of_dot {n d : V3 ℝ} (h : 0 < dot n d) : n ≠ 0 := by
  rintro rfl
  simp [dot] at h

theorem self_pos {n : V3 ℝ} (h : n ≠ 0) : 0 < dot n n := by
  have h0 : 0 ≤ dot n n := by simp only [dot]; nlinarith [mul_self_nonneg n.x, mul_self_nonneg n.y, mul_self_nonneg n.z]
  rcases h0.lt_or_eq with h1 | h1
  · exact h1
  · exfalso; apply h
    simp only [dot] at h1
    ext <;> simp only [zero_x, zero_y, zero_z] <;> nlinarith [mul_self_nonneg n.x, mul_self_nonneg n.y, mul_self_nonneg n.z]

/-- A direction in a plane. -/
theorem exists_perp (n : V3 ℝ) : ∃ d : V3 ℝ, d ≠ 0 ∧ dot n d = 0 := by
  by_cases h : n.x = 0 ∧ n.y = 0
  · refine ⟨⟨1, 0, 0⟩, fun e => ?_, by simp [dot, h.1]⟩
    have := congrArg V3.x e; simp at this
  · refine ⟨⟨n.y, -n.x, 0⟩, fun e => h ⟨?_, ?_⟩, by simp only [dot]; ring⟩
    · have := congrArg V3.y e; simpa using this
    · have := congrArg V3.x e; simpa using this

/-- A bounded region bounded by planes has a corner. -/
theorem exists_corner (C : List (V3 ℝ × ℝ)) {x : V3 ℝ} (hx : ∀ c ∈ C, dot c.1 x ≤ c.2)
    (hb : ∀ y d : V3 ℝ, d ≠ 0 → ∃ T : ℝ, 0 < T ∧ ∃ c ∈ C, c.2 < dot c.1 (y + T • d)) :
    ∃ y, (∀ c ∈ C, dot c.1 y ≤ c.2) ∧ ∃ c1 ∈ C, ∃ c2 ∈ C, ∃ c3 ∈ C, dot c1.1 y = c1.2 ∧ dot c2.1 y = c2.2 ∧ dot c3.1 y = c3.2 ∧
      cross c1.1 c2.1 ≠ 0 ∧ cross c1.1 c3.1 ≠ 0 ∧ cross c2.1 c3.1 ≠ 0 := by
  have hd0 : (⟨1, 0, 0⟩ : V3 ℝ) ≠ 0 := fun e => by have := congrArg V3.x e; simp at this
  obtain ⟨t1, hx1, c1, m1, e1, p1⟩ := first_plane C hx (hb x _ hd0)
  obtain ⟨d2, hd2, hperp2⟩ := exists_perp c1.1
  obtain ⟨t2, hx2, c2, m2, e2, p2⟩ := first_plane C hx1 (hb _ _ hd2)
  have h12 : cross c1.1 c2.1 ≠ 0 := by
    intro h
    have n1 := self_pos (ne_zero_of_dot p1)
    have e : dot c1.1 c1.1 * dot c2.1 d2 = dot c1.1 c2.1 * dot c1.1 d2 + dot (cross (cross c1.1 c2.1) c1.1) d2 := by
      simp only [dot, cross]; ring
    rw [h, hperp2] at e
    have e0 : dot (cross (0 : V3 ℝ) c1.1) d2 = 0 := by simp [dot, cross]
    rw [e0] at e
    have := mul_pos n1 p2
    linarith
  obtain ⟨t3, hx3, c3, m3, e3, p3⟩ := first_plane C hx2 (hb _ _ h12)
  have z1 : dot c1.1 (cross c1.1 c2.1) = 0 := by simp only [dot, cross]; ring
  have z2 : dot c2.1 (cross c1.1 c2.1) = 0 := by simp only [dot, cross]; ring
  refine ⟨_, hx3, c1, m1, c2, m2, c3, m3, ?_, ?_, e3, h12, ?_, ?_⟩
  · rw [dot_ray, z1, dot_ray, hperp2, e1]; ring
  · rw [dot_ray, z2, e2]; ring
  · intro h
    have e : dot c3.1 (cross c1.1 c2.1) = -dot c2.1 (cross c1.1 c3.1) := by simp only [dot, cross]; ring
    rw [h] at e
    simp [dot] at e p3
    linarith
  · intro h
    have e : dot c3.1 (cross c1.1 c2.1) = dot c1.1 (cross c2.1 c3.1) := by simp only [dot, cross]; ring
    rw [h] at e
    simp [dot] at e p3
    linarith

theorem closed_iff {β : Type*} (p : List β) (e : β × β) : e ∈ p.zip (p.rotate 1) ↔ e ∈ closedEdges p := by
  rcases p with _ | ⟨a, r⟩
  · simp [closedEdges]
  · have h : ∀ (r : List β) (a b : β), e ∈ (a :: r).zip (r ++ [b]) ↔ e ∈ (a :: r).zip r ∨ e = ((a :: r).getLast (by simp), b) := by
      intro r
      induction r with
      | nil => intro a b; simp
      | cons c r ih =>
        intro a b
        rw [List.cons_append, List.zip_cons_cons, List.mem_cons, ih c b, List.zip_cons_cons, List.mem_cons, or_assoc]
        rfl
    unfold closedEdges
    rw [List.getLast?_eq_some_getLast (by simp)]
    simp only [List.rotate_cons_succ, List.rotate_zero]
    rw [h r a a, List.zip_cons_cons, List.mem_cons, or_comm]

theorem seg_symm {a b x : V3 ℝ} (h : x ∈ seg a b) : x ∈ seg b a := by
  obtain ⟨t, t0, t1, rfl⟩ := h
  exact ⟨1 - t, by linarith, by linarith, by ext <;> simp only [add_x, add_y, add_z, sub_x, sub_y, sub_z, smul_x, smul_y, smul_z] <;> ring⟩

/-- A point of the solid on the planes of two faces that are not parallel is a point of an edge. -/
theorem on_two_faces {p : Polyhedron ℝ} (hs : ConvexSurface p.v p.f) (h0 : p.f ≠ []) (hcop : NoTwoCoplanar p.v p.f)
    (hgood : ∀ f ∈ p.f, ∃ n, GoodFace p f n) {f g : List ℤ} (hf : f ∈ p.f) (hg : g ∈ p.f) {x : V3 ℝ} (hx : x ∈ hull3 p.v)
    (e1 : height p.v f x = 0) (e2 : height p.v g x = 0)
    (hx2 : cross (cornerNormal (f.map (corner p.v))) (cornerNormal (g.map (corner p.v))) ≠ 0) :
    ∃ e ∈ meshEdges p.f, e.1 < e.2 ∧ x ∈ seg (corner p.v e.1) (corner p.v e.2) := by
  obtain ⟨n, G⟩ := hgood f hf
  obtain ⟨k, hk, hN⟩ := G.normal
  have hxf : x ∈ hull3 (f.map (corner p.v)) := face_eq_section hs h0 (sharp_of_noTwoCoplanar hs hcop) hf G.convex G.basis hx fun c hc => by
    rw [← height_eq hs hf hc, e1]
  set N := cornerNormal (f.map (corner p.v)) with hNd
  set M := cornerNormal (g.map (corner p.v)) with hMd
  set w : V3 ℝ := dot N N • M - dot N M • N with hw
  have hwN : dot N w = 0 := by rw [hw]; simp only [dot, sub_x, sub_y, sub_z, smul_x, smul_y, smul_z]; ring
  have hwM : 0 < dot M w := by
    have e : dot M w = dot (cross N M) (cross N M) := by
      rw [hw]; simp only [dot, cross, sub_x, sub_y, sub_z, smul_x, smul_y, smul_z]; ring
    rw [e]; exact self_pos hx2
  have hgh : ∀ t : ℝ, height p.v g (x + t • w) = t * dot M w := fun t => by rw [height_line, e2, zero_add]
  have hout : x + w ∉ hull3 (f.map (corner p.v)) := by
    intro h
    have h1 := (mem_hull_iff hs h0 _).1 (face_sub_hull hs hf h) g hg
    have h2 := hgh 1
    rw [show x + (1 : ℝ) • w = x + w by ext <;> simp] at h2
    linarith
  obtain ⟨c, hc⟩ := head_mem hs hf
  have hpl : ∀ v ∈ f.map (corner p.v), dot n v = dot n (corner p.v c) := by
    intro v hv
    have := G.convex.plane hv (List.mem_map.2 ⟨c, hc, rfl⟩)
    simp only [dot, sub_x, sub_y, sub_z] at this ⊢
    linarith
  have hwn : dot n w = 0 := by
    have : dot N w = k * dot n w := by rw [hN]; simp only [dot, smul_x, smul_y, smul_z]; ring
    rw [hwN] at this
    exact ((mul_eq_zero.1 this.symm).resolve_left hk.ne')
  obtain ⟨e, he, t, t0, t1, hseg⟩ := Polygon.leaves3 G.convex G.basis hpl hxf hout (by
    have h1 := Polygon.hull_plane hpl hxf
    have : dot n (x + w) = dot n x + dot n w := by simp only [dot, add_x, add_y, add_z]; ring
    rw [this, hwn, h1, add_zero])
  rw [show x + w - x = w by ext <;> simp] at hseg
  have hem := Polygon.edge_mem he
  have hin : x + t • w ∈ hull3 (f.map (corner p.v)) := by
    obtain ⟨s, s0, s1, hs'⟩ := hseg
    intro K hK hS
    have := hK _ (hS _ hem.1) _ (hS _ hem.2) (1 - s) s (by linarith) s0 (by ring)
    convert this using 1
    rw [hs']
    ext <;> simp only [add_x, add_y, add_z, sub_x, sub_y, sub_z, smul_x, smul_y, smul_z] <;> ring
  have ht : t = 0 := by
    have h1 := (mem_hull_iff hs h0 _).1 (face_sub_hull hs hf hin) g hg
    rw [hgh] at h1
    have h2 : t ≤ 0 := by
      by_contra hn
      have := mul_pos (not_le.1 hn) hwM
      linarith
    linarith
  rw [ht, show x + (0 : ℝ) • w = x by ext <;> simp] at hseg
  rw [← closed_iff, ← List.map_rotate, List.zip_map] at he
  obtain ⟨⟨i, j⟩, hij, rfl⟩ := List.mem_map.1 he
  have hv := hs.valid f hf
  have hm := mem_meshEdges.2 ⟨f, hf, by omega, hij⟩
  have hne := faceEdges_ne hv.2.1 (by omega) hij
  rcases lt_or_gt_of_ne hne with h | h
  · exact ⟨_, hm, h, hseg⟩
  · exact ⟨(j, i), hs.closed.2 _ _ hm, h, seg_symm hseg⟩

/-- Two convex polyhedra that meet do so in a point of an edge of one of them. -/
theorem meet_edge {p q : Polyhedron ℝ} (hs : ConvexSurface p.v p.f) (h0 : p.f ≠ []) (hcop : NoTwoCoplanar p.v p.f)
    (hgood : ∀ f ∈ p.f, ∃ n, GoodFace p f n) (hs' : ConvexSurface q.v q.f) (h0' : q.f ≠ []) (hcop' : NoTwoCoplanar q.v q.f)
    (hgood' : ∀ f ∈ q.f, ∃ n, GoodFace q f n) {x : V3 ℝ} (hx : x ∈ hull3 p.v) (hx' : x ∈ hull3 q.v) :
    (∃ e ∈ meshEdges p.f, e.1 < e.2 ∧ ∃ y ∈ seg (corner p.v e.1) (corner p.v e.2), y ∈ hull3 q.v) ∨
    ∃ e ∈ meshEdges q.f, e.1 < e.2 ∧ ∃ y ∈ seg (corner q.v e.1) (corner q.v e.2), y ∈ hull3 p.v := by
  let P : List ℤ → V3 ℝ × ℝ := fun f => (cornerNormal (f.map (corner p.v)), -height p.v f 0)
  let Q : List ℤ → V3 ℝ × ℝ := fun f => (cornerNormal (f.map (corner q.v)), -height q.v f 0)
  have hh : ∀ (V : List (V3 ℝ)) (f : List ℤ) (y : V3 ℝ), height V f y = height V f 0 + dot (cornerNormal (f.map (corner V))) y := by
    intro V f y
    have := height_line V f 0 y 1
    rw [show (0 : V3 ℝ) + (1 : ℝ) • y = y by ext <;> simp] at this
    linarith
  obtain ⟨y, hy, c1, m1, c2, m2, c3, m3, t1, t2, t3, x12, x13, x23⟩ := exists_corner (p.f.map P ++ q.f.map Q) (x := x) (by
    intro c hc
    rcases List.mem_append.1 hc with hc | hc <;> obtain ⟨f, hf, rfl⟩ := List.mem_map.1 hc
    · have := (mem_hull_iff hs h0 x).1 hx f hf
      rw [hh] at this; show dot _ x ≤ -_; linarith
    · have := (mem_hull_iff hs' h0' x).1 hx' f hf
      rw [hh] at this; show dot _ x ≤ -_; linarith) (by
    intro y d hd
    obtain ⟨T, hT, hout⟩ := far_out p.v y hd 0
    rw [mem_hull_iff hs h0] at hout
    push Not at hout
    obtain ⟨f, hf, hlt⟩ := hout
    refine ⟨T, hT, P f, List.mem_append.2 (Or.inl (List.mem_map.2 ⟨f, hf, rfl⟩)), ?_⟩
    rw [hh] at hlt
    show -_ < dot _ _; linarith)
  have hyp : y ∈ hull3 p.v := (mem_hull_iff hs h0 y).2 fun f hf => by
    have := hy (P f) (List.mem_append.2 (Or.inl (List.mem_map.2 ⟨f, hf, rfl⟩)))
    have h2 : dot (cornerNormal (f.map (corner p.v))) y ≤ -height p.v f 0 := this
    rw [hh]; linarith
  have hyq : y ∈ hull3 q.v := (mem_hull_iff hs' h0' y).2 fun f hf => by
    have := hy (Q f) (List.mem_append.2 (Or.inr (List.mem_map.2 ⟨f, hf, rfl⟩)))
    have h2 : dot (cornerNormal (f.map (corner q.v))) y ≤ -height q.v f 0 := this
    rw [hh]; linarith
  have kp : ∀ {c c' : V3 ℝ × ℝ}, c ∈ p.f.map P → c' ∈ p.f.map P → dot c.1 y = c.2 → dot c'.1 y = c'.2 → cross c.1 c'.1 ≠ 0 →
      ∃ e ∈ meshEdges p.f, e.1 < e.2 ∧ ∃ y ∈ seg (corner p.v e.1) (corner p.v e.2), y ∈ hull3 q.v := by
    intro c c' hc hc' h1 h2 h3
    obtain ⟨f, hf, rfl⟩ := List.mem_map.1 hc
    obtain ⟨g, hg, rfl⟩ := List.mem_map.1 hc'
    have h1 : dot (cornerNormal (f.map (corner p.v))) y = -height p.v f 0 := h1
    have h2 : dot (cornerNormal (g.map (corner p.v))) y = -height p.v g 0 := h2
    obtain ⟨e, he, hlt, hsg⟩ := on_two_faces hs h0 hcop hgood hf hg hyp (by rw [hh]; linarith) (by rw [hh]; linarith) h3
    exact ⟨e, he, hlt, y, hsg, hyq⟩
  have kq : ∀ {c c' : V3 ℝ × ℝ}, c ∈ q.f.map Q → c' ∈ q.f.map Q → dot c.1 y = c.2 → dot c'.1 y = c'.2 → cross c.1 c'.1 ≠ 0 →
      ∃ e ∈ meshEdges q.f, e.1 < e.2 ∧ ∃ y ∈ seg (corner q.v e.1) (corner q.v e.2), y ∈ hull3 p.v := by
    intro c c' hc hc' h1 h2 h3
    obtain ⟨f, hf, rfl⟩ := List.mem_map.1 hc
    obtain ⟨g, hg, rfl⟩ := List.mem_map.1 hc'
    have h1 : dot (cornerNormal (f.map (corner q.v))) y = -height q.v f 0 := h1
    have h2 : dot (cornerNormal (g.map (corner q.v))) y = -height q.v g 0 := h2
    obtain ⟨e, he, hlt, hsg⟩ := on_two_faces hs' h0' hcop' hgood' hf hg hyq (by rw [hh]; linarith) (by rw [hh]; linarith) h3
    exact ⟨e, he, hlt, y, hsg, hyp⟩
  rcases List.mem_append.1 m1 with m1 | m1 <;> rcases List.mem_append.1 m2 with m2 | m2
  · exact Or.inl (kp m1 m2 t1 t2 x12)
  · rcases List.mem_append.1 m3 with m3 | m3
    · exact Or.inl (kp m1 m3 t1 t3 x13)
    · exact Or.inr (kq m2 m3 t2 t3 x23)
  · rcases List.mem_append.1 m3 with m3 | m3
    · exact Or.inl (kp m2 m3 t2 t3 x23)
    · exact Or.inr (kq m1 m3 t1 t3 x13)
  · exact Or.inr (kq m1 m2 t1 t2 x12)

end Polyhedron
end MGL
