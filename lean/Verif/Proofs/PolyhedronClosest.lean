import Verif.Model.PolyhedronQuery
import Verif.Proofs.PolyhedronMeasure
import Verif.Proofs.PolyhedronConvex
import Verif.Proofs.Polygon
import Verif.Props.Hull2DContains

/-! Where a segment leaves a convex polyhedron, and the faces as the intersection of the solid with their planes. -/

set_option linter.unusedSectionVars false

namespace MGL
open V3 Spec
namespace Polyhedron

/-- A segment leaves an intersection of half-spaces: the functions have the value `e.1 ≤ 0` at its start and `e.2` at its end. -/
theorem exit_time : ∀ (l : List (ℝ × ℝ)), (∀ e ∈ l, e.1 ≤ 0) → (∃ e ∈ l, 0 < e.2) →
    ∃ e ∈ l, ∃ t : ℝ, 0 ≤ t ∧ t ≤ 1 ∧ e.1 + t * (e.2 - e.1) = 0 ∧ ∀ e' ∈ l, e'.1 + t * (e'.2 - e'.1) ≤ 0
  | [], _, h => by obtain ⟨e, he, -⟩ := h; cases he
  | e :: l, hu, hw => by
    have e1 := hu e (by simp)
    have hroot : 0 < e.2 → 0 ≤ -e.1 / (e.2 - e.1) ∧ -e.1 / (e.2 - e.1) ≤ 1 ∧ e.1 + -e.1 / (e.2 - e.1) * (e.2 - e.1) = 0 := by
      intro h
      have hd : 0 < e.2 - e.1 := by linarith
      exact ⟨div_nonneg (by linarith) hd.le, by rw [div_le_one hd]; linarith, by field_simp; ring⟩
    by_cases hl : ∃ e ∈ l, 0 < e.2
    · obtain ⟨e0, m0, t0, h0, h1, hz, hall⟩ := exit_time l (fun e he => hu e (by simp [he])) hl
      by_cases hc : e.1 + t0 * (e.2 - e.1) ≤ 0
      · exact ⟨e0, by simp [m0], t0, h0, h1, hz, fun e' he' => by
          rcases List.mem_cons.1 he' with rfl | he'
          · exact hc
          · exact hall e' he'⟩
      · rw [not_le] at hc
        have h2 : 0 < e.2 := by
          by_contra hn
          rw [not_lt] at hn
          have := mul_nonneg (sub_nonneg.2 h1) (neg_nonneg.2 e1)
          have := mul_nonneg h0 (neg_nonneg.2 hn)
          nlinarith
        obtain ⟨r0, r1, rz⟩ := hroot h2
        refine ⟨e, by simp, _, r0, r1, rz, ?_⟩
        have hd : 0 < e.2 - e.1 := by linarith
        have hle : -e.1 / (e.2 - e.1) ≤ t0 := by rw [div_le_iff₀ hd]; linarith
        generalize -e.1 / (e.2 - e.1) = t at *
        intro e' he'
        rcases List.mem_cons.1 he' with rfl | he'
        · exact rz.le
        · have ha := hall e' he'
          have hb := hu e' (by simp [he'])
          rcases le_total 0 (e'.2 - e'.1) with hs | hs
          · nlinarith [mul_le_mul_of_nonneg_right hle hs]
          · nlinarith [mul_nonneg r0 (neg_nonneg.2 hs)]
    · have h2 : 0 < e.2 := by
        obtain ⟨e', he', h'⟩ := hw
        rcases List.mem_cons.1 he' with rfl | he'
        · exact h'
        · exact absurd ⟨e', he', h'⟩ hl
      obtain ⟨r0, r1, rz⟩ := hroot h2
      refine ⟨e, by simp, _, r0, r1, rz, ?_⟩
      generalize -e.1 / (e.2 - e.1) = t at *
      intro e' he'
      rcases List.mem_cons.1 he' with rfl | he'
      · exact rz.le
      · have ha : e'.2 ≤ 0 := by
          by_contra hn
          exact hl ⟨e', he', not_le.1 hn⟩
        have hb := hu e' (by simp [he'])
        nlinarith [mul_nonneg r0 (neg_nonneg.2 ha), mul_nonneg (sub_nonneg.2 r1) (neg_nonneg.2 hb)]

variable {V : List (V3 ℝ)} {fs : List (List ℤ)}

/-- Behind a face, measured from any of its corners. -/
theorem inFront_iff (hs : ConvexSurface V fs) {f : List ℤ} (hf : f ∈ fs) {a : ℤ} (ha : a ∈ f) (y : V3 ℝ) :
    (¬ InFront y (f.map (corner V)) ↔ dot (cornerNormal (f.map (corner V))) (y - corner V a) ≤ 0) := by
  obtain ⟨A, B, C, r, e, hn, hP, hpl⟩ := hs.outward f hf
  have hN : cornerNormal (f.map (corner V)) = cross (B - A) (C - A) := by rw [e]; rfl
  have hI : ¬ InFront y (f.map (corner V)) ↔ dot (cross (B - A) (C - A)) (y - A) ≤ 0 := by rw [e]; exact not_lt
  rw [hI, hN, dot_sub_base (hpl _ (List.mem_map.2 ⟨a, ha, rfl⟩))]

/-- A segment from the solid to a point outside passes a point of the solid that lies in the plane of a face. -/
theorem exit_face (hs : ConvexSurface V fs) (h0 : fs ≠ []) {x y : V3 ℝ} (hy : y ∈ hull3 V) (hx : x ∉ hull3 V) :
    ∃ f ∈ fs, ∃ t : ℝ, 0 ≤ t ∧ t ≤ 1 ∧ y + t • (x - y) ∈ hull3 V ∧
      ∀ a ∈ f, dot (cornerNormal (f.map (corner V))) (y + t • (x - y) - corner V a) = 0 := by
  have hd : ∀ f ∈ fs, ∃ a, f.head? = some a ∧ a ∈ f := by
    intro f hf
    rcases f with _ | ⟨a, f⟩
    · have := (hs.valid _ hf).1; simp at this
    · exact ⟨a, rfl, by simp⟩
  set g : List ℤ → V3 ℝ → ℝ := fun f z => dot (cornerNormal (f.map (corner V))) (z - corner V (f.head?.getD 0)) with hg
  have hback : ∀ f ∈ fs, ∀ z, (¬ InFront z (f.map (corner V)) ↔ g f z ≤ 0) := by
    intro f hf z
    obtain ⟨a, h1, h2⟩ := hd f hf
    rw [hg, inFront_iff hs hf h2]
    simp only [h1, Option.getD_some]
  have hlin : ∀ f (t : ℝ), g f (y + t • (x - y)) = g f y + t * (g f x - g f y) := by
    intro f t
    simp only [hg, dot, sub_x, sub_y, sub_z, add_x, add_y, add_z, smul_x, smul_y, smul_z]; ring
  obtain ⟨e, he, t, t0, t1, hz, hall⟩ := exit_time (fs.map fun f => (g f y, g f x)) (by
      intro e he
      obtain ⟨f, hf, rfl⟩ := List.mem_map.1 he
      exact (hback f hf y).1 ((region_eq_hull hs h0 y).2 hy f hf)) (by
      by_contra hn
      push Not at hn
      refine hx ((region_eq_hull hs h0 x).1 fun f hf => (hback f hf x).2 ?_)
      exact hn (g f y, g f x) (List.mem_map.2 ⟨f, hf, rfl⟩))
  obtain ⟨f, hf, rfl⟩ := List.mem_map.1 he
  refine ⟨f, hf, t, t0, t1, (region_eq_hull hs h0 _).1 fun f' hf' => (hback f' hf' _).2 ?_, ?_⟩
  · rw [hlin]; exact hall _ (List.mem_map.2 ⟨f', hf', rfl⟩)
  · intro a ha
    obtain ⟨b, h1, h2⟩ := hd f hf
    obtain ⟨A, B, C, r, e, hn, hP, hpl⟩ := hs.outward f hf
    have hN : cornerNormal (f.map (corner V)) = cross (B - A) (C - A) := by rw [e]; rfl
    have hz' : g f (y + t • (x - y)) = 0 := by rw [hlin]; exact hz
    simp only [hg, h1, Option.getD_some, hN] at hz'
    rw [dot_sub_base (hpl _ (List.mem_map.2 ⟨b, h2, rfl⟩))] at hz'
    rw [hN, dot_sub_base (hpl _ (List.mem_map.2 ⟨a, ha, rfl⟩))]
    exact hz'

/-- Edges of a polygon of points, from the edges of the face. -/
theorem edges_of_face {f : List ℤ} (h2 : 2 ≤ f.length) (g : ℤ → V2 ℝ) {e : V2 ℝ × V2 ℝ} (he : e ∈ edges2 (f.map g)) :
    ∃ a b, (a, b) ∈ faceEdges f ∧ e = (g a, g b) := by
  rcases f with _ | ⟨a, _ | ⟨b, r⟩⟩
  · simp at h2
  · simp at h2
  have hfe : faceEdges (a :: b :: r) = Polygon.walk a (b :: r) ++ [((b :: r).getLastD a, a)] := by
    rw [faceEdges, ← zip_tail_walk]; rfl
  have hz : ((a :: b :: r).map g).getLast? = some (g ((b :: r).getLastD a)) := by
    rw [List.getLast?_map, List.getLast?_cons, List.getLastD_eq_getLast?]; rfl
  rw [Polygon.edges2_eq_walk hz, Polygon.walk_map, List.mem_map] at he
  obtain ⟨⟨u, v⟩, hm, rfl⟩ := he
  refine ⟨u, v, ?_, rfl⟩
  rw [hfe]
  rw [Polygon.walk_cons, List.mem_cons] at hm
  rcases hm with hm | hm
  · rw [hm]; simp
  · simp [hm]

/-- A vector in coordinates of two orthogonal vectors `N`, `e` and their cross product. -/
theorem triad (N e M : V3 ℝ) (h : dot N e = 0) (v : V3 ℝ) :
    dot N N * dot e e * dot M v = dot e e * dot M N * dot N v + dot N N * dot M e * dot e v + dot M (cross N e) * dot N (cross e v) := by
  obtain ⟨n1, n2, n3⟩ := N
  obtain ⟨e1, e2, e3⟩ := e
  obtain ⟨m1, m2, m3⟩ := M
  obtain ⟨v1, v2, v3⟩ := v
  simp only [dot, cross] at h ⊢
  linear_combination
    ((n1 * e1 + n2 * e2 + n3 * e3) * (m1 * v1 + m2 * v2 + m3 * v3) - (m1 * e1 + m2 * e2 + m3 * e3) * (n1 * v1 + n2 * v2 + n3 * v3)
      - (m1 * n1 + m2 * n2 + m3 * n3) * (e1 * v1 + e2 * v2 + e3 * v3)) * h

/-- If neighbouring faces are not in one plane, the solid meets the plane of a face in that face only. -/
theorem left_of_edges (hs : ConvexSurface V fs) (h0 : fs ≠ [])
    (hst : ∀ f ∈ fs, ∀ g ∈ fs, ∀ a b, (a, b) ∈ faceEdges f → (b, a) ∈ faceEdges g →
      ∃ c ∈ g, dot (cornerNormal (f.map (corner V))) (corner V c - corner V a) ≠ 0)
    {f : List ℤ} (hf : f ∈ fs) {z : V3 ℝ} (hz : z ∈ hull3 V) (hp : ∀ a ∈ f, dot (cornerNormal (f.map (corner V))) (z - corner V a) = 0)
    {a b : ℤ} (hab : (a, b) ∈ faceEdges f) :
    0 ≤ dot (cornerNormal (f.map (corner V))) (cross (corner V b - corner V a) (z - corner V a)) := by
  have hE : (a, b) ∈ meshEdges fs :=
    List.mem_flatMap.2 ⟨f, List.mem_filter.2 ⟨hf, by simpa using le_trans (by norm_num) (hs.valid f hf).1⟩, hab⟩
  obtain ⟨g, hg, hba⟩ := List.mem_flatMap.1 (hs.closed.2 a b hE)
  replace hg := (List.mem_filter.1 hg).1
  have mem : ∀ {h : List ℤ} {u v : ℤ}, (u, v) ∈ faceEdges h → u ∈ h ∧ v ∈ h := fun hm =>
    ⟨(List.of_mem_zip hm).1, List.mem_rotate.1 (List.of_mem_zip hm).2⟩
  have plane : ∀ {h : List ℤ}, h ∈ fs → ∀ u ∈ h, ∀ v ∈ h, dot (cornerNormal (h.map (corner V))) (corner V v - corner V u) = 0 := by
    intro h hh u hu v hv
    obtain ⟨A, B, C, r, e, -, -, hpl⟩ := hs.outward h hh
    have hN : cornerNormal (h.map (corner V)) = cross (B - A) (C - A) := by rw [e]; rfl
    rw [hN, dot_sub_base (hpl _ (List.mem_map.2 ⟨u, hu, rfl⟩))]
    exact hpl _ (List.mem_map.2 ⟨v, hv, rfl⟩)
  have hin : ∀ {h : List ℤ}, h ∈ fs → ∀ i ∈ h, corner V i ∈ hull3 V := by
    intro h hh i hi
    have := (hs.valid h hh).2.2 i hi
    refine mem_hull ?_
    obtain ⟨m, rfl⟩ := Int.eq_ofNat_of_zero_le this.1
    have hm : m < V.length := by exact_mod_cast this.2
    simp [corner, List.getD_eq_getElem?_getD, List.getElem?_eq_getElem hm]
  have behind : ∀ {h : List ℤ}, h ∈ fs → ∀ u ∈ h, ∀ y ∈ hull3 V, dot (cornerNormal (h.map (corner V))) (y - corner V u) ≤ 0 :=
    fun hh u hu y hy => (inFront_iff hs hh hu y).1 ((region_eq_hull hs h0 y).2 hy _ hh)
  obtain ⟨w, hw, hwpos⟩ : ∃ w ∈ f, 0 < dot (cornerNormal (f.map (corner V))) (cross (corner V b - corner V a) (corner V w - corner V a)) := by
    have hm : (corner V a, corner V b) ∈ (f.map (corner V)).zip ((f.map (corner V)).rotate 1) := by
      rw [← List.map_rotate, List.zip_map]
      exact List.mem_map.2 ⟨(a, b), hab, rfl⟩
    obtain ⟨x, hx, h⟩ := (hs.turning f hf _ hm).2
    obtain ⟨w, hw, rfl⟩ := List.mem_map.1 hx
    exact ⟨w, hw, h⟩
  obtain ⟨c, hc, hcne⟩ := hst f hf g hg a b hab hba
  have hNe := plane hf a (mem hab).1 b (mem hab).2
  have hMe := plane hg a (mem hba).2 b (mem hba).1
  have hMc := plane hg a (mem hba).2 c hc
  have hNw := plane hf a (mem hab).1 w hw
  have hMw := behind hg a (mem hba).2 _ (hin hf w hw)
  have hMz := behind hg a (mem hba).2 z hz
  have hNz := hp a (mem hab).1
  have hN0 := cornerNormal_ne (hs.outward f hf)
  have hM0 := cornerNormal_ne (hs.outward g hg)
  generalize cornerNormal (f.map (corner V)) = N at *
  generalize cornerNormal (g.map (corner V)) = M at *
  generalize corner V b - corner V a = e at *
  have sq : ∀ v : V3 ℝ, v ≠ 0 → 0 < dot v v := by
    intro v hv
    have h0 : 0 ≤ dot v v := by unfold dot; nlinarith [mul_self_nonneg v.x, mul_self_nonneg v.y, mul_self_nonneg v.z]
    refine lt_of_le_of_ne h0 fun h => hv ?_
    unfold dot at h
    ext
    · show v.x = 0; nlinarith [mul_self_nonneg v.x, mul_self_nonneg v.y, mul_self_nonneg v.z]
    · show v.y = 0; nlinarith [mul_self_nonneg v.x, mul_self_nonneg v.y, mul_self_nonneg v.z]
    · show v.z = 0; nlinarith [mul_self_nonneg v.x, mul_self_nonneg v.y, mul_self_nonneg v.z]
  have he0 : e ≠ 0 := by
    rintro rfl
    simp [cross, dot] at hwpos
  have hee := sq e he0
  have hNN := sq N hN0
  have tw := triad N e M hNe (corner V w - corner V a)
  have tz := triad N e M hNe (z - corner V a)
  have tc := triad N e M hNe (corner V c - corner V a)
  have tM := triad N e M hNe M
  rw [hNw, hMe] at tw
  rw [hNz, hMe] at tz
  rw [hMc, hMe] at tc
  rw [hMe] at tM
  have hk := mul_pos hNN hee
  have hME : dot M (cross N e) ≤ 0 := by
    by_contra hn
    rw [not_le] at hn
    have := mul_pos hn hwpos
    have := mul_nonneg hk.le (neg_nonneg.2 hMw)
    linarith
  have hME' : dot M (cross N e) < 0 := by
    refine lt_of_le_of_ne hME fun h => ?_
    rw [h] at tc tM
    have h1 : dot e e * dot M N * dot N (corner V c - corner V a) = 0 := by linarith
    have h2 : dot M N = 0 := by
      rcases mul_eq_zero.1 h1 with h1 | h1
      · rcases mul_eq_zero.1 h1 with h1 | h1
        · exact absurd h1 hee.ne'
        · exact h1
      · exact absurd h1 hcne
    rw [h2] at tM
    have := mul_pos hk (sq M hM0)
    linarith
  by_contra hn
  rw [not_le] at hn
  have := mul_pos_of_neg_of_neg hME' hn
  have := mul_nonneg hk.le (neg_nonneg.2 hMz)
  linarith

theorem face_eq_section (hs : ConvexSurface V fs) (h0 : fs ≠ [])
    (hst : ∀ f ∈ fs, ∀ g ∈ fs, ∀ a b, (a, b) ∈ faceEdges f → (b, a) ∈ faceEdges g →
      ∃ c ∈ g, dot (cornerNormal (f.map (corner V))) (corner V c - corner V a) ≠ 0)
    {f : List ℤ} (hf : f ∈ fs) {n : V3 ℝ} (hc : ConvexPolygon n (f.map (corner V))) (B : Polygon.LocalBasis (f.map (corner V)) n)
    {z : V3 ℝ} (hz : z ∈ hull3 V) (hp : ∀ a ∈ f, dot (cornerNormal (f.map (corner V))) (z - corner V a) = 0) :
    z ∈ hull3 (f.map (corner V)) := by
  have hleft := fun a b => left_of_edges hs h0 hst hf hz hp (a := a) (b := b)
  obtain ⟨t, ht, hN⟩ : ∃ t : ℝ, 0 < t ∧ cornerNormal (f.map (corner V)) = t • n := by
    obtain ⟨A, B', C, r, e, -⟩ := hs.outward f hf
    have h3 := hc.2.2
    rw [e] at h3 ⊢
    rw [List.triplewise_cons, List.pairwise_cons] at h3
    exact h3.1.1 C (by simp)
  have hdot : ∀ v, dot (cornerNormal (f.map (corner V))) v = t * dot n v := by
    intro v; rw [hN]; simp only [dot, smul_x, smul_y, smul_z]; ring
  obtain ⟨o, ho⟩ : ∃ o, o ∈ f := by
    rcases f with _ | ⟨o, f⟩
    · have := hc.2.1; simp at this
    · exact ⟨o, by simp⟩
  have hzo : dot n (z - corner V o) = 0 := by
    have := hp o ho
    rw [hdot] at this
    exact (mul_eq_zero.1 this).resolve_left ht.ne'
  have hin : Polygon.loc (f.map (corner V)) (corner V o) z ∈ hull2 ((f.map (corner V)).map (Polygon.loc (f.map (corner V)) (corner V o))) := by
    refine Hull2D.left_hull' (Polygon.loc_strict hc B _) (by rw [List.length_map]; exact hc.2.1) fun e he => ?_
    have h2 : 2 ≤ f.length := by have := hc.2.1; rw [List.length_map] at this; omega
    rw [List.map_map] at he
    obtain ⟨a, b, hab, rfl⟩ := edges_of_face h2 _ he
    have := hleft a b hab
    rw [hdot] at this
    have h := B.area_eq (corner V o) (corner V a) (corner V b) z
    show 0 ≤ area2 (Polygon.loc (f.map (corner V)) (corner V o) (corner V a)) (Polygon.loc (f.map (corner V)) (corner V o) (corner V b))
      (Polygon.loc (f.map (corner V)) (corner V o) z)
    rw [show area2 (Polygon.loc (f.map (corner V)) (corner V o) (corner V a)) (Polygon.loc (f.map (corner V)) (corner V o) (corner V b))
      (Polygon.loc (f.map (corner V)) (corner V o) z) = _ from h]
    exact nonneg_of_mul_nonneg_right this ht
  have := Polygon.hull_of_loc B (corner V o) (δ := 0) (fun y hy => by
    have := hc.plane hy (List.mem_map.2 ⟨o, ho, rfl⟩)
    simp only [dot, sub_x, sub_y, sub_z] at this ⊢
    linarith) hin
  rw [B.from_to (corner V o) z hzo]
  convert this using 1
  ext <;> simp [Polygon.loc]

end Polyhedron
end MGL
