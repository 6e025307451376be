import Verif.Model.PolygonPolygon
import Verif.Spec.PolygonEdge
import Verif.Props.PolygonContains

/-! Property C85: polygons against polygons. -/

set_option linter.unusedSectionVars false

namespace MGL
open V3 Spec
namespace Polygon

theorem edges_mem {p : List (V3 ℝ)} {l : LineSeg ℝ} (h : l ∈ edges p) : l.a ∈ p ∧ l.b ∈ p := by
  obtain ⟨i, hi, he⟩ := List.mem_filterMap.1 h
  unfold edge at he
  split at he
  · cases he
  · simp only [Option.some.injEq] at he; subst he; simp
  · simp only [Option.bind_eq_bind, Option.bind_eq_some_iff, Option.some.injEq] at he
    obtain ⟨a, ha, b, hb, rfl⟩ := he
    exact ⟨List.mem_of_getElem? ha, List.mem_of_getElem? hb⟩

/-- Every edge of a polygon is among those the loops run over. -/
theorem isEdge_edges {p : List (V3 ℝ)} (hp : 3 ≤ p.length) {a b : V3 ℝ} (h : IsEdge p a b) : (⟨a, b⟩ : LineSeg ℝ) ∈ edges p := by
  obtain ⟨i, h1, h2⟩ := h
  refine List.mem_filterMap.2 ⟨i, List.mem_range.2 (List.getElem?_eq_some_iff.1 h1).1, ?_⟩
  unfold edge
  split
  · simp at hp
  · simp at hp
  · simp only [h1, h2, Option.bind_eq_bind, Option.bind_some]

theorem seg_hull {p : List (V3 ℝ)} {a b x : V3 ℝ} (ha : a ∈ p) (hb : b ∈ p) (hx : x ∈ seg a b) : x ∈ hull3 p := by
  intro K hK hp
  obtain ⟨t, t0, t1, rfl⟩ := hx
  have e : a + t • (b - a) = (1 - t) • a + t • b := by
    ext <;> simp only [add_x, add_y, add_z, sub_x, sub_y, sub_z, smul_x, smul_y, smul_z] <;> ring
  rw [e]
  exact hK a (hp a ha) b (hp b hb) (1 - t) t (by linarith) t0 (by ring)

theorem edgeHits_true {pl : Plane ℝ} {f : V3 ℝ → Bool} {l : LineSeg ℝ} (h : edgeHits pl f l = true) : ∃ x ∈ seg l.a l.b, f x = true := by
  unfold edgeHits at h
  dsimp only at h
  split_ifs at h with h1
  simp only [Bool.or_eq_true, Bool.not_eq_true', decide_eq_true_eq, not_or, not_lt] at h1
  exact ⟨_, ⟨_, h1.1.2, h1.2, seg_getPoint l _⟩, h⟩

theorem contains_near32 {p : List (V3 ℝ)} {n : V3 ℝ} {d : ℝ} (hn : dot n n = 1) (hp : ∀ x ∈ p, dot n x = d) (ht : HasTriangle p)
    (he : FirstEdge p) {x : V3 ℝ} (h : contains p x = true) : ∃ y ∈ hull3 p, dist x y ≤ 32 / 10000 := by
  obtain ⟨h1, y, hy, h2⟩ := C85_contains_near p n d hn hp ht he x _ h
  refine ⟨y, hy, ?_⟩
  rw [dist_le_iff (by norm_num)]
  linarith

/-- The planes found for two planar polygons cross if their normals do. -/
theorem isZero_cross {n m n' m' : V3 ℝ} {d e d' e' : ℝ} (hn : n' = n ∧ d' = d ∨ n' = -n ∧ d' = -d) (hm : m' = m ∧ e' = e ∨ m' = -m ∧ e' = -e) :
    f3IsZero (cross n' m') = f3IsZero (cross n m) := by
  unfold f3IsZero
  have h : lenSq (cross n' m') = lenSq (cross n m) := by
    rcases hn with ⟨rfl, -⟩ | ⟨rfl, -⟩ <;> rcases hm with ⟨rfl, -⟩ | ⟨rfl, -⟩ <;>
      simp only [lenSq, dot, cross, neg_x, neg_y, neg_z] <;> ring
  rw [h]

/-- C85: two planar polygons in crossing planes that are reported to intersect come within `0.0032` of each other. Missing: polygons in
parallel planes. -/
theorem C85_polygon_near_partial (z : Bool) (p q : List (V3 ℝ)) (n m : V3 ℝ) (d e : ℝ)
    (hn : dot n n = 1) (hp : ∀ x ∈ p, dot n x = d) (htp : HasTriangle p) (hep : FirstEdge p)
    (hm : dot m m = 1) (hq : ∀ x ∈ q, dot m x = e) (htq : HasTriangle q) (heq : FirstEdge q)
    (hcross : 1 / 10000000 < lenSq (cross n m)) (th : ℝ) (h : intersectsPolygon z p q th = some true) :
    ∃ x ∈ hull3 p, ∃ y ∈ hull3 q, dist x y ≤ 32 / 10000 := by
  obtain ⟨n', d', hn', hpl, -, -⟩ := planarBasis hn hp htp hep
  obtain ⟨m', e', hm', hpl2, -, -⟩ := planarBasis hm hq htq heq
  have hz : f3IsZero (cross n' m') = false := by
    rw [isZero_cross hn' hm']; unfold f3IsZero; simpa using hcross
  unfold intersectsPolygon at h
  simp only [hpl, hpl2, Option.bind_eq_bind, Option.bind_some, hz, Bool.not_false, if_true, Option.some.injEq, Bool.or_eq_true,
    List.any_eq_true] at h
  rcases h with ⟨l, hl, h⟩ | ⟨l, hl, h⟩
  · obtain ⟨x, hx, hc⟩ := edgeHits_true h
    obtain ⟨y, hy, hd⟩ := contains_near32 hn hp htp hep hc
    refine ⟨y, hy, x, seg_hull (edges_mem hl).1 (edges_mem hl).2 hx, ?_⟩
    rw [dist_le_iff (by norm_num)] at hd ⊢
    have e : distSq y x = distSq x y := by simp only [distSq, lenSq, dot, sub_x, sub_y, sub_z]; ring
    rw [e]; exact hd
  · obtain ⟨x, hx, hc⟩ := edgeHits_true h
    obtain ⟨y, hy, hd⟩ := contains_near32 hm hq htq heq hc
    exact ⟨x, seg_hull (edges_mem hl).1 (edges_mem hl).2 hx, y, hy, hd⟩

theorem edgeHits_inside {p : List (V3 ℝ)} {n : V3 ℝ} (hc : ConvexPolygon n p) (ht : p.length = 3 ∨ HasTriangle p) (he : FirstEdge p)
    {x : V3 ℝ} (hx : ∀ y ∈ p, dot n x = dot n y) {r : ℝ} (hr : 2 / 10000 < r)
    (hin : ∀ y, dot n y = dot n x → dist x y ≤ r → y ∈ hull3 p) {l : LineSeg ℝ} (hl : 1 / 10000 < |dot n (l.b - l.a)|) (hxl : x ∈ seg l.a l.b)
    {o : V3 ℝ} (ho : o ∈ p) : edgeHits ⟨n, dot n o⟩ (fun y => contains p y) l = true := by
  have hcont : contains p x = true := by
    have := C85_contains_inside p n hc ht he x hx r hr hin 0 (1 / 100000) (by norm_num)
    have e : x + (0 : ℝ) • n = x := by ext <;> simp
    rw [e] at this; exact this
  obtain ⟨t, t0, t1, ht'⟩ := hxl
  have h0 : dot n (l.b - l.a) ≠ 0 := by intro h0; rw [h0, abs_zero] at hl; norm_num at hl
  unfold edgeHits
  dsimp only
  rw [ilp hl, param_unique h0 (by rw [← ht', hx o ho])]
  rw [if_neg (by simp [t0, t1]), seg_getPoint, ← ht', hcont]

/-- C85: two strictly convex polygons in crossing planes are reported to intersect if an edge of one passes through a point of the other
that is more than `2e-4` away from its boundary. Missing: polygons that only meet nearer to their boundaries, or in parallel planes. -/
theorem C85_polygon_inside_partial (z : Bool) (p q : List (V3 ℝ)) (n m : V3 ℝ)
    (hp : ConvexPolygon n p) (htp : p.length = 3 ∨ HasTriangle p) (hep : FirstEdge p)
    (hq : ConvexPolygon m q) (htq : q.length = 3 ∨ HasTriangle q) (heq : FirstEdge q)
    (hcross : 1 / 10000000 < lenSq (cross n m)) (th : ℝ) (x : V3 ℝ) (r : ℝ) (hr : 2 / 10000 < r)
    (h : (∃ a b, IsEdge q a b ∧ x ∈ seg a b ∧ 1 / 10000 < |dot n (b - a)| ∧ (∀ y ∈ p, dot n x = dot n y) ∧
        ∀ y, dot n y = dot n x → dist x y ≤ r → y ∈ hull3 p) ∨
      ∃ a b, IsEdge p a b ∧ x ∈ seg a b ∧ 1 / 10000 < |dot m (b - a)| ∧ (∀ y ∈ q, dot m x = dot m y) ∧
        ∀ y, dot m y = dot m x → dist x y ≤ r → y ∈ hull3 q) : intersectsPolygon z p q th = some true := by
  obtain ⟨o, a, b, hpe, -⟩ := id hep
  obtain ⟨o2, a2, b2, hqe, -⟩ := id heq
  have hpl := planeCCW_convex hp (o := o) (by rw [hpe]; rfl) (htp.imp id hasTriangle_iff)
  have hpl2 := planeCCW_convex hq (o := o2) (by rw [hqe]; rfl) (htq.imp id hasTriangle_iff)
  have hz : f3IsZero (cross n m) = false := by unfold f3IsZero; simpa using hcross
  unfold intersectsPolygon
  simp only [hpl, hpl2, Option.bind_eq_bind, Option.bind_some, hz, Bool.not_false, if_true, Option.some.injEq, Bool.or_eq_true, List.any_eq_true]
  rcases h with ⟨a, b, hl, h1, h2, h3, h4⟩ | ⟨a, b, hl, h1, h2, h3, h4⟩
  · exact Or.inl ⟨⟨a, b⟩, isEdge_edges hq.2.1 hl, edgeHits_inside hp htp hep h3 hr h4 h2 h1 (by rw [hpe]; simp)⟩
  · exact Or.inr ⟨⟨a, b⟩, isEdge_edges hp.2.1 hl, edgeHits_inside hq htq heq h3 hr h4 h2 h1 (by rw [hqe]; simp)⟩

/-- C85: planar polygons in parallel planes that are farther apart than the thickness are reported not to intersect. -/
theorem C85_polygon_apart (z : Bool) (p q : List (V3 ℝ)) (n : V3 ℝ) (d e : ℝ) (hn : dot n n = 1)
    (hp : ∀ x ∈ p, dot n x = d) (htp : HasTriangle p) (hep : FirstEdge p) (hq : ∀ x ∈ q, dot n x = e) (htq : HasTriangle q) (heq : FirstEdge q)
    (th : ℝ) (h : th < |d - e|) : intersectsPolygon z p q th = some false := by
  obtain ⟨n', d', hn', hpl, -, -⟩ := planarBasis hn hp htp hep
  obtain ⟨m', e', hm', hpl2, -, -⟩ := planarBasis hn hq htq heq
  have hz : f3IsZero (cross n' m') = true := by
    rw [isZero_cross hn' hm']; unfold f3IsZero
    have : lenSq (cross n n) = 0 := by simp only [lenSq, dot, cross]; ring
    rw [this]; norm_num
  unfold intersectsPolygon
  simp only [hpl, hpl2, Option.bind_eq_bind, Option.bind_some, hz, Bool.not_true, Bool.false_eq_true, if_false, Option.some.injEq]
  obtain ⟨o, a, b, hpe, -⟩ := hep
  obtain ⟨o2, a2, b2, hqe, -⟩ := heq
  have h1 := hp o (by rw [hpe]; simp)
  have h2 := hq o2 (by rw [hqe]; simp)
  unfold intersectsParallel
  dsimp only
  rw [if_pos]
  rw [hpe, hqe, absF_eq]
  simp only [List.headD_cons]
  have hneg : ∀ x, dot (-n) x = -dot n x := fun x => by simp only [dot, neg_x, neg_y, neg_z]; ring
  rcases hn' with ⟨rfl, -⟩ | ⟨rfl, -⟩
  · rw [h1, h2]; exact h
  · rw [hneg, hneg, h1, h2, ← abs_neg]
    have : -(-d - -e) = d - e := by ring
    rw [this]; exact h

/-- The unit square moved up by two. -/
def exSquareUp : List (V3 ℝ) := [⟨0, 0, 2⟩, ⟨1, 0, 2⟩, ⟨1, 1, 2⟩, ⟨0, 1, 2⟩]

example := C85_polygon_apart true exSquare exSquareUp ⟨0, 0, 1⟩ 0 2 (by norm_num [dot]) exSquare_plane exSquare_big exSquare_edge
  (by intro x hx; simp only [exSquareUp, List.mem_cons, List.not_mem_nil, or_false] at hx
      rcases hx with rfl | rfl | rfl | rfl <;> simp [dot])
  (by refine ⟨⟨0, 0, 2⟩, ⟨1, 0, 2⟩, ⟨1, 1, 2⟩, by simp [exSquareUp], ?_⟩
      have e : cross ((⟨1, 0, 2⟩ : V3 ℝ) - ⟨0, 0, 2⟩) (⟨1, 1, 2⟩ - ⟨0, 0, 2⟩) = ⟨0, 0, 1⟩ := by ext <;> norm_num [cross]
      rw [e]
      norm_num [len, lenSq, dot])
  (by refine ⟨_, _, _, rfl, ?_⟩
      norm_num [V3.dist, distSq, len, lenSq, dot])
  (1 / 1000) (by norm_num [abs_of_neg])

/-- A triangle through the middle of the unit square. -/
noncomputable def exUpright : List (V3 ℝ) := [⟨1 / 2, 1 / 2, -1⟩, ⟨1 / 2, 7 / 2, 3⟩, ⟨1 / 2, 1 / 2, 3⟩]

theorem exUpright_convex : ConvexPolygon ⟨1, 0, 0⟩ exUpright := by
  refine ⟨by norm_num [dot], by simp [exUpright], ?_⟩
  simp only [exUpright, List.triplewise_cons, List.pairwise_cons, List.mem_cons, List.not_mem_nil]
  refine ⟨⟨?_, ?_, ?_⟩, ⟨?_, ?_⟩, ?_, List.Triplewise.nil⟩
  · rintro c (rfl | h) <;> first | exact h.elim | exact ⟨12, by norm_num, by ext <;> norm_num [cross]⟩
  · rintro c h; exact h.elim
  · exact List.Pairwise.nil
  · rintro c h; exact h.elim
  · exact List.Pairwise.nil
  · exact List.Pairwise.nil

theorem exUpright_edge : FirstEdge exUpright := by
  refine ⟨_, _, _, rfl, ?_⟩
  have e : V3.dist (⟨1 / 2, 1 / 2, -1⟩ : V3 ℝ) ⟨1 / 2, 7 / 2, 3⟩ = 5 := by
    rw [V3.dist, Real.sqrt_eq_iff_mul_self_eq] <;> norm_num [distSq, lenSq, dot]
  rw [e]; norm_num

theorem exUpright_big : HasTriangle exUpright := by
  refine ⟨⟨1 / 2, 1 / 2, -1⟩, ⟨1 / 2, 7 / 2, 3⟩, ⟨1 / 2, 1 / 2, 3⟩, by simp [exUpright], ?_⟩
  have e : cross ((⟨1 / 2, 7 / 2, 3⟩ : V3 ℝ) - ⟨1 / 2, 1 / 2, -1⟩) (⟨1 / 2, 1 / 2, 3⟩ - ⟨1 / 2, 1 / 2, -1⟩) = ⟨12, 0, 0⟩ := by ext <;> norm_num [cross]
  rw [e]
  have e2 : len (⟨12, 0, 0⟩ : V3 ℝ) = 12 := by
    rw [len, Real.sqrt_eq_iff_mul_self_eq] <;> norm_num [lenSq, dot]
  rw [e2]; norm_num

theorem exUpright_hits (z : Bool) : intersectsPolygon z exSquare exUpright = some true :=
  C85_polygon_inside_partial z exSquare exUpright ⟨0, 0, 1⟩ ⟨1, 0, 0⟩ exSquare_convex (Or.inr exSquare_big) exSquare_edge
    exUpright_convex (Or.inl rfl) exUpright_edge (by norm_num [lenSq, dot, cross]) (1 / 1000) ⟨1 / 2, 1 / 2, 0⟩ (1 / 4) (by norm_num)
    (Or.inl ⟨⟨1 / 2, 1 / 2, 3⟩, ⟨1 / 2, 1 / 2, -1⟩, ⟨2, rfl, rfl⟩,
      ⟨3 / 4, by norm_num, by norm_num, by ext <;> norm_num⟩, by norm_num [dot, abs_of_neg],
      by intro x hx; rw [exSquare_plane x hx]; norm_num [dot], exSquare_disc⟩)

example (z : Bool) := C85_polygon_near_partial z exSquare exUpright ⟨0, 0, 1⟩ ⟨1, 0, 0⟩ 0 (1 / 2) (by norm_num [dot]) exSquare_plane exSquare_big
  exSquare_edge (by norm_num [dot])
  (by intro x hx; simp only [exUpright, List.mem_cons, List.not_mem_nil, or_false] at hx
      rcases hx with rfl | rfl | rfl <;> simp [dot])
  exUpright_big exUpright_edge (by norm_num [lenSq, dot, cross]) (1 / 1000) (exUpright_hits z)

end Polygon
end MGL
