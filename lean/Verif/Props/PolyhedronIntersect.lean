import Verif.Model.PolyhedronIntersect
import Verif.Props.PolyhedronContains
import Verif.Spec.SteepLine

/-! C108: intersection of polyhedra with segments, lines and rays. -/

set_option linter.unusedSectionVars false

namespace MGL
open V3 Spec
namespace Polyhedron

/-- The way from a point outside into the solid passes a face. -/
theorem entry {p : Polyhedron ℝ} (hs : ConvexSurface p.v p.f) (h0 : p.f ≠ []) (hcop : NoTwoCoplanar p.v p.f)
    (hgood : ∀ f ∈ p.f, ∃ n, GoodFace p f n) {a x : V3 ℝ} (ha : a ∉ hull3 p.v) (hx : x ∈ hull3 p.v) :
    ∃ f ∈ p.f, ∃ u : ℝ, 0 ≤ u ∧ u ≤ 1 ∧ a + u • (x - a) ∈ hull3 (f.map (corner p.v)) := by
  classical
  have hsharp := sharp_of_noTwoCoplanar hs hcop
  have hx' := (mem_hull_iff hs h0 x).1 hx
  have hex : ∃ f ∈ p.f, 0 < height p.v f a := by
    by_contra hno
    push Not at hno
    exact ha ((mem_hull_iff hs h0 a).2 hno)
  obtain ⟨f0, hf0, hpos0⟩ := hex
  let r : List ℤ → ℝ := fun f => height p.v f a / (height p.v f a - height p.v f x)
  obtain ⟨f, hf, hmax⟩ := Finset.exists_max_image (p.f.toFinset.filter fun f => 0 < height p.v f a) r ⟨f0, by simp [hf0, hpos0]⟩
  rw [Finset.mem_filter, List.mem_toFinset] at hf
  obtain ⟨hf, hpos⟩ := hf
  have den : ∀ g ∈ p.f, 0 < height p.v g a → 0 < height p.v g a - height p.v g x := fun g hg hp => by linarith [hx' g hg]
  have u0 : 0 ≤ r f := div_nonneg hpos.le (den f hf hpos).le
  have u1 : r f ≤ 1 := by
    show _ / _ ≤ _
    rw [div_le_one (den f hf hpos)]; linarith [hx' f hf]
  have lin : ∀ (g : List ℤ) (t : ℝ), height p.v g (a + t • (x - a)) = height p.v g a + t * (height p.v g x - height p.v g a) := by
    intro g t
    simp only [height, dot, sub_x, sub_y, sub_z, add_x, add_y, add_z, smul_x, smul_y, smul_z]; ring
  have hz : a + r f • (x - a) ∈ hull3 p.v := by
    rw [mem_hull_iff hs h0]
    intro g hg
    rw [lin]
    by_cases hp : 0 < height p.v g a
    · have h1 := hmax g (by simp [hg, hp])
      have h2 := den g hg hp
      have h3 := mul_le_mul_of_nonneg_right h1 h2.le
      have e3 : r g * (height p.v g a - height p.v g x) = height p.v g a := div_mul_cancel₀ _ h2.ne'
      linarith
    · have := hx' g hg
      nlinarith
  have hzero : height p.v f (a + r f • (x - a)) = 0 := by
    rw [lin]
    have e3 : r f * (height p.v f a - height p.v f x) = height p.v f a := div_mul_cancel₀ _ (den f hf hpos).ne'
    linarith
  obtain ⟨n, g⟩ := hgood f hf
  refine ⟨f, hf, r f, u0, u1, face_eq_section hs h0 hsharp hf g.convex g.basis hz fun c hc => ?_⟩
  rw [← height_eq hs hf hc, hzero]

/-- The test of a face at a point of its plane that is not near its border. -/
theorem face_clear {p : Polyhedron ℝ} {f : List ℤ} {n : V3 ℝ} (g : GoodFace p f n) {q : V3 ℝ} (hq : ∀ a ∈ f, dot n (q - corner p.v a) = 0)
    (hc : ClearOfBorder (f.map (corner p.v)) q) : ∃ b, p.faceContains f q = some b ∧ (b = true ↔ q ∈ hull3 (f.map (corner p.v))) := by
  obtain ⟨c, h1, h2, h3⟩ := face_value g hq (th := 1 / 1000) (by norm_num)
  refine ⟨decide (c ≥ 0), by rw [faceContains, h1]; rfl, ?_⟩
  rw [decide_eq_true_iff]
  obtain ⟨t, ht, hN⟩ := g.normal
  constructor
  · intro h
    rcases hc with ⟨r, hr, hin⟩ | hfar
    · refine hin q ?_ ?_
      · simp [dot]
      · rw [V3.dist_self]; linarith
    · obtain ⟨y, hy, hd⟩ := h2 h
      exact absurd (hfar y hy) (not_lt.2 hd)
  · intro h
    apply h3
    rcases hc with ⟨r, hr, hin⟩ | hfar
    · refine ⟨r, hr, fun y hy hd => hin y ?_ hd⟩
      rw [hN]
      have e : dot (t • n) (y - q) = t * (dot n y - dot n q) := by
        simp only [dot, sub_x, sub_y, sub_z, smul_x, smul_y, smul_z]; ring
      rw [e, hy]; ring
    · have := hfar q h
      rw [V3.dist_self] at this
      norm_num at this

theorem segLoop_spec {p : Polyhedron ℝ} (l : LineSeg ℝ) (H : List ℤ → Prop) : ∀ (fs : List (List ℤ)),
    (∀ f ∈ fs, ∃ pl, p.facePlane f = some pl ∧
      (((Plane.intersectLinePlane pl.normal pl.d l.a (l.b - l.a)).1 && decide ((Plane.intersectLinePlane pl.normal pl.d l.a (l.b - l.a)).2 ≥ 0) &&
        decide ((Plane.intersectLinePlane pl.normal pl.d l.a (l.b - l.a)).2 ≤ 1)) = true →
        ∃ b, p.faceContains f (l.getPoint (Plane.intersectLinePlane pl.normal pl.d l.a (l.b - l.a)).2) = some b ∧ (b = true ↔ H f)) ∧
      (((Plane.intersectLinePlane pl.normal pl.d l.a (l.b - l.a)).1 && decide ((Plane.intersectLinePlane pl.normal pl.d l.a (l.b - l.a)).2 ≥ 0) &&
        decide ((Plane.intersectLinePlane pl.normal pl.d l.a (l.b - l.a)).2 ≤ 1)) = false → ¬ H f)) →
    ∃ b, p.intersectsSegLoop l fs = some b ∧ (b = true ↔ ∃ f ∈ fs, H f)
  | [], _ => ⟨false, rfl, by simp⟩
  | f :: fs, h => by
    obtain ⟨b, hb, hiff⟩ := segLoop_spec l H fs fun g hg => h g (by simp [hg])
    obtain ⟨pl, hpl, ht, hf⟩ := h f (by simp)
    rw [intersectsSegLoop, hpl]
    simp only [Option.bind_eq_bind, Option.bind_some]
    split
    · next hc =>
      obtain ⟨b', hb', hiff'⟩ := ht hc
      rw [hb']
      simp only [Option.bind_some]
      cases b' with
      | true => exact ⟨true, rfl, by simp [hiff'.1 rfl]⟩
      | false =>
        refine ⟨b, hb, ?_⟩
        have : ¬ H f := fun h => by have := hiff'.2 h; cases this
        simp [hiff, this]
    · next hc =>
      refine ⟨b, hb, ?_⟩
      have : ¬ H f := hf (by simpa using hc)
      simp [hiff, this]

/-- C108: on a convex polyhedron as in `C98_contains_partial`, `Intersects(LineSegment)` tells whether the segment has a point in common with
the convex hull of the vertices, if the ends of the segment meet the conditions given there and the segment does not pass within `2e-4`
of the border of a face. Missing: as in `C98_contains_partial`. -/
theorem C108_segment_partial (p : Polyhedron ℝ) (hs : ConvexSurface p.v p.f) (h4 : 4 ≤ p.v.length) (h0 : p.f ≠ []) (hcop : NoTwoCoplanar p.v p.f)
    (hf : ∀ f ∈ p.f, (∃ n, ConvexPolygon n (f.map (corner p.v))) ∧ HasTriangle (f.map (corner p.v)) ∧ FirstEdge (f.map (corner p.v)))
    (l : LineSeg ℝ) (ha : ClearPoint (11184811 / 33554432) p.v p.f l.a) (hb : ClearPoint (11184811 / 33554432) p.v p.f l.b)
    (hclear : ClearRay p.v p.f l.a (l.b - l.a)) :
    ∃ r, p.intersectsSeg l = some r ∧ (r = true ↔ ∃ x ∈ seg l.a l.b, x ∈ hull3 p.v) := by
  have hgood : ∀ f ∈ p.f, ∃ n, GoodFace p f n := fun f hm => by
    obtain ⟨⟨n, h1⟩, h2, h3⟩ := hf f hm
    exact ⟨n, h1, h2, h3, (hs.valid f hm).2.2⟩
  obtain ⟨ba, ea, ia⟩ := C98_contains_partial p hs h4 h0 hcop hf l.a ha
  obtain ⟨bb, eb, ib⟩ := C98_contains_partial p hs h4 h0 hcop hf l.b hb
  have econ : p.containsSeg l = some (ba && bb) := by
    unfold containsSeg containsAll containsAll containsAll
    simp only [ea, eb, Option.bind_eq_bind, Option.bind_some]
    cases ba <;> cases bb <;> simp
  obtain ⟨r, er, ir⟩ := segLoop_spec (p := p) l (fun f => ∃ t : ℝ, 0 ≤ t ∧ t ≤ 1 ∧ l.a + t • (l.b - l.a) ∈ hull3 (f.map (corner p.v))) p.f (by
    intro f hm
    obtain ⟨n, g⟩ := hgood f hm
    obtain ⟨pl, h1, h2, h3⟩ := g.plane
    obtain ⟨c, hc⟩ := head_mem hs hm
    obtain ⟨t, ht, hN⟩ := g.normal
    have hn1 : dot n n = 1 := g.convex.1
    have hln : len n = 1 := by
      have : _ = dot n n := len_mul_self n
      rw [hn1] at this
      nlinarith [len_nonneg n]
    have hoff : 1 / 1000 < |dot n (l.a - corner p.v c)| := by
      have := ha.off f hm c hc
      rw [hN, len_smul, hln, abs_of_pos ht] at this
      have e : dot (t • n) (l.a - corner p.v c) = t * dot n (l.a - corner p.v c) := by
        simp only [dot, smul_x, smul_y, smul_z]; ring
      rw [e, abs_mul, abs_of_pos ht] at this
      by_contra hcon
      have := mul_le_mul_of_nonneg_left (not_lt.1 hcon) ht.le
      linarith
    have hsd : dot n l.a - pl.d = dot n (l.a - corner p.v c) := by
      have := h3 c hc l.a
      unfold Plane.signedDistance at this
      rw [h2] at this; exact this
    have hab : ∀ s : ℝ, ∀ d ∈ f, dot n (l.a + s • (l.b - l.a) - corner p.v d) = dot n (l.a - corner p.v c) + s * dot n (l.b - l.a) := by
      intro s d hd
      have h5 := g.convex.plane (x := corner p.v d) (y := corner p.v c) (List.mem_map.2 ⟨d, hd, rfl⟩) (List.mem_map.2 ⟨c, hc, rfl⟩)
      simp only [dot, sub_x, sub_y, sub_z, add_x, add_y, add_z, smul_x, smul_y, smul_z] at h5 ⊢
      linear_combination -h5
    have hin : ∀ s : ℝ, l.a + s • (l.b - l.a) ∈ hull3 (f.map (corner p.v)) → dot n (l.a - corner p.v c) + s * dot n (l.b - l.a) = 0 := by
      intro s hq
      rw [← hab s c hc]
      have := face_height hs hm hq
      rw [height_eq hs hm hc, hN] at this
      have e : dot (t • n) (l.a + s • (l.b - l.a) - corner p.v c) = t * dot n (l.a + s • (l.b - l.a) - corner p.v c) := by
        simp only [dot, smul_x, smul_y, smul_z]; ring
      rw [e] at this
      exact (mul_eq_zero.1 this).resolve_left ht.ne'
    refine ⟨pl, h1, ?_⟩
    rw [h2]
    set D := dot n (l.b - l.a) with hD
    set h := dot n (l.a - corner p.v c) with hh
    have hne : h ≠ 0 := by intro h0; rw [h0, abs_zero] at hoff; norm_num at hoff
    -- when the code finds a parameter, it is the crossing of the plane
    have hcase : ((Plane.intersectLinePlane n pl.d l.a (l.b - l.a)).1 = true ∧ D ≠ 0 ∧ (Plane.intersectLinePlane n pl.d l.a (l.b - l.a)).2 = -h / D) ∨
        ((Plane.intersectLinePlane n pl.d l.a (l.b - l.a)).1 = false ∧ ∀ s : ℝ, 0 ≤ s → s ≤ 1 → h + s * D ≠ 0) := by
      have hnum : pl.d - dot n l.a = -h := by linarith
      unfold Plane.intersectLinePlane
      simp only [absF_eq, ← hD, hnum]
      split_ifs with c1 c2
      · refine Or.inl ⟨rfl, ?_, rfl⟩
        intro h0; rw [h0, abs_zero] at c1; norm_num at c1
      · exact Or.inl ⟨rfl, c2.1, rfl⟩
      · right
        constructor
        · unfold equalAbs
          rw [decide_eq_false_iff_not, absF_eq, hsd, not_lt]
          exact hoff.le
        · intro s s0 s1 hs0
          apply c2
          have hD0 : D ≠ 0 := by rintro h0; rw [h0] at hs0; simp at hs0; exact hne hs0
          refine ⟨hD0, ?_⟩
          have : -h / D = s := by rw [div_eq_iff hD0]; linarith
          rw [this, abs_of_nonneg s0]; linarith
    rcases hcase with ⟨k1, k2, k3⟩ | ⟨k1, k2⟩
    · rw [k1, k3]
      have huniq : ∀ s : ℝ, h + s * D = 0 → s = -h / D := fun s hs0 => by rw [eq_div_iff k2]; linarith
      constructor
      · intro hc'
        simp only [Bool.true_and, Bool.and_eq_true, decide_eq_true_iff] at hc'
        have hz : h + (-h / D) * D = 0 := by rw [div_mul_cancel₀ _ k2]; ring
        obtain ⟨b, hb1, hb2⟩ := face_clear g (q := l.a + (-h / D) • (l.b - l.a)) (fun d hd => by rw [hab _ d hd, hz])
          (hclear f hm _ hc'.1 fun d hd => by
            rw [hN]
            have e : dot (t • n) (l.a + (-h / D) • (l.b - l.a) - corner p.v d) = t * dot n (l.a + (-h / D) • (l.b - l.a) - corner p.v d) := by
              simp only [dot, smul_x, smul_y, smul_z]; ring
            rw [e, hab _ d hd, hz, mul_zero])
        refine ⟨b, by rw [Polygon.seg_getPoint]; exact hb1, hb2.trans ⟨fun hq => ⟨_, hc'.1, hc'.2, hq⟩, ?_⟩⟩
        rintro ⟨s, s0, s1, hq⟩
        rw [huniq s (hin s hq)] at hq
        exact hq
      · rintro hc' ⟨s, s0, s1, hq⟩
        rw [← huniq s (hin s hq)] at hc'
        simp [s0, s1] at hc'
    · rw [k1]
      simp only [Bool.false_and, Bool.false_eq_true, false_imp_iff, true_and]
      rintro - ⟨s, s0, s1, hq⟩
      exact k2 s s0 s1 (hin s hq))
  have et : p.intersectsSeg l = some (ba && bb || r) := by
    unfold intersectsSeg
    rw [econ, er]
    simp only [Option.bind_eq_bind, Option.bind_some]
    cases (ba && bb) <;> simp
  refine ⟨_, et, ?_⟩
  rw [Bool.or_eq_true, Bool.and_eq_true, ia, ib, ir]
  constructor
  · rintro (⟨h1, -⟩ | ⟨f, hm, t, t0, t1, hq⟩)
    · exact ⟨l.a, ⟨0, le_rfl, zero_le_one, by ext <;> simp⟩, h1⟩
    · exact ⟨_, ⟨t, t0, t1, rfl⟩, face_sub_hull hs hm hq⟩
  · rintro ⟨x, ⟨s, s0, s1, rfl⟩, hx⟩
    by_cases h1 : l.a ∈ hull3 p.v
    · by_cases h2 : l.b ∈ hull3 p.v
      · exact Or.inl ⟨h1, h2⟩
      · right
        obtain ⟨f, hm, u, u0, u1, hq⟩ := entry hs h0 hcop hgood h2 hx
        refine ⟨f, hm, 1 + u * (s - 1), by nlinarith, by nlinarith, ?_⟩
        convert hq using 1
        ext <;> simp only [add_x, add_y, add_z, sub_x, sub_y, sub_z, smul_x, smul_y, smul_z] <;> ring
    · right
      obtain ⟨f, hm, u, u0, u1, hq⟩ := entry hs h0 hcop hgood h1 hx
      refine ⟨f, hm, u * s, by positivity, by nlinarith, ?_⟩
      convert hq using 1
      ext <;> simp only [add_x, add_y, add_z, sub_x, sub_y, sub_z, smul_x, smul_y, smul_z] <;> ring

theorem anyFace_spec {p : Polyhedron ℝ} (test : List (V3 ℝ) → Option Bool) (H : List ℤ → Prop) : ∀ (fs : List (List ℤ)),
    (∀ f ∈ fs, ∃ poly b, f.mapM p.vertex = some poly ∧ test poly = some b ∧ (b = true ↔ H f)) →
    ∃ b, p.anyFacePolygon test fs = some b ∧ (b = true ↔ ∃ f ∈ fs, H f)
  | [], _ => ⟨false, rfl, by simp⟩
  | f :: fs, h => by
    obtain ⟨b, hb, hiff⟩ := anyFace_spec test H fs fun g hg => h g (by simp [hg])
    obtain ⟨poly, b', h1, h2, h3⟩ := h f (by simp)
    rw [anyFacePolygon, h1]
    simp only [Option.bind_eq_bind, Option.bind_some, h2]
    cases b' with
    | true => exact ⟨true, rfl, by simp [h3.1 rfl]⟩
    | false =>
      refine ⟨b, hb, ?_⟩
      have : ¬ H f := fun h => by have := h3.2 h; cases this
      simp [hiff, this]

/-- What the tests of a line against the plane and the polygon of a face answer. -/
theorem line_face {p : Polyhedron ℝ} (hs : ConvexSurface p.v p.f) {f : List ℤ} (hm : f ∈ p.f) {n : V3 ℝ} (g : GoodFace p f n) {x w : V3 ℝ}
    (hst : SteepLine p.v p.f x w) : ∃ poly pl, f.mapM p.vertex = some poly ∧ poly = f.map (corner p.v) ∧ Polygon.planeCCW poly = some pl ∧
      ((∃ t : ℝ, Plane.intersectLinePlane pl.normal pl.d x w = (true, t) ∧ (∀ s : ℝ, x + s • w ∈ hull3 poly → s = t) ∧
          (∀ a ∈ f, dot (cornerNormal (f.map (corner p.v))) (x + t • w - corner p.v a) = 0) ∧
          (ClearOfBorder poly (x + t • w) → (Polygon.contains poly (x + t • w) = true ↔ x + t • w ∈ hull3 poly))) ∨
        ((Plane.intersectLinePlane pl.normal pl.d x w).1 = false ∧ ∀ s : ℝ, x + s • w ∉ hull3 poly)) := by
  obtain ⟨o, o2, r, e, he⟩ := g.edge
  have hcc : Polygon.planeCCW (f.map (corner p.v)) = some ⟨n, dot n o⟩ :=
    Polygon.planeCCW_convex g.convex (by rw [e]; rfl) (Or.inr (Polygon.hasTriangle_iff g.area))
  refine ⟨_, _, mapM_vertex hs.valid hm, rfl, hcc, ?_⟩
  obtain ⟨k, hk, hN⟩ := g.normal
  have hn1 : dot n n = 1 := g.convex.1
  have hln : len n = 1 := by
    have : _ = dot n n := len_mul_self n
    rw [hn1] at this
    nlinarith [len_nonneg n]
  have hom : o ∈ f.map (corner p.v) := by rw [e]; simp
  obtain ⟨c, hc, hco⟩ := List.mem_map.1 hom
  have hpl : ∀ v ∈ f.map (corner p.v), dot n v = dot n o := by
    intro v hv
    have := g.convex.plane hv hom
    simp only [dot, sub_x, sub_y, sub_z] at this ⊢
    linarith
  have esm : ∀ v : V3 ℝ, dot (k • n) v = k * dot n v := fun v => by simp only [dot, smul_x, smul_y, smul_z]; ring
  have esub : ∀ u v : V3 ℝ, dot n (u - v) = dot n u - dot n v := fun u v => by simp only [dot, sub_x, sub_y, sub_z]; ring
  have hin : ∀ q, q ∈ hull3 (f.map (corner p.v)) → dot n q = dot n o := by
    intro q hq
    have := face_height hs hm hq
    rw [height_eq hs hm hc, hN, esm, hco, esub] at this
    linarith [(mul_eq_zero.1 this).resolve_left hk.ne']
  dsimp only
  rcases hst f hm _ rfl with h1 | ⟨h1, h2⟩
  · rw [hN, len_smul, hln, abs_of_pos hk, esm, abs_mul, abs_of_pos hk] at h1
    have h1 : 1 / 10000 < |dot n w| := by
      by_contra hcon
      have := mul_le_mul_of_nonneg_left (not_lt.1 hcon) hk.le
      linarith
    have h0 : dot n w ≠ 0 := by intro h0; rw [h0, abs_zero] at h1; norm_num at h1
    left
    have hat : dot n (x + ((dot n o - dot n x) / dot n w) • w) = dot n o := Polygon.at_param h0
    refine ⟨_, Polygon.ilp h1, fun s hq => (Polygon.param_unique h0 (hin _ hq)).symm, ?_, ?_⟩
    · intro a ha
      rw [hN, esm, esub, hat, hpl _ (List.mem_map.2 ⟨a, ha, rfl⟩), sub_self, mul_zero]
    · rintro (⟨r', hr, hd⟩ | hfar)
      · refine ⟨fun _ => hd _ (by simp [dot]) (by rw [V3.dist_self]; linarith), fun _ => ?_⟩
        have := Polygon.C85_contains_inside _ n g.convex (Or.inr g.area) g.edge (x + ((dot n o - dot n x) / dot n w) • w)
          (fun v hv => by rw [hat, hpl v hv]) r' hr (fun y hy hdy => hd y (by rw [hN, esm, esub, hy, sub_self, mul_zero]) hdy)
          0 (1 / 100000) (by norm_num)
        have e0 : ∀ q : V3 ℝ, q + (0 : ℝ) • n = q := fun q => by ext <;> simp
        rw [e0] at this; exact this
      · constructor
        · intro hcon
          obtain ⟨y, hy, hd⟩ := Polygon.contains_plane hn1 hpl g.area g.edge hcon hat
          exact absurd (hfar y hy) (not_lt.2 hd)
        · intro hq
          have := hfar _ hq
          rw [V3.dist_self] at this
          norm_num at this
  · have h2 := h2 c hc
    rw [hN, esm] at h1
    rw [hN, len_smul, hln, abs_of_pos hk, esm, abs_mul, abs_of_pos hk, hco, esub] at h2
    have h0 := (mul_eq_zero.1 h1).resolve_left hk.ne'
    have h3 : 1 / 1000 ≤ |dot n x - dot n o| := by
      by_contra hcon
      have := mul_lt_mul_of_pos_left (not_le.1 hcon) hk
      linarith
    right
    constructor
    · unfold Plane.intersectLinePlane
      simp only [absF_eq, h0, abs_zero]
      rw [if_neg (by norm_num), if_neg (by simp)]
      unfold equalAbs
      rw [decide_eq_false_iff_not, absF_eq, not_lt]
      exact h3
    · intro s hq
      have e1 : dot n (x + s • w) = dot n x + s * dot n w := by simp only [dot, add_x, add_y, add_z, smul_x, smul_y, smul_z]; ring
      have := hin _ hq
      rw [e1, h0, mul_zero, add_zero] at this
      rw [this, sub_self, abs_zero] at h3
      norm_num at h3

theorem far_out (V : List (V3 ℝ)) (x : V3 ℝ) {w : V3 ℝ} (hw : w ≠ 0) (s : ℝ) : ∃ T, s < T ∧ x + T • w ∉ hull3 V := by
  have hpos : 0 < dot w w := by
    rcases (show 0 ≤ dot w w by simp only [dot]; nlinarith [mul_self_nonneg w.x, mul_self_nonneg w.y, mul_self_nonneg w.z]).lt_or_eq with h | h
    · exact h
    · exfalso; apply hw
      simp only [dot] at h
      ext <;> simp only [zero_x, zero_y, zero_z] <;> nlinarith [mul_self_nonneg w.x, mul_self_nonneg w.y, mul_self_nonneg w.z]
  obtain ⟨M, hM⟩ : ∃ M, ∀ v ∈ V, dot w v ≤ M := by
    induction V with
    | nil => exact ⟨0, by simp⟩
    | cons v V ih =>
      obtain ⟨M, h⟩ := ih
      refine ⟨max M (dot w v), fun u hu => ?_⟩
      rcases List.mem_cons.1 hu with rfl | hu
      · exact le_max_right _ _
      · exact (h u hu).trans (le_max_left _ _)
  refine ⟨max (s + 1) ((M - dot w x) / dot w w + 1), lt_of_lt_of_le (by linarith) (le_max_left _ _), fun hq => ?_⟩
  have h1 := hull_le w hM hq
  have e1 : ∀ T : ℝ, dot w (x + T • w) = dot w x + T * dot w w := fun T => by simp only [dot, add_x, add_y, add_z, smul_x, smul_y, smul_z]; ring
  rw [e1] at h1
  have h2 := mul_le_mul_of_nonneg_right (le_max_right (s + 1) ((M - dot w x) / dot w w + 1)) hpos.le
  rw [add_mul, div_mul_cancel₀ _ hpos.ne'] at h2
  linarith

/-- C108: on such polyhedra, `Intersects(Ray)` and `Intersects(Line)` tell whether the ray or line has a point in common with the convex hull of
the vertices, if it does not pass within `2e-4` of the border of a face and is not nearly parallel to a face (see `SteepLine`). The
direction need not have unit length. Missing: the other rays and lines. -/
theorem C108_lines_partial (p : Polyhedron ℝ) (hs : ConvexSurface p.v p.f) (h0 : p.f ≠ []) (hcop : NoTwoCoplanar p.v p.f)
    (hf : ∀ f ∈ p.f, (∃ n, ConvexPolygon n (f.map (corner p.v))) ∧ HasTriangle (f.map (corner p.v)) ∧ FirstEdge (f.map (corner p.v)))
    (x w : V3 ℝ) (hw : w ≠ 0) (hst : SteepLine p.v p.f x w) (hclear : ClearRay p.v p.f x w) :
    (∃ r, p.intersectsRay ⟨x, w⟩ = some r ∧ (r = true ↔ ∃ y ∈ ray x w, y ∈ hull3 p.v)) ∧
    (ClearRay p.v p.f x (-w) → ∃ r, p.intersectsLine ⟨x, w⟩ = some r ∧ (r = true ↔ ∃ y ∈ line x w, y ∈ hull3 p.v)) := by
  have hgood : ∀ f ∈ p.f, ∃ n, GoodFace p f n := fun f hm => by
    obtain ⟨⟨n, h1⟩, h2, h3⟩ := hf f hm
    exact ⟨n, h1, h2, h3, (hs.valid f hm).2.2⟩
  have hexit : ∀ s : ℝ, x + s • w ∈ hull3 p.v → ∃ f ∈ p.f, ∃ t : ℝ, s ≤ t ∧ x + t • w ∈ hull3 (f.map (corner p.v)) := by
    intro s hq
    obtain ⟨T, hT, hout⟩ := far_out p.v x hw s
    obtain ⟨f, hm, u, u0, u1, hz⟩ := entry hs h0 hcop hgood hout hq
    refine ⟨f, hm, T + u * (s - T), by nlinarith, ?_⟩
    convert hz using 1
    ext <;> simp only [add_x, add_y, add_z, sub_x, sub_y, sub_z, smul_x, smul_y, smul_z] <;> ring
  constructor
  · obtain ⟨r, h1, h2⟩ := anyFace_spec (p := p) (fun poly => Polygon.intersectsRay poly ⟨x, w⟩)
      (fun f => ∃ t : ℝ, 0 ≤ t ∧ x + t • w ∈ hull3 (f.map (corner p.v))) p.f (by
      intro f hm
      obtain ⟨n, g⟩ := hgood f hm
      obtain ⟨poly, pl, k1, rfl, k2, k3⟩ := line_face hs hm g hst
      refine ⟨_, _, k1, by rw [Polygon.intersectsRay, k2]; rfl, ?_⟩
      unfold Plane.intersectsRay
      rcases k3 with ⟨t, e1, hu, hpl, hc⟩ | ⟨e1, hno⟩
      · dsimp only
        rw [e1]
        by_cases t0 : 0 ≤ t
        · simp only [ge_iff_le, t0, decide_true, Bool.and_true, Bool.not_true, Bool.false_eq_true, if_false]
          show Polygon.contains _ (x + t • w) = true ↔ _
          rw [hc (hclear f hm t t0 hpl)]
          exact ⟨fun h => ⟨t, t0, h⟩, fun ⟨s, s0, hq⟩ => hu s hq ▸ hq⟩
        · simp only [ge_iff_le, t0, decide_false, Bool.and_false, Bool.not_false, if_true, Bool.false_eq_true, false_iff]
          rintro ⟨s, s0, hq⟩
          exact t0 (hu s hq ▸ s0)
      · dsimp only
        rw [e1]
        simp only [Bool.false_and, Bool.not_false, if_true, Bool.false_eq_true, false_iff]
        rintro ⟨s, -, hq⟩
        exact hno s hq)
    refine ⟨r, h1, h2.trans ⟨?_, ?_⟩⟩
    · rintro ⟨f, hm, t, t0, hq⟩
      exact ⟨_, ⟨t, t0, rfl⟩, face_sub_hull hs hm hq⟩
    · rintro ⟨_, ⟨s, s0, rfl⟩, hq⟩
      obtain ⟨f, hm, t, ht, hz⟩ := hexit s hq
      exact ⟨f, hm, t, s0.trans ht, hz⟩
  · intro hclear'
    obtain ⟨r, h1, h2⟩ := anyFace_spec (p := p) (fun poly => Polygon.intersectsLine poly ⟨x, w⟩)
      (fun f => ∃ t : ℝ, x + t • w ∈ hull3 (f.map (corner p.v))) p.f (by
      intro f hm
      obtain ⟨n, g⟩ := hgood f hm
      obtain ⟨poly, pl, k1, rfl, k2, k3⟩ := line_face hs hm g hst
      refine ⟨_, _, k1, by rw [Polygon.intersectsLine, k2]; rfl, ?_⟩
      unfold Plane.intersectsLine
      rcases k3 with ⟨t, e1, hu, hpl, hc⟩ | ⟨e1, hno⟩
      · dsimp only
        rw [e1]
        simp only [Bool.not_true, Bool.false_eq_true, if_false]
        show Polygon.contains _ (x + t • w) = true ↔ _
        have hb : ClearOfBorder (f.map (corner p.v)) (x + t • w) := by
          rcases le_total 0 t with t0 | t0
          · exact hclear f hm t t0 hpl
          · have e : x + t • w = x + (-t) • (-w) := by ext <;> simp
            rw [e] at hpl ⊢
            exact hclear' f hm (-t) (by linarith) hpl
        rw [hc hb]
        exact ⟨fun h => ⟨t, h⟩, fun ⟨s, hq⟩ => hu s hq ▸ hq⟩
      · dsimp only
        rw [e1]
        simp only [Bool.not_false, if_true, Bool.false_eq_true, false_iff]
        rintro ⟨s, hq⟩
        exact hno s hq)
    refine ⟨r, h1, h2.trans ⟨?_, ?_⟩⟩
    · rintro ⟨f, hm, t, hq⟩
      exact ⟨_, ⟨t, rfl⟩, face_sub_hull hs hm hq⟩
    · rintro ⟨_, ⟨s, rfl⟩, hq⟩
      obtain ⟨f, hm, t, ht, hz⟩ := hexit s hq
      exact ⟨f, hm, t, hz⟩

/-- C108: without the conditions `Intersects(LineSegment)` fails: a segment, shrunk to one point, that is six units away from a cube of size
6 is reported to intersect it. -/
theorem C108_segment_violation : ∃ x : V3 ℝ, (ofAABB ⟨⟨0, 0, 0⟩, ⟨6, 6, 6⟩⟩ : Polyhedron ℝ).intersectsSeg ⟨x, x⟩ = some true ∧
    ∀ z ∈ seg x x, ∀ y ∈ box (⟨0, 0, 0⟩ : V3 ℝ) ⟨6, 6, 6⟩, 6 ≤ V3.dist z y := by
  obtain ⟨x, h1, h2⟩ := C98_contains_violation
  refine ⟨x, ?_, ?_⟩
  · have econ : (ofAABB ⟨⟨0, 0, 0⟩, ⟨6, 6, 6⟩⟩ : Polyhedron ℝ).containsSeg ⟨x, x⟩ = some true := by
      unfold containsSeg containsAll containsAll containsAll
      simp [h1]
    unfold intersectsSeg
    rw [econ]; rfl
  · rintro z ⟨t, -, -, rfl⟩
    have e : x + t • (x - x) = x := by ext <;> simp
    rw [e]; exact h2

theorem exCorner_clearDown : ClearRay exCorner.v exCorner.f ⟨1 / 4, 1 / 4, 1 / 4⟩ ((⟨1 / 4, 1 / 4, -1⟩ : V3 ℝ) - ⟨1 / 4, 1 / 4, 1 / 4⟩) := by
  refine exCorner_clear ?_
  intro t ht q hq hz
  left
  have qx := congrArg V3.x hq
  have qy := congrArg V3.y hq
  have qz := congrArg V3.z hq
  simp only [add_x, add_y, add_z, sub_x, sub_y, sub_z, smul_x, smul_y, smul_z] at qx qy qz
  rcases hz with h | h | h | h <;> first | (exfalso; linarith) | skip
  obtain rfl : t = 1 / 5 := by linarith
  rw [qx, qy, qz]; norm_num [List.count_cons]

theorem exCorner_clearBelow : ClearPoint (11184811 / 33554432) exCorner.v exCorner.f ⟨1 / 4, 1 / 4, -1⟩ := by
  obtain ⟨c0, c1, c2, c3⟩ := exCorner_corners
  exact ⟨(exCorner_off (by norm_num [abs_lt]) (by norm_num) (by norm_num) (by norm_num)), (by
      intro v hv
      have : lenSq ((⟨1 / 4, 1 / 4, -1⟩ : V3 ℝ) - v) ≤ 100 := by
        simp only [exCorner, List.mem_cons, List.not_mem_nil, or_false] at hv
        rcases hv with rfl | rfl | rfl | rfl <;> norm_num [lenSq, dot]
      have h3 := len_mul_self ((⟨1 / 4, 1 / 4, -1⟩ : V3 ℝ) - v)
      have h4 := len_nonneg ((⟨1 / 4, 1 / 4, -1⟩ : V3 ℝ) - v)
      have h5 : V3.dist (⟨1 / 4, 1 / 4, -1⟩ : V3 ℝ) v = len ((⟨1 / 4, 1 / 4, -1⟩ : V3 ℝ) - v) := rfl
      rw [h5]
      nlinarith), (by
      intro f hf
      refine ⟨_, rfl, ?_, exCorner_clear ?_⟩
      · refine exCorner_len ?_
        have hf' : f = [0, 2, 1] ∨ f = [0, 1, 3] ∨ f = [0, 3, 2] ∨ f = [1, 2, 3] := by simpa [exCorner] using hf
        rcases hf' with rfl | rfl | rfl | rfl <;> simp only [List.map_cons, List.map_nil, c0, c1, c2, c3] <;>
          norm_num [cornerSum, lenSq, dot]
      · intro t ht q hq hz
        have hf' : f = [0, 2, 1] ∨ f = [0, 1, 3] ∨ f = [0, 3, 2] ∨ f = [1, 2, 3] := by simpa [exCorner] using hf
        rcases hf' with rfl | rfl | rfl | rfl <;> simp only [List.map_cons, List.map_nil, c0, c1, c2, c3, cornerSum] at hq <;>
          have qx := congrArg V3.x hq <;> have qy := congrArg V3.y hq <;> have qz := congrArg V3.z hq <;>
          simp only [add_x, add_y, add_z, sub_x, sub_y, sub_z, smul_x, smul_y, smul_z] at qx qy qz <;>
          rcases hz with h | h | h | h <;> first | (exfalso; linarith) | skip
        · obtain rfl : t = 1 := by linarith
          left; rw [qx, qy, qz]; norm_num [List.count_cons]
        · obtain rfl : t = (3 / 2) / (2 * (11184811 / 33554432) + 1 / 2) := by
            rw [eq_div_iff (by norm_num)]; simp only [qx, qy, qz] at h; linarith
          left; rw [qx, qy, qz]; norm_num [List.count_cons]
        · obtain rfl : t = 1 := by linarith
          left; rw [qx, qy, qz]; norm_num [List.count_cons]
        · obtain rfl : t = 1 / (1 + (11184811 / 33554432)) := by
            rw [eq_div_iff (by norm_num)]; simp only [qx, qy, qz] at h; linarith
          left; rw [qx, qy, qz]; norm_num [List.count_cons]
        · obtain rfl : t = (3 / 2) / (2 * (11184811 / 33554432) + 1 / 2) := by
            rw [eq_div_iff (by norm_num)]; simp only [qx, qy, qz] at h; linarith
          right; refine ⟨q.y, by simp, ?_⟩; first | (rw [qx]; norm_num) | (rw [qy]; norm_num)
        · obtain rfl : t = 1 := by linarith
          left; rw [qx, qy, qz]; norm_num [List.count_cons]
        · obtain rfl : t = 1 / (1 + (11184811 / 33554432)) := by
            rw [eq_div_iff (by norm_num)]; simp only [qx, qy, qz] at h; linarith
          left; rw [qx, qy, qz]; norm_num [List.count_cons]
        · obtain rfl : t = (3 / 2) / (2 * (11184811 / 33554432) + 1 / 2) := by
            rw [eq_div_iff (by norm_num)]; simp only [qx, qy, qz] at h; linarith
          right; refine ⟨q.x, by simp, ?_⟩; first | (rw [qx]; norm_num) | (rw [qy]; norm_num)
        · obtain rfl : t = 1 / (1 + (11184811 / 33554432)) := by
            rw [eq_div_iff (by norm_num)]; simp only [qx, qy, qz] at h; linarith
          left; rw [qx, qy, qz]; norm_num [List.count_cons]
        · obtain rfl : t = (3 / 2) / (3 * (11184811 / 33554432) + 1 / 2) := by
            rw [eq_div_iff (by norm_num)]; simp only [qx, qy, qz] at h; linarith
          left; rw [qx, qy, qz]; norm_num [List.count_cons])⟩

/-- A segment from the inside of the corner tetrahedron to a point below it. -/
example : exCorner.intersectsSeg ⟨⟨1 / 4, 1 / 4, 1 / 4⟩, ⟨1 / 4, 1 / 4, -1⟩⟩ = some true := by
  obtain ⟨r, h1, h2⟩ := C108_segment_partial exCorner exCorner_convex (by simp [exCorner]) (by simp [exCorner]) exCorner_noTwoCoplanar
    exCorner_faces ⟨⟨1 / 4, 1 / 4, 1 / 4⟩, ⟨1 / 4, 1 / 4, -1⟩⟩ exCorner_clearPoint exCorner_clearBelow exCorner_clearDown
  rw [h1, h2.2 ⟨⟨1 / 4, 1 / 4, 1 / 4⟩, ⟨0, le_rfl, zero_le_one, by ext <;> simp⟩, exCorner_inside⟩]

theorem exCorner_steep : SteepLine exCorner.v exCorner.f ⟨1 / 4, 1 / 4, 1 / 4⟩ ((⟨1 / 4, 1 / 4, -1⟩ : V3 ℝ) - ⟨1 / 4, 1 / 4, 1 / 4⟩) := by
  obtain ⟨c0, c1, c2, c3⟩ := exCorner_corners
  rintro f hf n rfl
  have hoff := exCorner_off (x := ⟨1 / 4, 1 / 4, 1 / 4⟩) (by norm_num [abs_lt]) (by norm_num) (by norm_num) (by norm_num) f hf
  have hl : ∀ n : V3 ℝ, lenSq n ≤ 4 → 1 / 10000 * len n ≤ 2 / 10000 := by
    intro n hn
    have := len_mul_self n
    have := len_nonneg n
    have : len n ≤ 2 := by nlinarith
    linarith
  have hf' : f = [0, 2, 1] ∨ f = [0, 1, 3] ∨ f = [0, 3, 2] ∨ f = [1, 2, 3] := by simpa [exCorner] using hf
  rcases hf' with rfl | rfl | rfl | rfl
  · left
    simp only [List.map_cons, List.map_nil, c0, c1, c2, c3]
    refine lt_of_le_of_lt (hl _ (by norm_num [cornerNormal, cross, lenSq, dot])) ?_
    norm_num [cornerNormal, cross, dot]
  · right
    refine ⟨?_, fun a ha => (hoff a ha).le⟩
    simp only [List.map_cons, List.map_nil, c0, c1, c2, c3]
    norm_num [cornerNormal, cross, dot]
  · right
    refine ⟨?_, fun a ha => (hoff a ha).le⟩
    simp only [List.map_cons, List.map_nil, c0, c1, c2, c3]
    norm_num [cornerNormal, cross, dot]
  · left
    simp only [List.map_cons, List.map_nil, c0, c1, c2, c3]
    refine lt_of_le_of_lt (hl _ (by norm_num [cornerNormal, cross, lenSq, dot])) ?_
    norm_num [cornerNormal, cross, dot]

/-- A ray that leaves the corner tetrahedron through its bottom. -/
example := C108_lines_partial exCorner exCorner_convex (by simp [exCorner]) exCorner_noTwoCoplanar exCorner_faces ⟨1 / 4, 1 / 4, 1 / 4⟩ _
  (by intro h; have := congrArg V3.z h; norm_num at this) exCorner_steep exCorner_clearDown

end Polyhedron
end MGL
