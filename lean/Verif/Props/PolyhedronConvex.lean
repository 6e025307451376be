import Verif.Proofs.PolyhedronConvex
import Verif.Props.Polyhedron
import Verif.Props.PolyhedronMerge
import Verif.Model.PolyhedronMake

/-! Property C83: the queries for convex polyhedra. -/

set_option linter.unusedSectionVars false

namespace MGL
open V3 Spec
namespace Polyhedron

theorem exCorner_corners : corner exCorner.v 0 = ⟨0, 0, 0⟩ ∧ corner exCorner.v 1 = ⟨1, 0, 0⟩ ∧ corner exCorner.v 2 = ⟨0, 1, 0⟩ ∧
    corner exCorner.v 3 = ⟨0, 0, 1⟩ := ⟨rfl, rfl, rfl, rfl⟩

/-! ### Contains -/

/-- C83: on a convex polyhedron `ContainsConvex(point, 0)` says whether the point is in the convex hull of the vertices. -/
theorem C83_contains (p : Polyhedron ℝ) (hs : ConvexSurface p.v p.f) (h0 : p.f ≠ []) (x : V3 ℝ) :
    ∃ b, p.containsConvex x 0 = some b ∧ (b = true ↔ x ∈ hull3 p.v) := by
  obtain ⟨b, hb, hb'⟩ := contains_spec hs x 0
  refine ⟨b, hb, ?_⟩
  rw [hb', ← region_eq_hull hs h0]
  refine forall₂_congr fun f hf => ?_
  obtain ⟨pl, h1, -, -, h4⟩ := surface_plane hs hf
  rw [h4]
  simp [h1]

/-- C83: for every tolerance `ContainsConvex(point, epsilon)` says whether each face has a point on or behind its plane at a
distance of at most `epsilon`. In particular all points of the hull are contained. -/
theorem C83_contains_tolerance (p : Polyhedron ℝ) (hs : ConvexSurface p.v p.f) (h0 : p.f ≠ []) (x : V3 ℝ) (ε : ℝ) (hε : 0 ≤ ε) :
    ∃ b, p.containsConvex x ε = some b ∧
      (b = true ↔ ∀ f ∈ p.f, ∃ y, ¬ InFront y (f.map (corner p.v)) ∧ dist x y ≤ ε) ∧ (x ∈ hull3 p.v → b = true) := by
  obtain ⟨b, hb, hb'⟩ := contains_spec hs x ε
  refine ⟨b, hb, ?_, ?_⟩
  · rw [hb']
    refine forall₂_congr fun f hf => ?_
    obtain ⟨pl, h1, -, hu, h4⟩ := surface_plane hs hf
    have hmove : ∀ y, pl.signedDistance x = pl.signedDistance y + dot pl.normal (x - y) := by
      intro y; simp only [Plane.signedDistance, dot, sub_x, sub_y, sub_z]; ring
    constructor
    · intro h
      have hx := h pl h1
      by_cases hpos : 0 ≤ pl.signedDistance x
      · refine ⟨x - pl.signedDistance x • pl.normal, ?_, ?_⟩
        · rw [h4]
          have e := hmove (x - pl.signedDistance x • pl.normal)
          have e2 : dot pl.normal (x - (x - pl.signedDistance x • pl.normal)) = pl.signedDistance x * dot pl.normal pl.normal := by
            simp only [dot, sub_x, sub_y, sub_z, smul_x, smul_y, smul_z]; ring
          rw [e2, hu] at e
          linarith
        · rw [dist_eq_len]
          have e : x - (x - pl.signedDistance x • pl.normal) = pl.signedDistance x • pl.normal := by
            ext <;> simp
          have hl : len pl.normal = 1 := by
            have h : _ = dot pl.normal pl.normal := len_mul_self pl.normal
            rw [hu] at h
            nlinarith [len_nonneg pl.normal]
          rw [e, len_smul, hl, mul_one, abs_of_nonneg hpos]
          exact hx
      · exact ⟨x, by rw [h4]; exact (not_le.1 hpos).le, by rw [dist_self]; exact hε⟩
    · rintro ⟨y, hy, hd⟩ pl' h'
      rw [h1] at h'
      cases h'
      rw [h4] at hy
      rw [hmove y]
      have := unit_dot_le (u := x - y) hu
      rw [dist_eq_len] at hd
      linarith
  · intro hx
    rw [hb']
    intro f hf pl hpl
    obtain ⟨pl', h1, -, -, h4⟩ := surface_plane hs hf
    rw [h1] at hpl
    cases hpl
    exact ((h4 x).1 ((region_eq_hull hs h0 x).2 hx f hf)).trans hε

/-- C83: `ContainsConvex(LineSegment)` says whether `ContainsConvex(point)` holds for all points of the segment, and
`ContainsConvex(Triangle)` whether it holds for all points of the triangle. -/
theorem C83_contains_segment (p : Polyhedron ℝ) (hs : ConvexSurface p.v p.f) :
    (∀ l : LineSeg ℝ, ∃ b, p.containsConvexSeg l = some b ∧ (b = true ↔ ∀ x ∈ seg l.a l.b, p.containsConvex x = some true)) ∧
    ∀ t : Tri ℝ, ∃ b, p.containsConvexTri t = some b ∧ (b = true ↔ ∀ x ∈ tri t.a t.b t.c, p.containsConvex x = some true) := by
  have hiff : ∀ x, p.containsConvex x = some true ↔ ∀ f ∈ p.f, ∀ pl, p.facePlane f = some pl → pl.signedDistance x ≤ 1 / 10000 := by
    intro x
    obtain ⟨b, hb, hb'⟩ := contains_spec hs x (1 / 10000)
    rw [hb, ← hb']; simp
  have htot : ∀ x, ∃ b, p.containsConvex x = some b := fun x => ⟨_, (contains_spec hs x (1 / 10000)).choose_spec.1⟩
  constructor
  · intro l
    obtain ⟨ba, ha⟩ := htot l.a
    obtain ⟨bb, hb⟩ := htot l.b
    refine ⟨ba && bb, ?_, ?_⟩
    · rw [containsConvexSeg, ha, hb]
      cases ba <;> simp
    · have hab : (ba && bb) = true ↔ p.containsConvex l.a = some true ∧ p.containsConvex l.b = some true := by
        rw [ha, hb]; simp
      rw [hab]
      constructor
      · rintro ⟨h1, h2⟩ x ⟨t, ht0, ht1, rfl⟩
        rw [hiff] at h1 h2 ⊢
        intro f hf pl hpl
        have e : l.a + t • (l.b - l.a) = (1 - t) • l.a + t • l.b := by
          ext <;> simp only [add_x, add_y, add_z, sub_x, sub_y, sub_z, smul_x, smul_y, smul_z] <;> ring
        rw [e, signedDistance_combo pl _ _ (by ring)]
        have q1 := h1 f hf pl hpl
        have q2 := h2 f hf pl hpl
        nlinarith
      · intro h
        refine ⟨h _ ⟨0, le_refl 0, zero_le_one, ?_⟩, h _ ⟨1, zero_le_one, le_refl 1, ?_⟩⟩
        · ext <;> simp
        · ext <;> simp
  · intro t
    obtain ⟨ba, ha⟩ := htot t.a
    obtain ⟨bb, hb⟩ := htot t.b
    obtain ⟨bc, hc⟩ := htot t.c
    refine ⟨ba && (bb && bc), ?_, ?_⟩
    · rw [containsConvexTri, ha, hb, hc]
      cases ba <;> cases bb <;> simp
    · have hab : (ba && (bb && bc)) = true ↔ p.containsConvex t.a = some true ∧ p.containsConvex t.b = some true ∧ p.containsConvex t.c = some true := by
        rw [ha, hb, hc]; simp
      rw [hab]
      constructor
      · rintro ⟨h1, h2, h3⟩ x hx
        rw [hiff] at h1 h2 h3 ⊢
        intro f hf pl hpl
        have q1 := h1 f hf pl hpl
        have q2 := h2 f hf pl hpl
        have q3 := h3 f hf pl hpl
        obtain ⟨u, v, w, hu, hv, hw, hsum, rfl⟩ := hx
        have hu' : u = 1 - v - w := by linarith
        have e : pl.signedDistance (u • t.a + v • t.b + w • t.c) = u * pl.signedDistance t.a + v * pl.signedDistance t.b + w * pl.signedDistance t.c := by
          rw [hu']
          simp only [Plane.signedDistance, dot, add_x, add_y, add_z, smul_x, smul_y, smul_z]; ring
        rw [e]
        nlinarith
      · intro h
        refine ⟨h _ ⟨1, 0, 0, zero_le_one, le_refl 0, le_refl 0, by norm_num, ?_⟩, h _ ⟨0, 1, 0, le_refl 0, zero_le_one, le_refl 0, by norm_num, ?_⟩,
          h _ ⟨0, 0, 1, le_refl 0, le_refl 0, zero_le_one, by norm_num, ?_⟩⟩ <;> ext <;> simp

/-- All convex queries are about polyhedra such as the corner tetrahedron. -/
example : ConvexSurface exCorner.v exCorner.f ∧ exCorner.f ≠ [] := ⟨exCorner_convex, by simp [exCorner]⟩

/-- C83: `Polyhedron::Tetrahedron()` of size one does not contain its own centre, with the default tolerance: its faces look
inwards (see C81). -/
theorem C83_contains_solid_violation : (tetrahedron (⟨0, 0, 0⟩ : V3 ℝ) 1 true).containsConvex ⟨0, 0, 0⟩ = some false ∧
    (⟨0, 0, 0⟩ : V3 ℝ) ∈ hull3 (tetrahedron (⟨0, 0, 0⟩ : V3 ℝ) 1 true).v := by
  have hv : (tetrahedron (⟨0, 0, 0⟩ : V3 ℝ) 1 true).v = [⟨1/2, 1/2, 1/2⟩, ⟨-1/2, 1/2, -1/2⟩, ⟨1/2, -1/2, -1/2⟩, ⟨-1/2, -1/2, 1/2⟩] := by
    simp [tetrahedron, solid, tetraVertices, V3.ext_iff]; norm_num
  constructor
  · rw [containsConvex]
    have hf : (tetrahedron (⟨0, 0, 0⟩ : V3 ℝ) 1 true).f = [0, 1, 2] :: [[1, 3, 2], [0, 2, 3], [0, 3, 1]] := rfl
    rw [hf, containsLoop]
    have hp : (tetrahedron (⟨0, 0, 0⟩ : V3 ℝ) 1 true).facePlane [0, 1, 2] =
        some (Plane.setPoints ⟨1/2, 1/2, 1/2⟩ ⟨-1/2, 1/2, -1/2⟩ ⟨1/2, -1/2, -1/2⟩) := by
      simp [facePlane, vertex, hv]
    rw [hp]
    simp only [Option.bind_eq_bind, Option.bind_some]
    rw [if_pos]
    rw [signedDistance_setPoints]
    have hc : cross ((⟨-1/2, 1/2, -1/2⟩ : V3 ℝ) - ⟨1/2, 1/2, 1/2⟩) (⟨1/2, -1/2, -1/2⟩ - ⟨1/2, 1/2, 1/2⟩) = ⟨-1, -1, 1⟩ := by
      ext <;> norm_num [cross]
    rw [hc]
    have hd : dot (⟨-1, -1, 1⟩ : V3 ℝ) (⟨0, 0, 0⟩ - ⟨1/2, 1/2, 1/2⟩) = 1 / 2 := by norm_num [dot]
    rw [hd]
    have hl : len (⟨-1, -1, 1⟩ : V3 ℝ) * len (⟨-1, -1, 1⟩ : V3 ℝ) = 3 := by rw [len_mul_self]; norm_num [lenSq, dot]
    have h0 : 0 < len (⟨-1, -1, 1⟩ : V3 ℝ) := len_pos_of (by simp [V3.ext_iff])
    have h2 : len (⟨-1, -1, 1⟩ : V3 ℝ) < 2 := by nlinarith
    have : 1 / 2 < 1 / len (⟨-1, -1, 1⟩ : V3 ℝ) := one_div_lt_one_div_of_lt h0 h2
    show (1 : ℝ) / 10000 < _
    linarith
  · intro K hK hV
    rw [hv] at hV
    have m1 := hK _ (hV ⟨1/2, 1/2, 1/2⟩ (by simp)) _ (hV ⟨-1/2, -1/2, 1/2⟩ (by simp)) (1/2) (1/2) (by norm_num) (by norm_num) (by norm_num)
    have m2 := hK _ (hV ⟨-1/2, 1/2, -1/2⟩ (by simp)) _ (hV ⟨1/2, -1/2, -1/2⟩ (by simp)) (1/2) (1/2) (by norm_num) (by norm_num) (by norm_num)
    have m := hK _ m1 _ m2 (1/2) (1/2) (by norm_num) (by norm_num) (by norm_num)
    convert m using 1
    ext <;> norm_num

/-! ### Lines -/

/-- C83: `ClipLineSegmentToConvexPolyhedron` on a convex polyhedron, provided no face is nearly parallel to the line without being
parallel to it: the result is true exactly if some point of the line with a parameter in the given range is in the hull of the
vertices, and then the range returned consists of exactly the parameters of the given range whose points are in the hull. -/
theorem C83_clip_partial (p : Polyhedron ℝ) (hs : ConvexSurface p.v p.f) (h0 : p.f ≠ []) (A dir : V3 ℝ) (t1 t2 : ℝ) (h12 : t1 ≤ t2)
    (hpar : ∀ f ∈ p.f, dot (cornerNormal (f.map (corner p.v))) dir = 0 ∨
      1 / 100000 * len (cornerNormal (f.map (corner p.v))) ≤ |dot (cornerNormal (f.map (corner p.v))) dir|) :
    ∃ b u1 u2, p.clipLineSegment A dir t1 t2 = some (b, u1, u2) ∧
      (b = true ↔ ∃ t, t1 ≤ t ∧ t ≤ t2 ∧ A + t • dir ∈ hull3 p.v) ∧
      (b = true → u1 ≤ u2 ∧ ∀ t, u1 ≤ t ∧ t ≤ u2 ↔ t1 ≤ t ∧ t ≤ t2 ∧ A + t • dir ∈ hull3 p.v) := by
  have hmem : ∀ x, x ∈ hull3 p.v ↔ ∀ f ∈ p.f, ∀ pl, p.facePlane f = some pl → pl.signedDistance x ≤ 0 := by
    intro x
    rw [← region_eq_hull hs h0]
    refine forall₂_congr fun f hf => ?_
    obtain ⟨pl, h1, -, -, h4⟩ := surface_plane hs hf
    rw [h4]; simp [h1]
  obtain ⟨b, u1, u2, e, ht, hf⟩ := clipLoop_spec A dir p.f t1 t2 h12 fun f hf => by
    obtain ⟨pl, h1, h2, -, -⟩ := surface_plane hs hf
    refine ⟨pl, h1, ?_⟩
    have hlen := len_pos_of (cornerNormal_ne_zero hs hf)
    have e : dot pl.normal dir = 1 / len (cornerNormal (f.map (corner p.v))) * dot (cornerNormal (f.map (corner p.v))) dir := by
      rw [h2]; simp only [dot, smul_x, smul_y, smul_z]; ring
    rw [e]
    rcases hpar f hf with h | h
    · left; rw [h, mul_zero]
    · right
      rw [abs_mul, abs_of_pos (one_div_pos.2 hlen), one_div_mul_eq_div, le_div_iff₀ hlen]
      exact h
  refine ⟨b, u1, u2, e, ⟨fun hb => ?_, ?_⟩, fun hb => ⟨(ht hb).1, fun t => by rw [(ht hb).2 t, hmem, and_assoc]⟩⟩
  · obtain ⟨h1, h2⟩ := ht hb
    obtain ⟨⟨q1, q2⟩, q3⟩ := (h2 u1).1 ⟨le_refl _, h1⟩
    exact ⟨u1, q1, q2, (hmem _).2 q3⟩
  · rintro ⟨t, h1, h2, h3⟩
    by_contra hb
    obtain ⟨f, hf', pl, hpl, hpos⟩ := hf (by simpa using hb) t h1 h2
    exact absurd ((hmem _).1 h3 f hf' pl hpl) (not_le.2 hpos)

/-- C83: under the same condition the three `IntersectsConvex` functions say whether the segment, the ray and the line have a
point in the hull of the vertices; rays and lines are followed up to the parameter `FLT_MAX`. -/
theorem C83_intersects_partial (p : Polyhedron ℝ) (hs : ConvexSurface p.v p.f) (h0 : p.f ≠ []) (A dir : V3 ℝ)
    (hpar : ∀ f ∈ p.f, dot (cornerNormal (f.map (corner p.v))) dir = 0 ∨
      1 / 100000 * len (cornerNormal (f.map (corner p.v))) ≤ |dot (cornerNormal (f.map (corner p.v))) dir|) :
    (∃ b, p.intersectsConvexSeg ⟨A, A + dir⟩ = some b ∧ (b = true ↔ ∃ x ∈ seg A (A + dir), x ∈ hull3 p.v)) ∧
    (∃ b, p.intersectsConvexRay ⟨A, dir⟩ = some b ∧ (b = true ↔ ∃ t, 0 ≤ t ∧ t ≤ fltMax ∧ A + t • dir ∈ hull3 p.v)) ∧
    ∃ b, p.intersectsConvexLine ⟨A, dir⟩ = some b ∧ (b = true ↔ ∃ t, -fltMax ≤ t ∧ t ≤ fltMax ∧ A + t • dir ∈ hull3 p.v) := by
  have hM : (0 : ℝ) ≤ fltMax := by rw [fltMax]; positivity
  have hd : A + dir - A = dir := by ext <;> simp
  refine ⟨?_, ?_, ?_⟩
  · obtain ⟨b, u1, u2, e, h, -⟩ := C83_clip_partial p hs h0 A dir 0 1 zero_le_one hpar
    refine ⟨b, ?_, ?_⟩
    · rw [intersectsConvexSeg, hd, e]; rfl
    · rw [h]
      constructor
      · rintro ⟨t, h1, h2, h3⟩
        exact ⟨_, ⟨t, h1, h2, by rw [hd]⟩, h3⟩
      · rintro ⟨x, ⟨t, h1, h2, rfl⟩, h3⟩
        rw [hd] at h3
        exact ⟨t, h1, h2, h3⟩
  · obtain ⟨b, u1, u2, e, h, -⟩ := C83_clip_partial p hs h0 A dir 0 fltMax hM hpar
    exact ⟨b, by rw [intersectsConvexRay, e]; rfl, h⟩
  · obtain ⟨b, u1, u2, e, h, -⟩ := C83_clip_partial p hs h0 A dir (-fltMax) fltMax (by linarith) hpar
    exact ⟨b, by rw [intersectsConvexLine, e]; rfl, h⟩

/-- No face of the corner tetrahedron is nearly parallel to the direction `(1, 1, 1)`. -/
example : ∀ f ∈ exCorner.f, dot (cornerNormal (f.map (corner exCorner.v))) ⟨1, 1, 1⟩ = 0 ∨
    1 / 100000 * len (cornerNormal (f.map (corner exCorner.v))) ≤ |dot (cornerNormal (f.map (corner exCorner.v))) ⟨1, 1, 1⟩| := by
  have hl : ∀ n : V3 ℝ, lenSq n ≤ 4 → 1 ≤ |dot n ⟨1, 1, 1⟩| → 1 / 100000 * len n ≤ |dot n ⟨1, 1, 1⟩| := by
    intro n h1 h2
    have := len_mul_self n
    have : len n ≤ 2 := by nlinarith [len_nonneg n]
    linarith
  intro f hf
  right
  have hf' : f = [0, 2, 1] ∨ f = [0, 1, 3] ∨ f = [0, 3, 2] ∨ f = [1, 2, 3] := by simpa [exCorner] using hf
  rcases hf' with rfl | rfl | rfl | rfl <;> apply hl <;>
    norm_num [exCorner_corners, cornerNormal, lenSq, dot, cross]

/-- C83: without the condition the answer can be wrong. A segment of length `2e-6` that enters the corner tetrahedron through the
face `z = 0` is said not to intersect it, although its end is inside. -/
theorem C83_intersects_violation : ∃ l : LineSeg ℝ, exCorner.intersectsConvexSeg l = some false ∧ l.b ∈ hull3 exCorner.v ∧
    exCorner.containsConvex l.b 0 = some true := by
  have hb : (⟨1/4, 1/4, 1/1000000⟩ : V3 ℝ) ∈ hull3 exCorner.v := by
    rw [← region_eq_hull exCorner_convex (by simp [exCorner])]
    intro f hf
    have hf' : f = [0, 2, 1] ∨ f = [0, 1, 3] ∨ f = [0, 3, 2] ∨ f = [1, 2, 3] := by simpa [exCorner] using hf
    rcases hf' with rfl | rfl | rfl | rfl <;> norm_num [exCorner_corners, InFront, dot, cross]
  refine ⟨⟨⟨1/4, 1/4, -1/1000000⟩, ⟨1/4, 1/4, 1/1000000⟩⟩, ?_, hb, ?_⟩
  · rw [intersectsConvexSeg, clipLineSegment]
    have hf : exCorner.f = [0, 2, 1] :: [[0, 1, 3], [0, 3, 2], [1, 2, 3]] := rfl
    have hp : exCorner.facePlane [0, 2, 1] = some (Plane.setPoints ⟨0, 0, 0⟩ ⟨0, 1, 0⟩ ⟨1, 0, 0⟩) := by
      simp [facePlane, vertex, exCorner]
    have hpl : Plane.setPoints (⟨0, 0, 0⟩ : V3 ℝ) ⟨0, 1, 0⟩ ⟨1, 0, 0⟩ = ⟨⟨0, 0, -1⟩, 0⟩ := by
      have hc : cross ((⟨0, 1, 0⟩ : V3 ℝ) - ⟨0, 0, 0⟩) (⟨1, 0, 0⟩ - ⟨0, 0, 0⟩) = ⟨0, 0, -1⟩ := by ext <;> norm_num [cross]
      have hl : len (⟨0, 0, -1⟩ : V3 ℝ) = 1 := by
        rw [len]; norm_num [lenSq, dot]
      show (⟨(1 / len (cross ((⟨0, 1, 0⟩ : V3 ℝ) - ⟨0, 0, 0⟩) (⟨1, 0, 0⟩ - ⟨0, 0, 0⟩))) • cross _ _, _⟩ : Plane ℝ) = _
      simp only [hc, hl]
      congr 1
      · ext <;> norm_num
      · norm_num [dot]
    rw [hf, clipLoop, hp, hpl]
    simp only [Option.bind_eq_bind, Option.bind_some]
    rw [if_pos (by rw [absF_eq]; norm_num [dot, abs_lt]), if_pos (by norm_num [dot])]
    rfl
  · obtain ⟨b, h1, h2⟩ := C83_contains exCorner exCorner_convex (by simp [exCorner]) ⟨1/4, 1/4, 1/1000000⟩
    rw [h1, h2.2 hb]

/-! ### Extreme vertices -/

/-- C83: if some vertex has a projection greater than `-FLT_MAX`, `ExtremeVertex` returns a vertex with the greatest projection,
`ExtremePoint` that vertex and its projection. -/
theorem C83_extreme_partial (p : Polyhedron ℝ) (d : V3 ℝ) (h : ∃ x ∈ p.v, -fltMax < dot d x) :
    ∃ y, p.vertex (p.extremeVertex d) = some y ∧ p.extremePoint d = some y ∧ p.extremePointDist d = some (y, dot y d) ∧
      ∀ x ∈ p.v, dot d x ≤ dot d y := by
  rcases extremeLoop_spec d p.v 0 (-1) (-fltMax) with ⟨-, h2⟩ | ⟨k, h1, y, h2, -, h4⟩
  · obtain ⟨x, hx, hlt⟩ := h
    exact absurd (h2 x hx) (not_le.2 hlt)
  · have hv : p.vertex (p.extremeVertex d) = some y := by
      rw [extremeVertex, h1, zero_add, vertex, if_pos (by positivity), Int.toNat_natCast, h2]
    refine ⟨y, hv, hv, ?_, h4⟩
    rw [extremePointDist, extremePoint, hv]; rfl

example : ∃ x ∈ exCorner.v, -fltMax < dot ⟨1, 2, 3⟩ x := by
  refine ⟨⟨1, 0, 0⟩, by simp [exCorner], ?_⟩
  have : (0 : ℝ) ≤ fltMax := by rw [fltMax]; positivity
  norm_num [dot]
  linarith

/-- C83: if all projections are at most `-FLT_MAX` no vertex is found, `ExtremeVertex` returns -1 and `ExtremePoint` reads the vertex
with that number. -/
theorem C83_extreme_violation : ∃ (p : Polyhedron ℝ) (d : V3 ℝ), p.v ≠ [] ∧ p.extremeVertex d = -1 ∧ p.extremePoint d = none := by
  have h : extremeVertex ⟨[⟨-1, 0, 0⟩], []⟩ ⟨fltMax, 0, 0⟩ = -1 := by
    simp [extremeVertex, extremeLoop, dot]
  exact ⟨⟨[⟨-1, 0, 0⟩], []⟩, ⟨fltMax, 0, 0⟩, by simp, h, by rw [extremePoint, h]; rfl⟩

/-- C83: `ProjectToAxis` returns the least and the greatest projection of the vertices; all points of the hull are projected
between them. -/
theorem C83_project (p : Polyhedron ℝ) (d : V3 ℝ) (h : ∃ x ∈ p.v, |dot d x| < fltMax) :
    ∃ lo hi, p.projectToAxis d = some (lo, hi) ∧ (∃ x ∈ p.v, dot d x = lo) ∧ (∃ x ∈ p.v, dot d x = hi) ∧
      ∀ x ∈ hull3 p.v, lo ≤ dot d x ∧ dot d x ≤ hi := by
  have hneg : ∀ x, dot (-d) x = -dot d x := fun x => by simp only [dot, neg_x, neg_y, neg_z]; ring
  obtain ⟨x, hx, hlt⟩ := h
  obtain ⟨h1, h2⟩ := abs_lt.1 hlt
  obtain ⟨y, hy, hye, -, hmax⟩ := C83_extreme_partial p d ⟨x, hx, h1⟩
  obtain ⟨z, hz, hze, -, hmin⟩ := C83_extreme_partial p (-d) ⟨x, hx, by rw [hneg]; linarith⟩
  have mem : ∀ {i y}, p.vertex i = some y → y ∈ p.v := by
    intro i y h
    rw [vertex] at h
    split_ifs at h
    exact List.mem_of_getElem? h
  refine ⟨dot z d, dot y d, by rw [projectToAxis, hye, hze]; rfl, ⟨z, mem hz, dot_comm _ _⟩, ⟨y, mem hy, dot_comm _ _⟩, fun w hw => ⟨?_, ?_⟩⟩
  · have := hull_le (-d) (M := dot (-d) z) hmin hw
    rw [hneg, hneg] at this
    rw [dot_comm z d]; linarith
  · rw [dot_comm y d]; exact hull_le d hmax hw

example : ∃ x ∈ exCorner.v, |dot ⟨1, 2, 3⟩ x| < fltMax := by
  refine ⟨⟨1, 0, 0⟩, by simp [exCorner], ?_⟩
  have : (2 : ℝ) ^ 1 ≤ 2 ^ 127 := pow_le_pow_right₀ (by norm_num) (by norm_num)
  rw [fltMax]
  norm_num [dot]

/-- C83: `ExtremeVertexConvex` on a convex polyhedron with proper corners, with the data of `GenerateVertexAdjacencyData`, visit
marks none of which has the new colour, and any start vertex: it visits each vertex at most once, reads nothing out of range, and
returns a vertex with the greatest projection of all together with that projection. -/
theorem C83_extremeVertexConvex (p : Polyhedron ℝ) (hs : ConvexSurface p.v p.f) (hp : ProperVertices p.v p.f) (d : V3 ℝ)
    (vis : List ℕ) (color : ℕ) (hl : vis.length = p.v.length) (hc : color ∉ vis) (start : ℤ) (h0 : 0 ≤ start) (h1 : start < p.v.length) :
    ∃ adj i vis', p.vertexAdjacency = some adj ∧
      p.extremeVertexConvex adj d color p.v.length vis start = some (i, dot d (corner p.v i), vis') ∧ 0 ≤ i ∧ i < p.v.length ∧
      ∀ x ∈ p.v, dot d x ≤ dot d (corner p.v i) := by
  obtain ⟨adj, ha, hal, hrows⟩ := C78_adjacency p ((faceIndicesValid_iff p).2 hs.valid)
  have hrow : ∀ v : ℤ, 0 ≤ v → v < p.v.length → ∃ row, adj[v.toNat]? = some row ∧ ∀ j, j ∈ row ↔ (v, j) ∈ meshEdges p.f := by
    intro v hv0 hv1
    obtain ⟨row, e, hr, -⟩ := hrows v.toNat (by omega)
    rw [Int.toNat_of_nonneg hv0] at hr
    exact ⟨row, e, hr⟩
  have hadj : AdjOK p adj := by
    refine ⟨fun v hv0 hv1 => ?_⟩
    obtain ⟨row, e, hr⟩ := hrow v hv0 hv1
    refine ⟨row, e, ?_, fun n hn => ?_⟩
    · obtain ⟨⟨f, hf, hvf⟩, -⟩ := hp v hv0 hv1
      obtain ⟨b, c, hb, -⟩ := face_link (hs.valid f hf).2.1 (hs.valid f hf).1 hvf (fun _ => (0 : ℝ))
      have := (hr b).2 (mem_meshEdges.2 ⟨f, hf, by have := (hs.valid f hf).1; omega, hb⟩)
      rintro rfl
      simp at this
    · obtain ⟨f, hf, -, hef⟩ := mem_meshEdges.1 ((hr n).1 hn)
      exact (mem_edge_range hs.valid hf hef).2
  have hnone : ∀ j : ℕ, vis[j]? ≠ some color := fun j hj => hc (List.mem_of_getElem? hj)
  obtain ⟨i, vis', e, hi0, hi1, hbest⟩ := climb_best hadj d color (fun v hv0 hv1 hloc => by
    obtain ⟨row, er, hr⟩ := hrow v hv0 hv1
    obtain ⟨hface, hg⟩ := hp v hv0 hv1
    exact local_max_global hs hface hg fun b hb => hloc row er b ((hr b).2 hb)) p.v.length vis start hl h0 h1 (hnone _) (by omega)
    fun j hj => absurd hj (hnone j)
  exact ⟨adj, i, vis', ha, e, hi0, hi1, hbest⟩

/-- The corner tetrahedron has proper corners. -/
example : ProperVertices exCorner.v exCorner.f := by
  have c0 : corner exCorner.v 0 = ⟨0, 0, 0⟩ := rfl
  have c1 : corner exCorner.v 1 = ⟨1, 0, 0⟩ := rfl
  have c2 : corner exCorner.v 2 = ⟨0, 1, 0⟩ := rfl
  have c3 : corner exCorner.v 3 = ⟨0, 0, 1⟩ := rfl
  have hr : ∀ i : ℤ, 0 ≤ i → i < exCorner.v.length → i = 0 ∨ i = 1 ∨ i = 2 ∨ i = 3 := by
    intro i h0 h1
    have : i < 4 := h1
    omega
  intro i h0 h1
  rcases hr i h0 h1 with rfl | rfl | rfl | rfl
  · refine ⟨⟨[0, 2, 1], by simp [exCorner], by simp⟩, ⟨1, 1, 1⟩, fun j j0 j1 hj => ?_⟩
    rcases hr j j0 j1 with rfl | rfl | rfl | rfl <;> first | exact absurd rfl hj | norm_num [c0, c1, c2, c3, dot]
  · refine ⟨⟨[0, 2, 1], by simp [exCorner], by simp⟩, ⟨-1, 0, 0⟩, fun j j0 j1 hj => ?_⟩
    rcases hr j j0 j1 with rfl | rfl | rfl | rfl <;> first | exact absurd rfl hj | norm_num [c0, c1, c2, c3, dot]
  · refine ⟨⟨[0, 2, 1], by simp [exCorner], by simp⟩, ⟨0, -1, 0⟩, fun j j0 j1 hj => ?_⟩
    rcases hr j j0 j1 with rfl | rfl | rfl | rfl <;> first | exact absurd rfl hj | norm_num [c0, c1, c2, c3, dot]
  · refine ⟨⟨[1, 2, 3], by simp [exCorner], by simp⟩, ⟨0, 0, -1⟩, fun j j0 j1 hj => ?_⟩
    rcases hr j j0 j1 with rfl | rfl | rfl | rfl <;> first | exact absurd rfl hj | norm_num [c0, c1, c2, c3, dot]

/-! ### The mean of the vertices and the orientation of the faces -/

/-- C83: on a convex polyhedron `ApproximateConvexCentroid` is the mean of the vertices and lies strictly behind every face, hence
in the hull. -/
theorem C83_centroid (p : Polyhedron ℝ) (hs : ConvexSurface p.v p.f) (h0 : p.f ≠ []) :
    (p.v.length : ℝ) • p.approximateConvexCentroid = p.v.sum ∧ p.approximateConvexCentroid ∈ hull3 p.v ∧
      ∀ f ∈ p.f, ∀ a ∈ f, dot (cornerNormal (f.map (corner p.v))) (p.approximateConvexCentroid - corner p.v a) < 0 := by
  have hneg : ∀ f ∈ p.f, ∀ a ∈ f, dot (cornerNormal (f.map (corner p.v))) (p.approximateConvexCentroid - corner p.v a) < 0 := by
    intro f hf a ha
    obtain ⟨A, B, C, r, e, hn, hP, hpl⟩ := hs.outward f hf
    have hN : cornerNormal (f.map (corner p.v)) = cross (B - A) (C - A) := by rw [e]; rfl
    have hb : ∀ a ∈ f, ∀ y, dot (cross (B - A) (C - A)) (y - corner p.v a) = dot (cross (B - A) (C - A)) (y - A) :=
      fun a ha y => dot_sub_base (hpl _ (List.mem_map.2 ⟨a, ha, rfl⟩))
    rw [approx_eq, hN]
    refine mean_behind _ _ (fun y hy => by rw [hb a ha]; exact hP y hy) ?_
    obtain ⟨y, hy, c, hc, hneg⟩ := hs.solid f hf
    rw [hN, hb c hc] at hneg
    exact ⟨y, hy, by rw [hb a ha]; exact hneg⟩
  refine ⟨?_, ?_, hneg⟩
  · have hlen : (p.v.length : ℝ) ≠ 0 := by
      obtain ⟨f, hf⟩ := List.exists_mem_of_ne_nil _ h0
      obtain ⟨y, hy, -⟩ := hs.solid f hf
      have := List.length_pos_of_mem hy
      positivity
    have hsum : ∀ L : List (V3 ℝ), wsum (L.map fun x => ((1 : ℝ), x)) = L.sum := by
      intro L
      induction L with
      | nil => rfl
      | cons x L ih => rw [List.map_cons, wsum, ih, List.sum_cons]; ext <;> simp
    rw [approx_eq, wtot_length, hsum]
    ext <;> simp only [smul_x, smul_y, smul_z] <;> field_simp
  · rw [← region_eq_hull hs h0]
    intro f hf
    obtain ⟨A, B, C, r, e, hn, hP, hpl⟩ := hs.outward f hf
    obtain ⟨a, b, c, t, rfl⟩ : ∃ a b c t, f = a :: b :: c :: t := by
      have := (hs.valid f hf).1
      rcases f with _ | ⟨a, _ | ⟨b, _ | ⟨c, t⟩⟩⟩
      · simp at this
      · simp at this
      · simp at this
      · exact ⟨a, b, c, t, rfl⟩
    have := hneg _ hf a (by simp)
    exact not_lt.2 this.le

/-- C83: `OrientNormalsOutsideConvex` turns some faces round, such that all look outwards. The polyhedron is one that is convex up
to the direction of its faces: each of them looks towards all vertices or away from all of them, not all vertices are in its
plane, its corners turn in one direction, and the last three are not on a line. -/
theorem C83_orient (p : Polyhedron ℝ) (hv : ValidFaces p.v.length p.f) (hne : p.v ≠ [])
    (hside : ∀ f ∈ p.f, FaceOutward p.v (f.map (corner p.v)) ∨ FaceInward p.v (f.map (corner p.v)))
    (hsolid : ∀ f ∈ p.f, ∃ x ∈ p.v, ∃ a ∈ f, dot (cornerNormal (f.map (corner p.v))) (x - corner p.v a) ≠ 0)
    (hturn : ∀ f ∈ p.f, LeftTurning (f.map (corner p.v))) (hrev : ∀ f ∈ p.f, cornerNormal (f.map (corner p.v)).reverse ≠ 0) :
    ∃ q, p.orientNormalsOutsideConvex = some q ∧ q.v = p.v ∧ List.Forall₂ (fun f g => g = f ∨ g = f.reverse) p.f q.f ∧
      ∀ g ∈ q.f, FaceOutward q.v (g.map (corner q.v)) := by
  set z := (1 / wtot (p.v.map fun x => ((1 : ℝ), x))) • wsum (p.v.map fun x => ((1 : ℝ), x)) with hz
  have hface : ∀ f ∈ p.f, ∃ pl, p.facePlane f = some pl ∧
      FaceOutward p.v ((if pl.signedDistance z > 0 then flipFace f else f).map (corner p.v)) := by
    intro f hf
    obtain ⟨A, B, C, r, e, hn, hpl⟩ : ∃ A B C r, f.map (corner p.v) = A :: B :: C :: r ∧ cross (B - A) (C - A) ≠ 0 ∧
        ∀ x ∈ f.map (corner p.v), dot (cross (B - A) (C - A)) (x - A) = 0 := by
      rcases hside f hf with ⟨A, B, C, r, e, hn, -, hpl⟩ | ⟨A, B, C, r, e, hn, -, hpl⟩ <;> exact ⟨A, B, C, r, e, hn, hpl⟩
    have hN : cornerNormal (f.map (corner p.v)) = cross (B - A) (C - A) := by rw [e]; rfl
    have hb : ∀ a ∈ f, ∀ y, dot (cross (B - A) (C - A)) (y - corner p.v a) = dot (cross (B - A) (C - A)) (y - A) :=
      fun a ha y => dot_sub_base (hpl _ (List.mem_map.2 ⟨a, ha, rfl⟩))
    obtain ⟨pl, h1, h2, h3, h4, h5⟩ := facePlane_data (hv f hf).1 (hv f hf).2.2 (by rw [hN]; exact hn)
    refine ⟨pl, h1, ?_⟩
    obtain ⟨a0, ha0⟩ : ∃ a, a ∈ f.head? := by
      rcases f with _ | ⟨a, t⟩
      · simp at e
      · exact ⟨a, rfl⟩
    have ha0f : a0 ∈ f := List.mem_of_mem_head? ha0
    have hsd : ∀ x, pl.signedDistance x = 1 / len (cross (B - A) (C - A)) * dot (cross (B - A) (C - A)) (x - A) := by
      intro x
      rw [h5 a0 ha0 x, hN, hb a0 ha0f]
    have hk := one_div_pos.2 (len_pos_of hn)
    obtain ⟨y, hy, c, hc, hyne⟩ := hsolid f hf
    rw [hN, hb c hc] at hyne
    rcases hside f hf with ho | ⟨A', B', C', r', e', -, hP', -⟩
    · obtain ⟨A', B', C', r', e', -, hP', -⟩ := ho
      have ho := hside
      rw [e, List.cons.injEq, List.cons.injEq, List.cons.injEq] at e'
      obtain ⟨rfl, rfl, rfl, rfl⟩ := e'
      have hzneg : dot (cross (B - A) (C - A)) (z - A) < 0 :=
        mean_behind _ _ hP' ⟨y, hy, lt_of_le_of_ne (hP' y hy) hyne⟩
      rw [if_neg (not_lt.2 ((hsd z).trans_le (mul_nonpos_of_nonneg_of_nonpos hk.le hzneg.le)))]
      exact ⟨A, B, C, r, e, hn, hP', hpl⟩
    · rw [e, List.cons.injEq, List.cons.injEq, List.cons.injEq] at e'
      obtain ⟨rfl, rfl, rfl, rfl⟩ := e'
      have hnd : ∀ x, dot (-cross (B - A) (C - A)) x = -dot (cross (B - A) (C - A)) x := fun x => by
        simp only [dot, neg_x, neg_y, neg_z]; ring
      have hzpos : 0 < dot (cross (B - A) (C - A)) (z - A) := by
        have := mean_behind (V := p.v) (-cross (B - A) (C - A)) A (fun x hx => by rw [hnd]; linarith [hP' x hx])
          ⟨y, hy, by rw [hnd]; have := lt_of_le_of_ne (hP' y hy) (Ne.symm hyne); linarith⟩
        rw [hnd] at this
        linarith
      rw [if_pos (by rw [hsd]; exact mul_pos hk hzpos), flipFace_eq, List.map_reverse]
      obtain ⟨k, hk0, hkr⟩ := cornerNormal_reverse (by rw [List.length_map]; exact (hv f hf).1) (by rw [hN]; exact hn)
        (fun x hx y hy => by
          rw [hN]
          have e1 := hpl x hx
          have e2 := hpl y hy
          have : x - y = (x - A) - (y - A) := by ext <;> simp only [sub_x, sub_y, sub_z] <;> ring
          rw [this]
          have : ∀ n u v : V3 ℝ, dot n (u - v) = dot n u - dot n v := fun n u v => by simp only [dot, sub_x, sub_y, sub_z]; ring
          rw [this, e1, e2, sub_zero]) (hturn f hf) (hrev f hf)
      have hlr : 3 ≤ (f.map (corner p.v)).reverse.length := by
        rw [List.length_reverse, List.length_map]; exact (hv f hf).1
      rcases hr : (f.map (corner p.v)).reverse with _ | ⟨a, _ | ⟨b, _ | ⟨c, t⟩⟩⟩
      · rw [hr] at hlr; simp at hlr
      · rw [hr] at hlr; simp at hlr
      · rw [hr] at hlr; simp at hlr
      have hcn : cross (b - a) (c - a) = -(k • cross (B - A) (C - A)) := by
        rw [hr, hN] at hkr; exact hkr
      have ham : a ∈ f.map (corner p.v) := by rw [← List.mem_reverse, hr]; simp
      have hdot : ∀ x, dot (cross (b - a) (c - a)) (x - a) = -(k * dot (cross (B - A) (C - A)) (x - A)) := by
        intro x
        rw [hcn, ← dot_sub_base (hpl a ham) (x := x)]
        simp only [dot, neg_x, neg_y, neg_z, smul_x, smul_y, smul_z]; ring
      refine ⟨a, b, c, t, rfl, ?_, fun x hx => ?_, fun x hx => ?_⟩
      · have := hrev f hf
        rw [hr] at this; exact this
      · rw [hdot]; have := mul_nonneg hk0.le (hP' x hx); linarith
      · rw [hdot, hpl x (by rw [← List.mem_reverse, hr]; exact hx)]; ring
  have hmap : ∀ f ∈ p.f, (do let pl ← p.facePlane f; some (if pl.signedDistance z > 0 then flipFace f else f)) =
      some (if h : ∃ pl, p.facePlane f = some pl ∧ pl.signedDistance z > 0 then f.reverse else f) := by
    intro f hf
    obtain ⟨pl, h1, -⟩ := hface f hf
    rw [h1]
    simp [flipFace_eq]
  have horient := mapM_flip hmap
  refine ⟨⟨p.v, p.f.map fun f => if h : ∃ pl, p.facePlane f = some pl ∧ pl.signedDistance z > 0 then f.reverse else f⟩, ?_, rfl, ?_, ?_⟩
  · rw [orientNormalsOutsideConvex, orientCenter_eq hne, ← hz]
    simp only [Option.bind_eq_bind, Option.bind_some] at horient ⊢
    rw [horient]
    rfl
  · show List.Forall₂ _ p.f (p.f.map _)
    rw [List.forall₂_map_right_iff, List.forall₂_same]
    intro f _
    split_ifs
    · exact Or.inr rfl
    · exact Or.inl rfl
  · intro g hg
    obtain ⟨f, hf, rfl⟩ := List.mem_map.1 hg
    obtain ⟨pl, h1, h2⟩ := hface f hf
    have e := hmap f hf
    have e2 : (do let pl ← p.facePlane f; some (if pl.signedDistance z > 0 then flipFace f else f)) =
        some (if pl.signedDistance z > 0 then flipFace f else f) := by rw [h1]; rfl
    have e3 := Option.some.inj (e2.symm.trans e)
    show FaceOutward p.v (List.map (corner p.v) _)
    rw [← e3]
    exact h2

/-- The hypotheses hold for the corner tetrahedron with its first face turned inwards. -/
example : let p : Polyhedron ℝ := ⟨exCorner.v, [[1, 2, 0], [0, 1, 3], [0, 3, 2], [1, 2, 3]]⟩
    ValidFaces p.v.length p.f ∧ p.v ≠ [] ∧
    (∀ f ∈ p.f, FaceOutward p.v (f.map (corner p.v)) ∨ FaceInward p.v (f.map (corner p.v))) ∧
    (∀ f ∈ p.f, ∃ x ∈ p.v, ∃ a ∈ f, dot (cornerNormal (f.map (corner p.v))) (x - corner p.v a) ≠ 0) ∧
    (∀ f ∈ p.f, LeftTurning (f.map (corner p.v))) ∧ (∀ f ∈ p.f, cornerNormal (f.map (corner p.v)).reverse ≠ 0) ∧
    FaceInward p.v ([1, 2, 0].map (corner p.v)) := by
  intro p
  have hV : ∀ x ∈ p.v, x = ⟨0, 0, 0⟩ ∨ x = ⟨1, 0, 0⟩ ∨ x = ⟨0, 1, 0⟩ ∨ x = ⟨0, 0, 1⟩ := by
    intro x hx; simpa [p, exCorner] using hx
  have hf : ∀ f ∈ p.f, f = [1, 2, 0] ∨ f = [0, 1, 3] ∨ f = [0, 3, 2] ∨ f = [1, 2, 3] := by
    intro f hf; simpa [p] using hf
  have c0 : corner p.v 0 = ⟨0, 0, 0⟩ := rfl
  have c1 : corner p.v 1 = ⟨1, 0, 0⟩ := rfl
  have c2 : corner p.v 2 = ⟨0, 1, 0⟩ := rfl
  have c3 : corner p.v 3 = ⟨0, 0, 1⟩ := rfl
  have hin : FaceInward p.v ([1, 2, 0].map (corner p.v)) := by
    simp only [List.map_cons, List.map_nil, c0, c1, c2]
    refine faceInward_of (fun x hx => ?_) (by simp) ⟨⟨0, 0, 1⟩, by norm_num [dot, cross]⟩
    rcases hV x hx with rfl | rfl | rfl | rfl <;> norm_num [dot, cross]
  refine ⟨(validFaces_of (by decide +kernel) : ValidFaces 4 _), by simp [p, exCorner], ?_, ?_, ?_, ?_, hin⟩
  · intro f hf'
    rcases hf f hf' with rfl | rfl | rfl | rfl
    · exact Or.inr hin
    · exact Or.inl (exCorner_convex.outward _ (by simp [exCorner]))
    · exact Or.inl (exCorner_convex.outward _ (by simp [exCorner]))
    · exact Or.inl (exCorner_convex.outward _ (by simp [exCorner]))
  · intro f hf'
    rcases hf f hf' with rfl | rfl | rfl | rfl
    · exact ⟨⟨0, 0, 1⟩, by simp [p, exCorner], 0, by simp, by
        simp only [List.map_cons, List.map_nil, c0, c1, c2, cornerNormal]; norm_num [dot, cross]⟩
    · obtain ⟨x, hx, a, ha, h⟩ := exCorner_convex.solid [0, 1, 3] (by simp [exCorner])
      exact ⟨x, hx, a, ha, h.ne⟩
    · obtain ⟨x, hx, a, ha, h⟩ := exCorner_convex.solid [0, 3, 2] (by simp [exCorner])
      exact ⟨x, hx, a, ha, h.ne⟩
    · obtain ⟨x, hx, a, ha, h⟩ := exCorner_convex.solid [1, 2, 3] (by simp [exCorner])
      exact ⟨x, hx, a, ha, h.ne⟩
  · intro f hf' e he
    rcases hf f hf' with rfl | rfl | rfl | rfl <;> simp only [List.map_cons, List.map_nil, c0, c1, c2, c3] at he ⊢ <;>
      simp at he <;> rcases he with rfl | rfl | rfl <;> norm_num [cornerNormal, dot, cross]
  · intro f hf'
    rcases hf f hf' with rfl | rfl | rfl | rfl <;> simp only [List.map_cons, List.map_nil, c0, c1, c2, c3, List.reverse_cons,
      List.reverse_nil, List.nil_append, List.cons_append, cornerNormal] <;> norm_num [cross, V3.ext_iff]

end Polyhedron
end MGL
