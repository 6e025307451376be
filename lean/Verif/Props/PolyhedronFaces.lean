import Verif.Proofs.PolyhedronFaces
import Verif.Props.PolyhedronClosest

/-! C112: normals of faces, and the tests of polyhedra for convexity and planar faces. -/

namespace MGL
open V3 Spec Polygon
namespace Polyhedron

theorem corners_mapM {p : Polyhedron ℝ} {f : List ℤ} (hr : ∀ i ∈ f, 0 ≤ i ∧ i < p.v.length) : f.mapM p.vertex = some (f.map (corner p.v)) :=
  QuadTree.mapM_some f fun i hi => vertex_corner (hr i hi).1 (hr i hi).2

/-- C112: `FaceNormal` of a planar face of any shape, convex or not, is the unit vector against which the face is run through
counterclockwise. -/
theorem C112_normal (p : Polyhedron ℝ) (f : List ℤ) (hl : 3 ≤ f.length) (hr : ∀ i ∈ f, 0 ≤ i ∧ i < p.v.length) (n : V3 ℝ)
    (hn : IsNormalOf n (f.map (corner p.v))) : p.faceNormal f = some (some n) := by
  rw [faceNormal, corners_mapM hr]
  show some (cornersNormal _) = _
  rw [cornersNormal_eq (by simpa using hl) hn]

/-- An L-shaped face. -/
def exEllFace : Polyhedron ℝ := ⟨exEll, [[0, 1, 2, 3, 4, 5]]⟩

theorem exEllFace_normal : IsNormalOf ⟨0, 0, 1⟩ ([0, 1, 2, 3, 4, 5].map (corner exEllFace.v)) := by
  have e : [0, 1, 2, 3, 4, 5].map (corner exEllFace.v) = exEll := rfl
  rw [e]
  refine ⟨by norm_num [dot], ?_, ?_⟩
  · intro x hx y hy
    simp only [exEll, List.mem_cons, List.not_mem_nil, or_false] at hx hy
    rcases hx with rfl | rfl | rfl | rfl | rfl | rfl <;> rcases hy with rfl | rfl | rfl | rfl | rfl | rfl <;> norm_num [dot]
  · have := C84_plane_concave_violation.1
    rw [area2Seen, this]; norm_num

example : exEllFace.faceNormal [0, 1, 2, 3, 4, 5] = some (some ⟨0, 0, 1⟩) :=
  C112_normal exEllFace _ (by simp) (by intro i hi; simp [exEllFace, exEll] at hi ⊢; omega) _ exEllFace_normal

/-- C112: strictly convex polygons have their direction as the normal. -/
theorem C112_normal_convex (p : Polyhedron ℝ) (f : List ℤ) (hr : ∀ i ∈ f, 0 ≤ i ∧ i < p.v.length) (n : V3 ℝ)
    (hc : ConvexPolygon n (f.map (corner p.v))) : p.faceNormal f = some (some n) :=
  C112_normal p f (by simpa using hc.2.1) hr n (normal_of_convex hc)

example : exEllFace.faceNormal [2, 3, 4] = some (some ⟨0, 0, 1⟩) := by
  refine C112_normal_convex exEllFace _ (by intro i hi; simp [exEllFace, exEll] at hi ⊢; omega) _ ⟨by norm_num [dot], by simp, ?_⟩
  have e : [2, 3, 4].map (corner exEllFace.v) = [⟨1, 2, 0⟩, ⟨0, 2, 0⟩, ⟨0, 0, 0⟩] := rfl
  rw [e, List.triplewise_triple]
  exact ⟨2, two_pos, by ext <;> norm_num [cross]⟩

theorem outsideCount_spec {p : Polyhedron ℝ} {f : List ℤ} (hl : 3 ≤ f.length) (hr : ∀ i ∈ f, 0 ≤ i ∧ i < p.v.length)
    (hn : ∃ n, IsNormalOf n (f.map (corner p.v))) : ∃ c, p.outsideCount f = some c ∧
      (c = 0 ↔ ∀ n, IsNormalOf n (f.map (corner p.v)) → ∀ x ∈ p.v, ∀ a ∈ f, dot n (x - corner p.v a) ≤ 1 / 100) := by
  obtain ⟨n, hn⟩ := hn
  have hN := C112_normal p f hl hr n hn
  rcases f with _ | ⟨a, r⟩
  · simp at hl
  · refine ⟨p.v.countP fun x => decide (dot n (x - corner p.v a) > 1 / 100), by rw [outsideCount, vertex_corner (hr a (by simp)).1 (hr a (by simp)).2]; simp only [Option.bind_eq_bind, Option.bind_some, hN], ?_⟩
    have h2 : ∀ x, ∀ b ∈ a :: r, dot n (x - corner p.v b) = dot n (x - corner p.v a) := by
      intro x b hb
      have := hn.2.1 _ (List.mem_map_of_mem (f := corner p.v) hb) _ (List.mem_map_of_mem (f := corner p.v) (List.mem_cons_self (a := a) (l := r)))
      rw [dot_diff] at this ⊢
      rw [dot_diff]; linarith
    rw [List.countP_eq_zero]
    simp only [decide_eq_true_iff, gt_iff_lt, not_lt]
    constructor
    · intro h m hm x hx b hb
      have e : m = n := by
        have h1 := C112_normal p (a :: r) hl hr m hm
        rw [hN] at h1
        exact (Option.some.inj (Option.some.inj h1)).symm
      rw [e, h2 x b hb]; exact h x hx
    · intro h x hx
      exact h n hn x hx a (by simp)

theorem counts_spec {g : List ℤ → Option ℕ} {P : List ℤ → Prop} : ∀ {fs : List (List ℤ)},
    (∀ f ∈ fs, ∃ c, g f = some c ∧ (c = 0 ↔ P f)) → ∃ cs, fs.mapM g = some cs ∧ (cs.sum = 0 ↔ ∀ f ∈ fs, P f)
  | [], _ => ⟨[], by simp, by simp⟩
  | f :: fs, h => by
    obtain ⟨c, h1, h2⟩ := h f (by simp)
    obtain ⟨cs, h3, h4⟩ := counts_spec (fs := fs) fun g hg => h g (by simp [hg])
    refine ⟨c :: cs, by rw [List.mapM_cons, h1, h3]; rfl, ?_⟩
    rw [List.sum_cons, Nat.add_eq_zero_iff, h2, h4]
    simp

/-- C112: for polyhedra with planar faces of any shape, `IsConvex` answers whether no vertex is more than `1e-2` in front of the plane of
a face. -/
theorem C112_isConvex_partial (p : Polyhedron ℝ) (hv : ValidFaces p.v.length p.f) (hn : ∀ f ∈ p.f, ∃ n, IsNormalOf n (f.map (corner p.v))) :
    ∃ b, p.isConvex = some b ∧
      (b = true ↔ ∀ f ∈ p.f, ∀ n, IsNormalOf n (f.map (corner p.v)) → ∀ x ∈ p.v, ∀ a ∈ f, dot n (x - corner p.v a) ≤ 1 / 100) := by
  obtain ⟨cs, h1, h2⟩ := counts_spec (g := p.outsideCount) (fs := p.f)
    (P := fun f => ∀ n, IsNormalOf n (f.map (corner p.v)) → ∀ x ∈ p.v, ∀ a ∈ f, dot n (x - corner p.v a) ≤ 1 / 100)
    fun f hf => outsideCount_spec (hv f hf).1 (hv f hf).2.2 (hn f hf)
  refine ⟨!decide (cs.sum > 0), by rw [isConvex, h1]; rfl, ?_⟩
  rw [← h2]
  simp

/-- C112: `IsConvex` accepts every convex polyhedron. -/
theorem C112_isConvex_accepts (p : Polyhedron ℝ) (hs : ConvexSurface p.v p.f) : p.isConvex = some true := by
  have hN : ∀ f ∈ p.f, ∃ t : ℝ, 0 < t ∧ IsNormalOf (t • cornerNormal (f.map (corner p.v))) (f.map (corner p.v)) :=
    fun f hf => normal_of_turning (hs.outward f hf) (hs.turning f hf)
  obtain ⟨b, h1, h2⟩ := C112_isConvex_partial p hs.valid fun f hf => ⟨_, (hN f hf).choose_spec.2⟩
  rw [h1]
  congr 1
  rw [h2]
  intro f hf n hn x hx a ha
  obtain ⟨t, ht, hm⟩ := hN f hf
  have e : n = t • cornerNormal (f.map (corner p.v)) := by
    have h3 := C112_normal p f (hs.valid f hf).1 (hs.valid f hf).2.2 n hn
    rw [C112_normal p f (hs.valid f hf).1 (hs.valid f hf).2.2 _ hm] at h3
    exact (Option.some.inj (Option.some.inj h3)).symm
  obtain ⟨a0, b0, c0, rest, he, -, hb, -⟩ := hs.outward f hf
  have h4 := hb x hx
  have hc : cornerNormal (f.map (corner p.v)) = cross (b0 - a0) (c0 - a0) := by rw [he]; rfl
  have h5 : dot n (x - corner p.v a) = dot n (x - a0) := by
    have := hn.2.1 _ (List.mem_map_of_mem (f := corner p.v) ha) a0 (by rw [he]; simp)
    rw [dot_diff] at this ⊢
    rw [dot_diff]; linarith
  rw [h5, e, hc]
  have : dot (t • cross (b0 - a0) (c0 - a0)) (x - a0) = t * dot (cross (b0 - a0) (c0 - a0)) (x - a0) := by
    simp only [dot, smul_x, smul_y, smul_z]; ring
  rw [this]
  nlinarith

example : exCorner.isConvex = some true := C112_isConvex_accepts exCorner exCorner_convex

/-- A triangle with an area has a normal. -/
theorem normal_of_triangle {a b c : V3 ℝ} (h : cross (b - a) (c - a) ≠ 0) : ∃ n, IsNormalOf n [a, b, c] := by
  obtain ⟨n, hn, -⟩ := triangle_proper h
  exact ⟨n, normal_of_convex hn⟩

/-- A tetrahedron of the size of a millimetre with a dent in one of its faces. -/
noncomputable def exDent : Polyhedron ℝ :=
  ⟨[⟨0, 0, 0⟩, ⟨1 / 1000, 0, 0⟩, ⟨0, 1 / 1000, 0⟩, ⟨0, 0, 1 / 1000⟩, ⟨1 / 5000, 1 / 5000, 1 / 5000⟩],
    [[0, 2, 1], [0, 1, 3], [0, 3, 2], [1, 2, 4], [2, 3, 4], [3, 1, 4]]⟩

theorem exDent_valid : ValidFaces exDent.v.length exDent.f := (validFaces_of (by decide +kernel) : ValidFaces 5 _)

theorem exDent_normals : ∀ f ∈ exDent.f, ∃ n, IsNormalOf n (f.map (corner exDent.v)) := by
  have c0 : corner exDent.v 0 = ⟨0, 0, 0⟩ := rfl
  have c1 : corner exDent.v 1 = ⟨1 / 1000, 0, 0⟩ := rfl
  have c2 : corner exDent.v 2 = ⟨0, 1 / 1000, 0⟩ := rfl
  have c3 : corner exDent.v 3 = ⟨0, 0, 1 / 1000⟩ := rfl
  have c4 : corner exDent.v 4 = ⟨1 / 5000, 1 / 5000, 1 / 5000⟩ := rfl
  show ∀ f ∈ [[0, 2, 1], [0, 1, 3], [0, 3, 2], [1, 2, 4], [2, 3, 4], [3, 1, 4]], _
  simp only [List.forall_mem_cons, List.map_cons, List.map_nil, c0, c1, c2, c3, c4]
  refine ⟨?_, ?_, ?_, ?_, ?_, ?_, by simp⟩ <;> refine normal_of_triangle ?_ <;> norm_num [V3.ext_iff, cross]

/-- C112: the tolerance of `IsConvex` is absolute: a small closed polyhedron with a dent, a vertex of which lies in front of one of its
faces, is reported as convex. -/
theorem C112_isConvex_violation : exDent.isConvex = some true ∧ ClosedMesh exDent.f ∧ ValidFaces exDent.v.length exDent.f ∧
    ∃ f ∈ exDent.f, ∃ x ∈ exDent.v, InFront x (f.map (corner exDent.v)) := by
  refine ⟨?_, closed_of (by decide +kernel), exDent_valid, [1, 2, 4], by simp [exDent], ⟨0, 0, 1 / 1000⟩, by simp [exDent], ?_⟩
  · obtain ⟨b, h1, h2⟩ := C112_isConvex_partial exDent exDent_valid exDent_normals
    rw [h1]
    congr 1
    rw [h2]
    intro f hf n hn x hx a ha
    have hsm : ∀ y ∈ exDent.v, (0 ≤ y.x ∧ y.x ≤ 1 / 1000) ∧ (0 ≤ y.y ∧ y.y ≤ 1 / 1000) ∧ (0 ≤ y.z ∧ y.z ≤ 1 / 1000) := by
      intro y hy
      simp only [exDent, List.mem_cons, List.not_mem_nil, or_false] at hy
      rcases hy with rfl | rfl | rfl | rfl | rfl <;> norm_num
    have ha2 : corner exDent.v a ∈ exDent.v := by
      have := (exDent_valid f hf).2.2 a ha
      have h3 : a.toNat < exDent.v.length := by omega
      have e : corner exDent.v a = exDent.v[a.toNat] := by
        simp [corner, List.getD_eq_getElem?_getD, List.getElem?_eq_getElem h3]
      rw [e]; exact List.getElem_mem h3
    obtain ⟨⟨x1, x2⟩, ⟨x3, x4⟩, x5, x6⟩ := hsm x hx
    obtain ⟨⟨y1, y2⟩, ⟨y3, y4⟩, y5, y6⟩ := hsm _ ha2
    generalize corner exDent.v a = y at *
    have h1 := hn.1
    unfold dot at h1
    have bd : ∀ u w : ℝ, u * u ≤ 1 → -(1 / 1000) ≤ w → w ≤ 1 / 1000 → u * w ≤ 1 / 1000 := by
      intro u w hu hw1 hw2
      nlinarith [mul_self_nonneg (u - 1), mul_self_nonneg (u + 1), abs_le.1 (abs_le_one_iff_mul_self_le_one.2 hu)]
    have k1 := bd n.x (x - y).x (by nlinarith [mul_self_nonneg n.y, mul_self_nonneg n.z]) (by simp only [sub_x]; linarith) (by simp only [sub_x]; linarith)
    have k2 := bd n.y (x - y).y (by nlinarith [mul_self_nonneg n.x, mul_self_nonneg n.z]) (by simp only [sub_y]; linarith) (by simp only [sub_y]; linarith)
    have k3 := bd n.z (x - y).z (by nlinarith [mul_self_nonneg n.y, mul_self_nonneg n.x]) (by simp only [sub_z]; linarith) (by simp only [sub_z]; linarith)
    unfold dot
    linarith
  · show InFront _ [(⟨1 / 1000, 0, 0⟩ : V3 ℝ), ⟨0, 1 / 1000, 0⟩, ⟨1 / 5000, 1 / 5000, 1 / 5000⟩]
    norm_num [InFront, dot, cross]

example : ∃ b, exDent.isConvex = some b ∧ (b = true ↔ ∀ f ∈ exDent.f, ∀ n, IsNormalOf n (f.map (corner exDent.v)) → ∀ x ∈ exDent.v, ∀ a ∈ f,
    dot n (x - corner exDent.v a) ≤ 1 / 100) := C112_isConvex_partial exDent exDent_valid exDent_normals

/-- C112: `FacesAreNondegeneratePlanar` accepts polyhedra all of whose faces are strictly convex planar polygons. -/
theorem C112_planar_accepts (p : Polyhedron ℝ) (hv : ValidFaces p.v.length p.f) (hp : ∀ f ∈ p.f, ProperFace (f.map (corner p.v))) (ε : ℝ)
    (hε : 0 ≤ ε) : p.facesAreNondegeneratePlanar ε = some true := by
  have key : ∀ fs : List (List ℤ), (∀ f ∈ fs, f ∈ p.f) → p.planarLoop ε fs = some true := by
    intro fs
    induction fs with
    | nil => intro _; rfl
    | cons f fs ih =>
      intro h
      have hm := h f (by simp)
      obtain ⟨hl, -, hr⟩ := hv f hm
      obtain ⟨n, hc, ht⟩ := hp f hm
      have ih' := ih fun g hg => h g (by simp [hg])
      have ha := area_convex_pos hc ht
      rw [planarLoop, if_neg (by omega), corners_mapM hr]
      simp only [Option.bind_eq_bind, Option.bind_some]
      rw [if_neg (by simpa using ha)]
      split_ifs with h4
      · have hne : cornerNormal (f.map (corner p.v)) ≠ 0 := by
          obtain ⟨t, ht, e⟩ : ∃ t : ℝ, 0 < t ∧ cornerNormal (f.map (corner p.v)) = t • n := by
            have := hc.2.2
            rcases f with _ | ⟨a, _ | ⟨b, _ | ⟨c, r⟩⟩⟩
            · simp at hl
            · simp at hl
            · simp at hl
            · have := triplewise_sublist (l := [corner p.v a, corner p.v b, corner p.v c]) (by simp) this
              rw [List.triplewise_triple] at this
              exact this
          intro h0
          rw [e] at h0
          have h1 := hc.1
          have h2 : t * dot n n = dot n (t • n) := by simp only [dot, smul_x, smul_y, smul_z]; ring
          rw [h0, h1] at h2
          simp [dot] at h2
          linarith
        obtain ⟨pl, h1, -, -, -, h5⟩ := facePlane_data hl hr hne
        rw [h1]
        simp only [Option.bind_some]
        rw [if_neg, ih']
        simp only [List.any_eq_true, decide_eq_true_iff, not_exists, not_and, gt_iff_lt, not_lt]
        intro x hx
        obtain ⟨o, r, rfl⟩ : ∃ o r, f = o :: r := by
          rcases f with _ | ⟨o, r⟩
          · simp at hl
          · exact ⟨o, r, rfl⟩
        rw [Plane.distance, h5 o (by simp) x, absF_eq]
        have hN := normal_of_convex hc
        have e0 : dot (cornerNormal ((o :: r).map (corner p.v))) (x - corner p.v o) = 0 := by
          rcases r with _ | ⟨b, _ | ⟨c, r⟩⟩
          · simp at hl
          · simp at hl
          · have := triplewise_sublist (l := [corner p.v o, corner p.v b, corner p.v c]) (by simp) hc.2.2
            rw [List.triplewise_triple] at this
            obtain ⟨t, -, e⟩ := this
            have e2 : cornerNormal ((o :: b :: c :: r).map (corner p.v)) = t • n := e
            have e3 := hN.2.1 x hx (corner p.v o) (by simp)
            rw [e2]
            have : dot (t • n) (x - corner p.v o) = t * dot n (x - corner p.v o) := by simp only [dot, smul_x, smul_y, smul_z]; ring
            rw [this, e3, mul_zero]
        rw [e0, mul_zero, abs_zero]
        exact hε
      · exact ih'
  exact key p.f fun f hf => hf

example : exCorner.facesAreNondegeneratePlanar = some true :=
  C112_planar_accepts exCorner exCorner_convex.valid (fun f hf => (exCorner_proper f hf).1) _ (by norm_num)

/-- C112: if `FacesAreNondegeneratePlanar` accepts a polyhedron, all faces have at least three corners; those that have more, and the first
three of whose corners span a plane, have all corners within the tolerance of that plane; and no planar face encloses no area. -/
theorem C112_planar_sound_partial (p : Polyhedron ℝ) (hr : ∀ f ∈ p.f, ∀ i ∈ f, 0 ≤ i ∧ i < p.v.length) (ε : ℝ)
    (h : p.facesAreNondegeneratePlanar ε = some true) : ∀ f ∈ p.f, 3 ≤ f.length ∧
      (4 ≤ f.length → cornerNormal (f.map (corner p.v)) ≠ 0 → ∀ o ∈ f.head?, ∀ a ∈ f,
        |dot (cornerNormal (f.map (corner p.v))) (corner p.v a - corner p.v o)| ≤ ε * len (cornerNormal (f.map (corner p.v)))) ∧
      ∀ n d, dot n n = 1 → (∀ a ∈ f, dot n (corner p.v a) = d) → HasTriangle (f.map (corner p.v)) → area2Seen n (f.map (corner p.v)) ≠ 0 := by
  have key : ∀ fs : List (List ℤ), (∀ f ∈ fs, f ∈ p.f) → p.planarLoop ε fs = some true → ∀ f ∈ fs, 3 ≤ f.length ∧
      (4 ≤ f.length → cornerNormal (f.map (corner p.v)) ≠ 0 → ∀ o ∈ f.head?, ∀ a ∈ f,
        |dot (cornerNormal (f.map (corner p.v))) (corner p.v a - corner p.v o)| ≤ ε * len (cornerNormal (f.map (corner p.v)))) ∧
      ∀ n d, dot n n = 1 → (∀ a ∈ f, dot n (corner p.v a) = d) → HasTriangle (f.map (corner p.v)) → area2Seen n (f.map (corner p.v)) ≠ 0 := by
    intro fs
    induction fs with
    | nil => intro _ _ f hf; cases hf
    | cons f fs ih =>
      intro hm h
      have hrf := hr f (hm f (by simp))
      rw [planarLoop, corners_mapM hrf] at h
      simp only [Option.bind_eq_bind, Option.bind_some] at h
      by_cases hl : f.length < 3
      · rw [if_pos hl] at h; simp at h
      rw [if_neg hl] at h
      by_cases ha : 0 < Polygon.area (f.map (corner p.v))
      swap
      · rw [if_pos (by simpa using ha)] at h; simp at h
      rw [if_neg (by simpa using ha)] at h
      have hA : ∀ n d, dot n n = 1 → (∀ a ∈ f, dot n (corner p.v a) = d) → HasTriangle (f.map (corner p.v)) → area2Seen n (f.map (corner p.v)) ≠ 0 := by
        intro n d hn hp ht h0
        have := C84_area (f.map (corner p.v)) n d hn (by intro x hx; obtain ⟨a, ha, rfl⟩ := List.mem_map.1 hx; exact hp a ha) ht
        unfold area2Seen at h0
        rw [h0, abs_zero, mul_zero] at this
        linarith
      by_cases h4 : f.length ≥ 4
      · rw [if_pos h4] at h
        cases hpl : p.facePlane f with
        | none => rw [hpl] at h; simp at h
        | some pl =>
          rw [hpl] at h
          simp only [Option.bind_some] at h
          split_ifs at h with h5
          · simp at h
          · intro g hg
            rcases List.mem_cons.1 hg with rfl | hg
            · refine ⟨by omega, fun _ hne o ho a ha' => ?_, hA⟩
              obtain ⟨pl', h1, -, -, -, h6⟩ := facePlane_data (by omega) hrf hne
              obtain rfl : pl' = pl := by rw [h1] at hpl; exact Option.some.inj hpl
              simp only [List.any_eq_true, decide_eq_true_iff, not_exists, not_and, gt_iff_lt, not_lt] at h5
              have h7 := h5 _ (List.mem_map_of_mem (f := corner p.v) ha')
              rw [Plane.distance, h6 o ho, absF_eq, abs_mul] at h7
              have hL : 0 < len (cornerNormal (g.map (corner p.v))) := by
                rcases (len_nonneg (cornerNormal (g.map (corner p.v)))).lt_or_eq with h8 | h8
                · exact h8
                · exfalso
                  generalize cornerNormal (g.map (corner p.v)) = N at *
                  have h2 : _ = dot N N := len_mul_self N
                  rw [← h8, mul_zero] at h2
                  unfold dot at h2
                  apply hne
                  ext <;> simp only [zero_x, zero_y, zero_z] <;> nlinarith [mul_self_nonneg N.x, mul_self_nonneg N.y, mul_self_nonneg N.z]
              rw [abs_of_pos (by positivity), one_div, inv_mul_le_iff₀ hL] at h7
              linarith
            · exact ih (fun g hg => hm g (by simp [hg])) h g hg
      · rw [if_neg h4] at h
        intro g hg
        rcases List.mem_cons.1 hg with rfl | hg
        · exact ⟨by omega, fun h => absurd h h4, hA⟩
        · exact ih (fun g hg => hm g (by simp [hg])) h g hg
  exact key p.f (fun f hf => hf) h

example : ∀ f ∈ exCorner.f, 3 ≤ f.length := fun f hf =>
  (C112_planar_sound_partial exCorner (fun f hf => (exCorner_convex.valid f hf).2.2) (1 / 100)
    (C112_planar_accepts exCorner exCorner_convex.valid (fun f hf => (exCorner_proper f hf).1) _ (by norm_num)) f hf).1

/-- C112: `TriangulateConvex` of a polyhedron with strictly convex faces returns the triangles of the fans of the faces, in order, with
their winding. -/
theorem C112_triangulateConvex (p : Polyhedron ℝ) (hv : ValidFaces p.v.length p.f)
    (hp : ∀ f ∈ p.f, ProperFace (f.map (corner p.v)) ∧ FirstEdge (f.map (corner p.v))) :
    p.triangulateConvex = some ((meshTriangles p.v p.f).map fun t => ⟨t.1, t.2.1, t.2.2⟩) := by
  have h : (p.f.mapM fun f => do let l ← f.mapM p.vertex; Polygon.triangulate l) =
      some (p.f.map fun f => (fanOf (f.map (corner p.v))).map fun t => (⟨t.1, t.2.1, t.2.2⟩ : Tri ℝ)) := by
    refine QuadTree.mapM_some _ fun f hf => ?_
    rw [corners_mapM (hv f hf).2.2]
    simp only [Option.bind_eq_bind, Option.bind_some]
    obtain ⟨⟨n, hc, ht⟩, he⟩ := hp f hf
    cases hf : f.map (corner p.v) with
    | nil => rw [hf] at hc; have := hc.2.1; simp at this
    | cons a r =>
      rw [hf] at hc ht he
      rw [C86_triangulate_convex a r n hc ht he]
      rfl
  rw [triangulateConvex, h, Option.bind_eq_bind, Option.bind_some, meshTriangles, List.map_flatMap, List.flatMap_def]

example : exCorner.triangulateConvex.map (·.length) = some 4 := by
  rw [C112_triangulateConvex exCorner exCorner_convex.valid exCorner_proper]; rfl

end Polyhedron
end MGL
