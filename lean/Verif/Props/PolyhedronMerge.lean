import Mathlib.Tactic.IntervalCases
import Mathlib.Tactic.NormNum
import Verif.Proofs.ConvexSurface
import Verif.Proofs.PolyhedronSolids

/-! Property C82: merging a point into a convex polyhedron. -/

set_option linter.unusedSectionVars false

namespace MGL
open V3 Spec
namespace Polyhedron

/-- The corner tetrahedron, its faces looking outwards. -/
noncomputable def exCorner : Polyhedron ℝ :=
  ⟨[⟨0, 0, 0⟩, ⟨1, 0, 0⟩, ⟨0, 1, 0⟩, ⟨0, 0, 1⟩], [[0, 2, 1], [0, 1, 3], [0, 3, 2], [1, 2, 3]]⟩

theorem exCorner_convex : ConvexSurface exCorner.v exCorner.f := by
  have hf : ∀ f ∈ exCorner.f, f = [0, 2, 1] ∨ f = [0, 1, 3] ∨ f = [0, 3, 2] ∨ f = [1, 2, 3] := by
    intro f hf; simpa [exCorner] using hf
  have hr : ∀ f ∈ exCorner.f, ∀ a ∈ f, a = 0 ∨ a = 1 ∨ a = 2 ∨ a = 3 := by
    intro f hf' a ha
    rcases hf f hf' with rfl | rfl | rfl | rfl <;> simp at ha <;> tauto
  have hV : ∀ x ∈ exCorner.v, x = ⟨0, 0, 0⟩ ∨ x = ⟨1, 0, 0⟩ ∨ x = ⟨0, 1, 0⟩ ∨ x = ⟨0, 0, 1⟩ := by
    intro x hx; simpa [exCorner] using hx
  have c0 : corner exCorner.v 0 = ⟨0, 0, 0⟩ := rfl
  have c1 : corner exCorner.v 1 = ⟨1, 0, 0⟩ := rfl
  have c2 : corner exCorner.v 2 = ⟨0, 1, 0⟩ := rfl
  have c3 : corner exCorner.v 3 = ⟨0, 0, 1⟩ := rfl
  have hE : ∀ a b, (a, b) ∈ meshEdges exCorner.f → (a = 0 ∨ a = 1 ∨ a = 2 ∨ a = 3) ∧ (b = 0 ∨ b = 1 ∨ b = 2 ∨ b = 3) ∧ a ≠ b := by
    have : ∀ e ∈ meshEdges exCorner.f, (e.1 = 0 ∨ e.1 = 1 ∨ e.1 = 2 ∨ e.1 = 3) ∧ (e.2 = 0 ∨ e.2 = 1 ∨ e.2 = 2 ∨ e.2 = 3) ∧ e.1 ≠ e.2 := by
      show ∀ e ∈ meshEdges [[0, 2, 1], [0, 1, 3], [0, 3, 2], [1, 2, 3]], _
      decide +kernel
    exact fun a b h => this _ h
  refine ⟨(validFaces_of (by decide +kernel) : ValidFaces 4 _), closed_of (by decide +kernel), ?_, ?_, ?_, ?_, ?_⟩
  · intro f hf'
    rcases hf f hf' with rfl | rfl | rfl | rfl <;> simp only [List.map_cons, List.map_nil, c0, c1, c2, c3] <;>
      refine faceOutward_of (fun x hx => ?_) (by simp) ?_
    all_goals first
      | (rcases hV x hx with rfl | rfl | rfl | rfl <;> norm_num [dot, cross])
      | (refine ⟨⟨1, 1, 1⟩, ?_⟩; norm_num [dot, cross]; done)
      | (refine ⟨⟨0, 0, 0⟩, ?_⟩; norm_num [dot, cross]; done)
  · intro f hf' e he
    rcases hf f hf' with rfl | rfl | rfl | rfl <;> simp only [List.map_cons, List.map_nil, c0, c1, c2, c3] at he ⊢ <;>
      simp at he <;> rcases he with rfl | rfl | rfl <;> norm_num [cornerNormal, dot, cross]
  · intro f hf'
    rcases hf f hf' with rfl | rfl | rfl | rfl <;> simp only [List.map_cons, List.map_nil, c0, c1, c2, c3, cornerNormal]
    · exact ⟨⟨0, 0, 1⟩, by simp [exCorner], 0, by simp, by rw [c0]; norm_num [dot, cross]⟩
    · exact ⟨⟨0, 1, 0⟩, by simp [exCorner], 0, by simp, by rw [c0]; norm_num [dot, cross]⟩
    · exact ⟨⟨1, 0, 0⟩, by simp [exCorner], 0, by simp, by rw [c0]; norm_num [dot, cross]⟩
    · exact ⟨⟨0, 0, 0⟩, by simp [exCorner], 1, by simp, by rw [c1]; norm_num [dot, cross]⟩
  · intro f hf' g hg a ha b hb hab h
    rcases hr f hf' a ha with rfl | rfl | rfl | rfl <;> rcases hr g hg b hb with rfl | rfl | rfl | rfl <;>
      first | exact absurd rfl hab | (simp [c0, c1, c2, c3] at h)
  · intro a b c hab hac hbc s hs h
    obtain ⟨ha, hb, n1⟩ := hE a b hab
    obtain ⟨-, hc, n2⟩ := hE a c hac
    have hx := congrArg V3.x h
    have hy := congrArg V3.y h
    have hz := congrArg V3.z h
    simp only [sub_x, sub_y, sub_z, smul_x, smul_y, smul_z] at hx hy hz
    rcases ha with rfl | rfl | rfl | rfl <;> rcases hb with rfl | rfl | rfl | rfl <;> rcases hc with rfl | rfl | rfl | rfl <;>
      first
        | exact absurd rfl n1
        | exact absurd rfl n2
        | exact absurd rfl hbc
        | (simp only [c0, c1, c2, c3] at hx hy hz; first | linarith | nlinarith)

/-! ### The property -/

/-- C82: if no face has the point in front of it, merging the point changes nothing. -/
theorem C82_inside (p : Polyhedron ℝ) (hv : ValidFaces p.v.length p.f) (hn : ∀ f ∈ p.f, cornerNormal (f.map (corner p.v)) ≠ 0)
    (x : V3 ℝ) (hx : ∀ f ∈ p.f, ¬ InFront x (f.map (corner p.v))) : p.mergeConvex x = some p :=
  (mergeConvex_eq hv hn x).1 hx

example : exCorner.mergeConvex ⟨1 / 4, 1 / 4, 1 / 4⟩ = some exCorner := by
  refine C82_inside _ exCorner_convex.valid (fun f hf => cornerNormal_ne (exCorner_convex.outward f hf)) _ ?_
  intro f hf
  have : f = [0, 2, 1] ∨ f = [0, 1, 3] ∨ f = [0, 3, 2] ∨ f = [1, 2, 3] := by simpa [exCorner] using hf
  have c0 : corner exCorner.v 0 = ⟨0, 0, 0⟩ := rfl
  have c1 : corner exCorner.v 1 = ⟨1, 0, 0⟩ := rfl
  have c2 : corner exCorner.v 2 = ⟨0, 1, 0⟩ := rfl
  have c3 : corner exCorner.v 3 = ⟨0, 0, 1⟩ := rfl
  rcases this with rfl | rfl | rfl | rfl <;> norm_num [InFront, c0, c1, c2, c3, dot, cross]

/-- C82: otherwise the point is appended to the vertices, the faces that the point does not see stay, in order, and for
every silhouette edge there is exactly one new triangle that joins it to the point. -/
theorem C82_faces (p : Polyhedron ℝ) (hv : ValidFaces p.v.length p.f) (hc : ClosedMesh p.f)
    (hn : ∀ f ∈ p.f, cornerNormal (f.map (corner p.v)) ≠ 0) (x : V3 ℝ) (hx : ∃ f ∈ p.f, InFront x (f.map (corner p.v))) :
    ∃ K N : List (List ℤ), p.mergeConvex x = some ⟨p.v ++ [x], K ++ N⟩ ∧ K.Sublist p.f ∧
      (∀ f, f ∈ K ↔ f ∈ p.f ∧ ¬ InFront x (f.map (corner p.v))) ∧ N.Nodup ∧
      ∀ f, f ∈ N ↔ ∃ a b, Silhouette p.v p.f x a b ∧ f = [a, b, (p.v.length : ℤ)] := by
  classical
  obtain ⟨H, hs, hm, he⟩ := (mergeConvex_eq hv hn x).2 hx
  refine ⟨_, _, he, List.filter_sublist, fun f => by simp, ?_, fun f => ?_⟩
  · rw [fan]
    refine (List.nodup_map_iff ?_).2 (pairLt_nodup hs)
    rintro ⟨a, b⟩ ⟨c, d⟩ h
    simp only [List.cons.injEq, and_true] at h
    rw [h.1, h.2]
  · rw [fan, List.mem_map]
    constructor
    · rintro ⟨⟨a, b⟩, h, rfl⟩
      exact ⟨a, b, (mem_silhouette hv hc x a b).1 ((hm _).1 h), rfl⟩
    · rintro ⟨a, b, h, rfl⟩
      exact ⟨(a, b), (hm _).2 ((mem_silhouette hv hc x a b).2 h), rfl⟩

example : ∃ K N : List (List ℤ), exCorner.mergeConvex ⟨2, 0, 0⟩ = some ⟨exCorner.v ++ [⟨2, 0, 0⟩], K ++ N⟩ := by
  have hN : ∀ f ∈ exCorner.f, cornerNormal (f.map (corner exCorner.v)) ≠ 0 := fun f hf => cornerNormal_ne (exCorner_convex.outward f hf)
  have hF : ∃ f ∈ exCorner.f, InFront (⟨2, 0, 0⟩ : V3 ℝ) (f.map (corner exCorner.v)) := by
    refine ⟨[1, 2, 3], by simp [exCorner], ?_⟩
    show 0 < dot (cross ((⟨0, 1, 0⟩ : V3 ℝ) - ⟨1, 0, 0⟩) (⟨0, 0, 1⟩ - ⟨1, 0, 0⟩)) (⟨2, 0, 0⟩ - ⟨1, 0, 0⟩)
    norm_num [dot, cross]
  obtain ⟨K, N, h, -⟩ := C82_faces exCorner exCorner_convex.valid exCorner_convex.closed hN _ hF
  exact ⟨K, N, h⟩

/-- C82: a closed surface stays without boundary, whatever the point. -/
theorem C82_noBoundary (p q : Polyhedron ℝ) (hv : ValidFaces p.v.length p.f) (hc : ClosedMesh p.f)
    (hn : ∀ f ∈ p.f, cornerNormal (f.map (corner p.v)) ≠ 0) (x : V3 ℝ) (hq : p.mergeConvex x = some q) : NoBoundary q.f := by
  classical
  by_cases hx : ∃ f ∈ p.f, InFront x (f.map (corner p.v))
  · obtain ⟨H, hs, hm, he⟩ := (mergeConvex_eq hv hn x).2 hx
    rw [he, Option.some_inj] at hq
    subst hq
    exact fan_noBoundary hc (perm_split p.f _) (pairLt_nodup hs) hm
  · rw [(mergeConvex_eq hv hn x).1 (fun f hf h => hx ⟨f, hf, h⟩), Option.some_inj] at hq
    subst hq
    exact fun a b => closed_count hc a b

example : ∃ q, exCorner.mergeConvex ⟨2, 0, 0⟩ = some q ∧ NoBoundary q.f := by
  have hN : ∀ f ∈ exCorner.f, cornerNormal (f.map (corner exCorner.v)) ≠ 0 := fun f hf => cornerNormal_ne (exCorner_convex.outward f hf)
  rcases h : exCorner.mergeConvex ⟨2, 0, 0⟩ with _ | q
  · by_cases hx : ∃ f ∈ exCorner.f, InFront (⟨2, 0, 0⟩ : V3 ℝ) (f.map (corner exCorner.v))
    · obtain ⟨K, N, h', -⟩ := C82_faces exCorner exCorner_convex.valid exCorner_convex.closed hN _ hx
      rw [h'] at h; cases h
    · rw [C82_inside exCorner exCorner_convex.valid hN _ fun f hf h => hx ⟨f, hf, h⟩] at h; cases h
  · exact ⟨q, rfl, C82_noBoundary exCorner q exCorner_convex.valid exCorner_convex.closed hN _ h⟩

/-- C82: a convex surface stays a convex surface, whatever the point: closed, all faces convex and outwards. The point and
everything that was behind all faces is behind all faces of the result. -/
theorem C82_convex (p : Polyhedron ℝ) (hp : ConvexSurface p.v p.f) (x : V3 ℝ) :
    ∃ q, p.mergeConvex x = some q ∧ ConvexSurface q.v q.f ∧ (q.v = p.v ∨ q.v = p.v ++ [x]) ∧ (p.f ≠ [] → q.f ≠ []) ∧
      ∀ y, y = x ∨ (∀ f ∈ p.f, ¬ InFront y (f.map (corner p.v))) → ∀ g ∈ q.f, ¬ InFront y (g.map (corner q.v)) := by
  classical
  have hn : ∀ f ∈ p.f, cornerNormal (f.map (corner p.v)) ≠ 0 := fun f hf => cornerNormal_ne (hp.outward f hf)
  by_cases hx : ∃ f ∈ p.f, InFront x (f.map (corner p.v))
  · obtain ⟨H, hs, hm, he⟩ := (mergeConvex_eq hp.valid hn x).2 hx
    have hsil : ∀ e ∈ H, Silhouette p.v p.f x e.1 e.2 := fun e he => (mem_silhouette hp.valid hp.closed x e.1 e.2).1 ((hm e).1 he)
    have hcl := fan_closed (n := p.v.length) hp.closed (perm_split p.f _) (pairLt_nodup hs) hm
      (fun f hf h => by have := ((hp.valid f hf).2.2 _ h).2; omega) (by
        intro a b c h1 h2
        by_contra hbc
        obtain ⟨s, hs0, hse⟩ := silhouette_out_unique hp (show Silhouette p.v p.f x a b from hsil _ h1)
          (show Silhouette p.v p.f x a c from hsil _ h2)
        have hE : ∀ b, (a, b) ∈ H → (a, b) ∈ meshEdges p.f := by
          intro b h
          obtain ⟨⟨f, hf, hef, -⟩, -⟩ := hsil _ h
          exact mem_meshEdges.2 ⟨f, hf, by have := (hp.valid f hf).1; omega, hef⟩
        exact hp.directions a b c (hE b h1) (hE c h2) hbc s hs0 hse)
    have hC := convexSurface_fan hp (fun f hf => by simpa using hf) hsil hcl
    refine ⟨_, he, hC, Or.inr rfl, fun h0 h1 => ?_, fun y hy g hg => ?_⟩
    · obtain ⟨f, hf, hfx⟩ := exists_unseen hp h0 x
      simp only [List.append_eq_nil_iff, List.filter_eq_nil_iff] at h1
      exact absurd (h1.1 f hf) (by simpa using hfx)
    rcases hy with rfl | hy
    · exact not_inFront hC (by simp) hg
    · rw [List.mem_append] at hg
      rcases hg with hg | hg
      · rw [List.mem_filter] at hg
        rw [map_corner_append (hp.valid g hg.1).2.2]
        exact hy g hg.1
      · rw [fan, List.mem_map] at hg
        obtain ⟨e, heH, rfl⟩ := hg
        have h1 := (silhouette_outward' hp (hsil e heH)).2 y hy
        obtain ⟨⟨f, hf, hef, -⟩, -⟩ := hsil e heH
        have hr := mem_edge_range hp.valid hf hef
        simp only [List.map_cons, List.map_nil, corner_append hr.1.1 hr.1.2, corner_append hr.2.1 hr.2.2, corner_last, InFront]
        exact not_lt.2 h1
  · have hx' : ∀ f ∈ p.f, ¬ InFront x (f.map (corner p.v)) := fun f hf h => hx ⟨f, hf, h⟩
    refine ⟨p, (mergeConvex_eq hp.valid hn x).1 hx', hp, Or.inl rfl, id, fun y hy => ?_⟩
    rcases hy with rfl | hy
    · exact hx'
    · exact hy

example (x : V3 ℝ) : ∃ q, exCorner.mergeConvex x = some q ∧ ConvexSurface q.v q.f := by
  obtain ⟨q, h1, h2, -⟩ := C82_convex exCorner exCorner_convex x
  exact ⟨q, h1, h2⟩

/-- Merging the points of a list one after the other. -/
noncomputable def mergeAll (p : Polyhedron ℝ) (l : List (V3 ℝ)) : Option (Polyhedron ℝ) := l.foldlM mergeConvex p

/-- C82: merging any list of points into a convex surface, one after the other, gives a convex surface. It is closed with valid
faces, and all the points and everything that was behind all faces at the start is behind all its faces. -/
theorem C82_mergeAll (l : List (V3 ℝ)) : ∀ (p : Polyhedron ℝ), ConvexSurface p.v p.f →
    ∃ q, p.mergeAll l = some q ∧ ConvexSurface q.v q.f ∧ q.isClosed = true ∧ q.faceIndicesValid = true ∧
      ∀ y, (y ∈ l ∨ ∀ f ∈ p.f, ¬ InFront y (f.map (corner p.v))) → ∀ g ∈ q.f, ¬ InFront y (g.map (corner q.v)) := by
  induction l with
  | nil =>
    intro p hp
    exact ⟨p, rfl, hp, (isClosed_iff p).2 hp.closed, (faceIndicesValid_iff p).2 hp.valid, fun y hy => by simpa using hy⟩
  | cons x l ih =>
    intro p hp
    obtain ⟨q, hq, hC, -, -, hb⟩ := C82_convex p hp x
    obtain ⟨r, hr, hCr, h1, h2, hbr⟩ := ih q hC
    refine ⟨r, ?_, hCr, h1, h2, fun y hy => ?_⟩
    · rw [mergeAll, List.foldlM_cons, hq]
      exact hr
    · rw [List.mem_cons] at hy
      rcases hy with (rfl | hy) | hy
      · exact hbr _ (Or.inr (hb _ (Or.inl rfl)))
      · exact hbr _ (Or.inl hy)
      · exact hbr _ (Or.inr (hb _ (Or.inr hy)))

/-- C82: the region behind all faces of a convex surface is the convex hull of its vertices. -/
theorem C82_region (V : List (V3 ℝ)) (fs : List (List ℤ)) (hs : ConvexSurface V fs) (h0 : fs ≠ []) (y : V3 ℝ) :
    (∀ f ∈ fs, ¬ InFront y (f.map (corner V))) ↔ y ∈ hull3 V := region_eq_hull hs h0 y

example (y : V3 ℝ) : (∀ f ∈ exCorner.f, ¬ InFront y (f.map (corner exCorner.v))) ↔ y ∈ hull3 exCorner.v :=
  C82_region _ _ exCorner_convex (by simp [exCorner]) y

/-- C82: merging a list of points computes convex hulls: the region behind all faces of the result is the convex hull of the
vertices at the start and all the points. -/
theorem C82_hull (l : List (V3 ℝ)) : ∀ (p : Polyhedron ℝ), ConvexSurface p.v p.f → p.f ≠ [] →
    ∃ q, p.mergeAll l = some q ∧ ConvexSurface q.v q.f ∧
      ∀ y, (∀ g ∈ q.f, ¬ InFront y (g.map (corner q.v))) ↔ y ∈ hull3 (p.v ++ l) := by
  induction l with
  | nil =>
    intro p hp h0
    refine ⟨p, rfl, hp, fun y => ?_⟩
    rw [List.append_nil]
    exact region_eq_hull hp h0 y
  | cons x l ih =>
    intro p hp h0
    obtain ⟨q, hq, hC, hv, hne, hb⟩ := C82_convex p hp x
    obtain ⟨r, hr, hCr, hbr⟩ := ih q hC (hne h0)
    refine ⟨r, ?_, hCr, fun y => ?_⟩
    · rw [mergeAll, List.foldlM_cons, hq]
      exact hr
    · rw [hbr]
      constructor
      · refine hull_mono fun v hm => mem_hull ?_
        rcases hv with e | e <;> rw [e] at hm <;> simp only [List.mem_append, List.mem_cons, List.not_mem_nil, or_false] at hm ⊢ <;> tauto
      · refine hull_mono fun v hm => ?_
        have hvq : v ∈ hull3 q.v ∨ v ∈ l := by
          simp only [List.mem_append, List.mem_cons] at hm
          rcases hm with hm | rfl | hm
          · exact Or.inl ((region_eq_hull hC (hne h0) v).1 (hb v (Or.inr fun f hf => not_inFront hp hm hf)))
          · exact Or.inl ((region_eq_hull hC (hne h0) v).1 (hb v (Or.inl rfl)))
          · exact Or.inr hm
        rcases hvq with h | h
        · exact hull_mono (fun u hu => mem_hull (by simp [hu])) h
        · exact mem_hull (by simp [h])

example : ∃ q, exCorner.mergeAll [⟨-1, -1, -1⟩, ⟨2, 0, 0⟩, ⟨3, 4, 5⟩] = some q ∧
    ∀ y, (∀ g ∈ q.f, ¬ InFront y (g.map (corner q.v))) ↔ y ∈ hull3 (exCorner.v ++ [⟨-1, -1, -1⟩, ⟨2, 0, 0⟩, ⟨3, 4, 5⟩]) := by
  obtain ⟨q, h1, -, h2⟩ := C82_hull [⟨-1, -1, -1⟩, ⟨2, 0, 0⟩, ⟨3, 4, 5⟩] exCorner exCorner_convex (by simp [exCorner])
  exact ⟨q, h1, h2⟩

example : ∃ q, exCorner.mergeAll [⟨-1, -1, -1⟩, ⟨2, 0, 0⟩, ⟨3, 4, 5⟩] = some q ∧ ConvexSurface q.v q.f ∧ q.isClosed = true := by
  obtain ⟨q, h1, h2, h3, -⟩ := C82_mergeAll [⟨-1, -1, -1⟩, ⟨2, 0, 0⟩, ⟨3, 4, 5⟩] exCorner exCorner_convex
  exact ⟨q, h1, h2, h3⟩

/-- C82: vertices that are not on the surface any more stay in the vertex list, and then Euler's formula fails: a point that sees
the three faces at the corner of a corner tetrahedron replaces the corner, but five vertices are left for four faces. -/
theorem C82_euler_violation : ∃ q, exCorner.eulerFormulaHolds = true ∧ exCorner.mergeConvex ⟨-1, -1, -1⟩ = some q ∧
    ConvexSurface q.v q.f ∧ q.v.length = 5 ∧ q.f.length = 4 ∧ (∀ f ∈ q.f, (0 : ℤ) ∉ f) ∧ q.eulerFormulaHolds = false := by
  obtain ⟨q, hq, hC, -⟩ := C82_convex exCorner exCorner_convex ⟨-1, -1, -1⟩
  have c0 : corner exCorner.v 0 = ⟨0, 0, 0⟩ := rfl
  have c1 : corner exCorner.v 1 = ⟨1, 0, 0⟩ := rfl
  have c2 : corner exCorner.v 2 = ⟨0, 1, 0⟩ := rfl
  have c3 : corner exCorner.v 3 = ⟨0, 0, 1⟩ := rfl
  have hpl : ∀ f ∈ exCorner.f, ∃ pl, exCorner.facePlane f = some pl ∧ (pl.signedDistance ⟨-1, -1, -1⟩ ≤ 0 ↔ f = [1, 2, 3]) := by
    intro f hf
    obtain ⟨pl, h1, h2⟩ := facePlane_spec (exCorner_convex.valid f hf).1 (exCorner_convex.valid f hf).2.2
      (cornerNormal_ne (exCorner_convex.outward f hf)) ⟨-1, -1, -1⟩
    refine ⟨pl, h1, h2.trans ?_⟩
    have : f = [0, 2, 1] ∨ f = [0, 1, 3] ∨ f = [0, 3, 2] ∨ f = [1, 2, 3] := by simpa [exCorner] using hf
    rcases this with rfl | rfl | rfl | rfl <;> norm_num [InFront, c0, c1, c2, c3, dot, cross]
  obtain ⟨p1, a1, b1⟩ := hpl [0, 2, 1] (by simp [exCorner])
  obtain ⟨p2, a2, b2⟩ := hpl [0, 1, 3] (by simp [exCorner])
  obtain ⟨p3, a3, b3⟩ := hpl [0, 3, 2] (by simp [exCorner])
  obtain ⟨p4, a4, b4⟩ := hpl [1, 2, 3] (by simp [exCorner])
  have n1 : ¬ p1.signedDistance ⟨-1, -1, -1⟩ ≤ 0 := by rw [b1]; decide
  have n2 : ¬ p2.signedDistance ⟨-1, -1, -1⟩ ≤ 0 := by rw [b2]; decide
  have n3 : ¬ p3.signedDistance ⟨-1, -1, -1⟩ ≤ 0 := by rw [b3]; decide
  have n4 : p4.signedDistance ⟨-1, -1, -1⟩ ≤ 0 := by rw [b4]
  have hscan : mergeScan exCorner ⟨-1, -1, -1⟩ exCorner.f [] [] = some ([[1, 2, 3]],
      deletedFace 2 [0, 3, 2] (deletedFace 3 [0, 1, 3] (deletedFace 1 [0, 2, 1] []))) := by
    show mergeScan exCorner ⟨-1, -1, -1⟩ [[0, 2, 1], [0, 1, 3], [0, 3, 2], [1, 2, 3]] [] [] = _
    simp only [mergeScan, a1, a2, a3, a4, Option.bind_eq_bind, Option.bind_some, if_neg n1, if_neg n2, if_neg n3, if_pos n4]
    rfl
  have hset : deletedFace 2 [0, 3, 2] (deletedFace 3 [0, 1, 3] (deletedFace 1 [0, 2, 1] [])) =
      [(0, 1), (0, 2), (0, 3), (1, 0), (1, 3), (2, 0), (2, 1), (3, 0), (3, 2)] := by decide +kernel
  have hres : exCorner.mergeConvex ⟨-1, -1, -1⟩ = some ⟨exCorner.v ++ [⟨-1, -1, -1⟩], [[1, 2, 3], [1, 3, 4], [2, 1, 4], [3, 2, 4]]⟩ := by
    rw [mergeConvex, hscan, hset]
    simp [exCorner]
  rw [hres, Option.some_inj] at hq
  subst hq
  refine ⟨_, ?_, hres, hC, rfl, rfl, by decide, ?_⟩
  · rfl
  · rfl

end Polyhedron
end MGL
