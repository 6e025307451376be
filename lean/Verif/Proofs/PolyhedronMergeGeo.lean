import Verif.Proofs.PolyhedronMerge

/-! Merging a point into a convex polyhedron: the result. -/

set_option linter.unusedSectionVars false

namespace MGL
open V3 Spec
namespace Polyhedron

section General
variable {α : Type} [Field α] [LinearOrder α] [IsStrictOrderedRing α]

theorem zip_rotate_map (g : ℤ → V3 α) (f : List ℤ) :
    (f.map g).zip ((f.map g).rotate 1) = (faceEdges f).map (Prod.map g g) := by
  rw [← List.map_rotate, List.zip_map, faceEdges]

theorem corner_mem {V : List (V3 α)} {i : ℤ} (h0 : 0 ≤ i) (h1 : i < V.length) : corner V i ∈ V := by
  obtain ⟨m, rfl⟩ := Int.eq_ofNat_of_zero_le h0
  have hm : m < V.length := by exact_mod_cast h1
  simp [corner, List.getElem?_eq_getElem hm, List.getD_eq_getElem?_getD]

theorem corner_append {V : List (V3 α)} {x : V3 α} {i : ℤ} (h0 : 0 ≤ i) (h1 : i < V.length) : corner (V ++ [x]) i = corner V i := by
  obtain ⟨m, rfl⟩ := Int.eq_ofNat_of_zero_le h0
  have hm : m < V.length := by exact_mod_cast h1
  simp [corner, List.getD_eq_getElem?_getD, List.getElem?_append_left hm]

theorem corner_last (V : List (V3 α)) (x : V3 α) : corner (V ++ [x]) (V.length : ℤ) = x := by
  simp [corner, List.getD_eq_getElem?_getD]

theorem dot_sub_base {n x a b : V3 α} (h : dot n (a - b) = 0) : dot n (x - a) = dot n (x - b) := by
  simp only [dot, sub_x, sub_y, sub_z] at h ⊢
  linear_combination (-1 : α) * h

theorem cornerNormal_ne {P poly : List (V3 α)} (h : FaceOutward P poly) : cornerNormal poly ≠ 0 := by
  obtain ⟨a, b, c, r, rfl, hn, -⟩ := h
  exact hn

theorem cross_parallel {n u w : V3 α} (hu : dot n u = 0) (hw : dot n w = 0) (hn : 0 < dot n n) :
    cross u w = (dot n (cross u w) / dot n n) • n := by
  have := hn.ne'
  ext
  · rw [smul_x]; field_simp
    simp only [dot, cross] at hu hw ⊢
    linear_combination (u.y * n.z - u.z * n.y) * hw - (w.y * n.z - w.z * n.y) * hu
  · rw [smul_y]; field_simp
    simp only [dot, cross] at hu hw ⊢
    linear_combination (u.z * n.x - u.x * n.z) * hw - (w.z * n.x - w.x * n.z) * hu
  · rw [smul_z]; field_simp
    simp only [dot, cross] at hu hw ⊢
    linear_combination (u.x * n.y - u.y * n.x) * hw - (w.x * n.y - w.y * n.x) * hu

theorem dot_self_pos {n : V3 α} (h : n ≠ 0) : 0 < dot n n := by
  rcases (show 0 ≤ dot n n from by simp only [dot]; nlinarith [mul_self_nonneg n.x, mul_self_nonneg n.y, mul_self_nonneg n.z]).lt_or_eq with h1 | h1
  · exact h1
  · exfalso
    simp only [dot] at h1
    have hx : n.x = 0 := mul_self_eq_zero.1 (le_antisymm (by nlinarith [mul_self_nonneg n.x, mul_self_nonneg n.y, mul_self_nonneg n.z]) (mul_self_nonneg _))
    have hy : n.y = 0 := mul_self_eq_zero.1 (le_antisymm (by nlinarith [mul_self_nonneg n.x, mul_self_nonneg n.y, mul_self_nonneg n.z]) (mul_self_nonneg _))
    have hz : n.z = 0 := mul_self_eq_zero.1 (le_antisymm (by nlinarith [mul_self_nonneg n.x, mul_self_nonneg n.y, mul_self_nonneg n.z]) (mul_self_nonneg _))
    exact h (by ext <;> assumption)

/-- What a face says about one of its edges. -/
theorem face_data {V : List (V3 α)} {fs : List (List ℤ)} (hs : ConvexSurface V fs) {f : List ℤ} (hf : f ∈ fs) {a b : ℤ}
    (he : (a, b) ∈ faceEdges f) : ∃ n : V3 α,
    dot n (corner V b - corner V a) = 0 ∧ (∀ x ∈ V, dot n (x - corner V a) ≤ 0) ∧ (∃ x ∈ V, dot n (x - corner V a) < 0) ∧
    (∃ w ∈ V, ∃ c : α, 0 < c ∧ cross (corner V b - corner V a) (w - corner V a) = c • n) ∧
    ∀ x, InFront x (f.map (corner V)) ↔ 0 < dot n (x - corner V a) := by
  obtain ⟨h1, h2⟩ := List.of_mem_zip he
  rw [List.mem_rotate] at h2
  obtain ⟨A, B, C, r, e, hn, hP, hpl⟩ := hs.outward f hf
  have hN : cornerNormal (f.map (corner V)) = cross (B - A) (C - A) := by rw [e]; rfl
  have hI : ∀ x, InFront x (f.map (corner V)) ↔ 0 < dot (cross (B - A) (C - A)) (x - A) := by intro x; rw [e]; rfl
  have hturn := hs.turning f hf (corner V a, corner V b) (by
    rw [zip_rotate_map]; exact List.mem_map.2 ⟨(a, b), he, rfl⟩)
  have hsol := hs.solid f hf
  rw [hN] at hturn hsol
  set n := cross (B - A) (C - A)
  have hpa : ∀ {i}, i ∈ f → dot n (corner V i - A) = 0 := fun hi => hpl _ (List.mem_map.2 ⟨_, hi, rfl⟩)
  have hba : ∀ {i} (_ : i ∈ f) x, dot n (x - corner V i) = dot n (x - A) := fun hi x => dot_sub_base (hpa hi)
  refine ⟨n, ?_, ?_, ?_, ?_, ?_⟩
  · rw [hba h1, hpa h2]
  · intro x hx; rw [hba h1]; exact hP x hx
  · obtain ⟨x, hx, i, hi, hneg⟩ := hsol
    refine ⟨x, hx, ?_⟩
    rw [hba h1, ← hba hi]; exact hneg
  · obtain ⟨-, x, hx, hpos⟩ := hturn
    rw [List.mem_map] at hx
    obtain ⟨i, hi, rfl⟩ := hx
    have hv := (hs.valid f hf).2.2 i hi
    refine ⟨_, corner_mem hv.1 hv.2, _, div_pos hpos (dot_self_pos hn), cross_parallel ?_ ?_ (dot_self_pos hn)⟩
    · rw [hba h1, hpa h2]
    · rw [hba h1, hpa hi]
  · intro x; rw [hI, hba h1]

theorem not_inFront {V : List (V3 α)} {fs : List (List ℤ)} (hs : ConvexSurface V fs) {x : V3 α} (hx : x ∈ V) {f : List ℤ} (hf : f ∈ fs) :
    ¬ InFront x (f.map (corner V)) := by
  obtain ⟨a, b, c, r, e, -, hP, -⟩ := hs.outward f hf
  rw [e]
  exact not_lt.2 (hP x hx)

theorem silhouette_outward' {V : List (V3 α)} {fs : List (List ℤ)} (hs : ConvexSurface V fs) {p : V3 α} {a b : ℤ}
    (h : Silhouette V fs p a b) : (∃ w ∈ V, dot (cross (corner V b - corner V a) (p - corner V a)) (w - corner V a) < 0) ∧
    ∀ x, (∀ f ∈ fs, ¬ InFront x (f.map (corner V))) → dot (cross (corner V b - corner V a) (p - corner V a)) (x - corner V a) ≤ 0 := by
  obtain ⟨⟨f, hf, he, hi⟩, g, hg, he', hi'⟩ := h
  obtain ⟨n, h1, h2, ⟨x0, hx0, h3⟩, ⟨w, hw, c, hc, h4⟩, h5⟩ := face_data hs hf he
  obtain ⟨m, k1, k2, ⟨x1, hx1, k3⟩, -, k5⟩ := face_data hs hg he'
  rw [h5] at hi
  rw [k5, not_lt] at hi'
  have hm : ∀ x, dot m (x - corner V b) = dot m (x - corner V a) := by
    intro x
    simp only [dot, sub_x, sub_y, sub_z] at k1 ⊢
    linear_combination k1
  have k1' : dot m (corner V b - corner V a) = 0 := by
    simp only [dot, sub_x, sub_y, sub_z] at k1 ⊢
    linear_combination -k1
  rw [hm] at hi' k3
  have hV : ∀ x ∈ V, ∀ f ∈ fs, ¬ InFront x (f.map (corner V)) := fun x hx f hf => not_inFront hs hx hf
  have := silhouette_plane (Y := {y | ∃ x, (∀ f ∈ fs, ¬ InFront x (f.map (corner V))) ∧ y = x - corner V a}) (u := corner V b - corner V a)
    (q := p - corner V a) (w := w - corner V a)
    (nF := n) (nG := m) h1 k1' hi hi' hc h4 ⟨w, hV w hw, rfl⟩ (by rintro y ⟨x, hx, rfl⟩; have := hx f hf; rw [h5] at this; exact not_lt.1 this)
    (by rintro y ⟨x, hx, rfl⟩; have := hx g hg; rw [k5, hm] at this; exact not_lt.1 this) ⟨_, ⟨x0, hV x0 hx0, rfl⟩, h3⟩
    ⟨_, ⟨x1, hV x1 hx1, rfl⟩, k3⟩
  exact ⟨⟨w, hw, this.1⟩, fun x hx => this.2 _ ⟨x, hx, rfl⟩⟩

theorem silhouette_outward {V : List (V3 α)} {fs : List (List ℤ)} (hs : ConvexSurface V fs) {p : V3 α} {a b : ℤ}
    (h : Silhouette V fs p a b) : (∃ w ∈ V, dot (cross (corner V b - corner V a) (p - corner V a)) (w - corner V a) < 0) ∧
    ∀ x ∈ V, dot (cross (corner V b - corner V a) (p - corner V a)) (x - corner V a) ≤ 0 :=
  ⟨(silhouette_outward' hs h).1, fun x hx => (silhouette_outward' hs h).2 x fun _ hf => not_inFront hs hx hf⟩

theorem mem_edge_range {V : List (V3 α)} {fs : List (List ℤ)} (hv : ValidFaces V.length fs) {f : List ℤ} (hf : f ∈ fs) {a b : ℤ}
    (he : (a, b) ∈ faceEdges f) : (0 ≤ a ∧ a < V.length) ∧ 0 ≤ b ∧ b < V.length := by
  obtain ⟨h1, h2⟩ := List.of_mem_zip he
  rw [List.mem_rotate] at h2
  exact ⟨(hv f hf).2.2 a h1, (hv f hf).2.2 b h2⟩

theorem silhouette_out_unique {V : List (V3 α)} {fs : List (List ℤ)} (hs : ConvexSurface V fs) {p : V3 α} {a b c : ℤ}
    (h1 : Silhouette V fs p a b) (h2 : Silhouette V fs p a c) :
    ∃ s : α, 0 < s ∧ corner V c - corner V a = s • (corner V b - corner V a) := by
  obtain ⟨⟨w1, hw1, e1⟩, o1⟩ := silhouette_outward hs h1
  obtain ⟨⟨w2, hw2, e2⟩, o2⟩ := silhouette_outward hs h2
  obtain ⟨⟨f, hf, he, hi⟩, -⟩ := h1
  obtain ⟨⟨g, hg, he', hi'⟩, -⟩ := h2
  obtain ⟨n, a1, a2, -, -, a5⟩ := face_data hs hf he
  obtain ⟨m, b1, b2, -, -, b5⟩ := face_data hs hg he'
  have r1 := (mem_edge_range hs.valid hf he).2
  have r2 := (mem_edge_range hs.valid hg he').2
  exact silhouette_unique (q := p - corner V a) ((a5 _).1 hi) ((b5 _).1 hi') a1 b1 (a2 _ (corner_mem r2.1 r2.2)) (b2 _ (corner_mem r1.1 r1.2))
    e1 e2 (o2 _ hw1) (o1 _ (corner_mem r2.1 r2.2)) (o2 _ (corner_mem r1.1 r1.2))

/-- A triangle of the fan. -/
theorem fan_face {V : List (V3 α)} {p A B : V3 α} (h : (∃ w ∈ V, dot (cross (B - A) (p - A)) (w - A) < 0) ∧
    ∀ x ∈ V, dot (cross (B - A) (p - A)) (x - A) ≤ 0) : FaceOutward (V ++ [p]) [A, B, p] ∧ LeftTurning [A, B, p] := by
  obtain ⟨⟨w, hw, hneg⟩, ho⟩ := h
  have hn : cross (B - A) (p - A) ≠ 0 := by
    intro h0
    rw [h0] at hneg
    simp [dot] at hneg
  have hpp : dot (cross (B - A) (p - A)) (p - A) = 0 := by simp only [dot, cross]; ring
  refine ⟨⟨A, B, p, [], rfl, hn, ?_, ?_⟩, ?_⟩
  · intro x hx
    rw [List.mem_append, List.mem_singleton] at hx
    rcases hx with hx | rfl
    · exact ho x hx
    · exact hpp.le
  · intro x hx
    simp only [List.mem_cons, List.not_mem_nil, or_false] at hx
    rcases hx with rfl | rfl | rfl
    · simp only [dot, sub_x, sub_y, sub_z]; ring
    · simp only [dot, cross]; ring
    · exact hpp
  · have hpos := dot_self_pos hn
    intro e he
    have : e = (A, B) ∨ e = (B, p) ∨ e = (p, A) := by simpa using he
    show (∀ x ∈ [A, B, p], 0 ≤ dot (cross (B - A) (p - A)) (cross (e.2 - e.1) (x - e.1))) ∧
      ∃ x ∈ [A, B, p], 0 < dot (cross (B - A) (p - A)) (cross (e.2 - e.1) (x - e.1))
    have hb1 : dot (cross (B - A) (p - A)) (cross (p - B) (A - B)) = dot (cross (B - A) (p - A)) (cross (B - A) (p - A)) := by
      simp only [dot, cross, sub_x, sub_y, sub_z]; ring
    have hb2 : dot (cross (B - A) (p - A)) (cross (A - p) (B - p)) = dot (cross (B - A) (p - A)) (cross (B - A) (p - A)) := by
      simp only [dot, cross, sub_x, sub_y, sub_z]; ring
    have z1 : ∀ u v : V3 α, dot (cross (B - A) (p - A)) (cross (v - u) (u - u)) = 0 := by
      intro u v; simp only [dot, cross, sub_x, sub_y, sub_z]; ring
    have z2 : ∀ u v : V3 α, dot (cross (B - A) (p - A)) (cross (v - u) (v - u)) = 0 := by
      intro u v; simp only [dot, cross, sub_x, sub_y, sub_z]; ring
    rcases this with rfl | rfl | rfl
    · refine ⟨fun x hx => ?_, p, by simp, hpos⟩
      simp only [List.mem_cons, List.not_mem_nil, or_false] at hx
      rcases hx with rfl | rfl | rfl
      · exact (z1 _ _).ge
      · exact (z2 _ _).ge
      · exact hpos.le
    · refine ⟨fun x hx => ?_, A, by simp, lt_of_lt_of_eq hpos hb1.symm⟩
      simp only [List.mem_cons, List.not_mem_nil, or_false] at hx
      rcases hx with rfl | rfl | rfl
      · exact le_of_le_of_eq hpos.le hb1.symm
      · exact (z1 _ _).ge
      · exact (z2 _ _).ge
    · refine ⟨fun x hx => ?_, B, by simp, lt_of_lt_of_eq hpos hb2.symm⟩
      simp only [List.mem_cons, List.not_mem_nil, or_false] at hx
      rcases hx with rfl | rfl | rfl
      · exact (z2 _ _).ge
      · exact le_of_le_of_eq hpos.le hb2.symm
      · exact (z1 _ _).ge

theorem map_corner_append {V : List (V3 α)} {x : V3 α} {f : List ℤ} (h : ∀ i ∈ f, 0 ≤ i ∧ i < V.length) :
    f.map (corner (V ++ [x])) = f.map (corner V) :=
  List.map_congr_left fun i hi => corner_append (h i hi).1 (h i hi).2

/-- All vertices lie behind a seen face, and the point in front of it. -/
theorem seen_vertex {V : List (V3 α)} {fs : List (List ℤ)} (hs : ConvexSurface V fs) {p : V3 α} {f : List ℤ} (hf : f ∈ fs)
    (hp : InFront p (f.map (corner V))) {a : ℤ} (ha : a ∈ f) :
    ∃ n, 0 < dot n (p - corner V a) ∧ ∀ x ∈ V, dot n (x - corner V a) ≤ 0 := by
  obtain ⟨A, B, C, r, e, hn, hP, hpl⟩ := hs.outward f hf
  have h1 : dot (cross (B - A) (C - A)) (corner V a - A) = 0 := hpl _ (List.mem_map.2 ⟨_, ha, rfl⟩)
  rw [e] at hp
  refine ⟨cross (B - A) (C - A), ?_, fun x hx => ?_⟩
  · rw [dot_sub_base h1]; exact hp
  · rw [dot_sub_base h1]; exact hP x hx

theorem dot_smul_right (n : V3 α) (s : α) (u : V3 α) : dot n (s • u) = s * dot n u := by
  simp only [dot, smul_x, smul_y, smul_z]; ring

/-- The fan over the silhouette together with the faces that are not seen is again a convex surface, if it is closed. -/
theorem convexSurface_fan {V : List (V3 α)} {fs K : List (List ℤ)} {H : List (ℤ × ℤ)} (hs : ConvexSurface V fs) {p : V3 α}
    (hK : ∀ f ∈ K, f ∈ fs ∧ ¬ InFront p (f.map (corner V))) (hH : ∀ e ∈ H, Silhouette V fs p e.1 e.2)
    (hc : ClosedMesh (K ++ fan V.length H)) : ConvexSurface (V ++ [p]) (K ++ fan V.length H) := by
  have hrange : ∀ e ∈ H, (0 ≤ e.1 ∧ e.1 < V.length) ∧ (0 ≤ e.2 ∧ e.2 < V.length) ∧ e.1 ≠ e.2 := by
    rintro ⟨a, b⟩ he
    obtain ⟨⟨f, hf, hef, -⟩, -⟩ := hH _ he
    have := mem_edge_range hs.valid hf hef
    have hv := hs.valid f hf
    exact ⟨this.1, this.2, faceEdges_ne hv.2.1 (by omega) hef⟩
  have hlen : (V ++ [p]).length = V.length + 1 := by simp
  have hfan : ∀ f ∈ fan V.length H, ∃ e ∈ H, f = [e.1, e.2, (V.length : ℤ)] := by
    intro f hf
    rw [fan, List.mem_map] at hf
    obtain ⟨e, he, rfl⟩ := hf
    exact ⟨e, he, rfl⟩
  have hmapfan : ∀ e ∈ H, [e.1, e.2, (V.length : ℤ)].map (corner (V ++ [p])) = [corner V e.1, corner V e.2, p] := by
    intro e he
    obtain ⟨⟨h1, h2⟩, ⟨h3, h4⟩, -⟩ := hrange e he
    simp only [List.map_cons, List.map_nil, corner_append h1 h2, corner_append h3 h4, corner_last]
  have hseen : ∀ e ∈ H, ∀ i, i = e.1 ∨ i = e.2 → ∃ n, 0 < dot n (p - corner V i) ∧ ∀ x ∈ V, dot n (x - corner V i) ≤ 0 := by
    rintro ⟨a, b⟩ he i hi
    obtain ⟨⟨f, hf, hef, hin⟩, -⟩ := hH _ he
    obtain ⟨h1, h2⟩ := List.of_mem_zip hef
    rw [List.mem_rotate] at h2
    rcases hi with rfl | rfl
    · exact seen_vertex hs hf hin h1
    · exact seen_vertex hs hf hin h2
  -- the corners of the new faces: the new vertex, or a corner of an old face
  have hcor : ∀ f ∈ K ++ fan V.length H, ∀ i ∈ f, i = (V.length : ℤ) ∨ ((0 ≤ i ∧ i < V.length) ∧ ∃ g ∈ fs, i ∈ g) := by
    intro f hf i hi
    rw [List.mem_append] at hf
    rcases hf with hf | hf
    · exact Or.inr ⟨(hs.valid f (hK f hf).1).2.2 i hi, f, (hK f hf).1, hi⟩
    · obtain ⟨⟨a, b⟩, he, rfl⟩ := hfan f hf
      obtain ⟨⟨g, hg, heg, -⟩, -⟩ := hH _ he
      obtain ⟨h1, h2⟩ := List.of_mem_zip heg
      rw [List.mem_rotate] at h2
      simp only [List.mem_cons, List.not_mem_nil, or_false] at hi
      rcases hi with rfl | rfl | rfl
      · exact Or.inr ⟨(hs.valid g hg).2.2 _ h1, g, hg, h1⟩
      · exact Or.inr ⟨(hs.valid g hg).2.2 _ h2, g, hg, h2⟩
      · exact Or.inl rfl
  -- the edges of the new mesh
  have hedge : ∀ a b, (a, b) ∈ meshEdges (K ++ fan V.length H) → ((a, b) ∈ meshEdges fs ∧ (0 ≤ a ∧ a < V.length) ∧ (0 ≤ b ∧ b < V.length)) ∨
      (b = (V.length : ℤ) ∧ ∃ e ∈ H, a = e.2) ∨ (a = (V.length : ℤ) ∧ ∃ e ∈ H, b = e.1) := by
    intro a b h
    obtain ⟨f, hf, hl, he⟩ := mem_meshEdges.1 h
    rw [List.mem_append] at hf
    rcases hf with hf | hf
    · exact Or.inl ⟨mem_meshEdges.2 ⟨f, (hK f hf).1, hl, he⟩, mem_edge_range hs.valid (hK f hf).1 he⟩
    · obtain ⟨⟨x, y⟩, heH, rfl⟩ := hfan f hf
      have : (a, b) = (x, y) ∨ (a, b) = (y, (V.length : ℤ)) ∨ (a, b) = ((V.length : ℤ), x) := by simpa [faceEdges] using he
      simp only [Prod.mk.injEq] at this
      rcases this with ⟨rfl, rfl⟩ | ⟨rfl, rfl⟩ | ⟨rfl, rfl⟩
      · obtain ⟨⟨g, hg, heg, -⟩, -⟩ := hH _ heH
        exact Or.inl ⟨mem_meshEdges.2 ⟨g, hg, by have := (hs.valid g hg).1; omega, heg⟩, mem_edge_range hs.valid hg heg⟩
      · exact Or.inr (Or.inl ⟨rfl, _, heH, rfl⟩)
      · exact Or.inr (Or.inr ⟨rfl, _, heH, rfl⟩)
  have hpne : (∃ e, e ∈ H) → ∀ x ∈ V, p ≠ x := by
    rintro ⟨e, he⟩ x hx rfl
    obtain ⟨n, h1, h2⟩ := hseen e he e.1 (Or.inl rfl)
    exact absurd h1 (not_lt.2 (h2 _ hx))
  refine ⟨?_, hc, ?_, ?_, ?_, ?_, ?_⟩
  · intro f hf
    rw [List.mem_append] at hf
    rcases hf with hf | hf
    · obtain ⟨h1, h2, h3⟩ := hs.valid f (hK f hf).1
      refine ⟨h1, h2, fun i hi => ⟨(h3 i hi).1, ?_⟩⟩
      have := (h3 i hi).2
      rw [hlen]; push_cast; omega
    · obtain ⟨e, he, rfl⟩ := hfan f hf
      obtain ⟨⟨h1, h2⟩, ⟨h3, h4⟩, h5⟩ := hrange e he
      refine ⟨by simp, ?_, ?_⟩
      · simp only [List.nodup_cons, List.mem_cons, List.not_mem_nil, or_false, not_or, not_false_eq_true, List.nodup_nil, and_true]
        exact ⟨⟨h5, by omega⟩, by omega⟩
      · intro i hi
        rw [hlen]; push_cast
        simp only [List.mem_cons, List.not_mem_nil, or_false] at hi
        rcases hi with rfl | rfl | rfl <;> omega
  · intro f hf
    rw [List.mem_append] at hf
    rcases hf with hf | hf
    · obtain ⟨hfs, hnot⟩ := hK f hf
      rw [map_corner_append (hs.valid f hfs).2.2]
      obtain ⟨a, b, c, r, e, hn, hP, hpl⟩ := hs.outward f hfs
      refine ⟨a, b, c, r, e, hn, ?_, hpl⟩
      intro x hx
      rw [List.mem_append, List.mem_singleton] at hx
      rcases hx with hx | rfl
      · exact hP x hx
      · rw [e] at hnot
        exact not_lt.1 hnot
    · obtain ⟨e, he, rfl⟩ := hfan f hf
      rw [hmapfan e he]
      exact (fan_face (silhouette_outward hs (hH e he))).1
  · intro f hf
    rw [List.mem_append] at hf
    rcases hf with hf | hf
    · obtain ⟨hfs, hnot⟩ := hK f hf
      rw [map_corner_append (hs.valid f hfs).2.2]
      exact hs.turning f hfs
    · obtain ⟨e, he, rfl⟩ := hfan f hf
      rw [hmapfan e he]
      exact (fan_face (silhouette_outward hs (hH e he))).2
  · intro f hf
    rw [List.mem_append] at hf
    rcases hf with hf | hf
    · obtain ⟨hfs, hnot⟩ := hK f hf
      obtain ⟨x, hx, a, ha, h⟩ := hs.solid f hfs
      refine ⟨x, by simp [hx], a, ha, ?_⟩
      have hv := (hs.valid f hfs).2.2
      rw [map_corner_append hv, corner_append (hv a ha).1 (hv a ha).2]
      exact h
    · obtain ⟨e, he, rfl⟩ := hfan f hf
      obtain ⟨⟨w, hw, hneg⟩, -⟩ := silhouette_outward hs (hH e he)
      refine ⟨w, by simp [hw], e.1, by simp, ?_⟩
      rw [hmapfan e he, corner_append (hrange e he).1.1 (hrange e he).1.2]
      exact hneg
  · have hne : ∀ f ∈ K ++ fan V.length H, ∀ a ∈ f, a = (V.length : ℤ) → ∃ e, e ∈ H := by
      intro f hf a ha h
      rw [List.mem_append] at hf
      rcases hf with hf | hf
      · have := ((hs.valid f (hK f hf).1).2.2 a ha).2
        omega
      · obtain ⟨e, he, -⟩ := hfan f hf
        exact ⟨e, he⟩
    intro f hf g hg a ha b hb hab
    rcases hcor f hf a ha with h1 | ⟨r1, f', hf', h1⟩ <;> rcases hcor g hg b hb with h2 | ⟨r2, g', hg', h2⟩
    · omega
    · rw [h1, corner_last, corner_append r2.1 r2.2]
      exact hpne (hne f hf a ha h1) _ (corner_mem r2.1 r2.2)
    · rw [h2, corner_last, corner_append r1.1 r1.2]
      exact (hpne (hne g hg b hb h2) _ (corner_mem r1.1 r1.2)).symm
    · rw [corner_append r1.1 r1.2, corner_append r2.1 r2.2]
      exact hs.distinct f' hf' g' hg' a h1 b h2 hab
  · intro a b c hab hac hbc s hs0 heq
    rcases hedge a b hab with ⟨m1, ra, rb⟩ | ⟨rfl, e, he, rfl⟩ | ⟨rfl, e, he, rfl⟩
    · rcases hedge a c hac with ⟨m2, -, rc⟩ | ⟨rfl, d, hd, rfl⟩ | ⟨rfl, -⟩
      · rw [corner_append ra.1 ra.2, corner_append rb.1 rb.2, corner_append rc.1 rc.2] at heq
        exact hs.directions a b c m1 m2 hbc s hs0 heq
      · rw [corner_append ra.1 ra.2, corner_append rb.1 rb.2, corner_last] at heq
        obtain ⟨n, h1, h2⟩ := hseen d hd d.2 (Or.inr rfl)
        rw [heq, dot_smul_right] at h1
        have := mul_nonpos_of_nonneg_of_nonpos hs0.le (h2 _ (corner_mem rb.1 rb.2))
        linarith
      · omega
    · rcases hedge _ c hac with ⟨m2, ra, rc⟩ | ⟨rfl, -⟩ | ⟨h, -⟩
      · rw [corner_append ra.1 ra.2, corner_append rc.1 rc.2, corner_last] at heq
        obtain ⟨n, h1, h2⟩ := hseen e he e.2 (Or.inr rfl)
        have h3 := h2 _ (corner_mem rc.1 rc.2)
        rw [heq, dot_smul_right] at h3
        have := mul_pos hs0 h1
        linarith
      · exact hbc rfl
      · have := (hrange e he).2.1.2
        omega
    · rcases hedge _ c hac with ⟨m2, ra, rc⟩ | ⟨-, d, hd, h⟩ | ⟨-, d, hd, rfl⟩
      · omega
      · have := (hrange d hd).2.1.2
        omega
      · obtain ⟨re, -, -⟩ := hrange e he
        obtain ⟨rd, -, -⟩ := hrange d hd
        rw [corner_append re.1 re.2, corner_append rd.1 rd.2, corner_last] at heq
        obtain ⟨n, h1, h2⟩ := hseen e he e.1 (Or.inl rfl)
        obtain ⟨m, k1, k2⟩ := hseen d hd d.1 (Or.inl rfl)
        have h3 := h2 _ (corner_mem rd.1 rd.2)
        have k3 := k2 _ (corner_mem re.1 re.2)
        have hx := congrArg V3.x heq
        have hy := congrArg V3.y heq
        have hz := congrArg V3.z heq
        simp only [sub_x, sub_y, sub_z, smul_x, smul_y, smul_z] at hx hy hz
        have e1 : dot n (corner V d.1 - corner V e.1) = (1 - s) * dot n (p - corner V e.1) := by
          simp only [dot, sub_x, sub_y, sub_z]
          linear_combination n.x * hx + n.y * hy + n.z * hz
        have e2 : s * dot m (corner V e.1 - corner V d.1) = (s - 1) * dot m (p - corner V d.1) := by
          simp only [dot, sub_x, sub_y, sub_z]
          linear_combination -(m.x * hx + m.y * hy + m.z * hz)
        rw [e1] at h3
        have s1 : 1 ≤ s := by
          by_contra hlt
          have := mul_pos (sub_pos.2 (not_le.1 hlt)) h1
          linarith
        have s2 : s ≤ 1 := by
          by_contra hlt
          have := mul_pos (sub_pos.2 (not_le.1 hlt)) k1
          have := mul_nonpos_of_nonneg_of_nonpos hs0.le k3
          linarith
        have hs1 : s = 1 := le_antisymm s2 s1
        rw [hs1] at hx hy hz
        obtain ⟨⟨f', hf', he', -⟩, -⟩ := hH e he
        obtain ⟨⟨g', hg', hd', -⟩, -⟩ := hH d hd
        refine hs.distinct f' hf' g' hg' e.1 (List.of_mem_zip he').1 d.1 (List.of_mem_zip hd').1 hbc ?_
        ext <;> linarith

end General

/-! ### The function -/

open Classical in
/-- What the function returns. -/
theorem mergeConvex_eq {p : Polyhedron ℝ} (hv : ValidFaces p.v.length p.f) (hn : ∀ f ∈ p.f, cornerNormal (f.map (corner p.v)) ≠ 0) (x : V3 ℝ) :
    ((∀ f ∈ p.f, ¬ InFront x (f.map (corner p.v))) → p.mergeConvex x = some p) ∧
    ((∃ f ∈ p.f, InFront x (f.map (corner p.v))) → ∃ H : List (ℤ × ℤ), H.Pairwise (fun a b => pairLt a b = true) ∧
      (∀ e, e ∈ H ↔ e ∈ meshEdges (p.f.filter fun f => decide (InFront x (f.map (corner p.v)))) ∧
        e.swap ∉ meshEdges (p.f.filter fun f => decide (InFront x (f.map (corner p.v))))) ∧
      p.mergeConvex x = some ⟨p.v ++ [x], p.f.filter (fun f => decide (¬ InFront x (f.map (corner p.v)))) ++ fan p.v.length H⟩) := by
  obtain ⟨t, ht, hp, hm⟩ := mergeScan_spec p x (fun f => InFront x (f.map (corner p.v))) p.f
    (fun f hf => ⟨by have := (hv f hf).1; omega, facePlane_spec (hv f hf).1 (hv f hf).2.2 (hn f hf) x⟩) [] [] List.Pairwise.nil
  simp only [List.not_mem_nil, or_false, List.nil_append] at hm ht
  constructor
  · intro h
    have h1 : p.f.filter (fun f => decide (InFront x (f.map (corner p.v)))) = [] :=
      List.filter_eq_nil_iff.2 fun f hf => by simpa using h f hf
    have h2 : p.f.filter (fun f => decide (¬ InFront x (f.map (corner p.v)))) = p.f :=
      List.filter_eq_self.2 fun f hf => by simpa using h f hf
    have h3 : t = [] := List.eq_nil_iff_forall_not_mem.2 fun e he => by
      rw [hm, h1] at he
      simp [meshEdges_nil] at he
    rw [mergeConvex, ht, h2, h3]
    rfl
  · rintro ⟨f, hf, hfx⟩
    have hne : t ≠ [] := by
      obtain ⟨a, b, r, e⟩ : ∃ a b r, f = a :: b :: r := by
        have := (hv f hf).1
        rcases f with _ | ⟨a, _ | ⟨b, r⟩⟩
        · simp at this
        · simp at this
        · exact ⟨a, b, r, rfl⟩
      have : (a, b) ∈ t := by
        rw [hm, mem_meshEdges]
        refine ⟨f, List.mem_filter.2 ⟨hf, by simpa using hfx⟩, by rw [e]; simp, ?_⟩
        rw [e, faceEdges, List.rotate_cons_succ, List.rotate_zero]
        simp
      intro h0; rw [h0] at this; simp at this
    refine ⟨t.filter fun e => decide ((e.2, e.1) ∉ t), hp.filter _, ?_, ?_⟩
    · rintro ⟨a, b⟩
      rw [List.mem_filter, decide_eq_true_eq, hm, hm]
      rfl
    · rw [mergeConvex, ht]
      simp only [Option.bind_eq_bind, Option.bind_some, if_neg hne]
      simp [fan]

theorem pairLt_nodup {H : List (ℤ × ℤ)} (h : H.Pairwise (fun a b => pairLt a b = true)) : H.Nodup :=
  List.Pairwise.imp (R := fun a b => pairLt a b = true) (S := fun a b => a ≠ b) (fun {a b} hab e => pairLt_irrefl a (by rw [← e] at hab; exact hab)) h

open Classical in
theorem perm_split (fs : List (List ℤ)) (S : List ℤ → Prop) :
    fs.Perm (fs.filter (fun f => decide (¬ S f)) ++ fs.filter fun f => decide (S f)) := by
  have := List.filter_append_perm (fun f => decide (¬ S f)) fs
  refine this.symm.trans ?_
  simp

open Classical in
/-- The silhouette edges are the edges of seen faces whose reverse does not belong to a seen face. -/
theorem mem_silhouette {V : List (V3 ℝ)} {fs : List (List ℤ)} (hv : ValidFaces V.length fs) (hc : ClosedMesh fs) (x : V3 ℝ) (a b : ℤ) :
    ((a, b) ∈ meshEdges (fs.filter fun f => decide (InFront x (f.map (corner V)))) ∧
      (b, a) ∉ meshEdges (fs.filter fun f => decide (InFront x (f.map (corner V))))) ↔ Silhouette V fs x a b := by
  have hm : ∀ (S : List ℤ → Prop) [DecidablePred S] (e : ℤ × ℤ), e ∈ meshEdges (fs.filter fun f => decide (S f)) ↔ ∃ f ∈ fs, e ∈ faceEdges f ∧ S f := by
    intro S _ e
    rw [mem_meshEdges]
    constructor
    · rintro ⟨f, hf, -, he⟩
      rw [List.mem_filter, decide_eq_true_eq] at hf
      exact ⟨f, hf.1, he, hf.2⟩
    · rintro ⟨f, hf, he, hS⟩
      exact ⟨f, List.mem_filter.2 ⟨hf, by simpa using hS⟩, by have := (hv f hf).1; omega, he⟩
  have hnd := (meshEdges_perm (perm_split fs fun f => InFront x (f.map (corner V)))).nodup_iff.1 hc.1
  rw [meshEdges_append, List.nodup_append] at hnd
  have hK := hm (fun f => ¬ InFront x (f.map (corner V)))
  have hR := hm (fun f => InFront x (f.map (corner V)))
  rw [hR, hR, Silhouette]
  constructor
  · rintro ⟨h1, h2⟩
    refine ⟨h1, ?_⟩
    obtain ⟨f, hf, he, -⟩ := h1
    have hab : (a, b) ∈ meshEdges fs := mem_meshEdges.2 ⟨f, hf, by have := (hv f hf).1; omega, he⟩
    obtain ⟨g, hg, -, hge⟩ := mem_meshEdges.1 (hc.2 _ _ hab)
    exact ⟨g, hg, hge, fun hS => h2 ⟨g, hg, hge, hS⟩⟩
  · rintro ⟨h1, h2⟩
    refine ⟨h1, fun h3 => ?_⟩
    exact hnd.2.2 _ ((hK _).2 h2) _ ((hR _).2 h3) rfl

end Polyhedron
end MGL
