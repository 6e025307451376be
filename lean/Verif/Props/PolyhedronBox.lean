import Verif.Proofs.PolyhedronBox

/-! C111: intersection of a polyhedron with boxes and spheres; C78: the edges of a polyhedron as segments. -/

set_option linter.unusedSectionVars false

namespace MGL
open V3 Spec
namespace Polyhedron

/-! ### Edges -/

section
variable {α : Type}

theorem vertex_getD {p : Polyhedron α} {i : ℤ} (h0 : 0 ≤ i) (h1 : i < p.v.length) : ∃ x, p.vertex i = some x ∧ p.v[i.toNat]? = some x := by
  have hm : i.toNat < p.v.length := by omega
  exact ⟨p.v[i.toNat], by rw [vertex, if_pos h0, List.getElem?_eq_getElem hm], List.getElem?_eq_getElem hm⟩

theorem edgeLines_spec (p : Polyhedron α) : ∀ (L : List (ℤ × ℤ)), (∀ e ∈ L, (0 ≤ e.1 ∧ e.1 < p.v.length) ∧ 0 ≤ e.2 ∧ e.2 < p.v.length) →
    ∃ l, p.edgeLines L = some l ∧ List.Forall₂ (fun (e : ℤ × ℤ) (s : LineSeg α) => p.v[e.1.toNat]? = some s.a ∧ p.v[e.2.toNat]? = some s.b) L l
  | [], _ => ⟨[], rfl, List.Forall₂.nil⟩
  | e :: L, h => by
    obtain ⟨l, h1, h2⟩ := edgeLines_spec p L fun d hd => h d (by simp [hd])
    obtain ⟨⟨a0, a1⟩, b0, b1⟩ := h e (by simp)
    obtain ⟨a, ha, ha'⟩ := vertex_getD a0 a1
    obtain ⟨b, hb, hb'⟩ := vertex_getD b0 b1
    exact ⟨⟨a, b⟩ :: l, by rw [edgeLines, ha, hb, h1]; rfl, List.Forall₂.cons ⟨ha', hb'⟩ h2⟩

/-- C78: on a polyhedron with valid indices `Edges` lists, in the order of `EdgeIndices`, the segment between the two vertices of each pair, and
`Edge(i)` is entry number `i` of that list. -/
theorem C78_edges (p : Polyhedron α) (hv : p.faceIndicesValid = true) :
    ∃ l, p.edges = some l ∧ l.length = p.edgeIndices.length ∧ (∀ (i : ℤ), 0 ≤ i → p.edge i = l[i.toNat]?) ∧
      ∀ (k : ℕ) (e : ℤ × ℤ), p.edgeIndices[k]? = some e → ∃ a b, l[k]? = some ⟨a, b⟩ ∧ p.v[e.1.toNat]? = some a ∧ p.v[e.2.toNat]? = some b := by
  have hv' := (C78_faceIndicesValid p).1 hv
  obtain ⟨l, h1, h2⟩ := edgeLines_spec p p.edgeIndices fun e he => by
    obtain ⟨-, f, hf, -, hm⟩ := ((C78_edgeIndices p).1 e.1 e.2).1 he
    have hr := (hv' f hf).2.2
    rcases hm with hm | hm
    · have := List.of_mem_zip hm
      exact ⟨hr _ this.1, hr _ (List.mem_rotate.1 this.2)⟩
    · have := List.of_mem_zip hm
      exact ⟨hr _ (List.mem_rotate.1 this.2), hr _ this.1⟩
  refine ⟨l, h1, h2.length_eq.symm, fun i hi => ?_, fun k e hk => ?_⟩
  · rw [edge, edges, h1]
    simp [hi]
  · obtain ⟨hk1, rfl⟩ := List.getElem?_eq_some_iff.1 hk
    have hk2 : k < l.length := h2.length_eq ▸ hk1
    have := (List.forall₂_iff_get.1 h2).2 k hk1 hk2
    exact ⟨_, _, List.getElem?_eq_getElem hk2, this.1, this.2⟩

example : (exTetra.edge 5).map (fun l => (l.a, l.b)) = some (⟨0, 1, 0⟩, ⟨0, 0, 1⟩) ∧ (exTetra.edge 6).isNone = true ∧ exTetra.faceIndicesValid = true := by
  decide +kernel

end

/-! ### Spheres -/

/-- C111: on a convex polyhedron as in `C98_contains_partial`, and if the centre meets the conditions given there, `Intersects(Sphere)` tells
whether the ball and the convex hull of the vertices have a point in common. Missing: as there. -/
theorem C111_sphere_partial (p : Polyhedron ℝ) (hs : ConvexSurface p.v p.f) (h4 : 4 ≤ p.v.length) (h0 : p.f ≠ [])
    (hcop : NoTwoCoplanar p.v p.f)
    (hf : ∀ f ∈ p.f, (∃ n, ConvexPolygon n (f.map (corner p.v))) ∧ HasTriangle (f.map (corner p.v)) ∧ FirstEdge (f.map (corner p.v)))
    (s : Sphere ℝ) (hx : ClearPoint (11184811 / 33554432) p.v p.f s.pos) :
    ∃ r, p.intersectsSphere s = some r ∧ (r = true ↔ ∃ x, x ∈ hull3 p.v ∧ x ∈ ball s.pos s.r) := by
  obtain ⟨q, h1, ⟨h2, h3⟩, -⟩ := C98_closestPoint_partial p hs h4 h0 hcop hf s.pos hx
  refine ⟨decide (distSq q s.pos ≤ s.r * s.r), by rw [intersectsSphere, h1]; rfl, ?_⟩
  rw [decide_eq_true_iff]
  constructor
  · exact fun h => ⟨q, h2, h⟩
  · rintro ⟨x, hx, hb⟩
    have := h3 x hx
    rw [distSq_comm s.pos q, distSq_comm s.pos x] at this
    exact this.trans hb

example (r : ℝ) := C111_sphere_partial exCorner exCorner_convex (by simp [exCorner]) (by simp [exCorner]) exCorner_noTwoCoplanar exCorner_faces
  ⟨_, r⟩ exCorner_clearPoint

/-! ### Boxes -/

theorem exists_param {lo v hi : ℝ} (h1 : lo ≤ v) (h2 : v ≤ hi) : ∃ t : ℝ, 0 ≤ t ∧ t ≤ 1 ∧ v = lo + t * (hi - lo) := by
  rcases (h1.trans h2).lt_or_eq with h | h
  · refine ⟨(v - lo) / (hi - lo), div_nonneg (by linarith) (by linarith), (div_le_one (by linarith)).2 (by linarith), ?_⟩
    rw [div_mul_cancel₀ _ (by linarith)]; ring
  · exact ⟨0, le_refl _, by norm_num, by linarith⟩

/-- A point of a box with two coordinates on the border is a point of an edge. -/
theorem box_edge (b : AABB ℝ) {u : V3 ℝ} (hu : u ∈ box b.minPoint b.maxPoint)
    (h : ((u.x = b.minPoint.x ∨ u.x = b.maxPoint.x) ∧ (u.y = b.minPoint.y ∨ u.y = b.maxPoint.y)) ∨
      ((u.x = b.minPoint.x ∨ u.x = b.maxPoint.x) ∧ (u.z = b.minPoint.z ∨ u.z = b.maxPoint.z)) ∨
      ((u.y = b.minPoint.y ∨ u.y = b.maxPoint.y) ∧ (u.z = b.minPoint.z ∨ u.z = b.maxPoint.z))) :
    ∃ i, u ∈ seg (b.edge i).1 (b.edge i).2 := by
  obtain ⟨x1, x2, y1, y2, z1, z2⟩ := hu
  obtain ⟨tx, tx0, tx1, ex⟩ := exists_param x1 x2
  obtain ⟨ty, ty0, ty1, ey⟩ := exists_param y1 y2
  obtain ⟨tz, tz0, tz1, ez⟩ := exists_param z1 z2
  rcases h with ⟨h1 | h1, h2 | h2⟩ | ⟨h1 | h1, h2 | h2⟩ | ⟨h1 | h1, h2 | h2⟩
  · exact ⟨0, tz, tz0, tz1, by ext <;> simp [AABB.edge, h1, h2]; linarith⟩
  · exact ⟨5, tz, tz0, tz1, by ext <;> simp [AABB.edge, h1, h2]; linarith⟩
  · exact ⟨8, tz, tz0, tz1, by ext <;> simp [AABB.edge, h1, h2]; linarith⟩
  · exact ⟨11, tz, tz0, tz1, by ext <;> simp [AABB.edge, h1, h2]; linarith⟩
  · exact ⟨1, ty, ty0, ty1, by ext <;> simp [AABB.edge, h1, h2]; linarith⟩
  · exact ⟨3, ty, ty0, ty1, by ext <;> simp [AABB.edge, h1, h2]; linarith⟩
  · exact ⟨9, ty, ty0, ty1, by ext <;> simp [AABB.edge, h1, h2]; linarith⟩
  · exact ⟨10, ty, ty0, ty1, by ext <;> simp [AABB.edge, h1, h2]; linarith⟩
  · exact ⟨2, tx, tx0, tx1, by ext <;> simp [AABB.edge, h1, h2]; linarith⟩
  · exact ⟨4, tx, tx0, tx1, by ext <;> simp [AABB.edge, h1, h2]; linarith⟩
  · exact ⟨6, tx, tx0, tx1, by ext <;> simp [AABB.edge, h1, h2]; linarith⟩
  · exact ⟨7, tx, tx0, tx1, by ext <;> simp [AABB.edge, h1, h2]; linarith⟩

theorem edge_box (b : AABB ℝ) (hb : b.Proper) (i : Fin 12) {u : V3 ℝ} (hu : u ∈ seg (b.edge i).1 (b.edge i).2) :
    u ∈ box b.minPoint b.maxPoint := by
  obtain ⟨t, t0, t1, rfl⟩ := hu
  obtain ⟨hx, hy, hz⟩ := hb
  have k : ∀ {lo hi : ℝ}, lo ≤ hi → lo ≤ lo + t * (hi - lo) ∧ lo + t * (hi - lo) ≤ hi := fun h => by
    constructor <;> nlinarith
  fin_cases i <;> refine ⟨?_, ?_, ?_, ?_, ?_, ?_⟩ <;> simp [AABB.edge] <;>
    first | done | assumption | exact mul_nonneg t0 (sub_nonneg.2 hx) | exact mul_nonneg t0 (sub_nonneg.2 hy) |
      exact mul_nonneg t0 (sub_nonneg.2 hz) | exact (k hx).2 | exact (k hy).2 | exact (k hz).2

/-- C111: for a convex polyhedron as in `C98_contains_partial`, `Intersects(AABB)` tells whether the box and the convex hull of the vertices
have a point in common, if the centre and the edges of the box are clear of the borders of the faces, as in `C98_contains_partial` and
`C108_segment_partial`, and each edge of the polyhedron is longer than `1e-4` and perpendicular to an axis or not nearly so, as in
`C21_segment_partial`. Missing: as there. -/
theorem C111_aabb_partial (p : Polyhedron ℝ)
    (hs : ConvexSurface p.v p.f) (h4 : 4 ≤ p.v.length) (h0 : p.f ≠ []) (hcop : NoTwoCoplanar p.v p.f)
    (hf : ∀ f ∈ p.f, (∃ n, ConvexPolygon n (f.map (corner p.v))) ∧ HasTriangle (f.map (corner p.v)) ∧ FirstEdge (f.map (corner p.v)))
    (b : AABB ℝ) (hb : b.Proper)
    (hc : ClearPoint (11184811 / 33554432) p.v p.f ((1 / 2 : ℝ) • (b.minPoint + b.maxPoint)))
    (he : ∀ i, ClearPoint (11184811 / 33554432) p.v p.f (b.edge i).1 ∧ ClearPoint (11184811 / 33554432) p.v p.f (b.edge i).2 ∧
      ClearRay p.v p.f (b.edge i).1 ((b.edge i).2 - (b.edge i).1))
    (hm : ∀ i j, (i, j) ∈ meshEdges p.f → i < j → 1 / 10000 < len (corner p.v j - corner p.v i) ∧
      ∀ c ∈ [(corner p.v j - corner p.v i).x, (corner p.v j - corner p.v i).y, (corner p.v j - corner p.v i).z],
        ClearDir (c / len (corner p.v j - corner p.v i))) :
    ∃ r, p.intersectsAABB b = some r ∧ (r = true ↔ ∃ x, x ∈ hull3 p.v ∧ x ∈ box b.minPoint b.maxPoint) := by
  refine boxLike_spec p hs h4 h0 hcop hf (box b.minPoint b.maxPoint) [(⟨-1, 0, 0⟩, -b.minPoint.x), (⟨1, 0, 0⟩, b.maxPoint.x),
    (⟨0, -1, 0⟩, -b.minPoint.y), (⟨0, 1, 0⟩, b.maxPoint.y), (⟨0, 0, -1⟩, -b.minPoint.z), (⟨0, 0, 1⟩, b.maxPoint.z)] _ _ _ _ ?_ ?_ ?_ ?_ ?_ hc ?_ ?_
  · intro y
    simp [box, dot]
  · intro y hy c hc c' hc' h1 h2 h3
    obtain ⟨i, hi⟩ := box_edge b hy (by
      simp only [List.mem_cons, List.not_mem_nil, or_false] at hc hc'
      rcases hc with rfl | rfl | rfl | rfl | rfl | rfl <;> rcases hc' with rfl | rfl | rfl | rfl | rfl | rfl <;>
        simp [dot] at h1 h2 <;> first
        | (exfalso; apply h3; ext <;> simp [cross]; done)
        | simp [h1, h2])
    exact ⟨_, List.mem_map.2 ⟨i, List.mem_finRange i, rfl⟩, hi⟩
  · intro l hl y hy
    obtain ⟨i, -, rfl⟩ := List.mem_map.1 hl
    exact edge_box b hb i hy
  · obtain ⟨hx, hy, hz⟩ := hb
    refine ⟨?_, ?_, ?_, ?_, ?_, ?_⟩ <;> simp [AABB.centerPoint] <;> linarith
  · exact fun y => C17_contains_point b y
  · intro l hl
    obtain ⟨i, -, rfl⟩ := List.mem_map.1 hl
    exact he i
  · intro i j hij hlt
    obtain ⟨k1, k2⟩ := hm i j hij hlt
    exact (C21_segment_partial b _ _ hb k1 (k2 _ (by simp)) (k2 _ (by simp)) (k2 _ (by simp))).1

/-- The map from the coordinates along the axes of an oriented box to the space. -/
def place (o : OBB ℝ) (u : V3 ℝ) : V3 ℝ := o.pos + u.x • o.axis0 + u.y • o.axis1 + u.z • o.axis2

theorem place_edge (o : OBB ℝ) (i : Fin 12) : o.edge i = ⟨place o ((⟨-o.r, o.r⟩ : AABB ℝ).edge i).1, place o ((⟨-o.r, o.r⟩ : AABB ℝ).edge i).2⟩ := by
  fin_cases i <;> simp only [OBB.edge, AABB.edge, OBB.cornerPoint, place] <;> congr 1 <;> ext <;> simp <;> ring

theorem place_seg (o : OBB ℝ) {a b u : V3 ℝ} (h : u ∈ seg a b) : place o u ∈ seg (place o a) (place o b) := by
  obtain ⟨t, t0, t1, rfl⟩ := h
  exact ⟨t, t0, t1, by ext <;> simp [place] <;> ring⟩

theorem seg_place (o : OBB ℝ) {a b y : V3 ℝ} (h : y ∈ seg (place o a) (place o b)) : ∃ u ∈ seg a b, y = place o u := by
  obtain ⟨t, t0, t1, rfl⟩ := h
  exact ⟨_, ⟨t, t0, t1, rfl⟩, by ext <;> simp [place] <;> ring⟩

theorem place_dot {o : OBB ℝ} (h : Frame o.axis0 o.axis1 o.axis2) (u : V3 ℝ) : dot o.axis0 (place o u) = dot o.axis0 o.pos + u.x ∧
    dot o.axis1 (place o u) = dot o.axis1 o.pos + u.y ∧ dot o.axis2 (place o u) = dot o.axis2 o.pos + u.z := by
  obtain ⟨uu, vv, ww, uv, uw, vw⟩ := h
  simp only [dot] at *
  refine ⟨?_, ?_, ?_⟩ <;> simp only [place, add_x, add_y, add_z, smul_x, smul_y, smul_z]
  · linear_combination u.x * uu + u.y * uv + u.z * uw
  · linear_combination u.x * uv + u.y * vv + u.z * vw
  · linear_combination u.x * uw + u.y * vw + u.z * ww

theorem place_points (o : OBB ℝ) (y : V3 ℝ) : y ∈ o.points ↔ ∃ u ∈ box (-o.r) o.r, y = place o u := by
  constructor
  · rintro ⟨s, t, k, s1, s2, t1, t2, k1, k2, rfl⟩
    exact ⟨⟨s, t, k⟩, ⟨s1, s2, t1, t2, k1, k2⟩, rfl⟩
  · rintro ⟨u, ⟨s1, s2, t1, t2, k1, k2⟩, rfl⟩
    exact ⟨u.x, u.y, u.z, s1, s2, t1, t2, k1, k2, rfl⟩

/-- C111: for a convex polyhedron as in `C98_contains_partial`, `Intersects(OBB)` tells whether the box and the convex hull of the vertices
have a point in common, under the conditions of `C111_aabb_partial`, with the axes of the box. Missing: as there. -/
theorem C111_obb_partial (p : Polyhedron ℝ)
    (hs : ConvexSurface p.v p.f) (h4 : 4 ≤ p.v.length) (h0 : p.f ≠ []) (hcop : NoTwoCoplanar p.v p.f)
    (hf : ∀ f ∈ p.f, (∃ n, ConvexPolygon n (f.map (corner p.v))) ∧ HasTriangle (f.map (corner p.v)) ∧ FirstEdge (f.map (corner p.v)))
    (o : OBB ℝ) (ho : o.Valid)
    (hc : ClearPoint (11184811 / 33554432) p.v p.f o.pos)
    (he : ∀ i, ClearPoint (11184811 / 33554432) p.v p.f (o.edge i).a ∧ ClearPoint (11184811 / 33554432) p.v p.f (o.edge i).b ∧
      ClearRay p.v p.f (o.edge i).a ((o.edge i).b - (o.edge i).a))
    (hm : ∀ i j, (i, j) ∈ meshEdges p.f → i < j → 1 / 10000 < len (corner p.v j - corner p.v i) ∧
      ∀ a ∈ [o.axis0, o.axis1, o.axis2], ClearDir (dot (corner p.v j - corner p.v i) a / len (corner p.v j - corner p.v i))) :
    ∃ r, p.intersectsOBB o = some r ∧ (r = true ↔ ∃ x, x ∈ hull3 p.v ∧ x ∈ o.points) := by
  have hb : (⟨-o.r, o.r⟩ : AABB ℝ).Proper := by
    refine ⟨?_, ?_, ?_⟩ <;> simp <;> first | exact ho.rx | exact ho.ry | exact ho.rz
  have hneg : ∀ a y : V3 ℝ, dot (-a) y = -dot a y := fun a y => by simp only [dot, neg_x, neg_y, neg_z]; ring
  have hpar : ∀ a : V3 ℝ, cross a a = 0 ∧ cross (-a) a = 0 ∧ cross a (-a) = 0 ∧ cross (-a) (-a) = 0 := fun a => by
    refine ⟨?_, ?_, ?_, ?_⟩ <;> ext <;> simp [cross] <;> ring
  refine boxLike_spec p hs h4 h0 hcop hf o.points [(-o.axis0, o.r.x - dot o.axis0 o.pos), (o.axis0, o.r.x + dot o.axis0 o.pos),
    (-o.axis1, o.r.y - dot o.axis1 o.pos), (o.axis1, o.r.y + dot o.axis1 o.pos),
    (-o.axis2, o.r.z - dot o.axis2 o.pos), (o.axis2, o.r.z + dot o.axis2 o.pos)] _ _ _ _ ?_ ?_ ?_ ?_ ?_ hc ?_ ?_
  · intro y
    rw [ho.frame.mem_obb]
    have e : ∀ a : V3 ℝ, dot (y - o.pos) a = dot a y - dot a o.pos := fun a => by
      simp only [dot, sub_x, sub_y, sub_z]; ring
    simp only [e, abs_le, List.forall_mem_cons, List.not_mem_nil, false_imp_iff, implies_true, and_true, hneg]
    constructor
    · rintro ⟨⟨a1, a2⟩, ⟨b1, b2⟩, c1, c2⟩
      refine ⟨?_, ?_, ?_, ?_, ?_, ?_⟩ <;> linarith
    · rintro ⟨a1, a2, b1, b2, c1, c2⟩
      refine ⟨⟨?_, ?_⟩, ⟨?_, ?_⟩, ?_, ?_⟩ <;> linarith
  · intro y hy c hc c' hc' h1 h2 h3
    obtain ⟨u, hu, rfl⟩ := (place_points o y).1 hy
    obtain ⟨d0, d1, d2⟩ := place_dot ho.frame u
    have kx : dot o.axis0 (place o u) = o.r.x + dot o.axis0 o.pos → u.x = o.r.x := fun h => by linarith
    have kx' : dot (-o.axis0) (place o u) = o.r.x - dot o.axis0 o.pos → u.x = (-o.r).x := fun h => by rw [hneg] at h; rw [neg_x]; linarith
    have ky : dot o.axis1 (place o u) = o.r.y + dot o.axis1 o.pos → u.y = o.r.y := fun h => by linarith
    have ky' : dot (-o.axis1) (place o u) = o.r.y - dot o.axis1 o.pos → u.y = (-o.r).y := fun h => by rw [hneg] at h; rw [neg_y]; linarith
    have kz : dot o.axis2 (place o u) = o.r.z + dot o.axis2 o.pos → u.z = o.r.z := fun h => by linarith
    have kz' : dot (-o.axis2) (place o u) = o.r.z - dot o.axis2 o.pos → u.z = (-o.r).z := fun h => by rw [hneg] at h; rw [neg_z]; linarith
    have key : ∀ {c : V3 ℝ × ℝ}, c ∈ [(-o.axis0, o.r.x - dot o.axis0 o.pos), (o.axis0, o.r.x + dot o.axis0 o.pos),
        (-o.axis1, o.r.y - dot o.axis1 o.pos), (o.axis1, o.r.y + dot o.axis1 o.pos),
        (-o.axis2, o.r.z - dot o.axis2 o.pos), (o.axis2, o.r.z + dot o.axis2 o.pos)] → dot c.1 (place o u) = c.2 →
        ((c.1 = o.axis0 ∨ c.1 = -o.axis0) ∧ (u.x = (-o.r).x ∨ u.x = o.r.x)) ∨ ((c.1 = o.axis1 ∨ c.1 = -o.axis1) ∧ (u.y = (-o.r).y ∨ u.y = o.r.y)) ∨
        ((c.1 = o.axis2 ∨ c.1 = -o.axis2) ∧ (u.z = (-o.r).z ∨ u.z = o.r.z)) := by
      intro c hc h
      simp only [List.mem_cons, List.not_mem_nil, or_false] at hc
      rcases hc with rfl | rfl | rfl | rfl | rfl | rfl
      · exact Or.inl ⟨Or.inr rfl, Or.inl (kx' h)⟩
      · exact Or.inl ⟨Or.inl rfl, Or.inr (kx h)⟩
      · exact Or.inr (Or.inl ⟨Or.inr rfl, Or.inl (ky' h)⟩)
      · exact Or.inr (Or.inl ⟨Or.inl rfl, Or.inr (ky h)⟩)
      · exact Or.inr (Or.inr ⟨Or.inr rfl, Or.inl (kz' h)⟩)
      · exact Or.inr (Or.inr ⟨Or.inl rfl, Or.inr (kz h)⟩)
    have same : ∀ {a : V3 ℝ}, (c.1 = a ∨ c.1 = -a) → (c'.1 = a ∨ c'.1 = -a) → False := by
      rintro a (e1 | e1) (e2 | e2) <;> rw [e1, e2] at h3
      · exact h3 (hpar a).1
      · exact h3 (hpar a).2.2.1
      · exact h3 (hpar a).2.1
      · exact h3 (hpar a).2.2.2
    obtain ⟨i, hi⟩ := box_edge ⟨-o.r, o.r⟩ hu (by
      rcases key hc h1 with ⟨e, g⟩ | ⟨e, g⟩ | ⟨e, g⟩ <;> rcases key hc' h2 with ⟨e', g'⟩ | ⟨e', g'⟩ | ⟨e', g'⟩
      · exact (same e e').elim
      · exact Or.inl ⟨g, g'⟩
      · exact Or.inr (Or.inl ⟨g, g'⟩)
      · exact Or.inl ⟨g', g⟩
      · exact (same e e').elim
      · exact Or.inr (Or.inr ⟨g, g'⟩)
      · exact Or.inr (Or.inl ⟨g', g⟩)
      · exact Or.inr (Or.inr ⟨g', g⟩)
      · exact (same e e').elim)
    refine ⟨_, List.mem_map.2 ⟨i, List.mem_finRange i, rfl⟩, ?_⟩
    rw [place_edge]
    exact place_seg o hi
  · intro l hl y hy
    obtain ⟨i, -, rfl⟩ := List.mem_map.1 hl
    rw [place_edge] at hy
    obtain ⟨u, hu, rfl⟩ := seg_place o hy
    exact (place_points o _).2 ⟨u, edge_box _ hb i hu, rfl⟩
  · refine (place_points o _).2 ⟨⟨0, 0, 0⟩, ?_, by ext <;> simp [place]⟩
    obtain ⟨-, h1, h2, h3⟩ := ho
    refine ⟨?_, ?_, ?_, ?_, ?_, ?_⟩ <;> simp <;> assumption
  · exact fun y => C36_contains o ho.frame y
  · intro l hl
    obtain ⟨i, -, rfl⟩ := List.mem_map.1 hl
    exact he i
  · intro i j hij hlt
    obtain ⟨k1, k2⟩ := hm i j hij hlt
    exact (C65_segment_partial o ho ⟨_, _⟩ k1 (k2 _ (by simp)) (k2 _ (by simp)) (k2 _ (by simp))).1

/-! ### An example: the corner tetrahedron, a box that pierces it, and a turned box that does -/

noncomputable def exPiercing : AABB ℝ := ⟨⟨1/10, 1/5, -1/5⟩, ⟨3/10, 2/5, 4/5⟩⟩

noncomputable def exTurned : OBB ℝ := ⟨⟨1/5, 3/10, 3/10⟩, ⟨1/10, 1/10, 1/2⟩, ⟨3/5, 4/5, 0⟩, ⟨-4/5, 3/5, 0⟩, ⟨0, 0, 1⟩⟩

theorem exCorner_edges : ∀ i j : ℤ, (i, j) ∈ meshEdges exCorner.f → i < j → 1 / 10000 < len (corner exCorner.v j - corner exCorner.v i) ∧
    len (corner exCorner.v j - corner exCorner.v i) ≤ 2 ∧ (corner exCorner.v j - corner exCorner.v i) ∈
      ([⟨1, 0, 0⟩, ⟨0, 1, 0⟩, ⟨0, 0, 1⟩, ⟨-1, 1, 0⟩, ⟨-1, 0, 1⟩, ⟨0, -1, 1⟩] : List (V3 ℝ)) := by
  intro i j he hij
  obtain ⟨⟨i0, i4⟩, j0, j4⟩ := exPair_range exCorner_convex rfl he
  obtain ⟨c0, c1, c2, c3⟩ := exCorner_corners
  have key : (corner exCorner.v j - corner exCorner.v i) ∈
      ([⟨1, 0, 0⟩, ⟨0, 1, 0⟩, ⟨0, 0, 1⟩, ⟨-1, 1, 0⟩, ⟨-1, 0, 1⟩, ⟨0, -1, 1⟩] : List (V3 ℝ)) := by
    obtain ⟨rfl, rfl⟩ | ⟨rfl, rfl⟩ | ⟨rfl, rfl⟩ | ⟨rfl, rfl⟩ | ⟨rfl, rfl⟩ | ⟨rfl, rfl⟩ : i = 0 ∧ j = 1 ∨ i = 0 ∧ j = 2 ∨ i = 0 ∧ j = 3 ∨ i = 1 ∧ j = 2 ∨
      i = 1 ∧ j = 3 ∨ i = 2 ∧ j = 3 := by omega
    all_goals simp only [c0, c1, c2, c3, List.mem_cons, List.not_mem_nil, or_false, V3.ext_iff, sub_x, sub_y, sub_z]; norm_num
  refine ⟨?_, ?_, key⟩
  · have h := len_mul_self (corner exCorner.v j - corner exCorner.v i)
    have h0 := len_nonneg (corner exCorner.v j - corner exCorner.v i)
    have : 1 ≤ lenSq (corner exCorner.v j - corner exCorner.v i) := by
      simp only [List.mem_cons, List.not_mem_nil, or_false] at key
      rcases key with h | h | h | h | h | h <;> rw [h] <;> norm_num [lenSq, dot]
    nlinarith
  · have h := len_mul_self (corner exCorner.v j - corner exCorner.v i)
    have : lenSq (corner exCorner.v j - corner exCorner.v i) ≤ 2 := by
      simp only [List.mem_cons, List.not_mem_nil, or_false] at key
      rcases key with h | h | h | h | h | h <;> rw [h] <;> norm_num [lenSq, dot]
    nlinarith

theorem clearDir_of {c l : ℝ} (hl : 1 / 10000 < l) (hl2 : l ≤ 2) (h : c = 0 ∨ 1 / 10 ≤ |c|) : ClearDir (c / l) := by
  have hp : 0 < l := by linarith
  rcases h with rfl | h
  · left; simp
  · right
    rw [abs_div, abs_of_pos hp, le_div_iff₀ hp]
    nlinarith

set_option maxHeartbeats 4000000 in
theorem exPiercing_corners : ∀ x : V3 ℝ, x ∈ ([⟨1/10, 1/5, -1/5⟩, ⟨1/10, 1/5, 4/5⟩, ⟨1/10, 2/5, -1/5⟩, ⟨1/10, 2/5, 4/5⟩, ⟨3/10, 1/5, -1/5⟩, ⟨3/10, 1/5, 4/5⟩,
    ⟨3/10, 2/5, -1/5⟩, ⟨3/10, 2/5, 4/5⟩, ⟨1/5, 3/10, 3/10⟩] : List (V3 ℝ)) → ClearPoint (11184811 / 33554432) exCorner.v exCorner.f x := by
  intro x hx
  simp only [List.mem_cons, List.not_mem_nil, or_false] at hx
  rcases hx with rfl | rfl | rfl | rfl | rfl | rfl | rfl | rfl | rfl <;> clear_point

set_option maxHeartbeats 4000000 in
theorem exTurned_corners : ∀ x : V3 ℝ, x ∈ ([⟨11/50, 4/25, -1/5⟩, ⟨11/50, 4/25, 4/5⟩, ⟨3/50, 7/25, -1/5⟩, ⟨3/50, 7/25, 4/5⟩, ⟨17/50, 8/25, -1/5⟩, ⟨17/50, 8/25, 4/5⟩,
    ⟨9/50, 11/25, -1/5⟩, ⟨9/50, 11/25, 4/5⟩] : List (V3 ℝ)) → ClearPoint (11184811 / 33554432) exCorner.v exCorner.f x := by
  intro x hx
  simp only [List.mem_cons, List.not_mem_nil, or_false] at hx
  rcases hx with rfl | rfl | rfl | rfl | rfl | rfl | rfl | rfl <;> clear_point

/-- The box pierces the tetrahedron, and the test says so. -/
example : exCorner.intersectsAABB exPiercing = some true := by
  obtain ⟨r, h1, h2⟩ := C111_aabb_partial exCorner exCorner_convex (by simp [exCorner]) (by simp [exCorner]) exCorner_noTwoCoplanar
    exCorner_faces exPiercing (by refine ⟨?_, ?_, ?_⟩ <;> norm_num [exPiercing])
    (by
      have e : (1 / 2 : ℝ) • (exPiercing.minPoint + exPiercing.maxPoint) = ⟨1/5, 3/10, 3/10⟩ := by ext <;> norm_num [exPiercing]
      rw [e]; exact exPiercing_corners _ (by simp))
    (by
      intro i
      refine ⟨exPiercing_corners _ ?_, exPiercing_corners _ ?_, ?_⟩
      · fin_cases i <;> simp [AABB.edge, exPiercing]
      · fin_cases i <;> simp [AABB.edge, exPiercing]
      · fin_cases i <;> simp only [AABB.edge, exPiercing] <;> clear_coords)
    (by
      intro i j he hij
      obtain ⟨k1, k2, k3⟩ := exCorner_edges i j he hij
      refine ⟨k1, fun c hc => clearDir_of k1 k2 ?_⟩
      simp only [List.mem_cons, List.not_mem_nil, or_false] at k3 hc
      rcases k3 with h | h | h | h | h | h <;> rw [h] at hc <;> rcases hc with rfl | rfl | rfl <;> norm_num)
  rw [h1, h2.2 ⟨⟨1/5, 3/10, 3/10⟩, (mem_hull_iff exCorner_convex (by simp [exCorner]) _).2 ?_, ?_⟩]
  · obtain ⟨c0, c1, c2, c3⟩ := exCorner_corners
    intro f hf
    have hf' : f = [0, 2, 1] ∨ f = [0, 1, 3] ∨ f = [0, 3, 2] ∨ f = [1, 2, 3] := by simpa [exCorner] using hf
    rcases hf' with rfl | rfl | rfl | rfl <;> simp only [height, List.map_cons, List.map_nil, List.head?_cons, Option.getD_some, c0, c1, c2, c3] <;>
      norm_num [cornerNormal, cross, dot]
  · refine ⟨?_, ?_, ?_, ?_, ?_, ?_⟩ <;> norm_num [exPiercing]

theorem exTurned_corner (i : Fin 8) : exTurned.cornerPoint i = ![⟨11/50, 4/25, -1/5⟩, ⟨11/50, 4/25, 4/5⟩, ⟨3/50, 7/25, -1/5⟩, ⟨3/50, 7/25, 4/5⟩,
    ⟨17/50, 8/25, -1/5⟩, ⟨17/50, 8/25, 4/5⟩, ⟨9/50, 11/25, -1/5⟩, ⟨9/50, 11/25, 4/5⟩] i := by
  fin_cases i <;> ext <;> norm_num [OBB.cornerPoint, exTurned]

theorem exTurned_clear (i : Fin 8) : ClearPoint (11184811 / 33554432) exCorner.v exCorner.f (exTurned.cornerPoint i) := by
  rw [exTurned_corner]
  exact exTurned_corners _ (by fin_cases i <;> simp)

/-- The turned box pierces the tetrahedron, and the test says so. -/
example : exCorner.intersectsOBB exTurned = some true := by
  obtain ⟨r, h1, h2⟩ := C111_obb_partial exCorner exCorner_convex (by simp [exCorner]) (by simp [exCorner]) exCorner_noTwoCoplanar
    exCorner_faces exTurned (by refine ⟨⟨?_, ?_, ?_, ?_, ?_, ?_⟩, ?_, ?_, ?_⟩ <;> norm_num [exTurned, dot])
    (exPiercing_corners _ (by simp [exTurned]))
    (by
      intro i
      refine ⟨?_, ?_, ?_⟩
      · fin_cases i <;> simp only [OBB.edge] <;> exact exTurned_clear _
      · fin_cases i <;> simp only [OBB.edge] <;> exact exTurned_clear _
      · fin_cases i <;> simp only [OBB.edge, exTurned_corner] <;> simp only [Matrix.cons_val] <;> clear_coords)
    (by
      intro i j he hij
      obtain ⟨k1, k2, k3⟩ := exCorner_edges i j he hij
      refine ⟨k1, fun c hc => clearDir_of k1 k2 ?_⟩
      simp only [List.mem_cons, List.not_mem_nil, or_false] at k3 hc
      rcases k3 with h | h | h | h | h | h <;> rw [h] <;> rcases hc with rfl | rfl | rfl <;> norm_num [exTurned, dot, abs_of_neg])
  rw [h1, h2.2 ⟨⟨1/5, 3/10, 3/10⟩, (mem_hull_iff exCorner_convex (by simp [exCorner]) _).2 ?_, ?_⟩]
  · obtain ⟨c0, c1, c2, c3⟩ := exCorner_corners
    intro f hf
    have hf' : f = [0, 2, 1] ∨ f = [0, 1, 3] ∨ f = [0, 3, 2] ∨ f = [1, 2, 3] := by simpa [exCorner] using hf
    rcases hf' with rfl | rfl | rfl | rfl <;> simp only [height, List.map_cons, List.map_nil, List.head?_cons, Option.getD_some, c0, c1, c2, c3] <;>
      norm_num [cornerNormal, cross, dot]
  · exact (place_points _ _).2 ⟨⟨0, 0, 0⟩, by refine ⟨?_, ?_, ?_, ?_, ?_, ?_⟩ <;> norm_num [exTurned], by ext <;> norm_num [place, exTurned]⟩

end Polyhedron
end MGL
