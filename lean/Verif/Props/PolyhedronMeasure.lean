import Verif.Proofs.PolyhedronMeasure
import Verif.Props.Polygon
import Verif.Props.PolyhedronConvex
import Verif.Props.PolyhedronMake
import Verif.Props.AABBEnclose

/-! C87: volume, surface area, centre of mass and bounding box of polyhedra. -/

set_option linter.unusedSectionVars false

namespace MGL
open V3 Spec
namespace Polyhedron

theorem mapM_vertex {p : Polyhedron ℝ} (hv : ValidFaces p.v.length p.f) {f : List ℤ} (hf : f ∈ p.f) : f.mapM p.vertex = some (f.map (corner p.v)) :=
  QuadTree.mapM_some f fun i hi => vertex_corner ((hv f hf).2.2 i hi).1 ((hv f hf).2.2 i hi).2

/-- The area of a proper face. -/
theorem area_proper {a : V3 ℝ} {r : List (V3 ℝ)} {n : V3 ℝ} (hc : ConvexPolygon n (a :: r)) (ht : (a :: r).length = 3 ∨ HasTriangle (a :: r)) :
    Polygon.area (a :: r) = ((Spec.fan a r).map fun t => 1 / 2 * len (cross (t.2.1 - t.1) (t.2.2 - t.1))).sum := by
  rcases ht with ht | ht
  · obtain ⟨b, c, rfl⟩ : ∃ b c, r = [b, c] := by
      rcases r with _ | ⟨b, _ | ⟨c, _ | ⟨d, r⟩⟩⟩ <;> first | (simp at ht; done) | exact ⟨_, _, rfl⟩
    have hpl := (Polygon.C84_plane_convex _ n hc (Or.inl rfl) a (by simp)).1
    obtain ⟨k, hk, e⟩ := Polygon.fan_tri hc (t := (a, b, c)) (by simp [Spec.fan])
    have h1 := hc.1
    dsimp only at e
    have e0 : cross c a + cross a b + cross b c = cross (b - a) (c - a) := by
      ext <;> simp only [cross, sub_x, sub_y, sub_z, add_x, add_y, add_z] <;> ring
    have e2 : dot n (k • n) = k := by
      unfold dot at *; simp only [smul_x, smul_y, smul_z]; linear_combination k * h1
    have e3 : lenSq (k • n) = k ^ 2 := by
      unfold lenSq dot at *; simp only [smul_x, smul_y, smul_z]; linear_combination k ^ 2 * h1
    unfold Polygon.area
    rw [if_neg (by simp), hpl]
    show 1 / 2 * absF (dot n (0 + cross c a + cross a b + cross b c)) = _
    rw [zero_add, e0, e, e2, absF_eq, abs_of_pos hk]
    simp only [Spec.fan, List.map_cons, List.map_nil, List.sum_cons, List.sum_nil]
    rw [e, len, e3, Real.sqrt_sq hk.le, add_zero]
  · exact Polygon.C84_area_convex a r n hc ht

theorem surfaceLoop_eq {p : Polyhedron ℝ} (hv : ValidFaces p.v.length p.f) (hp : ∀ f ∈ p.f, ProperFace (f.map (corner p.v))) :
    ∀ (fs : List (List ℤ)) (a : ℝ), (∀ f ∈ fs, f ∈ p.f) → p.surfaceLoop fs a =
      some (a + ((meshTriangles p.v fs).map fun t => 1 / 2 * len (cross (t.2.1 - t.1) (t.2.2 - t.1))).sum)
  | [], a, _ => by simp [surfaceLoop, meshTriangles]
  | f :: fs, a, h => by
    have hf := h f (by simp)
    have h3 := (hv f hf).1
    obtain ⟨n, hc, ht⟩ := hp f hf
    have ih := fun a => surfaceLoop_eq hv hp fs a fun g hg => h g (List.mem_cons_of_mem _ hg)
    rw [surfaceLoop, if_neg (by omega), mapM_vertex hv hf]
    show p.surfaceLoop fs _ = _
    rw [ih]
    rw [meshTriangles_cons, List.map_append, List.sum_append, ← add_assoc]
    congr 3
    cases hm : f.map (corner p.v) with
    | nil => have := congrArg List.length hm; simp at this; simp [this] at h3
    | cons x r =>
      rw [hm] at hc ht
      exact area_proper hc ht

/-- C87: `SurfaceArea` of a polyhedron with proper faces is the sum of the areas of their triangles. -/
theorem C87_surfaceArea (p : Polyhedron ℝ) (hv : ValidFaces p.v.length p.f) (hp : ∀ f ∈ p.f, ProperFace (f.map (corner p.v))) :
    p.surfaceArea = some (((meshTriangles p.v p.f).map fun t => 1 / 2 * len (cross (t.2.1 - t.1) (t.2.2 - t.1))).sum) := by
  rw [surfaceArea, surfaceLoop_eq hv hp p.f 0 (fun _ h => h), zero_add]

theorem fan_head {a : V3 ℝ} : ∀ {r : List (V3 ℝ)} {t : V3 ℝ × V3 ℝ × V3 ℝ}, t ∈ Spec.fan a r → t.1 = a
  | [], t, h => by simp [Spec.fan] at h
  | [_], t, h => by simp [Spec.fan] at h
  | b :: c :: r, t, h => by
    rw [Spec.fan, List.mem_cons] at h
    rcases h with rfl | h
    · rfl
    · exact fan_head h

theorem volumeLoop_eq {p : Polyhedron ℝ} (hv : ValidFaces p.v.length p.f) (hp : ∀ f ∈ p.f, ProperFace (f.map (corner p.v))) :
    ∀ (fs : List (List ℤ)) (a : ℝ), (∀ f ∈ fs, f ∈ p.f) → p.volumeLoop fs a =
      some (a + ((meshTriangles p.v fs).map (tetra6 0)).sum / 2)
  | [], a, _ => by simp [volumeLoop, meshTriangles]
  | f :: fs, a, h => by
    have hf := h f (by simp)
    have h3 := (hv f hf).1
    obtain ⟨n, hc, ht⟩ := hp f hf
    have ih := fun a => volumeLoop_eq hv hp fs a fun g hg => h g (List.mem_cons_of_mem _ hg)
    rw [volumeLoop, if_neg (by omega), mapM_vertex hv hf]
    cases hm : f.map (corner p.v) with
    | nil => have := congrArg List.length hm; simp at this; simp [this] at h3
    | cons x r =>
      rw [hm] at hc ht
      have hpl := (Polygon.C84_plane_convex _ n hc ht x (by simp)).1
      have key : dot x n * Polygon.area (x :: r) = ((Spec.fan x r).map (tetra6 0)).sum / 2 := by
        rw [area_proper hc ht, ← List.sum_map_mul_left, div_eq_mul_inv (List.sum _), ← List.sum_map_mul_right]
        congr 1
        refine List.map_congr_left fun t hmem => ?_
        obtain ⟨k, hk, e⟩ := Polygon.fan_tri hc hmem
        have h1 := hc.1
        have e3 : lenSq (k • n) = k ^ 2 := by
          unfold lenSq dot at *; simp only [smul_x, smul_y, smul_z]; linear_combination k ^ 2 * h1
        have e4 : t.1 = x := fan_head hmem
        have e5 : tetra6 0 t = dot t.1 (cross (t.2.1 - t.1) (t.2.2 - t.1)) := by
          simp only [tetra6, dot, cross, sub_x, sub_y, sub_z, zero_x, zero_y, zero_z]; ring
        rw [e5, e, len, e3, Real.sqrt_sq hk.le, e4]
        simp only [dot, smul_x, smul_y, smul_z]; ring
      show (Polygon.planeCCW (x :: r)).bind (fun pl => p.volumeLoop fs (a + dot x pl.normal * Polygon.area (x :: r))) = _
      rw [hpl, Option.bind_some, ih, key, meshTriangles_cons, List.map_append, List.sum_append, hm]
      congr 1
      show _ = a + (((Spec.fan x r).map (tetra6 0)).sum + _) / 2
      ring

/-- C87: `Volume` of a closed polyhedron with proper faces, convex or not, is the volume that it encloses: the signed volumes of the
tetrahedra between the faces and any reference point add up to it, whichever point is taken. -/
theorem C87_volume (p : Polyhedron ℝ) (hv : ValidFaces p.v.length p.f) (hc : ClosedMesh p.f) (hp : ∀ f ∈ p.f, ProperFace (f.map (corner p.v)))
    (o : V3 ℝ) : p.volume = some |signedVolume o p.v p.f| := by
  rw [volume, volumeLoop_eq hv hp p.f 0 (fun _ h => h), signedVolume_const hv hc, signedVolume, Option.map_some, absF_eq, zero_add]
  congr 1
  rw [show (3 : ℝ) = |3| by norm_num, ← abs_div]
  congr 1
  norm_num; ring

theorem fanOf_outward {V P : List (V3 ℝ)} (hp : ProperFace P) (ho : FaceOutward V P) {o : V3 ℝ} (h : o ∈ hull3 V) {t : V3 ℝ × V3 ℝ × V3 ℝ}
    (ht : t ∈ fanOf P) : 0 ≤ tetra6 o t := by
  obtain ⟨n, hc, -⟩ := hp
  obtain ⟨a, b, c, r, rfl, hn, hV, hP⟩ := ho
  have hb := hull_le (cross (b - a) (c - a)) (M := dot (cross (b - a) (c - a)) a) (fun v hv => by
    have := hV v hv
    simp only [dot, sub_x, sub_y, sub_z] at this ⊢; linarith) h
  obtain ⟨k, hk, e⟩ := Polygon.fan_tri hc (t := (a, b, c)) (by simp [Spec.fan])
  obtain ⟨k', hk', e'⟩ := Polygon.fan_tri hc ht
  have e4 : t.1 = a := fan_head ht
  have e5 : tetra6 o t = dot (t.1 - o) (cross (t.2.1 - t.1) (t.2.2 - t.1)) := by
    simp only [tetra6, dot, cross, sub_x, sub_y, sub_z]; ring
  dsimp only at e
  rw [e5, e', e4]
  rw [e] at hb
  simp only [dot, smul_x, smul_y, smul_z, sub_x, sub_y, sub_z] at hb ⊢
  have : 0 ≤ n.x * (a.x - o.x) + n.y * (a.y - o.y) + n.z * (a.z - o.z) := by
    have : 0 ≤ k * (n.x * (a.x - o.x) + n.y * (a.y - o.y) + n.z * (a.z - o.z)) := by linarith
    exact nonneg_of_mul_nonneg_right this hk
  nlinarith [mul_nonneg hk'.le this]

/-- C87: for a convex polyhedron whose faces look outwards, `Volume` is the sum of the volumes of the tetrahedra between any point of
the solid and its faces. -/
theorem C87_volume_convex (p : Polyhedron ℝ) (hv : ValidFaces p.v.length p.f) (hc : ClosedMesh p.f)
    (hp : ∀ f ∈ p.f, ProperFace (f.map (corner p.v))) (hout : ∀ f ∈ p.f, FaceOutward p.v (f.map (corner p.v))) (o : V3 ℝ) (ho : o ∈ hull3 p.v) :
    p.volume = some (((meshTriangles p.v p.f).map fun t => |tetra6 o t| / 6).sum) := by
  have h0 : ∀ t ∈ meshTriangles p.v p.f, 0 ≤ tetra6 o t := by
    intro t ht
    obtain ⟨f, hf, hm⟩ := List.mem_flatMap.1 ht
    exact fanOf_outward (hp f hf) (hout f hf) ho hm
  have e : ((meshTriangles p.v p.f).map fun t => |tetra6 o t| / 6).sum = signedVolume o p.v p.f := by
    rw [signedVolume, div_eq_mul_inv, ← List.sum_map_mul_right]
    congr 1
    exact List.map_congr_left fun t ht => by rw [abs_of_nonneg (h0 t ht), div_eq_mul_inv]
  rw [C87_volume p hv hc hp o, e, abs_of_nonneg]
  rw [signedVolume]
  refine div_nonneg (List.sum_nonneg ?_) (by norm_num)
  intro x hx
  obtain ⟨t, ht, rfl⟩ := List.mem_map.1 hx
  exact h0 t ht

/-! ### Moving a polyhedron -/

theorem shift_face {p : Polyhedron ℝ} (hv : ValidFaces p.v.length p.f) (d : V3 ℝ) {f : List ℤ} (hf : f ∈ p.f) :
    f.map (corner (p.translate d).v) = (f.map (corner p.v)).map fun x => x + d := by
  rw [List.map_map]
  refine List.map_congr_left fun i hi => ?_
  obtain ⟨h0, h1⟩ := (hv f hf).2.2 i hi
  have h2 : i.toNat < p.v.length := by omega
  simp [corner, translate, List.getD_eq_getElem?_getD, List.getElem?_map, List.getElem?_eq_getElem h2]

theorem shift_cross (a b c d : V3 ℝ) : cross (b + d - (a + d)) (c + d - (a + d)) = cross (b - a) (c - a) := by
  congr 1 <;> ext <;> simp

theorem shift_proper {P : List (V3 ℝ)} (h : ProperFace P) (d : V3 ℝ) : ProperFace (P.map fun x => x + d) := by
  obtain ⟨n, ⟨h1, h2, h3⟩, ht⟩ := h
  refine ⟨n, ⟨h1, by simpa using h2, ?_⟩, ?_⟩
  · rw [List.triplewise_map]
    refine h3.imp fun {a b c} h => ?_
    rw [shift_cross]; exact h
  · rw [List.length_map]
    refine ht.imp id ?_
    rintro ⟨a, b, c, hs, hl⟩
    exact ⟨a + d, b + d, c + d, by simpa using hs.map (fun x => x + d), by rw [shift_cross]; exact hl⟩

/-- C87: `Translate` does not change the volume. -/
theorem C87_volume_translate (p : Polyhedron ℝ) (hv : ValidFaces p.v.length p.f) (hc : ClosedMesh p.f)
    (hp : ∀ f ∈ p.f, ProperFace (f.map (corner p.v))) (d : V3 ℝ) : (p.translate d).volume = p.volume := by
  have hv' : ValidFaces (p.translate d).v.length (p.translate d).f := by
    show ValidFaces (List.map _ _).length p.f
    rw [List.length_map]; exact hv
  rw [C87_volume p hv hc hp 0, C87_volume (p.translate d) hv' hc (fun f hf => by rw [shift_face hv d hf]; exact shift_proper (hp f hf) d) d]
  congr 2
  have e : meshTriangles (p.translate d).v (p.translate d).f = (meshTriangles p.v p.f).map fun t => (t.1 + d, t.2.1 + d, t.2.2 + d) := by
    show p.f.flatMap _ = (p.f.flatMap _).map _
    rw [List.map_flatMap, List.flatMap_def, List.flatMap_def]
    congr 1
    refine List.map_congr_left fun f hf => ?_
    rw [shift_face hv d hf, fanOf_map]
  rw [signedVolume, signedVolume, e, List.map_map]
  congr 3
  funext t
  simp only [Function.comp, tetra6, dot, cross, sub_x, sub_y, sub_z, add_x, add_y, add_z, zero_x, zero_y, zero_z]; ring

/-! ### Boxes -/

/-- The parallelogram at `a` with the sides `u`, `w`. -/
def quad (a u w : V3 ℝ) : List (V3 ℝ) := [a, a + u, a + u + w, a + w]

theorem quad_proper {a u w n : V3 ℝ} {t : ℝ} (hn : dot n n = 1) (ht : 1 / 10000 < t) (h : cross u w = t • n) :
    ProperFace (quad a u w) ∧ ((fanOf (quad a u w)).map fun t => 1 / 2 * len (cross (t.2.1 - t.1) (t.2.2 - t.1))).sum = t := by
  have t0 : 0 < t := by linarith [show (0 : ℝ) < 1 / 10000 by norm_num]
  have e : ∀ b c : V3 ℝ, cross b c = t • n → ∃ k : ℝ, 0 < k ∧ cross b c = k • n := fun b c h => ⟨t, t0, h⟩
  have hx := congrArg V3.x h
  have hy := congrArg V3.y h
  have hz := congrArg V3.z h
  simp only [cross, smul_x, smul_y, smul_z] at hx hy hz
  have h1 : cross (a + u - a) (a + u + w - a) = t • n := by
    ext <;> simp only [cross, sub_x, sub_y, sub_z, add_x, add_y, add_z, smul_x, smul_y, smul_z] <;> linarith
  have h2 : cross (a + u + w - a) (a + w - a) = t • n := by
    ext <;> simp only [cross, sub_x, sub_y, sub_z, add_x, add_y, add_z, smul_x, smul_y, smul_z] <;> linarith
  have e3 : lenSq (t • n) = t ^ 2 := by
    unfold lenSq dot at *; simp only [smul_x, smul_y, smul_z]; linear_combination t ^ 2 * hn
  have e4 : len (t • n) = t := by rw [len, e3, Real.sqrt_sq t0.le]
  refine ⟨⟨n, ⟨hn, by simp [quad], ?_⟩, Or.inr ⟨a, a + u, a + u + w, by simp [quad], ?_⟩⟩, ?_⟩
  · simp only [quad, List.triplewise_cons, List.pairwise_cons, List.mem_cons, List.not_mem_nil, or_false, forall_eq_or_imp, forall_eq,
      List.Pairwise.nil, and_true, IsEmpty.forall_iff, implies_true]
    refine ⟨⟨⟨e _ _ h1, e _ _ ?_⟩, e _ _ h2⟩, e _ _ ?_, trivial, trivial, List.Triplewise.nil⟩ <;>
      (ext <;> simp only [cross, sub_x, sub_y, sub_z, add_x, add_y, add_z, smul_x, smul_y, smul_z] <;> linarith)
  · rw [h1, e4]; exact ht
  · simp only [quad, fanOf, Spec.fan, List.map_cons, List.map_nil, List.sum_cons, List.sum_nil]
    rw [h1, h2, e4]; ring

/-- The faces of a box. -/
theorem ofAABB_quads (a : V3 ℝ) (sx sy sz : ℝ) : boxFaces.map (fun f => f.map (corner (ofAABB ⟨a, a + ⟨sx, sy, sz⟩⟩).v)) =
    [quad a ⟨0, 0, sz⟩ ⟨0, sy, 0⟩, quad ⟨a.x + sx, a.y, a.z⟩ ⟨0, sy, 0⟩ ⟨0, 0, sz⟩, quad a ⟨sx, 0, 0⟩ ⟨0, 0, sz⟩,
      quad ⟨a.x + sx, a.y + sy, a.z + sz⟩ ⟨0, 0, -sz⟩ ⟨-sx, 0, 0⟩, quad a ⟨0, sy, 0⟩ ⟨sx, 0, 0⟩, quad ⟨a.x, a.y, a.z + sz⟩ ⟨sx, 0, 0⟩ ⟨0, sy, 0⟩] := by
  have c : ∀ i : Fin 8, corner (ofAABB ⟨a, a + ⟨sx, sy, sz⟩⟩).v ((i : ℕ) : ℤ) = AABB.cornerPoint ⟨a, a + ⟨sx, sy, sz⟩⟩ i := by
    intro i; fin_cases i <;> rfl
  have c0 := c 0
  have c1 := c 1
  have c2 := c 2
  have c3 := c 3
  have c4 := c 4
  have c5 := c 5
  have c6 := c 6
  have c7 := c 7
  norm_num [AABB.cornerPoint] at c0 c1 c2 c3 c4 c5 c6 c7
  simp only [boxFaces, quad, List.map_cons, List.map_nil, c0, c1, c2, c3, c4, c5, c6, c7, List.cons.injEq, and_true, V3.ext_iff, add_x, add_y, add_z,
    add_zero, neg_add_cancel_right, add_neg_cancel_right, true_and]

theorem ofAABB_proper (a : V3 ℝ) {sx sy sz : ℝ} (px : 0 < sx) (py : 0 < sy) (pz : 0 < sz) (h1 : 1 / 10000 < sx * sy) (h2 : 1 / 10000 < sy * sz)
    (h3 : 1 / 10000 < sz * sx) : (∀ f ∈ (ofAABB ⟨a, a + ⟨sx, sy, sz⟩⟩).f, ProperFace (f.map (corner (ofAABB ⟨a, a + ⟨sx, sy, sz⟩⟩).v))) ∧
    ((List.flatMap fanOf [quad a ⟨0, 0, sz⟩ ⟨0, sy, 0⟩, quad ⟨a.x + sx, a.y, a.z⟩ ⟨0, sy, 0⟩ ⟨0, 0, sz⟩, quad a ⟨sx, 0, 0⟩ ⟨0, 0, sz⟩,
      quad ⟨a.x + sx, a.y + sy, a.z + sz⟩ ⟨0, 0, -sz⟩ ⟨-sx, 0, 0⟩, quad a ⟨0, sy, 0⟩ ⟨sx, 0, 0⟩,
      quad ⟨a.x, a.y, a.z + sz⟩ ⟨sx, 0, 0⟩ ⟨0, sy, 0⟩]).map fun t => 1 / 2 * len (cross (t.2.1 - t.1) (t.2.2 - t.1))).sum =
      2 * (sx * sy + sy * sz + sz * sx) := by
  have hq := ofAABB_quads a sx sy sz
  have A := quad_proper (a := a) (u := ⟨0, 0, sz⟩) (w := ⟨0, sy, 0⟩) (n := ⟨-1, 0, 0⟩) (t := sy * sz) (by norm_num [dot]) h2
      (by ext <;> simp [cross]; ring)
  have B := quad_proper (a := ⟨a.x + sx, a.y, a.z⟩) (u := ⟨0, sy, 0⟩) (w := ⟨0, 0, sz⟩) (n := ⟨1, 0, 0⟩) (t := sy * sz) (by norm_num [dot]) h2
      (by ext <;> simp [cross])
  have C := quad_proper (a := a) (u := ⟨sx, 0, 0⟩) (w := ⟨0, 0, sz⟩) (n := ⟨0, -1, 0⟩) (t := sz * sx) (by norm_num [dot]) h3
      (by ext <;> simp [cross]; ring)
  have D := quad_proper (a := ⟨a.x + sx, a.y + sy, a.z + sz⟩) (u := ⟨0, 0, -sz⟩) (w := ⟨-sx, 0, 0⟩) (n := ⟨0, 1, 0⟩) (t := sz * sx) (by norm_num [dot]) h3
      (by ext <;> simp [cross])
  have E := quad_proper (a := a) (u := ⟨0, sy, 0⟩) (w := ⟨sx, 0, 0⟩) (n := ⟨0, 0, -1⟩) (t := sx * sy) (by norm_num [dot]) h1
      (by ext <;> simp [cross]; ring)
  have F := quad_proper (a := ⟨a.x, a.y, a.z + sz⟩) (u := ⟨sx, 0, 0⟩) (w := ⟨0, sy, 0⟩) (n := ⟨0, 0, 1⟩) (t := sx * sy) (by norm_num [dot]) h1
      (by ext <;> simp [cross])
  have hP : ∀ f ∈ (ofAABB ⟨a, a + ⟨sx, sy, sz⟩⟩).f, ProperFace (f.map (corner (ofAABB ⟨a, a + ⟨sx, sy, sz⟩⟩).v)) := by
    intro f hf
    have hm : f.map (corner (ofAABB ⟨a, a + ⟨sx, sy, sz⟩⟩).v) ∈ boxFaces.map (fun f => f.map (corner (ofAABB ⟨a, a + ⟨sx, sy, sz⟩⟩).v)) :=
      List.mem_map.2 ⟨f, hf, rfl⟩
    rw [hq] at hm
    simp only [List.mem_cons, List.not_mem_nil, or_false] at hm
    rcases hm with h | h | h | h | h | h <;> rw [h]
    exacts [A.1, B.1, C.1, D.1, E.1, F.1]
  refine ⟨hP, ?_⟩
  simp only [List.flatMap_cons, List.flatMap_nil, List.append_nil, List.map_append, List.sum_append]
  rw [A.2, B.2, C.2, D.2, E.2, F.2]
  ring

/-- C87: the polyhedron of a box that is not too small has the volume and the surface of the box. -/
theorem C87_box_partial (b : AABB ℝ) (sx sy sz : ℝ) (hx : b.maxPoint.x - b.minPoint.x = sx) (hy : b.maxPoint.y - b.minPoint.y = sy)
    (hz : b.maxPoint.z - b.minPoint.z = sz) (px : 0 < sx) (py : 0 < sy) (pz : 0 < sz) (h1 : 1 / 10000 < sx * sy) (h2 : 1 / 10000 < sy * sz)
    (h3 : 1 / 10000 < sz * sx) :
    (ofAABB b).volume = some (sx * sy * sz) ∧ (ofAABB b).surfaceArea = some (2 * (sx * sy + sy * sz + sz * sx)) := by
  obtain ⟨hs, -⟩ := C81_aabb b (by linarith) (by linarith) (by linarith)
  obtain ⟨a, m⟩ := b
  obtain rfl : m = a + ⟨sx, sy, sz⟩ := by ext <;> simp only [add_x, add_y, add_z] <;> dsimp only at hx hy hz <;> linarith
  have hq := ofAABB_quads a sx sy sz
  obtain ⟨hP, hA⟩ := ofAABB_proper a px py pz h1 h2 h3
  have ht : meshTriangles (ofAABB ⟨a, a + ⟨sx, sy, sz⟩⟩).v (ofAABB ⟨a, a + ⟨sx, sy, sz⟩⟩).f =
      (boxFaces.map (fun f => f.map (corner (ofAABB ⟨a, a + ⟨sx, sy, sz⟩⟩).v))).flatMap fanOf := by
    rw [List.flatMap_map]; rfl
  constructor
  · rw [C87_volume _ hs.valid hs.closed hP a]
    congr 1
    rw [signedVolume, ht, hq]
    simp only [quad, List.flatMap_cons, List.flatMap_nil, List.map_cons, List.map_nil, fanOf, Spec.fan, List.cons_append, List.nil_append,
      List.append_nil, List.sum_cons, List.sum_nil, tetra6, dot, cross, sub_x, sub_y, sub_z, add_x, add_y, add_z]
    rw [← abs_of_pos (mul_pos (mul_pos px py) pz)]
    congr 1
    ring
  · rw [C87_surfaceArea _ hs.valid hP]
    congr 1
    rw [ht, hq]
    exact hA

example := C87_box_partial ⟨⟨1, 2, 3⟩, ⟨2, 4, 6⟩⟩ 1 2 3 (by norm_num) (by norm_num) (by norm_num) (by norm_num) (by norm_num) (by norm_num)
  (by norm_num) (by norm_num) (by norm_num)

/-- A box to try the other theorems on. -/
noncomputable def exBox : AABB ℝ := ⟨⟨1, 2, 3⟩, ⟨1, 2, 3⟩ + ⟨1, 2, 3⟩⟩

theorem exBox_solid : OutwardSolid (ofAABB exBox).v (ofAABB exBox).f :=
  (C81_aabb exBox (by norm_num [exBox]) (by norm_num [exBox]) (by norm_num [exBox])).1

theorem exBox_proper : ∀ f ∈ (ofAABB exBox).f, ProperFace (f.map (corner (ofAABB exBox).v)) :=
  (ofAABB_proper ⟨1, 2, 3⟩ (by norm_num) (by norm_num) (by norm_num) (by norm_num) (by norm_num) (by norm_num)).1

example := C87_surfaceArea (ofAABB exBox) exBox_solid.valid exBox_proper

example := C87_volume (ofAABB exBox) exBox_solid.valid exBox_solid.closed exBox_proper ⟨7, 8, 9⟩

example := C87_volume_convex (ofAABB exBox) exBox_solid.valid exBox_solid.closed exBox_proper exBox_solid.outward _
  (mem_hull (V := (ofAABB exBox).v) (v := exBox.cornerPoint 5) (List.mem_map.2 ⟨5, by simp, rfl⟩))

example := C87_volume_translate (ofAABB exBox) exBox_solid.valid exBox_solid.closed exBox_proper ⟨7, 8, 9⟩

/-! ### Small boxes -/

theorem small_scan {p : List (V3 ℝ)} (hb : ∀ x ∈ p, (0 ≤ x.x ∧ x.x ≤ 1 / 200) ∧ (0 ≤ x.y ∧ x.y ≤ 1 / 200) ∧ 0 ≤ x.z ∧ x.z ≤ 1 / 200) :
    Polygon.planeScanI p = none := by
  cases hI : Polygon.planeScanI p with
  | none => rfl
  | some pl =>
    exfalso
    obtain ⟨a, b, c, hs, hl, -⟩ := Polygon.planeScanI_some hI
    obtain ⟨⟨a1, a2⟩, ⟨a3, a4⟩, a5, a6⟩ := hb a (hs.subset (by simp))
    obtain ⟨⟨b1, b2⟩, ⟨b3, b4⟩, b5, b6⟩ := hb b (hs.subset (by simp))
    obtain ⟨⟨c1, c2⟩, ⟨c3, c4⟩, c5, c6⟩ := hb c (hs.subset (by simp))
    have m1 : ∀ {u v w z : ℝ}, |u| ≤ 1 / 200 → |v| ≤ 1 / 200 → |w| ≤ 1 / 200 → |z| ≤ 1 / 200 → (u * v - w * z) * (u * v - w * z) ≤ (2 / 40000) ^ 2 := by
      intro u v w z hu hv hw hz
      have k : ∀ {u v : ℝ}, |u| ≤ 1 / 200 → |v| ≤ 1 / 200 → |u * v| ≤ 1 / 40000 := by
        intro u v hu hv
        rw [abs_mul]
        calc |u| * |v| ≤ 1 / 200 * (1 / 200) := mul_le_mul hu hv (abs_nonneg _) (by norm_num)
          _ = _ := by norm_num
      have k1 := abs_le.1 (k hu hv)
      have k2 := abs_le.1 (k hw hz)
      rw [← pow_two]
      exact sq_le_sq' (by linarith) (by linarith)
    have d : ∀ {u v : ℝ}, 0 ≤ u → u ≤ 1 / 200 → 0 ≤ v → v ≤ 1 / 200 → |u - v| ≤ 1 / 200 := fun h1 h2 h3 h4 => abs_le.2 ⟨by linarith, by linarith⟩
    have bx := d b1 b2 a1 a2
    have by' := d b3 b4 a3 a4
    have bz := d b5 b6 a5 a6
    have cx := d c1 c2 a1 a2
    have cy := d c3 c4 a3 a4
    have cz := d c5 c6 a5 a6
    have f1 := m1 by' cz bz cy
    have f2 := m1 bz cx bx cz
    have f3 := m1 bx cy by' cx
    simp only [lenSq, dot, cross, sub_x, sub_y, sub_z] at hl
    norm_num at f1 f2 f3 hl
    linarith

theorem small_normal {a b c d e m : V3 ℝ} (hs : Polygon.planeScanI [a, b, c, d] = none) (he : lenSq e = 1) (hb : b - a = (1 / 200 : ℝ) • e)
    (hp : f3Perpendicular e = m) (hm : lenSq m = 1) (hd : dot m e = 0) : Polygon.planeCCW [a, b, c, d] = some ⟨m, dot a m⟩ := by
  show some ((Polygon.planeScanI [a, b, c, d]).getD (Polygon.planeAlong a b)) = _
  rw [hs]
  show some (Polygon.planeAlong a b) = _
  have hl : len ((1 / 200 : ℝ) • e) = 1 / 200 := by
    unfold len
    rw [show lenSq ((1 / 200 : ℝ) • e) = (1 / 200) ^ 2 by
      unfold lenSq dot at *; simp only [smul_x, smul_y, smul_z]; linear_combination (1 / 200) ^ 2 * he, Real.sqrt_sq (by norm_num)]
  have hn : f3Normalized (b - a) = e := by
    rw [hb, f3Normalized_pos (by rw [hl]; norm_num), hl]
    ext <;> simp
  unfold Polygon.planeAlong Plane.ofRay Plane.setPointNormal
  dsimp only
  rw [hn, hp]
  have e2 : m - f3ProjectToNorm m e = m := by
    unfold f3ProjectToNorm
    rw [hd]; ext <;> simp
  rw [e2, f3Normalized_unit hm]

theorem small_area {a b c d n : V3 ℝ} {k : ℝ} (h : Polygon.planeCCW [a, b, c, d] = some ⟨n, k⟩) :
    Polygon.area [a, b, c, d] = 1 / 2 * |dot n (cross d a + cross a b + cross b c + cross c d)| := by
  unfold Polygon.area
  rw [if_neg (by simp), h]
  show 1 / 2 * absF (dot n (0 + cross d a + cross a b + cross b c + cross c d)) = _
  rw [zero_add, absF_eq]

/-- The cube with the side `1/200` at the origin. -/
noncomputable def exSmallBox : AABB ℝ := ⟨⟨0, 0, 0⟩, ⟨0, 0, 0⟩ + ⟨1 / 200, 1 / 200, 1 / 200⟩⟩

/-- C87: `Volume` is wrong for small polyhedra: the normals of faces with four corners are arbitrary when they span less area than `5e-5`.
The cube with the side `1/200` gets a third of its volume. -/
theorem C87_volume_small_violation : (ofAABB exSmallBox).volume = some ((1 / 200) ^ 3 / 3) ∧
    |signedVolume 0 (ofAABB exSmallBox).v (ofAABB exSmallBox).f| = (1 / 200) ^ 3 := by
  have hq := ofAABB_quads ⟨0, 0, 0⟩ (1 / 200) (1 / 200) (1 / 200)
  have hV : ∀ f ∈ boxFaces, f.mapM (ofAABB exSmallBox).vertex = some (f.map (corner (ofAABB exSmallBox).v)) :=
    fun f hf => mapM_vertex (p := ofAABB exSmallBox) box_mesh.1 hf
  constructor
  · have hl : ∀ {f : List ℤ} {fs : List (List ℤ)} {v : ℝ} {a u w e m : V3 ℝ}, f ∈ boxFaces → f.length = 4 →
        f.map (corner (ofAABB exSmallBox).v) = quad a u w →
        (∀ x ∈ quad a u w, (0 ≤ x.x ∧ x.x ≤ 1 / 200) ∧ (0 ≤ x.y ∧ x.y ≤ 1 / 200) ∧ 0 ≤ x.z ∧ x.z ≤ 1 / 200) → lenSq e = 1 → u = (1 / 200 : ℝ) • e →
        f3Perpendicular e = m → lenSq m = 1 → dot m e = 0 →
        (ofAABB exSmallBox).volumeLoop (f :: fs) v = (ofAABB exSmallBox).volumeLoop fs (v + dot a m * |dot m (cross u w)|) := by
      intro f fs v a u w e m hf h4 hm hb he hu hp hm1 hd
      have hpl := small_normal (small_scan hb) he (by rw [← hu]; ext <;> simp) hp hm1 hd
      rw [volumeLoop, if_neg (by omega), hV f hf, hm]
      show ((Polygon.planeCCW [a, a + u, a + u + w, a + w]).bind fun pl =>
        (ofAABB exSmallBox).volumeLoop fs (v + dot a pl.normal * Polygon.area [a, a + u, a + u + w, a + w])) = _
      rw [hpl, Option.bind_some, small_area hpl]
      congr 3
      rw [show (1 / 2 : ℝ) = |1 / 2| by norm_num, ← abs_mul]
      congr 1
      simp only [dot, cross, add_x, add_y, add_z]; ring
    have px : f3Perpendicular (⟨1, 0, 0⟩ : V3 ℝ) = ⟨0, 0, 1⟩ := by
      unfold f3Perpendicular
      rw [show cross (⟨1, 0, 0⟩ : V3 ℝ) ⟨0, 1, 0⟩ = ⟨0, 0, 1⟩ by ext <;> norm_num [cross]]
      have hl1 : len (⟨0, 0, 1⟩ : V3 ℝ) = 1 := by norm_num [len, lenSq, dot]
      rw [f3Normalize_pos (by rw [hl1]; norm_num), hl1]
      simp
      ext <;> simp
    have py : f3Perpendicular (⟨0, 1, 0⟩ : V3 ℝ) = ⟨0, 0, 1⟩ := by
      unfold f3Perpendicular
      rw [show cross (⟨0, 1, 0⟩ : V3 ℝ) ⟨0, 1, 0⟩ = ⟨0, 0, 0⟩ by ext <;> norm_num [cross]]
      have h0 : f3Normalize (⟨0, 0, 0⟩ : V3 ℝ) = (⟨1, 0, 0⟩, 0) := by
        unfold f3Normalize
        have : f3Length (⟨0, 0, 0⟩ : V3 ℝ) = 0 := by norm_num [f3Length, lenSq, dot]
        simp only [this]
        norm_num
      rw [h0]; simp
    have pz : f3Perpendicular (⟨0, 0, 1⟩ : V3 ℝ) = ⟨-1, 0, 0⟩ := by
      unfold f3Perpendicular
      rw [show cross (⟨0, 0, 1⟩ : V3 ℝ) ⟨0, 1, 0⟩ = ⟨-1, 0, 0⟩ by ext <;> norm_num [cross]]
      have hl1 : len (⟨-1, 0, 0⟩ : V3 ℝ) = 1 := by norm_num [len, lenSq, dot]
      rw [f3Normalize_pos (by rw [hl1]; norm_num), hl1]
      simp
      ext <;> simp
    have pz' : f3Perpendicular (⟨0, 0, -1⟩ : V3 ℝ) = ⟨1, 0, 0⟩ := by
      unfold f3Perpendicular
      rw [show cross (⟨0, 0, -1⟩ : V3 ℝ) ⟨0, 1, 0⟩ = ⟨1, 0, 0⟩ by ext <;> norm_num [cross]]
      have hl1 : len (⟨1, 0, 0⟩ : V3 ℝ) = 1 := by norm_num [len, lenSq, dot]
      rw [f3Normalize_pos (by rw [hl1]; norm_num), hl1]
      simp
      ext <;> simp
    have hq' := hq
    simp only [boxFaces, List.map_cons, List.map_nil, List.cons.injEq, and_true] at hq'
    rw [volume]
    show ((ofAABB exSmallBox).volumeLoop boxFaces 0).map _ = _
    unfold boxFaces
    rw [hl (f := [0, 1, 3, 2]) (by decide) rfl hq'.1 (by simp [quad]) (e := ⟨0, 0, 1⟩) (by norm_num [lenSq, dot]) (by ext <;> simp) pz (by norm_num [lenSq, dot]) (by norm_num [dot])]
    rw [hl (f := [4, 6, 7, 5]) (by decide) rfl hq'.2.1 (by simp [quad]) (e := ⟨0, 1, 0⟩) (by norm_num [lenSq, dot]) (by ext <;> simp) py (by norm_num [lenSq, dot]) (by norm_num [dot])]
    rw [hl (f := [0, 4, 5, 1]) (by decide) rfl hq'.2.2.1 (by simp [quad]) (e := ⟨1, 0, 0⟩) (by norm_num [lenSq, dot]) (by ext <;> simp) px (by norm_num [lenSq, dot]) (by norm_num [dot])]
    rw [hl (f := [7, 6, 2, 3]) (by decide) rfl hq'.2.2.2.1 (by simp [quad]) (e := ⟨0, 0, -1⟩) (by norm_num [lenSq, dot]) (by ext <;> simp) pz' (by norm_num [lenSq, dot]) (by norm_num [dot])]
    rw [hl (f := [0, 2, 6, 4]) (by decide) rfl hq'.2.2.2.2.1 (by simp [quad]) (e := ⟨0, 1, 0⟩) (by norm_num [lenSq, dot]) (by ext <;> simp) py (by norm_num [lenSq, dot]) (by norm_num [dot])]
    rw [hl (f := [1, 5, 7, 3]) (by decide) rfl hq'.2.2.2.2.2 (by simp [quad]) (e := ⟨1, 0, 0⟩) (by norm_num [lenSq, dot]) (by ext <;> simp) px (by norm_num [lenSq, dot]) (by norm_num [dot])]
    show some (absF _ / 3) = _
    congr 1
    rw [absF_eq]
    norm_num [dot, cross]
  · have ht : meshTriangles (ofAABB exSmallBox).v (ofAABB exSmallBox).f =
        (boxFaces.map (fun f => f.map (corner (ofAABB exSmallBox).v))).flatMap fanOf := by
      rw [List.flatMap_map]; rfl
    unfold exSmallBox at ht ⊢
    rw [signedVolume, ht, hq]
    simp only [quad, List.flatMap_cons, List.flatMap_nil, List.map_cons, List.map_nil, fanOf, Spec.fan, List.cons_append, List.nil_append,
      List.append_nil, List.sum_cons, List.sum_nil, tetra6, dot, cross, sub_x, sub_y, sub_z, add_x, add_y, add_z, zero_x, zero_y, zero_z]
    norm_num

/-! ### The centre of mass -/

theorem centroidLoop_eq {p : Polyhedron ℝ} (hv : ValidFaces p.v.length p.f) (m : V3 ℝ) (h3 : ∀ f ∈ p.f, f.length = 3) 
    (hpos : ∀ t ∈ meshTriangles p.v p.f, 0 < tetra6 m t) : ∀ (fs : List (List ℤ)) (s : V3 ℝ × ℝ), (∀ f ∈ fs, f ∈ p.f) → p.centroidLoop m fs s =
      some (s.1 + (6 : ℝ) • moment m p.v fs, s.2 + ((meshTriangles p.v fs).map (tetra6 m)).sum)
  | [], s, _ => by
    simp only [centroidLoop, moment, meshTriangles, List.flatMap_nil, List.map_nil, List.sum_nil, add_zero]
    congr 2
    ext <;> simp
  | f :: fs, s, h => by
    have hf := h f (by simp)
    have hl := h3 f hf
    rw [centroidLoop, if_neg (by omega), mapM_vertex hv hf]
    obtain ⟨i, j, k, rfl⟩ : ∃ i j k, f = [i, j, k] := by
      rcases f with _ | ⟨i, _ | ⟨j, _ | ⟨k, _ | ⟨l, r⟩⟩⟩⟩ <;> first | (simp at hl; done) | exact ⟨_, _, _, rfl⟩
    show p.centroidLoop m fs (s.1 + absF _ • _, s.2 + absF _) = _
    have ht : (corner p.v i, corner p.v j, corner p.v k) ∈ meshTriangles p.v p.f :=
      List.mem_flatMap.2 ⟨_, hf, by simp [fanOf, Spec.fan]⟩
    have hp := hpos _ ht
    rw [centroidLoop_eq hv m h3 hpos fs _ fun g hg => h g (List.mem_cons_of_mem _ hg)]
    have e : absF (dot (corner p.v i - m) (cross (corner p.v j - m) (corner p.v k - m))) = tetra6 m (corner p.v i, corner p.v j, corner p.v k) := by
      rw [absF_eq]; exact abs_of_pos hp
    rw [e, moment, moment, meshTriangles_cons]
    simp only [List.map_cons, List.map_nil, fanOf, Spec.fan, List.cons_append, List.nil_append, List.sum_cons]
    congr 2
    · generalize (List.sum _ : V3 ℝ) = S
      ext <;> simp only [add_x, add_y, add_z, smul_x, smul_y, smul_z] <;> ring
    · ring

theorem moment_const {V : List (V3 ℝ)} {fs : List (List ℤ)} (hv : ValidFaces V.length fs) (hc : ClosedMesh fs) (o : V3 ℝ) :
    moment o V fs = moment 0 V fs := by
  ext
  · rw [moment, moment, sum_x, sum_x, List.map_map, List.map_map]
    exact moment_coord hv hc o V3.x (fun _ _ => rfl) fun _ _ => rfl
  · rw [moment, moment, sum_y, sum_y, List.map_map, List.map_map]
    exact moment_coord hv hc o V3.y (fun _ _ => rfl) fun _ _ => rfl
  · rw [moment, moment, sum_z, sum_z, List.map_map, List.map_map]
    exact moment_coord hv hc o V3.z (fun _ _ => rfl) fun _ _ => rfl

/-- C87: `ConvexCentroid` of a convex polyhedron whose faces are triangles is the centre of mass of the solid: its moment divided by its
volume, where both can be computed from any reference point. -/
theorem C87_centroid_partial (p : Polyhedron ℝ) (hs : ConvexSurface p.v p.f) (h0 : p.f ≠ []) (h3 : ∀ f ∈ p.f, f.length = 3) (h4 : 4 ≤ p.v.length) :
    ∃ c, p.convexCentroid = some c ∧ ∀ o, 0 < signedVolume o p.v p.f ∧ signedVolume o p.v p.f • c = moment o p.v p.f := by
  obtain ⟨-, -, hb⟩ := C83_centroid p hs h0
  have hpos : ∀ t ∈ meshTriangles p.v p.f, 0 < tetra6 p.approximateConvexCentroid t := by
    intro t ht
    obtain ⟨f, hf, hm⟩ := List.mem_flatMap.1 ht
    have hl := h3 f hf
    obtain ⟨i, j, k, rfl⟩ : ∃ i j k, f = [i, j, k] := by
      rcases f with _ | ⟨i, _ | ⟨j, _ | ⟨k, _ | ⟨l, r⟩⟩⟩⟩ <;> first | (simp at hl; done) | exact ⟨_, _, _, rfl⟩
    have := hb _ hf i (by simp)
    simp only [fanOf, Spec.fan, List.map_cons, List.map_nil, List.mem_cons, List.not_mem_nil, or_false] at hm
    subst hm
    simp only [List.map_cons, List.map_nil, cornerNormal] at this
    have e : tetra6 p.approximateConvexCentroid (corner p.v i, corner p.v j, corner p.v k) =
        -dot (cross (corner p.v j - corner p.v i) (corner p.v k - corner p.v i)) (p.approximateConvexCentroid - corner p.v i) := by
      simp only [tetra6, dot, cross, sub_x, sub_y, sub_z]; ring
    rw [e]; linarith
  have hS : 0 < ((meshTriangles p.v p.f).map (tetra6 p.approximateConvexCentroid)).sum := by
    obtain ⟨f, hf⟩ := List.exists_mem_of_ne_nil _ h0
    have hl := h3 f hf
    obtain ⟨i, j, k, rfl⟩ : ∃ i j k, f = [i, j, k] := by
      rcases f with _ | ⟨i, _ | ⟨j, _ | ⟨k, _ | ⟨l, r⟩⟩⟩⟩ <;> first | (simp at hl; done) | exact ⟨_, _, _, rfl⟩
    have ht : (corner p.v i, corner p.v j, corner p.v k) ∈ meshTriangles p.v p.f :=
      List.mem_flatMap.2 ⟨_, hf, by simp [fanOf, Spec.fan]⟩
    refine List.sum_pos _ ?_ ?_
    · intro x hx
      obtain ⟨t, ht, rfl⟩ := List.mem_map.1 hx
      exact hpos t ht
    · intro h
      rw [List.map_eq_nil_iff] at h
      rw [h] at ht; cases ht
  have hloop := centroidLoop_eq hs.valid p.approximateConvexCentroid h3 hpos p.f (0, 0) fun _ h => h
  have hcc : p.convexCentroid = some ((1 / ((meshTriangles p.v p.f).map (tetra6 p.approximateConvexCentroid)).sum) •
      ((6 : ℝ) • moment p.approximateConvexCentroid p.v p.f)) := by
    unfold convexCentroid
    rw [hloop]
    split
    · rename_i h; rw [h] at h4; simp at h4
    · rename_i h; rw [h] at h4; simp at h4
    · rename_i h; rw [h] at h4; simp at h4
    · rename_i h; rw [h] at h4; simp at h4
    · show (if _ then _ else _) = _
      rw [zero_add, zero_add, if_neg hS.ne']
  refine ⟨_, hcc, fun o => ?_⟩
  have e1 : signedVolume o p.v p.f = ((meshTriangles p.v p.f).map (tetra6 p.approximateConvexCentroid)).sum / 6 := by
    rw [signedVolume_const hs.valid hs.closed, ← signedVolume_const hs.valid hs.closed p.approximateConvexCentroid, signedVolume]
  rw [e1, moment_const hs.valid hs.closed o, moment_const hs.valid hs.closed p.approximateConvexCentroid]
  refine ⟨by positivity, ?_⟩
  generalize (List.sum (List.map (tetra6 p.approximateConvexCentroid) (meshTriangles p.v p.f)) : ℝ) = S at hS ⊢
  have := hS.ne'
  ext <;> simp only [smul_x, smul_y, smul_z] <;> field_simp

example := C87_centroid_partial exCorner exCorner_convex (by simp [exCorner]) (by simp [exCorner]) (by simp [exCorner])

/-- C87: `MinimalEnclosingAABB` is the smallest box around the vertices. -/
theorem C87_minimalEnclosingAABB (p : Polyhedron ℝ) :
    (∀ x ∈ p.v, x.toExt ∈ box p.minimalEnclosingAABB.minPoint p.minimalEnclosingAABB.maxPoint) ∧
    ∀ mn mx, (∀ x ∈ p.v, x.toExt ∈ box mn mx) → box p.minimalEnclosingAABB.minPoint p.minimalEnclosingAABB.maxPoint ⊆ box mn mx :=
  Polygon.C84_minimalEnclosingAABB p.v

/-- A pyramid over a square, seen from outside counter-clockwise. -/
noncomputable def exPyramid : Polyhedron ℝ :=
  ⟨[⟨1, 1, 0⟩, ⟨-1, 1, 0⟩, ⟨-1, -1, 0⟩, ⟨1, -1, 0⟩, ⟨0, 0, 1⟩], [[3, 2, 1, 0], [0, 1, 4], [1, 2, 4], [2, 3, 4], [3, 0, 4]]⟩

/-- C87: for faces with more than three corners `ConvexCentroid` takes the triangles of three consecutive corners, which overlap and do not
cover the face. The result for the pyramid over a square is off its axis of symmetry, on which the centre of mass lies. -/
theorem C87_centroid_violation : ClosedMesh exPyramid.f ∧ (∀ f ∈ exPyramid.f, FaceOutward exPyramid.v (f.map (corner exPyramid.v))) ∧
    (∀ o, (moment o exPyramid.v exPyramid.f).x = 0 ∧ 0 < signedVolume o exPyramid.v exPyramid.f) ∧
    ∃ c, exPyramid.convexCentroid = some c ∧ c.x ≠ 0 := by
  have hv : ValidFaces exPyramid.v.length exPyramid.f := (validFaces_of (by decide +kernel) : ValidFaces 5 _)
  have hc : ClosedMesh exPyramid.f := closed_of (by decide +kernel)
  have c0 : corner exPyramid.v 0 = ⟨1, 1, 0⟩ := rfl
  have c1 : corner exPyramid.v 1 = ⟨-1, 1, 0⟩ := rfl
  have c2 : corner exPyramid.v 2 = ⟨-1, -1, 0⟩ := rfl
  have c3 : corner exPyramid.v 3 = ⟨1, -1, 0⟩ := rfl
  have c4 : corner exPyramid.v 4 = ⟨0, 0, 1⟩ := rfl
  have hm : meshTriangles exPyramid.v exPyramid.f = [(⟨1, -1, 0⟩, ⟨-1, -1, 0⟩, ⟨-1, 1, 0⟩), (⟨1, -1, 0⟩, ⟨-1, 1, 0⟩, ⟨1, 1, 0⟩),
      (⟨1, 1, 0⟩, ⟨-1, 1, 0⟩, ⟨0, 0, 1⟩), (⟨-1, 1, 0⟩, ⟨-1, -1, 0⟩, ⟨0, 0, 1⟩), (⟨-1, -1, 0⟩, ⟨1, -1, 0⟩, ⟨0, 0, 1⟩), (⟨1, -1, 0⟩, ⟨1, 1, 0⟩, ⟨0, 0, 1⟩)] := rfl
  refine ⟨hc, ?_, ?_, ?_⟩
  · show ∀ f ∈ [[3, 2, 1, 0], [0, 1, 4], [1, 2, 4], [2, 3, 4], [3, 0, 4]], _
    simp only [List.forall_mem_cons, List.map_cons, List.map_nil, c0, c1, c2, c3, c4]
    refine ⟨⟨_, _, _, _, rfl, ?_⟩, ⟨_, _, _, _, rfl, ?_⟩, ⟨_, _, _, _, rfl, ?_⟩, ⟨_, _, _, _, rfl, ?_⟩, ⟨_, _, _, _, rfl, ?_⟩, by simp⟩ <;>
      refine ⟨by norm_num [cross, V3.ext_iff], ?_, ?_⟩ <;>
        simp only [exPyramid, List.forall_mem_cons, List.not_mem_nil, IsEmpty.forall_iff, implies_true, and_true] <;> norm_num [dot, cross]
  · intro o
    rw [moment_const hv hc, signedVolume_const hv hc, moment, signedVolume, hm]
    norm_num [tetra6, dot, cross]
  · have h : exPyramid.approximateConvexCentroid = ⟨0, 0, 1 / 5⟩ := by
      ext <;> norm_num [approximateConvexCentroid, exPyramid]
    have hV : ∀ f ∈ exPyramid.f, f.mapM exPyramid.vertex = some (f.map (corner exPyramid.v)) := fun f hf => mapM_vertex hv hf
    have hloop : exPyramid.centroidLoop ⟨0, 0, 1 / 5⟩ [[3, 2, 1, 0], [0, 1, 4], [1, 2, 4], [2, 3, 4], [3, 0, 4]] (0, 0) = some (⟨-(2 / 5), 0, 2⟩, 8) := by
      simp only [centroidLoop]
      rw [hV [3, 2, 1, 0] (by simp [exPyramid]), hV [0, 1, 4] (by simp [exPyramid]), hV [1, 2, 4] (by simp [exPyramid]), hV [2, 3, 4] (by simp [exPyramid]),
        hV [3, 0, 4] (by simp [exPyramid])]
      simp only [List.map_cons, List.map_nil, c0, c1, c2, c3, c4, List.length_cons, List.length_nil, Option.bind_eq_bind, Option.bind_some, centroidFace, absF_eq]
      norm_num [dot, cross, V3.ext_iff]
    refine ⟨⟨-(1 / 20), 0, 1 / 4⟩, ?_, by norm_num⟩
    show ((exPyramid.centroidLoop exPyramid.approximateConvexCentroid [[3, 2, 1, 0], [0, 1, 4], [1, 2, 4], [2, 3, 4], [3, 0, 4]] (0, 0)).bind fun s =>
      if s.2 = 0 then none else some ((1 / s.2) • s.1)) = _
    rw [h, hloop, Option.bind_some, if_neg (by norm_num)]
    congr 1
    ext <;> norm_num

end Polyhedron
end MGL
