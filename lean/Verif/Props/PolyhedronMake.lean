import Verif.Proofs.PolyhedronSolids
import Verif.Proofs.PolyhedronCapsule
import Verif.Props.Polyhedron
import Verif.Props.Frustum
import Verif.Props.Float3

/-! C81: the polyhedra that the library builds from boxes, frusta and polygons, the platonic solids and the capsules are closed,
satisfy Euler's formula and have their faces turned to one side. -/

set_option linter.unusedSectionVars false

namespace MGL
open V3 Spec
namespace Polyhedron

section
variable {α : Type} [Field α] [LinearOrder α] [IsStrictOrderedRing α]

/-- The tests of the library agree that the solid is proper. -/
theorem checks_of {p : Polyhedron α} (hv : ValidFaces p.v.length p.f) (hc : ClosedMesh p.f)
    (he : 2 * (p.v.length + p.f.length) = (p.f.map List.length).sum + 4) :
    p.faceIndicesValid = true ∧ p.isClosed = true ∧ p.eulerFormulaHolds = true := by
  have h1 := (faceIndicesValid_iff p).2 hv
  have h2 := (isClosed_iff p).2 hc
  refine ⟨h1, h2, ?_⟩
  obtain ⟨-, k2, k3⟩ := C78_numEdges p h1 h2
  rw [k3]; omega

theorem ofAABB_v (b : AABB α) : (ofAABB b).v = frustPts ⟨(b.minPoint.x + b.maxPoint.x) / 2, (b.minPoint.y + b.maxPoint.y) / 2, 0⟩
    ⟨1, 0, 0⟩ ⟨0, 1, 0⟩ ⟨0, 0, 1⟩ ((b.maxPoint.x - b.minPoint.x) / 2) ((b.maxPoint.x - b.minPoint.x) / 2)
    ((b.maxPoint.y - b.minPoint.y) / 2) ((b.maxPoint.y - b.minPoint.y) / 2) b.minPoint.z b.maxPoint.z := by
  show [b.cornerPoint 0, b.cornerPoint 1, b.cornerPoint 2, b.cornerPoint 3, b.cornerPoint 4, b.cornerPoint 5, b.cornerPoint 6,
    b.cornerPoint 7] = _
  unfold frustPts
  congr 1 <;> [skip; congr 1 <;> [skip; congr 1 <;> [skip; congr 1 <;> [skip; congr 1 <;> [skip; congr 1 <;> [skip; congr 1 <;> [skip; congr 1]]]]]]]
  all_goals
    ext <;> simp only [AABB.cornerPoint, pt, add_x, add_y, add_z, smul_x, smul_y, smul_z] <;> ring

theorem ofOBB_v (o : OBB α) : (ofOBB o).v = frustPts o.pos o.axis0 o.axis1 o.axis2 o.r.x o.r.x o.r.y o.r.y (-o.r.z) o.r.z := by
  show [o.cornerPoint 0, o.cornerPoint 1, o.cornerPoint 2, o.cornerPoint 3, o.cornerPoint 4, o.cornerPoint 5, o.cornerPoint 6,
    o.cornerPoint 7] = _
  unfold frustPts
  congr 1 <;> [skip; congr 1 <;> [skip; congr 1 <;> [skip; congr 1 <;> [skip; congr 1 <;> [skip; congr 1 <;> [skip; congr 1 <;> [skip; congr 1]]]]]]]
  all_goals
    ext <;> simp only [OBB.cornerPoint, pt, add_x, add_y, add_z, sub_x, sub_y, sub_z, smul_x, smul_y, smul_z] <;> ring

theorem box_mesh : ValidFaces 8 boxFaces ∧ ClosedMesh boxFaces ∧ 2 * (8 + boxFaces.length) = (boxFaces.map List.length).sum + 4 :=
  ⟨validFaces_of (by decide +kernel), closed_of (by decide +kernel), by decide⟩

theorem ofAABB_solid (b : AABB α) (hx : b.minPoint.x < b.maxPoint.x) (hy : b.minPoint.y < b.maxPoint.y) (hz : b.minPoint.z < b.maxPoint.z) :
    OutwardSolid (ofAABB b).v (ofAABB b).f := by
  refine ⟨box_mesh.1, box_mesh.2.1, box_mesh.2.2, ?_⟩
  rw [ofAABB_v]
  exact boxFaces_outward _ _ _ _ _ _ _ _ _ _ (by linarith) (by linarith) (by linarith) (by linarith) hz (by simp [dot, cross])

/-- C81: `AABB::ToPolyhedron` of a box with positive sizes is a closed solid with the eight corners of the box, six faces and
outward normals. -/
theorem C81_aabb (b : AABB α) (hx : b.minPoint.x < b.maxPoint.x) (hy : b.minPoint.y < b.maxPoint.y) (hz : b.minPoint.z < b.maxPoint.z) :
    let p := ofAABB b
    OutwardSolid p.v p.f ∧ p.v = (List.finRange 8).map b.cornerPoint ∧ p.f.length = 6 ∧
      p.faceIndicesValid = true ∧ p.isClosed = true ∧ p.eulerFormulaHolds = true := by
  have h := ofAABB_solid b hx hy hz
  exact ⟨h, rfl, rfl, checks_of h.valid h.closed h.euler⟩

example : (⟨1, 2, 3⟩ : V3 ℚ).x < (⟨4, 5, 6⟩ : V3 ℚ).x ∧ (2 : ℚ) < 5 ∧ (3 : ℚ) < 6 := by norm_num

/-- C81: `OBB::ToPolyhedron` of a box with positive sizes and right-handed axes is a closed solid with outward normals. -/
theorem C81_obb_partial (o : OBB α) (hr : 0 < o.r.x ∧ 0 < o.r.y ∧ 0 < o.r.z) (ha : 0 < dot (cross o.axis0 o.axis1) o.axis2) :
    let p := ofOBB o
    OutwardSolid p.v p.f ∧ p.v = (List.finRange 8).map o.cornerPoint ∧ p.f.length = 6 ∧
      p.faceIndicesValid = true ∧ p.isClosed = true ∧ p.eulerFormulaHolds = true := by
  have h : OutwardSolid (ofOBB o).v (ofOBB o).f := by
    refine ⟨box_mesh.1, box_mesh.2.1, box_mesh.2.2, ?_⟩
    rw [ofOBB_v]
    exact boxFaces_outward _ _ _ _ _ _ _ _ _ _ hr.1 hr.1 hr.2.1 hr.2.1 (by linarith [hr.2.2]) ha
  exact ⟨h, rfl, rfl, checks_of h.valid h.closed h.euler⟩

example : ∃ o : OBB ℚ, (0 < o.r.x ∧ 0 < o.r.y ∧ 0 < o.r.z) ∧ 0 < dot (cross o.axis0 o.axis1) o.axis2 :=
  ⟨⟨⟨1, 2, 3⟩, ⟨1, 2, 1⟩, ⟨3 / 5, 4 / 5, 0⟩, ⟨-4 / 5, 3 / 5, 0⟩, ⟨0, 0, 1⟩⟩, by norm_num [dot, cross]⟩

/-- C81: with left-handed axes, as a mirroring transform leaves them, the faces of `OBB::ToPolyhedron` look inwards. -/
theorem C81_obb_violation : ∃ o : OBB ℚ, o.r = ⟨1, 1, 1⟩ ∧ Spec.Frame o.axis0 o.axis1 o.axis2 ∧ InwardSolid (ofOBB o).v (ofOBB o).f := by
  refine ⟨⟨⟨0, 0, 0⟩, ⟨1, 1, 1⟩, ⟨-1, 0, 0⟩, ⟨0, 1, 0⟩, ⟨0, 0, 1⟩⟩, rfl, ?_, box_mesh.1, box_mesh.2.1, box_mesh.2.2, ?_⟩
  · constructor <;> norm_num [dot, lenSq]
  · have key : ∀ f ∈ boxFaces, FaceInward (ofOBB (⟨⟨0, 0, 0⟩, ⟨1, 1, 1⟩, ⟨-1, 0, 0⟩, ⟨0, 1, 0⟩, ⟨0, 0, 1⟩⟩ : OBB ℚ)).v
        (f.map (corner (ofOBB (⟨⟨0, 0, 0⟩, ⟨1, 1, 1⟩, ⟨-1, 0, 0⟩, ⟨0, 1, 0⟩, ⟨0, 0, 1⟩⟩ : OBB ℚ)).v)) := by
      simp only [boxFaces, List.forall_mem_cons]
      refine ⟨?_, ?_, ?_, ?_, ?_, ?_, by simp⟩ <;>
        exact faceInward_of (by decide +kernel) (by decide +kernel) ⟨0, by decide +kernel⟩
    exact key

end

/-- C81: `Frustum::ToPolyhedron` of a valid right- or left-handed frustum is a closed solid with the eight corners of the frustum
and outward normals. -/
theorem C81_frustum (f : Frustum) (h : f.Valid) (hh : f.hand = .left ∨ f.hand = .right) :
    let p := ofFrustum f
    OutwardSolid p.v p.f ∧ p.v = (List.finRange 8).map f.cornerPoint ∧ p.f.length = 6 ∧
      p.faceIndicesValid = true ∧ p.isClosed = true ∧ p.eulerFormulaHolds = true := by
  obtain ⟨n1, n2⟩ := h.half_pos le_rfl
  obtain ⟨f1, f2⟩ := h.half_pos h.depth.le
  have ev : (ofFrustum f).v = frustPts f.pos f.worldRight f.up f.front (f.half f.h f.near) (f.half f.h f.far) (f.half f.v f.near)
      (f.half f.v f.far) f.near f.far := by
    show [f.cornerPoint 0, f.cornerPoint 1, f.cornerPoint 2, f.cornerPoint 3, f.cornerPoint 4, f.cornerPoint 5, f.cornerPoint 6,
      f.cornerPoint 7] = _
    simp only [frustPts, pt, Frustum.cornerPoint, Frustum.nearPlanePos_eq, Frustum.farPlanePos_eq, neg_one_mul, one_mul]
  have hD : ∀ a b : V3 ℝ, lenSq a = 1 → lenSq b = 1 → dot a b = 0 → dot (cross (cross a b) b) a = -1 := by
    intro a b ha hb hab
    have e : dot (cross (cross a b) b) a = dot a b * dot a b - lenSq a * lenSq b := by
      simp only [dot, cross, lenSq]; ring
    rw [e, ha, hb, hab]; norm_num
  have hs : OutwardSolid (ofFrustum f).v (ofFrustum f).f := by
    rcases hh with hh | hh
    · have ef : (ofFrustum f).f = frustumFaces.map List.reverse := by simp [ofFrustum, hh]
      rw [ef]
      refine ⟨(validFaces_of (by decide +kernel) : ValidFaces 8 _), closed_of (by decide +kernel), ?_, ?_⟩
      · show 2 * (8 + _) = _; decide
      · rw [ev]
        refine frustumFaces_reverse_outward _ _ _ _ _ _ _ _ _ _ n1 f1 n2 f2 h.depth ?_
        have : f.worldRight = cross f.up f.front := by simp [Frustum.worldRight, Frustum.worldRightOf, hh]
        rw [this]
        have e : dot (cross (cross f.up f.front) f.up) f.front = lenSq f.front * lenSq f.up - dot f.front f.up * dot f.front f.up := by
          simp only [dot, cross, lenSq]; ring
        rw [e, h.front, h.up, h.perp]; norm_num
    · have ef : (ofFrustum f).f = frustumFaces := by simp [ofFrustum, hh]
      rw [ef]
      refine ⟨(validFaces_of (by decide +kernel) : ValidFaces 8 _), closed_of (by decide +kernel), ?_, ?_⟩
      · show 2 * (8 + _) = _; decide
      · rw [ev]
        refine frustumFaces_outward _ _ _ _ _ _ _ _ _ _ n1 f1 n2 f2 h.depth ?_
        have : f.worldRight = cross f.front f.up := by simp [Frustum.worldRight, Frustum.worldRightOf, hh]
        rw [this, hD _ _ h.front h.up h.perp]; norm_num
  exact ⟨hs, rfl, by simp [ofFrustum, frustumFaces], checks_of hs.valid hs.closed hs.euler⟩

example : exPersp.Valid ∧ exPersp.hand = .right ∧ exOrtho.Valid ∧ exOrtho.hand = .left := ⟨exPersp_valid, rfl, exOrtho_valid, rfl⟩

section
variable {α : Type} [Field α] [LinearOrder α] [IsStrictOrderedRing α]

/-- C81: `Polygon::ToPolyhedron` of a polygon with at least three corners is closed: it has the polygon as its front and the reversed
polygon as its back. -/
theorem C81_polygon (q : List (V3 α)) (h : 3 ≤ q.length) :
    let p := ofPolygon q
    ValidFaces p.v.length p.f ∧ ClosedMesh p.f ∧ p.v = q ∧ p.faces = some [q, q.reverse] ∧
      p.faceIndicesValid = true ∧ p.isClosed = true ∧ p.eulerFormulaHolds = true := by
  obtain ⟨n, hn⟩ : ∃ n, n = q.length := ⟨_, rfl⟩
  have hv : ValidFaces (ofPolygon q).v.length (ofPolygon q).f := by
    intro f hf
    simp only [ofPolygon, List.mem_cons, List.not_mem_nil, or_false] at hf ⊢
    rcases hf with rfl | rfl <;>
    · refine ⟨by simpa using h, List.Nodup.map (fun a b h => by simpa using h) List.nodup_range, fun i hi => ?_⟩
      simp only [List.mem_map, List.mem_range] at hi
      obtain ⟨j, hj, rfl⟩ := hi
      omega
  have hc : ClosedMesh (ofPolygon q).f := by
    unfold ClosedMesh
    rw [meshEdges_of_long fun f hf => le_trans (by norm_num) (hv f hf).1]
    simp only [ofPolygon, List.flatMap_cons, List.flatMap_nil, List.append_nil]
    rw [← hn] at h ⊢
    rw [faceEdges_range, faceEdges_range]
    constructor
    · rw [List.nodup_append']
      refine ⟨List.Nodup.map (fun a b h => by simpa using (Prod.ext_iff.1 h).1) List.nodup_range,
        List.Nodup.map (fun a b h => by simpa using (Prod.ext_iff.1 h).1) List.nodup_range, ?_⟩
      rw [List.disjoint_left]
      rintro ⟨x, y⟩ h1 h2
      simp only [List.mem_map, List.mem_range, Prod.mk.injEq] at h1 h2
      obtain ⟨i, hi, h1, h1'⟩ := h1
      obtain ⟨j, hj, h2, h2'⟩ := h2
      rcases mod_cases hi with ⟨a1, a2⟩ | ⟨a1, a2⟩ <;> rcases mod_cases hj with ⟨b1, b2⟩ | ⟨b1, b2⟩ <;> rw [a2] at h1' <;> rw [b2] at h2' <;>
        push_cast at h1' h2' <;> omega
    · intro x y hxy
      simp only [List.mem_append, List.mem_map, List.mem_range, Prod.mk.injEq] at hxy ⊢
      rcases hxy with ⟨i, hi, rfl, rfl⟩ | ⟨i, hi, rfl, rfl⟩
      · refine Or.inr ⟨n - 1 - (i + 1) % n, by omega, ?_⟩
        rcases mod_cases hi with ⟨a1, a2⟩ | ⟨a1, a2⟩ <;> rw [a2]
        · rw [show n - 1 - (i + 1) + 1 = n - 1 - i by omega, Nat.mod_eq_of_lt (by omega)]
          constructor <;> push_cast <;> omega
        · rw [show n - 1 - 0 + 1 = n by omega, Nat.mod_self]
          constructor <;> push_cast <;> omega
      · refine Or.inl ⟨n - 1 - (i + 1) % n, by omega, ?_⟩
        rcases mod_cases hi with ⟨a1, a2⟩ | ⟨a1, a2⟩ <;> rw [a2]
        · rw [show n - 1 - (i + 1) + 1 = n - 1 - i by omega, Nat.mod_eq_of_lt (by omega)]
          constructor <;> push_cast <;> omega
        · rw [show n - 1 - 0 + 1 = n by omega, Nat.mod_self]
          constructor <;> push_cast <;> omega
  refine ⟨hv, hc, rfl, ?_, checks_of hv hc ?_⟩
  · rw [faces_eq (inRange_of_valid hv)]
    simp only [ofPolygon, List.map_cons, List.map_nil, List.map_map, Option.some.injEq, List.cons.injEq, and_true]
    constructor
    · apply List.ext_getElem
      · simp
      · intro i h1 h2
        simp [List.getElem?_eq_getElem h2]
    · apply List.ext_getElem
      · simp
      · intro i h1 h2
        have h3 : i < q.length := by simpa using h2
        have h4 : ((q.length : ℤ) - 1 - i).toNat = q.length - 1 - i := by omega
        simp [h4, List.getElem_reverse, List.getElem?_eq_getElem (show q.length - 1 - i < q.length by omega)]
  · simp [ofPolygon]; omega

example : 3 ≤ ([⟨0, 0, 0⟩, ⟨1, 0, 0⟩, ⟨1, 1, 0⟩, ⟨0, 1, 0⟩] : List (V3 ℚ)).length := by decide

/-- A scaled and moved solid. -/
theorem solid_regular {V : List (V3 α)} {fs : List (List ℤ)} {L R : α} {k : ℕ} (h : Regular V fs L R) (hk : ∀ f ∈ fs, f.length = k)
    (he : 2 * (V.length + fs.length) = (fs.map List.length).sum + 4) (c : V3 α) {s : α} (hs : 0 < s) (ccw : Bool) :
    let p := solid V fs c s ccw
    (ccw = true → InwardSolid p.v p.f) ∧ (ccw = false → OutwardSolid p.v p.f) ∧ EqualFaces p.v p.f c k (s ^ 2 * L) (s ^ 2 * R) ∧
      p.faceIndicesValid = true ∧ p.isClosed = true ∧ p.eulerFormulaHolds = true := by
  have hr : ∀ f ∈ fs, ∀ i ∈ f.reverse, 0 ≤ i ∧ i < V.length := fun f hf i hi => (h.valid f hf).2.2 i (List.mem_reverse.1 hi)
  have rad : ∀ v ∈ V.map fun u => s • u + c, lenSq (v - c) = s ^ 2 * R := by
    intro v hv
    obtain ⟨u, hu, rfl⟩ := List.mem_map.1 hv
    rw [← h.radius u hu]
    simp only [lenSq, dot, add_x, add_y, add_z, sub_x, sub_y, sub_z, smul_x, smul_y, smul_z]; ring
  have hin : InwardSolid (V.map fun u => s • u + c) fs := by
    refine ⟨by simpa using h.valid, h.closed, by simpa using he, fun f hf => ?_⟩
    show FaceInward _ (f.map (at' _))
    rw [at_map (h.valid f hf).2.2]
    exact faceInward_move hs c (h.inward f hf)
  cases ccw
  · have hf : (solid V fs c s false) = (⟨V.map fun u => s • u + c, fs⟩ : Polyhedron α).flipWindingOrder := rfl
    have c1 := C78_flip (⟨V.map fun u => s • u + c, fs⟩ : Polyhedron α)
    have ev : (solid V fs c s false).v = V.map fun u => s • u + c := c1.1
    have ef : (solid V fs c s false).f = fs.map List.reverse := c1.2.1
    have hout : OutwardSolid (solid V fs c s false).v (solid V fs c s false).f := by
      have k0 := checks_of (p := ⟨V.map fun u => s • u + c, fs⟩) hin.valid hin.closed hin.euler
      refine ⟨(faceIndicesValid_iff _).1 ?_, (isClosed_iff _).1 ?_, ?_, ?_⟩
      · rw [hf, c1.2.2.2.2.1]; exact k0.1
      · rw [hf, c1.2.2.2.1]; exact k0.2.1
      · rw [ev, ef]
        have := hin.euler
        simpa [Function.comp_def] using this
      · rw [ev, ef]
        intro g hg
        obtain ⟨f, hf, rfl⟩ := List.mem_map.1 hg
        show FaceOutward _ (_ : List _)
        have := faceOutward_move hs c (h.outward f hf)
        rw [← at_map (hr f hf)] at this
        exact this
    refine ⟨by simp, fun _ => hout, ?_, checks_of hout.valid hout.closed hout.euler⟩
    rw [ev, ef]
    refine ⟨fun g hg => ?_, fun g hg => ?_, rad⟩
    · obtain ⟨f, hf, rfl⟩ := List.mem_map.1 hg
      rw [List.length_reverse]; exact hk f hf
    · obtain ⟨f, hf, rfl⟩ := List.mem_map.1 hg
      have := equalSides_move (s := s) c (h.sides f hf).2
      rw [← at_map (hr f hf)] at this
      exact this
  · refine ⟨fun _ => hin, by simp, ⟨hk, fun f hf => ?_, rad⟩, checks_of hin.valid hin.closed hin.euler⟩
    have := equalSides_move (s := s) c (h.sides f hf).1
    rw [← at_map (h.valid f hf).2.2] at this
    exact this

/-- The cube with the faces turned inwards, as the other solids have them. -/
def cubeV : List (V3 α) := [⟨-1, -1, -1⟩, ⟨-1, -1, 1⟩, ⟨-1, 1, -1⟩, ⟨-1, 1, 1⟩, ⟨1, -1, -1⟩, ⟨1, -1, 1⟩, ⟨1, 1, -1⟩, ⟨1, 1, 1⟩]

theorem cube_regular : Regular (cubeV : List (V3 α)) (boxFaces.map List.reverse) 4 3 := by
  have key : ∀ f ∈ boxFaces.map List.reverse, FaceInward (cubeV : List (V3 α)) (f.map (at' cubeV)) ∧
      FaceOutward cubeV (f.reverse.map (at' cubeV : ℤ → V3 α)) := by
    simp only [boxFaces, List.forall_mem_cons, List.map_cons, List.map_nil, List.reverse_cons, List.reverse_nil, List.nil_append,
      List.cons_append]
    refine ⟨?_, ?_, ?_, ?_, ?_, ?_, by simp⟩
    all_goals
      simp only [at', cubeV, Int.toNat_zero, Int.toNat_one, Int.reduceToNat, List.getD_cons_zero, List.getD_cons_succ]
      refine ⟨faceInward_of ?_ ?_ ⟨⟨0, 0, 0⟩, by norm_num [dot, cross]⟩, faceOutward_of ?_ ?_ ⟨⟨0, 0, 0⟩, by norm_num [dot, cross]⟩⟩ <;>
        norm_num [dot, cross]
  refine ⟨(validFaces_of (by decide +kernel) : ValidFaces 8 _), closed_of (by decide +kernel), fun f hf => (key f hf).1, fun f hf => (key f hf).2, ?_, ?_⟩
  · simp only [boxFaces, List.forall_mem_cons, List.map_cons, List.map_nil, List.reverse_cons, List.reverse_nil, List.nil_append,
      List.cons_append]
    refine ⟨⟨?_, ?_⟩, ⟨?_, ?_⟩, ⟨?_, ?_⟩, ⟨?_, ?_⟩, ⟨?_, ?_⟩, ⟨?_, ?_⟩, by simp⟩
    all_goals
      simp only [EqualSides, at', cubeV, Int.toNat_zero, Int.toNat_one, Int.reduceToNat, List.getD_cons_zero, List.getD_cons_succ,
        List.rotate_cons_succ, List.rotate_zero, List.cons_append, List.nil_append, List.zip_cons_cons, List.zip_nil_left, List.forall_mem_cons]
      refine ⟨?_, ?_, ?_, ?_, by simp⟩ <;> norm_num [lenSq, dot]
  · simp only [cubeV, List.forall_mem_cons]
    norm_num [lenSq, dot]

theorem hexahedron_eq (c : V3 α) (s : α) (ccw : Bool) : hexahedron c s ccw = solid cubeV (boxFaces.map List.reverse) c (s / 2) ccw := by
  have ev : (ofAABB (((⟨⟨-1, -1, -1⟩, ⟨1, 1, 1⟩⟩ : AABB α).scale ⟨0, 0, 0⟩ (s * (1 / 2))).translate c)).v =
      cubeV.map fun u => (s / 2) • u + c := by
    show List.map _ [0, 1, 2, 3, 4, 5, 6, 7] = _
    simp only [cubeV, List.map_cons, List.map_nil, AABB.cornerPoint, AABB.scale, AABB.translate, List.cons.injEq, and_true]
    refine ⟨?_, ?_, ?_, ?_, ?_, ?_, ?_, ?_⟩ <;> ext <;> simp <;> ring
  cases ccw
  · have c1 := C78_flip (⟨cubeV.map fun u => (s / 2) • u + c, boxFaces⟩ : Polyhedron α)
    rw [show hexahedron c s false = ⟨cubeV.map fun u => (s / 2) • u + c, boxFaces⟩ by rw [← ev]; rfl]
    rw [← c1.2.2.1]
    congr 1
  · rw [show hexahedron c s true = (⟨cubeV.map fun u => (s / 2) • u + c, boxFaces⟩ : Polyhedron α).flipWindingOrder by rw [← ev]; rfl]
    rfl

theorem equalFaces_cast {V : List (V3 α)} {fs : List (List ℤ)} {c : V3 α} {k : ℕ} {L R L' R' : α} (h : EqualFaces V fs c k L R) (h1 : L = L')
    (h2 : R = R') : EqualFaces V fs c k L' R' := h1 ▸ h2 ▸ h

/-- C81: `Tetrahedron` of a positive scale is a regular tetrahedron around the centre, with side `√2 scale`; the faces look
outwards if `ccwIsFrontFacing` is false. -/
theorem C81_tetrahedron_partial (c : V3 α) (s : α) (hs : 0 < s) (ccw : Bool) :
    let p := tetrahedron c s ccw
    (ccw = false → OutwardSolid p.v p.f) ∧ p.f.length = 4 ∧ EqualFaces p.v p.f c 3 (2 * s ^ 2) (3 / 4 * s ^ 2) ∧
      p.faceIndicesValid = true ∧ p.isClosed = true ∧ p.eulerFormulaHolds = true := by
  obtain ⟨-, h2, h3, h4⟩ := solid_regular tetra_regular (k := 3) (by decide) (by simp [tetraVertices, tetraFaces]) c (half_pos hs) ccw
  refine ⟨h2, by cases ccw <;> simp [tetrahedron, solid, flipWindingOrder, tetraFaces], equalFaces_cast h3 (by ring) (by ring), h4⟩

/-- C81: `Hexahedron` is a cube around the centre with side `scale`; the faces look outwards if `ccwIsFrontFacing` is false. -/
theorem C81_hexahedron_partial (c : V3 α) (s : α) (hs : 0 < s) (ccw : Bool) :
    let p := hexahedron c s ccw
    (ccw = false → OutwardSolid p.v p.f) ∧ p.f.length = 6 ∧ EqualFaces p.v p.f c 4 (s ^ 2) (3 / 4 * s ^ 2) ∧
      p.faceIndicesValid = true ∧ p.isClosed = true ∧ p.eulerFormulaHolds = true := by
  obtain ⟨-, h2, h3, h4⟩ := solid_regular cube_regular (k := 4) (by decide) (by simp [cubeV, boxFaces]) c (half_pos hs) ccw
  rw [← hexahedron_eq] at h2 h3 h4
  refine ⟨h2, by rw [hexahedron_eq]; cases ccw <;> simp [solid, flipWindingOrder, boxFaces], equalFaces_cast h3 (by ring) (by ring), h4⟩

end

/-- C81: `Octahedron` is a regular octahedron with side `scale / √8`. -/
theorem C81_octahedron_partial (c : V3 ℝ) (s : ℝ) (hs : 0 < s) (ccw : Bool) :
    let p := octahedron c s ccw
    (ccw = false → OutwardSolid p.v p.f) ∧ p.f.length = 8 ∧ EqualFaces p.v p.f c 3 (s ^ 2 / 8) (s ^ 2 / 16) ∧
      p.faceIndicesValid = true ∧ p.isClosed = true ∧ p.eulerFormulaHolds = true := by
  obtain ⟨-, h2, h3, h4⟩ := solid_regular octa_regular (k := 3) (by decide) (by simp [octaVertices, octaFaces]) c (half_pos hs) ccw
  refine ⟨h2, by cases ccw <;> simp [octahedron, solid, flipWindingOrder, octaFaces], equalFaces_cast h3 (by ring) (by ring), h4⟩

/-- C81: `Icosahedron` is a regular icosahedron; with the golden ratio `φ` its side is `scale / φ`. -/
theorem C81_icosahedron_partial (c : V3 ℝ) (s : ℝ) (hs : 0 < s) (ccw : Bool) :
    let p := icosahedron c s ccw
    let φ : ℝ := (1 + Real.sqrt 5) / 2
    (ccw = false → OutwardSolid p.v p.f) ∧ p.f.length = 20 ∧ EqualFaces p.v p.f c 3 ((s / φ) ^ 2) (s ^ 2 * (1 / 2 - 1 / (4 * φ))) ∧
      p.faceIndicesValid = true ∧ p.isClosed = true ∧ p.eulerFormulaHolds = true := by
  obtain ⟨-, h2, h3, h4⟩ := solid_regular icosa_regular (k := 3) (by decide) (by simp [icosaVertices, icosaFaces]) c hs ccw
  have ephi : (1 + Real.sqrt 5) / 2 = phi := by unfold phi; ring
  simp only [ephi]
  refine ⟨h2, by cases ccw <;> simp [icosahedron, solid, flipWindingOrder, icosaFaces], equalFaces_cast h3 ?_ rfl, h4⟩
  rw [div_eq_mul_one_div s, mul_pow, inv_phi]
  have := phi_spec.1
  linear_combination (-s ^ 2) * this

/-- C81: `Dodecahedron` is a regular dodecahedron; with the golden ratio `φ` its side is `scale (2 - φ)`. -/
theorem C81_dodecahedron_partial (c : V3 ℝ) (s : ℝ) (hs : 0 < s) (ccw : Bool) :
    let p := dodecahedron c s ccw
    let φ : ℝ := (1 + Real.sqrt 5) / 2
    (ccw = false → OutwardSolid p.v p.f) ∧ p.f.length = 12 ∧ EqualFaces p.v p.f c 5 ((s * (2 - φ)) ^ 2) (3 / 4 * (s / φ) ^ 2) ∧
      p.faceIndicesValid = true ∧ p.isClosed = true ∧ p.eulerFormulaHolds = true := by
  obtain ⟨-, h2, h3, h4⟩ := solid_regular dodeca_regular (k := 5) (by decide) (by simp [dodecaVertices, dodecaFaces]) c (half_pos hs) ccw
  have ephi : (1 + Real.sqrt 5) / 2 = phi := by unfold phi; ring
  simp only [ephi]
  refine ⟨h2, by cases ccw <;> simp [dodecahedron, solid, flipWindingOrder, dodecaFaces], equalFaces_cast h3 (by ring) (by ring), h4⟩

example : (0 : ℝ) < 5 ∧ (0 : ℚ) < 5 := by norm_num

/-- C81: with the default `ccwIsFrontFacing = true` all faces of all five solids look inwards, although the normals of a polyhedron
are documented to point outwards. -/
theorem C81_solids_violation (c : V3 ℝ) (s : ℝ) (hs : 0 < s) :
    InwardSolid (tetrahedron c s true).v (tetrahedron c s true).f ∧ InwardSolid (octahedron c s true).v (octahedron c s true).f ∧
    InwardSolid (hexahedron c s true).v (hexahedron c s true).f ∧ InwardSolid (icosahedron c s true).v (icosahedron c s true).f ∧
    InwardSolid (dodecahedron c s true).v (dodecahedron c s true).f := by
  refine ⟨(solid_regular tetra_regular (k := 3) (by decide) (by simp [tetraVertices, tetraFaces]) c (half_pos hs) true).1 rfl,
    (solid_regular octa_regular (k := 3) (by decide) (by simp [octaVertices, octaFaces]) c (half_pos hs) true).1 rfl, ?_,
    (solid_regular icosa_regular (k := 3) (by decide) (by simp [icosaVertices, icosaFaces]) c hs true).1 rfl,
    (solid_regular dodeca_regular (k := 5) (by decide) (by simp [dodecaVertices, dodecaFaces]) c (half_pos hs) true).1 rfl⟩
  rw [hexahedron_eq]
  exact (solid_regular cube_regular (k := 4) (by decide) (by simp [cubeV, boxFaces]) c (half_pos hs) true).1 rfl

/-! ### Capsules -/

/-- The directions of a capsule. -/
theorem capsuleBasis_spec (nz : Bool) {a b : V3 ℝ} (h : 1 / 1000000 < len (b - a)) (ccw : Bool) :
    let d := f3Normalized (b - a)
    let w := capsuleBasis nz d ccw
    b = a + len (b - a) • d ∧ dot (cross w.1 w.2) d = (if ccw then 1 else -1) ∧
      lenSq w.1 = 1 ∧ lenSq w.2 = 1 ∧ dot w.1 w.2 = 0 ∧ dot w.1 d = 0 ∧ dot w.2 d = 0 ∧ lenSq d = 1 := by
  have hu := lenSq_normalized (b - a)
  have hd := f3Normalized_pos h
  obtain ⟨k1, k2, k3, k4, k5, k6⟩ := C54_perpendicularBasis_partial nz _ hu
  intro d w
  have hb : b = a + len (b - a) • d := by
    have h0 : len (b - a) ≠ 0 := by intro h0; rw [h0] at h; norm_num at h
    show b = a + len (b - a) • f3Normalized (b - a)
    rw [hd]
    ext <;> simp only [add_x, add_y, add_z, smul_x, smul_y, smul_z, sub_x, sub_y, sub_z] <;> field_simp <;> ring
  have huu : dot d d = 1 := hu
  have e0 : ¬ dot (cross (f3PerpendicularBasis nz d).1 (f3PerpendicularBasis nz d).2) d < 0 := by
    rw [k6, huu]; norm_num
  have ew : w = (if ccw then (f3PerpendicularBasis nz d).1 else -(f3PerpendicularBasis nz d).1, (f3PerpendicularBasis nz d).2) := by
    show capsuleBasis nz d ccw = _
    unfold capsuleBasis
    simp only [if_neg e0]
    cases ccw <;> simp
  refine ⟨hb, ?_⟩
  rw [ew]
  cases ccw
  · simp only [Bool.false_eq_true, if_false]
    refine ⟨?_, by rw [← k1]; simp only [lenSq, dot, neg_x, neg_y, neg_z]; ring, k2, ?_, ?_, by rw [dot_comm]; exact k4, hu⟩
    · have : cross (-(f3PerpendicularBasis nz d).1) (f3PerpendicularBasis nz d).2 = -d := by
        show _ = -f3Normalized (b - a)
        rw [← k6]; ext <;> simp only [cross, neg_x, neg_y, neg_z] <;> ring
      rw [this, show dot (-d) d = -dot d d by simp [dot]; ring, huu]
    · rw [show ∀ x y : V3 ℝ, dot (-x) y = -dot x y from fun x y => by simp [dot]; ring, k5, neg_zero]
    · rw [show ∀ x y : V3 ℝ, dot (-x) y = -dot x y from fun x y => by simp [dot]; ring, dot_comm, k3, neg_zero]
  · simp only [if_true]
    exact ⟨by rw [k6, huu], k1, k2, k5, by rw [dot_comm]; exact k3, by rw [dot_comm]; exact k4, hu⟩

theorem createCapsule_eq (nz : Bool) {a b : V3 ℝ} (r : ℝ) (n : ℕ) (ccw : Bool) (h : 1 / 1000000 < len (b - a)) :
    createCapsule nz a b r n ccw = ⟨capsuleV a (capsuleBasis nz (f3Normalized (b - a)) ccw).1 (capsuleBasis nz (f3Normalized (b - a)) ccw).2
      (f3Normalized (b - a)) r (len (b - a)) n, capsuleFaces n⟩ := by
  have hb := (capsuleBasis_spec nz h ccw).1
  unfold createCapsule capsuleV
  dsimp only
  rw [capsuleRing_eq a _ _ (f3Normalized (b - a)) r n (len (b - a)) b hb,
    capsuleRing_eq a _ _ (f3Normalized (b - a)) r n 0 a (by ext <;> simp)]
  rfl

theorem createSharp_eq (nz : Bool) {a b : V3 ℝ} (r t : ℝ) (n : ℕ) (ccw : Bool) (h : 1 / 1000000 < len (b - a)) :
    createSharpCapsule nz a b r t n ccw = ⟨sharpV a (capsuleBasis nz (f3Normalized (b - a)) ccw).1
      (capsuleBasis nz (f3Normalized (b - a)) ccw).2 (f3Normalized (b - a)) r (len (b - a)) n t, sharpCapsuleFaces n⟩ := by
  have hb := (capsuleBasis_spec nz h ccw).1
  unfold createSharpCapsule sharpV capsuleV
  dsimp only
  rw [capsuleRing_eq a _ _ (f3Normalized (b - a)) r n (len (b - a)) b hb,
    capsuleRing_eq a _ _ (f3Normalized (b - a)) r n 0 a (by ext <;> simp)]
  congr 2
  generalize len (b - a) = l at hb
  generalize f3Normalized (b - a) = d at hb
  rw [hb]
  simp only [pt, List.cons.injEq, and_true]
  constructor <;> ext <;> simp <;> ring

/-- The vertices lie on the two circles. -/
theorem cyl_mem {a U V D : V3 ℝ} {r h : ℝ} {n : ℕ} (hU : lenSq U = 1) (hV : lenSq V = 1) (hUV : dot U V = 0) (hUD : dot U D = 0)
    (hVD : dot V D = 0) (z : ℝ) (k : ℕ) : lenSq (cyl a U V D r n z k - (a + z • D)) = r ^ 2 ∧ dot (cyl a U V D r n z k - (a + z • D)) D = 0 := by
  have e : cyl a U V D r n z k - (a + z • D) = rc n r k • U + rs n r k • V := by
    ext <;> simp [cyl, pt] <;> ring
  have e2 : lenSq (rc n r k • U + rs n r k • V) = rc n r k ^ 2 * lenSq U + 2 * (rc n r k * rs n r k) * dot U V + rs n r k ^ 2 * lenSq V := by
    simp [lenSq, dot]; ring
  have e3 : dot (rc n r k • U + rs n r k • V) D = rc n r k * dot U D + rs n r k * dot V D := by
    simp [dot]; ring
  rw [e, e2, e3, hU, hV, hUV, hUD, hVD]
  refine ⟨?_, by ring⟩
  simp only [rc, rs]
  linear_combination r ^ 2 * Real.cos_sq_add_sin_sq ((k : ℝ) * (Real.pi * 2 / n))

/-- C81: `CreateCapsule` for distinct end points, a positive radius and at least three vertices per cap is a closed prism with `2 n`
vertices on the two circles of radius `r` around the ends, `n + 2` faces and outward normals; with `ccwIsFrontFacing = false` the
normals point inwards. -/
theorem C81_capsule (nz : Bool) (a b : V3 ℝ) (r : ℝ) (n : ℕ) (ccw : Bool) (h : 1 / 1000000 < len (b - a)) (hr : 0 < r) (hn : 3 ≤ n) :
    let p := createCapsule nz a b r n ccw
    (ccw = true → OutwardSolid p.v p.f) ∧ (ccw = false → InwardSolid p.v p.f) ∧ p.v.length = 2 * n ∧ p.f.length = n + 2 ∧
      (∀ x ∈ p.v, (lenSq (x - a) = r ^ 2 ∧ dot (x - a) (b - a) = 0) ∨ (lenSq (x - b) = r ^ 2 ∧ dot (x - b) (b - a) = 0)) ∧
      p.faceIndicesValid = true ∧ p.isClosed = true ∧ p.eulerFormulaHolds = true := by
  obtain ⟨hb, hs, hU, hV, hUV, hUD, hVD, hD⟩ := capsuleBasis_spec nz h ccw
  have hl : 0 < len (b - a) := by linarith
  rw [createCapsule_eq nz r n ccw h]
  have hsig := capsuleFaces_signed (a := a) (U := (capsuleBasis nz (f3Normalized (b - a)) ccw).1)
    (V := (capsuleBasis nz (f3Normalized (b - a)) ccw).2) (D := f3Normalized (b - a)) hn hr hl
  have hv : ValidFaces (capsuleV a (capsuleBasis nz (f3Normalized (b - a)) ccw).1 (capsuleBasis nz (f3Normalized (b - a)) ccw).2
      (f3Normalized (b - a)) r (len (b - a)) n).length (capsuleFaces n) := by
    rw [capsuleV_length]; exact capsuleFaces_valid hn
  have he : 2 * ((capsuleV a (capsuleBasis nz (f3Normalized (b - a)) ccw).1 (capsuleBasis nz (f3Normalized (b - a)) ccw).2
      (f3Normalized (b - a)) r (len (b - a)) n).length + (capsuleFaces n).length) = ((capsuleFaces n).map List.length).sum + 4 := by
    rw [capsuleV_length, (capsuleFaces_count n).1, (capsuleFaces_count n).2]; omega
  refine ⟨fun hc => ⟨hv, capsuleFaces_closed hn, he, fun f hf => (hsig f hf).1 ?_⟩, fun hc => ⟨hv, capsuleFaces_closed hn, he,
    fun f hf => (hsig f hf).2 ?_⟩, capsuleV_length _ _ _ _ _ _ _, (capsuleFaces_count n).1, fun x hx => ?_,
    checks_of (p := ⟨_, _⟩) hv (capsuleFaces_closed hn) he⟩
  · rw [hs, hc]; norm_num
  · rw [hs, hc]; norm_num
  · have hba : b - a = len (b - a) • f3Normalized (b - a) := by
      nth_rw 1 [hb]; ext <;> simp
    have hdot : ∀ y, dot y (b - a) = len (b - a) * dot y (f3Normalized (b - a)) := fun y => by
      rw [show dot y (b - a) = dot y (len (b - a) • f3Normalized (b - a)) from congrArg _ hba, dot_smul]
    simp only [capsuleV, List.mem_append, List.mem_map, List.mem_range] at hx
    rcases hx with ⟨k, hk, rfl⟩ | ⟨k, hk, rfl⟩
    · have := cyl_mem (a := a) (r := r) (h := r) (n := n) hU hV hUV hUD hVD (len (b - a)) k
      rw [← hb] at this
      refine Or.inr ⟨this.1, ?_⟩
      rw [hdot, this.2, mul_zero]
    · have := cyl_mem (a := a) (r := r) (h := r) (n := n) hU hV hUV hUD hVD 0 k
      rw [show a + (0 : ℝ) • f3Normalized (b - a) = a by ext <;> simp] at this
      refine Or.inl ⟨this.1, ?_⟩
      rw [hdot, this.2, mul_zero]

example : (1 : ℝ) / 1000000 < len ((⟨0, 3, 4⟩ : V3 ℝ) - ⟨0, 0, 0⟩) := by
  rw [len, show lenSq ((⟨0, 3, 4⟩ : V3 ℝ) - ⟨0, 0, 0⟩) = 5 ^ 2 by norm_num [lenSq, dot], Real.sqrt_sq (by norm_num)]; norm_num

/-- C81: `CreateSharpCapsule` with a positive distance of the tips is a closed solid with `2 n + 2` vertices, `3 n` faces and outward
normals; with `ccwIsFrontFacing = false` they point inwards. -/
theorem C81_sharpCapsule (nz : Bool) (a b : V3 ℝ) (r t : ℝ) (n : ℕ) (ccw : Bool) (h : 1 / 1000000 < len (b - a)) (hr : 0 < r) (ht : 0 < t)
    (hn : 3 ≤ n) :
    let p := createSharpCapsule nz a b r t n ccw
    (ccw = true → OutwardSolid p.v p.f) ∧ (ccw = false → InwardSolid p.v p.f) ∧ p.v.length = 2 * n + 2 ∧ p.f.length = 3 * n ∧
      p.v.take (2 * n) = (createCapsule nz a b r n ccw).v ∧
      p.v.drop (2 * n) = [b + (t / len (b - a)) • (b - a), a - (t / len (b - a)) • (b - a)] ∧
      p.faceIndicesValid = true ∧ p.isClosed = true ∧ p.eulerFormulaHolds = true := by
  obtain ⟨hb, hs, hU, hV, hUV, hUD, hVD, hD⟩ := capsuleBasis_spec nz h ccw
  have hl : 0 < len (b - a) := by linarith
  rw [createSharp_eq nz r t n ccw h, createCapsule_eq nz r n ccw h]
  have hsig := sharpFaces_signed (a := a) (U := (capsuleBasis nz (f3Normalized (b - a)) ccw).1)
    (V := (capsuleBasis nz (f3Normalized (b - a)) ccw).2) (D := f3Normalized (b - a)) hn hr hl ht
  have hlen : (sharpV a (capsuleBasis nz (f3Normalized (b - a)) ccw).1 (capsuleBasis nz (f3Normalized (b - a)) ccw).2
      (f3Normalized (b - a)) r (len (b - a)) n t).length = 2 * n + 2 := by
    rw [sharpV, List.length_append, capsuleV_length]; rfl
  have hv : ValidFaces (sharpV a (capsuleBasis nz (f3Normalized (b - a)) ccw).1 (capsuleBasis nz (f3Normalized (b - a)) ccw).2
      (f3Normalized (b - a)) r (len (b - a)) n t).length (sharpCapsuleFaces n) := by
    rw [hlen]; exact sharpFaces_valid hn
  have he : 2 * ((sharpV a (capsuleBasis nz (f3Normalized (b - a)) ccw).1 (capsuleBasis nz (f3Normalized (b - a)) ccw).2
      (f3Normalized (b - a)) r (len (b - a)) n t).length + (sharpCapsuleFaces n).length) = ((sharpCapsuleFaces n).map List.length).sum + 4 := by
    rw [hlen, (sharpFaces_count n).1, (sharpFaces_count n).2]; omega
  refine ⟨fun hc => ⟨hv, sharpFaces_closed hn, he, fun f hf => (hsig f hf).1 ?_⟩, fun hc => ⟨hv, sharpFaces_closed hn, he,
    fun f hf => (hsig f hf).2 ?_⟩, hlen, (sharpFaces_count n).1, ?_, ?_,
    checks_of (p := ⟨_, _⟩) hv (sharpFaces_closed hn) he⟩
  · rw [hs, hc]; norm_num
  · rw [hs, hc]; norm_num
  · show List.take (2 * n) (sharpV _ _ _ _ _ _ _ _) = _
    rw [sharpV, List.take_append_of_le_length (by rw [capsuleV_length]), List.take_of_length_le (by rw [capsuleV_length])]
  · show List.drop (2 * n) (sharpV _ _ _ _ _ _ _ _) = _
    rw [sharpV, List.drop_append_of_le_length (by rw [capsuleV_length]), List.drop_of_length_le (by rw [capsuleV_length]), List.nil_append]
    rw [f3Normalized_pos h]
    have h0 := hl.ne'
    simp only [List.cons.injEq, and_true]
    constructor <;> ext <;> simp only [pt, add_x, add_y, add_z, sub_x, sub_y, sub_z, smul_x, smul_y, smul_z] <;> field_simp <;> ring

/-- C81: with two vertices per cap there is no solid: the caps have only two corners. -/
theorem C81_capsule_violation (nz : Bool) (a b : V3 ℝ) (r : ℝ) (ccw : Bool) : (createCapsule nz a b r 2 ccw).faceIndicesValid = false := by
  rw [← Bool.not_eq_true, faceIndicesValid_iff]
  intro h
  have := (h [0, 1] (by simp [createCapsule, List.range_succ])).1
  simp at this

end Polyhedron
end MGL
