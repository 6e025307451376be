import Verif.Proofs.BoxMesh
import Verif.Props.OBBMore
import Verif.Model.Triangle

/-! C97: triangle lists and edge lists of boxes. -/

set_option linter.unusedSectionVars false

namespace MGL
open V3
variable {α : Type*} [Field α] [LinearOrder α] [IsStrictOrderedRing α]

/-- C97: `Triangulate` fills exactly `NumVerticesInTriangulation` entries of each of its output arrays. -/
theorem C97_count (b : AABB α) (nx ny nz : ℕ) (ccw : Bool) :
    (b.triangulatePos nx ny nz ccw).length = AABB.numVerticesInTriangulation nx ny nz ∧
    (AABB.triangulateNormal (α := α) nx ny nz ccw).length = AABB.numVerticesInTriangulation nx ny nz ∧
    (AABB.triangulateUV (α := α) nx ny nz ccw).length = AABB.numVerticesInTriangulation nx ny nz := by
  have k : ∀ {β : Type _} (f : Fin 6 → α → α → β), (AABB.triangulateWith f nx ny nz ccw).length =
      AABB.numVerticesInTriangulation nx ny nz := by
    intro β f
    unfold AABB.triangulateWith AABB.numVerticesInTriangulation
    simp [List.length_flatMap, AABB.length_gridVertices, AABB.gridSize, List.finRange_succ, Fin.succ]
    ring
  exact ⟨k _, k _, k _⟩

/-- Every triangle of the list of faces and parameters: its face, its cell and the bounds of its parameters. -/
theorem AABB.param_cell (nx ny nz : ℕ) (ccw : Bool) (q : (Fin 6 × α × α) × (Fin 6 × α × α) × (Fin 6 × α × α))
    (hq : q ∈ Spec.triples (AABB.triangulateWith (fun i (u v : α) => (i, u, v)) nx ny nz ccw)) :
    ∃ i x y, x < (AABB.gridSize nx ny nz i).1 ∧ y < (AABB.gridSize nx ny nz i).2 ∧ (q.1.1 = i ∧ q.2.1.1 = i ∧ q.2.2.1 = i) ∧
      (∀ b : AABB α, (b.facePoint i q.1.2.1 q.1.2.2, b.facePoint i q.2.1.2.1 q.2.1.2.2, b.facePoint i q.2.2.2.1 q.2.2.2.2) ∈
        AABB.cellTris (b.facePoint i) (AABB.gridSize nx ny nz i).1 (AABB.gridSize nx ny nz i).2 (AABB.gridFlip ccw i) x y) ∧
      ∀ w ∈ [q.1, q.2.1, q.2.2], 0 ≤ w.2.1 ∧ w.2.1 ≤ 1 ∧ 0 ≤ w.2.2 ∧ w.2.2 ≤ 1 := by
  rw [AABB.mem_triangulateWith] at hq
  obtain ⟨i, x, y, hx, hy, hm⟩ := hq
  have n1 : (0 : α) < (AABB.gridSize nx ny nz i).1 := by exact_mod_cast (by omega : 0 < (AABB.gridSize nx ny nz i).1)
  have n2 : (0 : α) < (AABB.gridSize nx ny nz i).2 := by exact_mod_cast (by omega : 0 < (AABB.gridSize nx ny nz i).2)
  have x1 : (x : α) + 1 ≤ (AABB.gridSize nx ny nz i).1 := by exact_mod_cast hx
  have y1 : (y : α) + 1 ≤ (AABB.gridSize nx ny nz i).2 := by exact_mod_cast hy
  have u0 : 0 ≤ (x : α) / (AABB.gridSize nx ny nz i).1 := by positivity
  have u1 : (x : α) / (AABB.gridSize nx ny nz i).1 ≤ 1 := by rw [div_le_one n1]; linarith
  have u2 : 0 ≤ ((x : α) + 1) / (AABB.gridSize nx ny nz i).1 := by positivity
  have u3 : ((x : α) + 1) / (AABB.gridSize nx ny nz i).1 ≤ 1 := by rw [div_le_one n1]; linarith
  have v0 : 0 ≤ (y : α) / (AABB.gridSize nx ny nz i).2 := by positivity
  have v1 : (y : α) / (AABB.gridSize nx ny nz i).2 ≤ 1 := by rw [div_le_one n2]; linarith
  have v2 : 0 ≤ ((y : α) + 1) / (AABB.gridSize nx ny nz i).2 := by positivity
  have v3 : ((y : α) + 1) / (AABB.gridSize nx ny nz i).2 ≤ 1 := by rw [div_le_one n2]; linarith
  refine ⟨i, x, y, hx, hy, ?_⟩
  unfold AABB.cellTris at hm ⊢
  dsimp only at hm ⊢
  generalize AABB.gridFlip ccw i = fl at hm ⊢
  cases fl <;>
    simp only [Bool.false_eq_true, if_false, if_true, List.mem_cons, List.not_mem_nil, or_false] at hm ⊢ <;>
    rcases hm with rfl | rfl <;>
    refine ⟨⟨rfl, rfl, rfl⟩, fun b => by simp, ?_⟩ <;>
    · intro w hw
      rcases hw with rfl | rfl | rfl <;> exact ⟨by assumption, by assumption, by assumption, by assumption⟩

theorem AABB.param_pos (b : AABB α) (nx ny nz : ℕ) (ccw : Bool) : b.triangulatePos nx ny nz ccw =
    (AABB.triangulateWith (fun i (u v : α) => (i, u, v)) nx ny nz ccw).map fun q => b.facePoint q.1 q.2.1 q.2.2 := by
  rw [AABB.triangulateWith_map]; rfl

theorem AABB.param_normal (nx ny nz : ℕ) (ccw : Bool) : AABB.triangulateNormal (α := α) nx ny nz ccw =
    (AABB.triangulateWith (fun i (u v : α) => (i, u, v)) nx ny nz ccw).map fun q => AABB.faceNormal q.1 := by
  rw [AABB.triangulateWith_map]; rfl

theorem AABB.faceNormal_eq (i : Fin 6) : (AABB.faceNormal i : V3 α) = Spec.outward i := by fin_cases i <;> rfl

/-- C97: the triangles of a box. Every three consecutive entries of the position array, with the entries of the normal array
and of the UV array at the same indices, are a triangle on one face of the box, whose three normals are the outward direction
of this face, and whose UV coordinates, in the unit square, give its vertices on the face. -/
theorem C97_triangles (b : AABB α) (hb : b.Proper) (nx ny nz : ℕ) (ccw : Bool) :
    ∀ t ∈ Spec.triples ((b.triangulatePos nx ny nz ccw).zip ((AABB.triangulateNormal (α := α) nx ny nz ccw).zip
        (AABB.triangulateUV (α := α) nx ny nz ccw))), ∃ face : Fin 6,
      Spec.tri t.1.1 t.2.1.1 t.2.2.1 ⊆ Spec.boxFace b.minPoint b.maxPoint face ∧
      (t.1.2.1 = Spec.outward face ∧ t.2.1.2.1 = Spec.outward face ∧ t.2.2.2.1 = Spec.outward face) ∧
      (t.1.1 = b.facePoint face t.1.2.2.1 t.1.2.2.2 ∧ t.2.1.1 = b.facePoint face t.2.1.2.2.1 t.2.1.2.2.2 ∧
        t.2.2.1 = b.facePoint face t.2.2.2.2.1 t.2.2.2.2.2) ∧
      ∀ q ∈ [t.1, t.2.1, t.2.2], 0 ≤ q.2.2.1 ∧ q.2.2.1 ≤ 1 ∧ 0 ≤ q.2.2.2 ∧ q.2.2.2 ≤ 1 := by
  have e3 : AABB.triangulateUV (α := α) nx ny nz ccw = (AABB.triangulateWith (fun i (u v : α) => (i, u, v)) nx ny nz ccw).map
      fun q => q.2 := by rw [AABB.triangulateWith_map]; rfl
  intro t ht
  rw [AABB.param_pos, AABB.param_normal, e3, List.zip_map', List.zip_map', Spec.triples_map] at ht
  obtain ⟨q, hq, rfl⟩ := List.mem_map.1 ht
  obtain ⟨i, x, y, hx, hy, ⟨i1, i2, i3⟩, hm, hw⟩ := AABB.param_cell nx ny nz ccw q hq
  have hs := AABB.cell_subset b hb i _ _ _ x y hx hy _ (hm b)
  simp only [List.forall_mem_cons] at hw ⊢
  refine ⟨i, ?_, ?_, ?_, hw.1, hw.2.1, hw.2.2.1, by simp⟩
  · rw [i1, i2, i3]; exact hs
  · rw [i1, i2, i3, AABB.faceNormal_eq]; exact ⟨rfl, rfl, rfl⟩
  · rw [i1, i2, i3]; exact ⟨rfl, rfl, rfl⟩

example := C97_triangles (⟨⟨0, 0, 0⟩, ⟨1, 2, 3⟩⟩ : AABB ℚ) (by simp [AABB.Proper]) 2 3 4 true

/-- C97: the triangles cover the surface of the box. -/
theorem C97_cover (b : AABB α) (hb : b.Proper) (nx ny nz : ℕ) (hx : 1 ≤ nx) (hy : 1 ≤ ny) (hz : 1 ≤ nz) (ccw : Bool) (p : V3 α)
    (hp : p ∈ Spec.box b.minPoint b.maxPoint) (hs : p ∉ Spec.openBox b.minPoint b.maxPoint) :
    ∃ t ∈ Spec.triples (b.triangulatePos nx ny nz ccw), p ∈ Spec.tri t.1 t.2.1 t.2.2 := by
  have hf : ∃ i, p ∈ Spec.boxFace b.minPoint b.maxPoint i := by
    by_contra hc
    push Not at hc
    have n := fun i h => hc i ⟨hp, h⟩
    obtain ⟨a1, a2, a3, a4, a5, a6⟩ := hp
    refine hs ⟨lt_of_le_of_ne a1 fun e => n 0 e.symm, lt_of_le_of_ne a2 fun e => n 1 e, lt_of_le_of_ne a3 fun e => n 2 e.symm,
      lt_of_le_of_ne a4 fun e => n 3 e, lt_of_le_of_ne a5 fun e => n 4 e.symm, lt_of_le_of_ne a6 fun e => n 5 e⟩
  obtain ⟨i, hi⟩ := hf
  obtain ⟨u, v, u0, u1, v0, v1, rfl⟩ := (AABB.boxFace_iff b hb i p).1 hi
  have hg : 1 ≤ (AABB.gridSize nx ny nz i).1 ∧ 1 ≤ (AABB.gridSize nx ny nz i).2 := by
    fin_cases i <;> exact ⟨by assumption, by assumption⟩
  obtain ⟨x, y, h1, h2, t, ht, hm⟩ := AABB.cell_cover b i (AABB.gridFlip ccw i) _ _ hg.1 hg.2 u v u0 u1 v0 v1
  exact ⟨t, (AABB.mem_triangulateWith _ _ _ _ _ _).2 ⟨i, x, y, h1, h2, ht⟩, hm⟩

example := C97_cover (⟨⟨0, 0, 0⟩, ⟨1, 2, 3⟩⟩ : AABB ℚ) (by simp [AABB.Proper]) 2 3 4 (by norm_num) (by norm_num) (by norm_num) true
  ⟨1 / 3, 2, 1 / 7⟩ (by simp [Spec.box]; norm_num) (by simp [Spec.openBox])

/-- C97: the areas of the triangles add up to `SurfaceArea`: together with `C97_cover`, the triangles do not overlap in an area. -/
theorem C97_area (b : AABB ℝ) (hb : b.Proper) (nx ny nz : ℕ) (hx : 1 ≤ nx) (hy : 1 ≤ ny) (hz : 1 ≤ nz) (ccw : Bool) :
    ((Spec.triples (b.triangulatePos nx ny nz ccw)).map fun t => (⟨t.1, t.2.1, t.2.2⟩ : Tri ℝ).area).sum = b.surfaceArea := by
  obtain ⟨b1, b2, b3⟩ := hb
  have a0 : ∀ i, 0 ≤ b.faceArea i := by
    have d1 : 0 ≤ b.maxPoint.x - b.minPoint.x := by linarith
    have d2 : 0 ≤ b.maxPoint.y - b.minPoint.y := by linarith
    have d3 : 0 ≤ b.maxPoint.z - b.minPoint.z := by linarith
    intro i
    fin_cases i <;> simp [AABB.faceArea] <;> positivity
  have l1 : ∀ i : Fin 6, lenSq (Spec.outward i : V3 ℝ) = 1 := by
    intro i; fin_cases i <;> simp [Spec.outward, lenSq, dot]
  have area : ∀ (i : Fin 6) (nu nv x y : ℕ) (t : V3 ℝ × V3 ℝ × V3 ℝ),
      t ∈ AABB.cellTris (b.facePoint i) nu nv (AABB.gridFlip ccw i) x y →
      (⟨t.1, t.2.1, t.2.2⟩ : Tri ℝ).area = b.faceArea i / (nu * nv) / 2 := by
    intro i nu nv x y t ht
    have e := AABB.cell_normal b i ccw nu nv x y t ht
    have k0 : 0 ≤ b.faceArea i / (nu * nv) := div_nonneg (a0 i) (by positivity)
    show (1 / 2) * V3.len (cross (t.2.1 - t.1) (t.2.2 - t.1)) = _
    rw [e, len_smul]
    have : V3.len (Spec.outward i : V3 ℝ) = 1 := by
      show Real.sqrt _ = 1
      rw [l1]; exact Real.sqrt_one
    rw [this, abs_mul, abs_of_nonneg k0]
    cases ccw <;> simp <;> ring
  have cell : ∀ (i : Fin 6) (nu nv x y : ℕ),
      ((AABB.cellTris (b.facePoint i) nu nv (AABB.gridFlip ccw i) x y).map fun t => (⟨t.1, t.2.1, t.2.2⟩ : Tri ℝ).area).sum =
        b.faceArea i / (nu * nv) := by
    intro i nu nv x y
    rw [List.map_congr_left (fun t ht => area i nu nv x y t ht)]
    simp [AABB.cellTris]
  have sumFlat : ∀ {ι κ : Type} (l : List ι) (f : ι → List κ) (h : κ → ℝ),
      ((l.flatMap f).map h).sum = (l.map fun i => ((f i).map h).sum).sum := by
    intro ι κ l f h
    induction l with
    | nil => rfl
    | cons a l ih => simp [List.flatMap_cons, ih]
  have face : ∀ i : Fin 6, ∀ nu nv : ℕ, 1 ≤ nu → 1 ≤ nv →
      (((List.range nu).flatMap fun x => (List.range nv).flatMap fun y =>
        AABB.cellTris (b.facePoint i) nu nv (AABB.gridFlip ccw i) x y).map fun t => (⟨t.1, t.2.1, t.2.2⟩ : Tri ℝ).area).sum =
        b.faceArea i := by
    intro i nu nv h1 h2
    have p1 : (nu : ℝ) ≠ 0 := by exact_mod_cast (by omega : nu ≠ 0)
    have p2 : (nv : ℝ) ≠ 0 := by exact_mod_cast (by omega : nv ≠ 0)
    simp only [sumFlat, cell]
    simp
    field_simp
  unfold AABB.triangulatePos
  rw [AABB.triples_triangulateWith, sumFlat]
  have hg : ∀ i, 1 ≤ (AABB.gridSize nx ny nz i).1 ∧ 1 ≤ (AABB.gridSize nx ny nz i).2 := by
    intro i; fin_cases i <;> exact ⟨by assumption, by assumption⟩
  simp only [fun i => face i _ _ (hg i).1 (hg i).2]
  simp [List.finRange_succ, AABB.faceArea, AABB.surfaceArea, AABB.size, Fin.succ]
  ring

example := C97_area ⟨⟨0, 0, 0⟩, ⟨1, 2, 3⟩⟩ (by simp [AABB.Proper]) 2 3 4 (by norm_num) (by norm_num) (by norm_num) true

/-- C97: the winding order. Without `ccwIsFrontFacing` the cross product of the edges of every triangle points outward, so that
the triangles are counterclockwise seen from outside; with `ccwIsFrontFacing` it points inward. -/
theorem C97_winding (b : AABB α) (h1 : b.minPoint.x < b.maxPoint.x) (h2 : b.minPoint.y < b.maxPoint.y)
    (h3 : b.minPoint.z < b.maxPoint.z) (nx ny nz : ℕ) (ccw : Bool) :
    ∀ t ∈ Spec.triples (b.triangulatePos nx ny nz ccw), ∃ (face : Fin 6) (k : α), 0 < k ∧
      Spec.tri t.1 t.2.1 t.2.2 ⊆ Spec.boxFace b.minPoint b.maxPoint face ∧
      cross (t.2.1 - t.1) (t.2.2 - t.1) = (if ccw then -k else k) • (Spec.outward face : V3 α) := by
  intro t ht
  obtain ⟨i, x, y, hx, hy, hm⟩ := (AABB.mem_triangulateWith _ _ _ _ _ _).1 ht
  have a0 : 0 < b.faceArea i := by
    have d1 : 0 < b.maxPoint.x - b.minPoint.x := by linarith
    have d2 : 0 < b.maxPoint.y - b.minPoint.y := by linarith
    have d3 : 0 < b.maxPoint.z - b.minPoint.z := by linarith
    fin_cases i <;> simp [AABB.faceArea] <;> positivity
  have n1 : (0 : α) < (AABB.gridSize nx ny nz i).1 := by exact_mod_cast (by omega : 0 < (AABB.gridSize nx ny nz i).1)
  have n2 : (0 : α) < (AABB.gridSize nx ny nz i).2 := by exact_mod_cast (by omega : 0 < (AABB.gridSize nx ny nz i).2)
  refine ⟨i, b.faceArea i / ((AABB.gridSize nx ny nz i).1 * (AABB.gridSize nx ny nz i).2), by positivity,
    AABB.cell_subset b ⟨h1.le, h2.le, h3.le⟩ i _ _ _ x y hx hy t hm, ?_⟩
  rw [AABB.cell_normal b i ccw _ _ x y t hm]
  cases ccw <;> simp

example := C97_winding (⟨⟨0, 0, 0⟩, ⟨1, 2, 3⟩⟩ : AABB ℚ) (by norm_num) (by norm_num) (by norm_num) 2 3 4 true

/-- C97: the documentation of `ccwIsFrontFacing` ("if true, the front-facing direction of the faces will be the sides with
counterclockwise winding order") is the opposite of what the code does: with the flag set, the side of a triangle that is
counterclockwise (the side `UnnormalizedNormalCCW` points to) is the inner one, on every box and for every subdivision. -/
theorem C97_winding_violation (b : AABB α) (h1 : b.minPoint.x < b.maxPoint.x) (h2 : b.minPoint.y < b.maxPoint.y)
    (h3 : b.minPoint.z < b.maxPoint.z) (nx ny nz : ℕ) :
    ∀ t ∈ Spec.triples (b.triangulatePos nx ny nz true), ∃ face : Fin 6,
      Spec.tri t.1 t.2.1 t.2.2 ⊆ Spec.boxFace b.minPoint b.maxPoint face ∧
      dot (⟨t.1, t.2.1, t.2.2⟩ : Tri α).normalCCW' (Spec.outward face) < 0 := by
  intro t ht
  obtain ⟨i, k, hk, hs, e⟩ := C97_winding b h1 h2 h3 nx ny nz true t ht
  refine ⟨i, hs, ?_⟩
  show dot (cross (t.2.1 - t.1) (t.2.2 - t.1)) _ < 0
  rw [e]
  fin_cases i <;> simp [Spec.outward, dot] <;> exact hk

example : (Spec.triples ((⟨⟨0, 0, 0⟩, ⟨1, 2, 3⟩⟩ : AABB ℚ).triangulatePos 1 1 1 true)).head? =
    some (⟨0, 0, 0⟩, ⟨0, 2, 0⟩, ⟨0, 0, 3⟩) := by decide +kernel

/-- `LocalToWorld` maps the faces of the box `[0, 2r]` onto the faces of the oriented box. -/
theorem OBB.face_image (o : OBB α) (i : Fin 6) (p : V3 α) : p ∈ Spec.obbFace o.pos o.axis0 o.axis1 o.axis2 o.r i ↔
    ∃ q ∈ Spec.boxFace (⟨0, 0, 0⟩ : V3 α) ((2 : α) • o.r) i, p = Mat34.mulPos o.localToWorld q := by
  have e : ∀ q : V3 α, Mat34.mulPos o.localToWorld q =
      o.pos + (q.x - o.r.x) • o.axis0 + (q.y - o.r.y) • o.axis1 + (q.z - o.r.z) • o.axis2 := by
    intro q; ext <;> simp [Mat34.mulPos, OBB.localToWorld] <;> ring
  constructor
  · rintro ⟨s, t, k, h1, h2, h3, h4, h5, h6, h7, rfl⟩
    refine ⟨⟨s + o.r.x, t + o.r.y, k + o.r.z⟩, ⟨⟨?_, ?_, ?_, ?_, ?_, ?_⟩, ?_⟩, ?_⟩
    all_goals try (simp; linarith)
    · fin_cases i <;> simp at h7 ⊢ <;> linarith
    · rw [e]; simp
  · rintro ⟨q, ⟨⟨h1, h2, h3, h4, h5, h6⟩, h7⟩, rfl⟩
    simp only [V3.smul_x, V3.smul_y, V3.smul_z] at h1 h2 h3 h4 h5 h6
    refine ⟨q.x - o.r.x, q.y - o.r.y, q.z - o.r.z, by linarith, by linarith, by linarith, by linarith, by linarith, by linarith,
      ?_, e q⟩
    fin_cases i <;> simp at h7 ⊢ <;> linarith

theorem OBB.tri_image (o : OBB α) (a b c p : V3 α) : p ∈ Spec.tri (Mat34.mulPos o.localToWorld a) (Mat34.mulPos o.localToWorld b)
    (Mat34.mulPos o.localToWorld c) ↔ ∃ q ∈ Spec.tri a b c, p = Mat34.mulPos o.localToWorld q := by
  have k : ∀ u v w : α, u + v + w = 1 → u • Mat34.mulPos o.localToWorld a + v • Mat34.mulPos o.localToWorld b +
      w • Mat34.mulPos o.localToWorld c = Mat34.mulPos o.localToWorld (u • a + v • b + w • c) := by
    intro u v w h
    obtain rfl : u = 1 - v - w := by linarith
    ext <;> simp [Mat34.mulPos] <;> ring
  constructor
  · rintro ⟨u, v, w, hu, hv, hw, h, rfl⟩
    exact ⟨_, ⟨u, v, w, hu, hv, hw, h, rfl⟩, k u v w h⟩
  · rintro ⟨q, ⟨u, v, w, hu, hv, hw, h, rfl⟩, rfl⟩
    exact ⟨u, v, w, hu, hv, hw, h, (k u v w h).symm⟩

/-- C97: the triangles of an oriented box with a right-handed frame: every triangle is on one face, its normals are the
outward direction of the face, and its cross product is a positive multiple of this direction without `ccwIsFrontFacing`, a
negative one with it; the triangles cover all six faces. -/
theorem C97_obb (o : OBB α) (hf : Spec.Frame o.axis0 o.axis1 o.axis2) (hr : cross o.axis0 o.axis1 = o.axis2) (r1 : 0 < o.r.x)
    (r2 : 0 < o.r.y) (r3 : 0 < o.r.z) (nx ny nz : ℕ) (hx : 1 ≤ nx) (hy : 1 ≤ ny) (hz : 1 ≤ nz) (ccw : Bool) :
    ∃ pos normal, o.triangulate nx ny nz ccw true = some (pos, some normal) ∧
      pos.length = AABB.numVerticesInTriangulation nx ny nz ∧ normal.length = AABB.numVerticesInTriangulation nx ny nz ∧
      (∀ t ∈ Spec.triples (pos.zip normal), ∃ (face : Fin 6) (k : α), 0 < k ∧
        Spec.tri t.1.1 t.2.1.1 t.2.2.1 ⊆ Spec.obbFace o.pos o.axis0 o.axis1 o.axis2 o.r face ∧
        (t.1.2 = Spec.obbOutward o.axis0 o.axis1 o.axis2 face ∧ t.2.1.2 = Spec.obbOutward o.axis0 o.axis1 o.axis2 face ∧
          t.2.2.2 = Spec.obbOutward o.axis0 o.axis1 o.axis2 face) ∧
        cross (t.2.1.1 - t.1.1) (t.2.2.1 - t.1.1) = (if ccw then -k else k) • Spec.obbOutward o.axis0 o.axis1 o.axis2 face) ∧
      ∀ face, ∀ p ∈ Spec.obbFace o.pos o.axis0 o.axis1 o.axis2 o.r face, ∃ t ∈ Spec.triples pos, p ∈ Spec.tri t.1 t.2.1 t.2.2 := by
  set b : AABB α := ⟨⟨0, 0, 0⟩, (2 : α) • o.r⟩ with hb
  have b1 : b.minPoint.x < b.maxPoint.x := by simp [hb]; exact r1
  have b2 : b.minPoint.y < b.maxPoint.y := by simp [hb]; exact r2
  have b3 : b.minPoint.z < b.maxPoint.z := by simp [hb]; exact r3
  have hp : b.Proper := ⟨b1.le, b2.le, b3.le⟩
  have hc := C97_count b nx ny nz ccw
  have hdir : ∀ i : Fin 6, Mat34.mulDir o.localToWorld (Spec.outward i) = Spec.obbOutward o.axis0 o.axis1 o.axis2 i := by
    intro i; fin_cases i <;> ext <;> simp [Mat34.mulDir, OBB.localToWorld, Spec.outward, Spec.obbOutward]
  have hsub : ∀ x y : V3 α, Mat34.mulPos o.localToWorld x - Mat34.mulPos o.localToWorld y = Mat34.mulDir o.localToWorld (x - y) := by
    intro x y; ext <;> simp [Mat34.mulPos, Mat34.mulDir] <;> ring
  have hcross : ∀ x y : V3 α, cross (Mat34.mulDir o.localToWorld x) (Mat34.mulDir o.localToWorld y) =
      Mat34.mulDir o.localToWorld (cross x y) := by
    obtain ⟨c1, c2⟩ : cross o.axis1 o.axis2 = o.axis0 ∧ cross o.axis2 o.axis0 = o.axis1 := by
      obtain ⟨uu, vv, ww, uv, uw, vw⟩ := hf
      have l1 : cross o.axis1 (cross o.axis0 o.axis1) = dot o.axis1 o.axis1 • o.axis0 - dot o.axis0 o.axis1 • o.axis1 := by
        ext <;> simp [cross, dot] <;> ring
      have l2 : cross (cross o.axis0 o.axis1) o.axis0 = dot o.axis0 o.axis0 • o.axis1 - dot o.axis0 o.axis1 • o.axis0 := by
        ext <;> simp [cross, dot] <;> ring
      rw [hr, vv, uv] at l1
      rw [hr, uu, uv] at l2
      exact ⟨by rw [l1]; ext <;> simp, by rw [l2]; ext <;> simp⟩
    intro x y
    have md : ∀ x : V3 α, Mat34.mulDir o.localToWorld x = x.x • o.axis0 + x.y • o.axis1 + x.z • o.axis2 := by
      intro x; ext <;> simp [Mat34.mulDir, OBB.localToWorld] <;> ring
    have ex : cross (x.x • o.axis0 + x.y • o.axis1 + x.z • o.axis2) (y.x • o.axis0 + y.y • o.axis1 + y.z • o.axis2) =
        (x.y * y.z - x.z * y.y) • cross o.axis1 o.axis2 + (x.z * y.x - x.x * y.z) • cross o.axis2 o.axis0 +
          (x.x * y.y - x.y * y.x) • cross o.axis0 o.axis1 := by
      ext <;> simp [cross] <;> ring
    rw [md, md, md, ex, c1, c2, hr]
    rfl
  have hsm : ∀ (k : α) (x : V3 α), Mat34.mulDir o.localToWorld (k • x) = k • Mat34.mulDir o.localToWorld x := by
    intro k x; ext <;> simp [Mat34.mulDir] <;> ring
  refine ⟨_, _, rfl, ?_, ?_, ?_, ?_⟩
  · rw [List.length_map]; exact hc.1
  · rw [List.length_map]; exact hc.2.1
  · intro t ht
    rw [AABB.param_pos, AABB.param_normal, List.map_map, List.map_map, List.zip_map', Spec.triples_map] at ht
    obtain ⟨q, hq, rfl⟩ := List.mem_map.1 ht
    obtain ⟨i, x, y, hx, hy, ⟨i1, i2, i3⟩, hm, hw⟩ := AABB.param_cell nx ny nz ccw q hq
    have hs := AABB.cell_subset b hp i _ _ _ x y hx hy _ (hm b)
    have hn := AABB.cell_normal b i ccw _ _ x y _ (hm b)
    have a0 : 0 < b.faceArea i := by
      fin_cases i <;> simp [AABB.faceArea, hb] <;> positivity
    have n1 : (0 : α) < (AABB.gridSize nx ny nz i).1 := by exact_mod_cast (by omega : 0 < (AABB.gridSize nx ny nz i).1)
    have n2 : (0 : α) < (AABB.gridSize nx ny nz i).2 := by exact_mod_cast (by omega : 0 < (AABB.gridSize nx ny nz i).2)
    refine ⟨i, b.faceArea i / ((AABB.gridSize nx ny nz i).1 * (AABB.gridSize nx ny nz i).2), by positivity, ?_, ?_, ?_⟩
    · intro p hpt
      simp only [Function.comp] at hpt
      obtain ⟨z, hz, rfl⟩ := (OBB.tri_image o _ _ _ _).1 hpt
      rw [i1, i2, i3] at hz
      exact (OBB.face_image o i _).2 ⟨z, hs hz, rfl⟩
    · simp only [Function.comp]
      rw [i1, i2, i3, AABB.faceNormal_eq, hdir]; exact ⟨rfl, rfl, rfl⟩
    · simp only [Function.comp]
      rw [hsub, hsub, hcross, i1, i2, i3]
      rw [show cross (b.facePoint i q.2.1.2.1 q.2.1.2.2 - b.facePoint i q.1.2.1 q.1.2.2)
        (b.facePoint i q.2.2.2.1 q.2.2.2.2 - b.facePoint i q.1.2.1 q.1.2.2) = _ from hn, hsm, hdir]
      cases ccw <;> simp
  · intro i p hpi
    obtain ⟨q, hq, rfl⟩ := (OBB.face_image o i p).1 hpi
    obtain ⟨t, ht, hm⟩ := C97_cover b hp nx ny nz hx hy hz ccw q hq.1 (by
      rintro ⟨c1, c2, c3, c4, c5, c6⟩
      have := hq.2
      fin_cases i
      exacts [c1.ne' this, c2.ne this, c3.ne' this, c4.ne this, c5.ne' this, c6.ne this])
    refine ⟨(Mat34.mulPos o.localToWorld t.1, Mat34.mulPos o.localToWorld t.2.1, Mat34.mulPos o.localToWorld t.2.2), ?_, (OBB.tri_image o t.1 t.2.1 t.2.2 _).2 ⟨q, hm, rfl⟩⟩
    rw [Spec.triples_map]
    exact List.mem_map.2 ⟨t, ht, rfl⟩

example := C97_obb (⟨⟨1, 2, 3⟩, ⟨1, 2, 1 / 2⟩, ⟨3 / 5, 4 / 5, 0⟩, ⟨-4 / 5, 3 / 5, 0⟩, ⟨0, 0, 1⟩⟩ : OBB ℚ)
  (by constructor <;> norm_num [dot]) (by norm_num [cross]) (by norm_num) (by norm_num) (by norm_num) 2 3 4 (by norm_num)
  (by norm_num) (by norm_num) false

/-- C97: the documentation lets the caller pass null for the normals; `OBB::Triangulate` then writes through the null pointer,
for every box and every subdivision into at least one quad per face, unlike `AABB::Triangulate`. -/
theorem C97_null_normals_violation (o : OBB α) (nx ny nz : ℕ) (hx : 1 ≤ nx) (hy : 1 ≤ ny) (ccw : Bool) :
    o.triangulate nx ny nz ccw false = none := by
  have : AABB.numVerticesInTriangulation nx ny nz ≠ 0 := by
    unfold AABB.numVerticesInTriangulation
    have := Nat.mul_pos hx hy
    omega
  simp [OBB.triangulate, this]

example := C97_null_normals_violation (⟨⟨1, 2, 3⟩, ⟨1, 2, 1 / 2⟩, ⟨3 / 5, 4 / 5, 0⟩, ⟨-4 / 5, 3 / 5, 0⟩, ⟨0, 0, 1⟩⟩ : OBB ℚ) 2 3 4
  (by norm_num) (by norm_num) true

/-- C97: `ToEdgeList` of both kinds of boxes is the list of the end points of the twelve edges, in order. -/
theorem C97_edge_list (b : AABB α) (o : OBB α) :
    b.toEdgeList.length = 24 ∧ o.toEdgeList.length = 24 ∧
    (∀ i : Fin 12, b.toEdgeList[2 * i.val]? = some (b.edge i).1 ∧ b.toEdgeList[2 * i.val + 1]? = some (b.edge i).2) ∧
    ∀ i : Fin 12, o.toEdgeList[2 * i.val]? = some (o.edge i).a ∧ o.toEdgeList[2 * i.val + 1]? = some (o.edge i).b := by
  refine ⟨rfl, rfl, fun i => ?_, fun i => ?_⟩ <;> fin_cases i <;> exact ⟨rfl, rfl⟩

end MGL
