import Verif.Model.CircleFaces
import Verif.Props.Circle
import Verif.Props.OBB
import Verif.Spec.BoxMesh

/-! Property C70, continued: the points where a circle passes through the faces of an oriented box. -/

set_option linter.unusedSectionVars false

namespace MGL
open V3

/-- The circle crosses the plane `n · x = d` at an angle whose sine is at least 1/1000 and does not almost touch it, or is parallel to it
and at least 1/10000 away. -/
def Spec.CircleClearOf (c m : V3 ℝ) (r : ℝ) (n : V3 ℝ) (d : ℝ) : Prop :=
  (1 / 1000 ≤ len (cross n m) ∧ 1 / 4000000 < |(d - dot n c) ^ 2 / lenSq (cross n m) - r ^ 2|) ∨
    ((n = m ∨ n = -m) ∧ 1 / 10000 ≤ |d - dot n c|)

/-- Half the extent of an oriented box towards each of its faces. -/
def Spec.obbExtent (r : V3 ℝ) (face : Fin 6) : ℝ := ![r.x, r.x, r.y, r.y, r.z, r.z] face

namespace Circle

theorem facePlane_eq (o : OBB ℝ) (hf : Spec.Frame o.axis0 o.axis1 o.axis2) (i : Fin 6) :
    o.facePlane i = ⟨Spec.obbOutward o.axis0 o.axis1 o.axis2 i,
      dot (Spec.obbOutward o.axis0 o.axis1 o.axis2 i) o.pos + Spec.obbExtent o.r i⟩ := by
  obtain ⟨h1, h2, h3, -⟩ := hf
  have key : ∀ (p a n : V3 ℝ) (e : ℝ), dot n a = 1 → dot (p + e • a) n = dot n p + e := by
    intro p a n e h
    rw [add_dot, smul_dot, dot_comm a, h, mul_one, dot_comm]
  have key2 : ∀ (p a : V3 ℝ) (e : ℝ), dot a a = 1 → dot (p - e • a) (-a) = dot (-a) p + e := by
    intro p a e h
    simp only [dot, neg_x, neg_y, neg_z, sub_x, sub_y, sub_z, smul_x, smul_y, smul_z] at h ⊢
    linear_combination e * h
  fin_cases i
  all_goals
    simp only [OBB.facePlane, Plane.setPointNormal, OBB.faceCenterPoint]
    congr 1
  · exact key2 _ _ _ h1
  · exact key _ _ _ _ h1
  · exact key2 _ _ _ h2
  · exact key _ _ _ _ h2
  · exact key2 _ _ _ h3
  · exact key _ _ _ _ h3

theorem outward_unit (o : OBB ℝ) (hf : Spec.Frame o.axis0 o.axis1 o.axis2) (i : Fin 6) :
    lenSq (Spec.obbOutward o.axis0 o.axis1 o.axis2 i) = 1 := by
  obtain ⟨h1, h2, h3, -⟩ := hf
  have hneg : ∀ v : V3 ℝ, dot v v = 1 → lenSq (-v) = 1 := by intro v h; rw [← h]; simp [lenSq, dot]
  fin_cases i
  exacts [hneg _ h1, h1, hneg _ h2, h2, hneg _ h3, h3]

/-- A plane parallel to the circle and away from it gives no points. -/
theorem intersectsCircle_parallel (c : Circle ℝ) (hn : lenSq c.normal = 1) (p : Plane ℝ) (h : p.normal = c.normal ∨ p.normal = -c.normal)
    (hd : 1 / 10000 ≤ |p.d - dot p.normal c.pos|) : p.intersectsCircle c = [] := by
  have hdet : ∀ v x, Mat3.solveAxb (Mat3.ofRows p.normal c.containingPlane.normal v) x = none := by
    intro v x
    cases hs : Mat3.solveAxb (Mat3.ofRows p.normal c.containingPlane.normal v) x with
    | none => rfl
    | some y =>
      exfalso
      apply (C37_solveAxb _ _ y hs).2.1
      rw [Matrix.det_fin_three]
      rcases h with h | h <;> simp [Mat3.ofRows, Circle.containingPlane, Plane.setPointNormal, h] <;> ring
  have hnone : p.intersectsPlane c.containingPlane = none := by
    unfold Plane.intersectsPlane
    dsimp only
    rw [hdet]
    dsimp only
    have e : c.containingPlane.d = dot c.normal c.pos := by simp [Circle.containingPlane, Plane.setPointNormal, dot_comm]
    have e2 : c.containingPlane.normal = c.normal := rfl
    rw [if_neg]
    rw [e, e2]
    rintro (⟨h1, h2⟩ | ⟨h1, h2⟩)
    · rcases h with h | h
      · rw [h] at hd
        simp only [equalAbs, absF_eq, decide_eq_true_eq] at h2
        exact absurd h2 (not_lt.2 (by exact hd))
      · rw [h] at h1
        have : dot (-c.normal) c.normal = -1 := by rw [← hn]; simp [lenSq, dot]; ring
        rw [this] at h1; norm_num at h1
    · rcases h with h | h
      · rw [h, show dot c.normal c.normal = 1 from hn] at h1; norm_num at h1
      · rw [h, show dot (-c.normal) c.pos = -dot c.normal c.pos by simp [dot]; ring] at hd
        simp only [equalAbs, absF_eq, decide_eq_true_eq] at h2
        exact absurd h2 (not_lt.2 (by exact hd))
  unfold Plane.intersectsCircle
  rw [hnone]

/-- The circle and the plane have no common points then either. -/
theorem parallel_empty (c m : V3 ℝ) (r : ℝ) (n : V3 ℝ) (d : ℝ) (h : n = m ∨ n = -m) (hd : 1 / 10000 ≤ |d - dot n c|) :
    Spec.circle c m r ∩ Spec.plane n d = ∅ := by
  ext x
  simp only [Set.mem_empty_iff_false, iff_false]
  rintro ⟨⟨h1, -⟩, h2⟩
  have h2 : dot n x = d := h2
  have : d - dot n c = 0 := by
    rw [← h2]
    rcases h with rfl | rfl
    · rw [← h1]; simp [dot]; ring
    · have : dot (-m) x - dot (-m) c = -dot m (x - c) := by simp [dot]; ring
      rw [this, h1, neg_zero]
  rw [this] at hd
  norm_num at hd

/-- The points of the box on the plane of a face are the points of the face. -/
theorem mem_face (o : OBB ℝ) (hf : Spec.Frame o.axis0 o.axis1 o.axis2) (i : Fin 6) (x : V3 ℝ) :
    x ∈ Spec.obbFace o.pos o.axis0 o.axis1 o.axis2 o.r i ↔
      x ∈ o.points ∧ dot (Spec.obbOutward o.axis0 o.axis1 o.axis2 i) x = dot (Spec.obbOutward o.axis0 o.axis1 o.axis2 i) o.pos + Spec.obbExtent o.r i := by
  obtain ⟨h1, h2, h3, h4, h5, h6⟩ := hf
  have e0 : ∀ s t k : ℝ, dot o.axis0 (o.pos + s • o.axis0 + t • o.axis1 + k • o.axis2) = dot o.axis0 o.pos + s := by
    intro s t k
    simp only [dot, add_x, add_y, add_z, smul_x, smul_y, smul_z] at h1 h4 h5 ⊢
    linear_combination s * h1 + t * h4 + k * h5
  have e1 : ∀ s t k : ℝ, dot o.axis1 (o.pos + s • o.axis0 + t • o.axis1 + k • o.axis2) = dot o.axis1 o.pos + t := by
    intro s t k
    simp only [dot, add_x, add_y, add_z, smul_x, smul_y, smul_z] at h2 h4 h6 ⊢
    linear_combination t * h2 + s * h4 + k * h6
  have e2 : ∀ s t k : ℝ, dot o.axis2 (o.pos + s • o.axis0 + t • o.axis1 + k • o.axis2) = dot o.axis2 o.pos + k := by
    intro s t k
    simp only [dot, add_x, add_y, add_z, smul_x, smul_y, smul_z] at h3 h5 h6 ⊢
    linear_combination k * h3 + s * h5 + t * h6
  have hneg : ∀ a b : V3 ℝ, dot (-a) b = -dot a b := by intro a b; simp [dot]; ring
  constructor
  · rintro ⟨s, t, k, a1, a2, a3, a4, a5, a6, a7, rfl⟩
    refine ⟨⟨s, t, k, a1, a2, a3, a4, a5, a6, rfl⟩, ?_⟩
    fin_cases i <;> simp [Spec.obbOutward, Spec.obbExtent, hneg, e0, e1, e2] at a7 ⊢ <;> linarith
  · rintro ⟨⟨s, t, k, a1, a2, a3, a4, a5, a6, rfl⟩, h⟩
    refine ⟨s, t, k, a1, a2, a3, a4, a5, a6, ?_, rfl⟩
    fin_cases i <;> simp [Spec.obbOutward, Spec.obbExtent, hneg, e0, e1, e2] at h ⊢ <;> linarith

/-- C70: `IntersectsFaces` returns exactly the points of the circle line on the surface of the oriented box, if the circle is clear of the
planes of the six faces. Missing: circles that almost touch or almost lie in the plane of a face. -/
theorem C70_intersectsFaces_partial (c : Circle ℝ) (hn : lenSq c.normal = 1) (o : OBB ℝ) (h : o.Valid)
    (hclear : ∀ i, Spec.CircleClearOf c.pos c.normal c.r (Spec.obbOutward o.axis0 o.axis1 o.axis2 i)
      (dot (Spec.obbOutward o.axis0 o.axis1 o.axis2 i) o.pos + Spec.obbExtent o.r i)) (x : V3 ℝ) :
    x ∈ c.intersectsFaces o ↔ x ∈ Spec.circle c.pos c.normal c.r ∧ ∃ i, x ∈ Spec.obbFace o.pos o.axis0 o.axis1 o.axis2 o.r i := by
  have hf := h.1
  have key : ∀ i, x ∈ (o.facePlane i).intersectsCircle c ↔ x ∈ Spec.circle c.pos c.normal c.r ∧
      dot (Spec.obbOutward o.axis0 o.axis1 o.axis2 i) x = dot (Spec.obbOutward o.axis0 o.axis1 o.axis2 i) o.pos + Spec.obbExtent o.r i := by
    intro i
    rw [facePlane_eq o hf i]
    rcases hclear i with ⟨h1, h2⟩ | ⟨h1, h2⟩
    · have := (C70_intersectsPlane_angle_partial ⟨Spec.obbOutward o.axis0 o.axis1 o.axis2 i,
        dot (Spec.obbOutward o.axis0 o.axis1 o.axis2 i) o.pos + Spec.obbExtent o.r i⟩ c (outward_unit o hf i) hn h1 h2).1
      exact Set.ext_iff.1 this x
    · rw [intersectsCircle_parallel c hn _ h1 h2]
      have := Set.ext_iff.1 (parallel_empty c.pos c.normal c.r _ _ h1 h2) x
      simpa [Spec.plane] using this
  unfold Circle.intersectsFaces
  simp only [List.mem_flatMap, List.mem_finRange, true_and, List.mem_filter, key, C36_contains o hf, mem_face o hf]
  constructor
  · rintro ⟨i, ⟨a, b⟩, d⟩; exact ⟨a, i, d, b⟩
  · rintro ⟨a, i, d, b⟩; exact ⟨i, ⟨a, b⟩, d⟩

/-- The circle of radius 5/4 around the centre of a cube. -/
noncomputable def exFaces : Circle ℝ := ⟨⟨0, 0, 0⟩, ⟨0, 0, 1⟩, 5/4⟩

def exCube : OBB ℝ := ⟨⟨0, 0, 0⟩, ⟨1, 1, 1⟩, ⟨1, 0, 0⟩, ⟨0, 1, 0⟩, ⟨0, 0, 1⟩⟩

theorem exCube_valid : exCube.Valid := by
  refine ⟨⟨?_, ?_, ?_, ?_, ?_, ?_⟩, ?_, ?_, ?_⟩ <;> simp [exCube, dot]

theorem exFaces_clear (i : Fin 6) : Spec.CircleClearOf exFaces.pos exFaces.normal exFaces.r (Spec.obbOutward exCube.axis0 exCube.axis1 exCube.axis2 i)
    (dot (Spec.obbOutward exCube.axis0 exCube.axis1 exCube.axis2 i) exCube.pos + Spec.obbExtent exCube.r i) := by
  fin_cases i
  all_goals simp only [Spec.CircleClearOf, exFaces, exCube, Spec.obbOutward, Spec.obbExtent]
  · left; constructor <;> norm_num [len, lenSq, dot, cross]
  · left; constructor <;> norm_num [len, lenSq, dot, cross]
  · left; constructor <;> norm_num [len, lenSq, dot, cross]
  · left; constructor <;> norm_num [len, lenSq, dot, cross]
  · right; exact ⟨Or.inr rfl, by norm_num [dot]⟩
  · right; exact ⟨Or.inl rfl, by norm_num [dot]⟩

example : (⟨1, 3/4, 0⟩ : V3 ℝ) ∈ exFaces.intersectsFaces exCube := by
  rw [C70_intersectsFaces_partial exFaces (by norm_num [exFaces, lenSq, dot]) exCube exCube_valid exFaces_clear]
  refine ⟨⟨by norm_num [exFaces, dot], by norm_num [exFaces, distSq, lenSq, dot]⟩, 1, 1, 3/4, 0, ?_⟩
  simp only [exCube]
  norm_num [V3.ext_iff]

theorem obbFace_ofAABB (b : AABB ℝ) (i : Fin 6) (x : V3 ℝ) :
    x ∈ Spec.obbFace (OBB.ofAABB b).pos (OBB.ofAABB b).axis0 (OBB.ofAABB b).axis1 (OBB.ofAABB b).axis2 (OBB.ofAABB b).r i ↔
      x ∈ Spec.boxFace b.minPoint b.maxPoint i := by
  have hc : b.centerPoint = ⟨(b.minPoint.x + b.maxPoint.x) / 2, (b.minPoint.y + b.maxPoint.y) / 2, (b.minPoint.z + b.maxPoint.z) / 2⟩ := by
    unfold AABB.centerPoint; ext <;> simp <;> ring
  have hh : b.halfSize = ⟨(b.maxPoint.x - b.minPoint.x) / 2, (b.maxPoint.y - b.minPoint.y) / 2, (b.maxPoint.z - b.minPoint.z) / 2⟩ := by
    unfold AABB.halfSize AABB.size; ext <;> simp <;> ring
  simp only [OBB.ofAABB, hc, hh]
  constructor
  · rintro ⟨s, t, k, h1, h2, h3, h4, h5, h6, h7, rfl⟩
    refine ⟨⟨?_, ?_, ?_, ?_, ?_, ?_⟩, ?_⟩
    all_goals try (simp at *; linarith)
    fin_cases i <;> simp at h7 ⊢ <;> linarith
  · rintro ⟨⟨h1, h2, h3, h4, h5, h6⟩, h7⟩
    refine ⟨x.x - (b.minPoint.x + b.maxPoint.x) / 2, x.y - (b.minPoint.y + b.maxPoint.y) / 2, x.z - (b.minPoint.z + b.maxPoint.z) / 2,
      by dsimp only; linarith, by dsimp only; linarith, by dsimp only; linarith, by dsimp only; linarith, by dsimp only; linarith,
      by dsimp only; linarith, ?_, by ext <;> simp⟩
    fin_cases i <;> simp at h7 ⊢ <;> linarith

/-- C70: `IntersectsFaces` for an axis-aligned box, under the same conditions on the planes of its faces. -/
theorem C70_intersectsFaces_box_partial (c : Circle ℝ) (hn : lenSq c.normal = 1) (b : AABB ℝ) (hx : b.minPoint.x ≤ b.maxPoint.x)
    (hy : b.minPoint.y ≤ b.maxPoint.y) (hz : b.minPoint.z ≤ b.maxPoint.z)
    (hclear : ∀ i, Spec.CircleClearOf c.pos c.normal c.r (Spec.outward i)
      (![-b.minPoint.x, b.maxPoint.x, -b.minPoint.y, b.maxPoint.y, -b.minPoint.z, b.maxPoint.z] i)) (x : V3 ℝ) :
    x ∈ c.intersectsFacesAABB b ↔ x ∈ Spec.circle c.pos c.normal c.r ∧ ∃ i, x ∈ Spec.boxFace b.minPoint b.maxPoint i := by
  have hc : b.centerPoint = ⟨(b.minPoint.x + b.maxPoint.x) / 2, (b.minPoint.y + b.maxPoint.y) / 2, (b.minPoint.z + b.maxPoint.z) / 2⟩ := by
    unfold AABB.centerPoint; ext <;> simp <;> ring
  have hh : b.halfSize = ⟨(b.maxPoint.x - b.minPoint.x) / 2, (b.maxPoint.y - b.minPoint.y) / 2, (b.maxPoint.z - b.minPoint.z) / 2⟩ := by
    unfold AABB.halfSize AABB.size; ext <;> simp <;> ring
  have hv : (OBB.ofAABB b).Valid := by
    refine ⟨⟨?_, ?_, ?_, ?_, ?_, ?_⟩, ?_, ?_, ?_⟩ <;> simp [OBB.ofAABB, dot, hh] <;> linarith
  unfold Circle.intersectsFacesAABB
  rw [C70_intersectsFaces_partial c hn (OBB.ofAABB b) hv]
  · simp only [obbFace_ofAABB]
  · intro i
    have e1 : Spec.obbOutward (OBB.ofAABB b).axis0 (OBB.ofAABB b).axis1 (OBB.ofAABB b).axis2 i = Spec.outward i := by
      fin_cases i <;> simp [Spec.obbOutward, Spec.outward, OBB.ofAABB, V3.ext_iff]
    have e2 : dot (Spec.outward i) (OBB.ofAABB b).pos + Spec.obbExtent (OBB.ofAABB b).r i =
        ![-b.minPoint.x, b.maxPoint.x, -b.minPoint.y, b.maxPoint.y, -b.minPoint.z, b.maxPoint.z] i := by
      fin_cases i <;> simp [Spec.outward, Spec.obbExtent, OBB.ofAABB, dot, hc, hh] <;> ring
    rw [e1, e2]
    exact hclear i

theorem exFaces_box_clear (i : Fin 6) : Spec.CircleClearOf exFaces.pos exFaces.normal exFaces.r (Spec.outward i)
    ((![-(-1), 1, -(-1), 1, -(-1), 1] : Fin 6 → ℝ) i) := by
  fin_cases i
  all_goals simp only [Spec.CircleClearOf, exFaces, Spec.outward]
  · left; constructor <;> norm_num [len, lenSq, dot, cross]
  · left; constructor <;> norm_num [len, lenSq, dot, cross]
  · left; constructor <;> norm_num [len, lenSq, dot, cross]
  · left; constructor <;> norm_num [len, lenSq, dot, cross]
  · right; exact ⟨Or.inr (by ext <;> simp), by norm_num [dot]⟩
  · right; exact ⟨Or.inl (by ext <;> simp), by norm_num [dot]⟩

example := C70_intersectsFaces_box_partial exFaces (by norm_num [exFaces, lenSq, dot]) ⟨⟨-1, -1, -1⟩, ⟨1, 1, 1⟩⟩ (by norm_num) (by norm_num)
  (by norm_num) exFaces_box_clear

end Circle
end MGL
