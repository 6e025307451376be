import Verif.Proofs.AABBTransform
import Mathlib.Tactic.FieldSimp
import Mathlib.Tactic.NormNum
import Mathlib.Data.Rat.Defs
import Mathlib.Algebra.Order.Ring.Unbundled.Rat

/-! C20: transforming an axis-aligned box. -/

namespace MGL
open V3
variable {α : Type*} [Field α] [LinearOrder α] [IsStrictOrderedRing α]

/-- C20: for every (non-empty) box and every 3x3 matrix, not only the orthogonal ones the code expects,
the transformed box contains the image of the box and each of its faces touches the image. -/
theorem C20_transform_float3x3 (b : AABB α) (m : Matrix (Fin 3) (Fin 3) α)
    (h : (Spec.box b.minPoint b.maxPoint).Nonempty) :
    Spec.TightBox (Spec.affineMap m 0 '' Spec.box b.minPoint b.maxPoint)
      (b.transform3 m).minPoint (b.transform3 m).maxPoint := by
  refine transformCore_tight b m 0 _ (fun p => ?_) h
  simp [Mat3.mulVec, Spec.affineMap]

example := C20_transform_float3x3 (⟨⟨-1, 0, 2⟩, ⟨3, 1, 2⟩⟩ : AABB ℚ) !![0, -2, 1; 3, 0, 0; 0, 0, 1] ⟨⟨0, 0, 2⟩, by norm_num [Spec.box]⟩

/-- C20: the same for 3x4 matrices, that is for all affine maps. -/
theorem C20_transform_float3x4 (b : AABB α) (m : Matrix (Fin 3) (Fin 4) α)
    (h : (Spec.box b.minPoint b.maxPoint).Nonempty) :
    Spec.TightBox
      (Spec.affineMap (fun i j => m i (Fin.castSucc j)) ⟨m 0 3, m 1 3, m 2 3⟩ '' Spec.box b.minPoint b.maxPoint)
      (b.transform34 m).minPoint (b.transform34 m).maxPoint :=
  transformCore_tight b _ _ _ (fun _ => rfl) h

example := C20_transform_float3x4 (⟨⟨-1, 0, 2⟩, ⟨3, 1, 2⟩⟩ : AABB ℚ) !![0, -2, 1, 5; 3, 0, 0, 6; 0, 0, 1, 7] ⟨⟨0, 0, 2⟩, by norm_num [Spec.box]⟩

/-- C20: the same for 4x4 matrices, of which the last row is not read. -/
theorem C20_transform_float4x4 (b : AABB α) (m : Matrix (Fin 4) (Fin 4) α)
    (h : (Spec.box b.minPoint b.maxPoint).Nonempty) :
    Spec.TightBox
      (Spec.affineMap (fun i j => m (Fin.castSucc i) (Fin.castSucc j)) ⟨m 0 3, m 1 3, m 2 3⟩ ''
        Spec.box b.minPoint b.maxPoint)
      (b.transform4 m).minPoint (b.transform4 m).maxPoint :=
  transformCore_tight b _ _ _ (fun _ => rfl) h

example : (Spec.box (⟨-1, 0, 2⟩ : V3 ℚ) ⟨3, 1, 2⟩).Nonempty := ⟨⟨0, 0, 2⟩, by norm_num [Spec.box]⟩

/-- C20: `Translate` moves the box by the offset; `Scale` by non-negative factors about a point maps the
box exactly onto the scaled box. -/
theorem C20_translate_scale (b : AABB α) (o c s : V3 α) (k : α) (hk : 0 < k)
    (hs : 0 < s.x ∧ 0 < s.y ∧ 0 < s.z) (q : V3 α) :
    (q ∈ Spec.box (b.translate o).minPoint (b.translate o).maxPoint ↔
      ∃ p ∈ Spec.box b.minPoint b.maxPoint, q = p + o) ∧
    (q ∈ Spec.box (b.scale c k).minPoint (b.scale c k).maxPoint ↔
      ∃ p ∈ Spec.box b.minPoint b.maxPoint, q = c + k • (p - c)) ∧
    (q ∈ Spec.box (b.scaleVec c s).minPoint (b.scaleVec c s).maxPoint ↔
      ∃ p ∈ Spec.box b.minPoint b.maxPoint,
        q = c + ⟨s.x * (p.x - c.x), s.y * (p.y - c.y), s.z * (p.z - c.z)⟩) := by
  obtain ⟨s1, s2, s3⟩ := hs
  have key : ∀ l u x cc t : α, 0 < t →
      ((l - cc) * t + cc ≤ x ∧ x ≤ (u - cc) * t + cc ↔ l ≤ cc + (x - cc) / t ∧ cc + (x - cc) / t ≤ u) := by
    intro l u x cc t ht
    have e1 : l ≤ cc + (x - cc) / t ↔ (l - cc) * t + cc ≤ x := by
      rw [← sub_le_iff_le_add', le_div_iff₀ ht]; exact le_sub_iff_add_le
    have e2 : cc + (x - cc) / t ≤ u ↔ x ≤ (u - cc) * t + cc := by
      rw [← le_sub_iff_add_le', div_le_iff₀ ht]; exact sub_le_iff_le_add
    rw [e1, e2]
  have main : ∀ t : V3 α, 0 < t.x → 0 < t.y → 0 < t.z →
      (q ∈ Spec.box (⟨(b.minPoint.x - c.x) * t.x + c.x, (b.minPoint.y - c.y) * t.y + c.y, (b.minPoint.z - c.z) * t.z + c.z⟩ : V3 α)
        ⟨(b.maxPoint.x - c.x) * t.x + c.x, (b.maxPoint.y - c.y) * t.y + c.y, (b.maxPoint.z - c.z) * t.z + c.z⟩ ↔
      ∃ p ∈ Spec.box b.minPoint b.maxPoint,
        q = c + ⟨t.x * (p.x - c.x), t.y * (p.y - c.y), t.z * (p.z - c.z)⟩) := by
    intro t t1 t2 t3
    constructor
    · rintro ⟨h1, h2, h3, h4, h5, h6⟩
      have a1 := (key _ _ _ _ _ t1).1 ⟨h1, h2⟩
      have a2 := (key _ _ _ _ _ t2).1 ⟨h3, h4⟩
      have a3 := (key _ _ _ _ _ t3).1 ⟨h5, h6⟩
      refine ⟨⟨c.x + (q.x - c.x) / t.x, c.y + (q.y - c.y) / t.y, c.z + (q.z - c.z) / t.z⟩,
        ⟨a1.1, a1.2, a2.1, a2.2, a3.1, a3.2⟩, ?_⟩
      have := t1.ne'; have := t2.ne'; have := t3.ne'
      ext <;> simp only [add_x, add_y, add_z] <;> field_simp <;> ring
    · rintro ⟨p, ⟨h1, h2, h3, h4, h5, h6⟩, rfl⟩
      simp only [Spec.box, Set.mem_ofPred_eq, add_x, add_y, add_z]
      refine ⟨?_, ?_, ?_, ?_, ?_, ?_⟩ <;> nlinarith
  refine ⟨?_, ?_, ?_⟩
  · constructor
    · rintro ⟨h1, h2, h3, h4, h5, h6⟩
      simp only [AABB.translate, add_x, add_y, add_z] at h1 h2 h3 h4 h5 h6
      exact ⟨q - o, ⟨by simp; linarith, by simp; linarith, by simp; linarith, by simp; linarith, by simp; linarith, by simp; linarith⟩, by simp⟩
    · rintro ⟨p, ⟨h1, h2, h3, h4, h5, h6⟩, rfl⟩
      simp only [AABB.translate, Spec.box, Set.mem_ofPred_eq, add_x, add_y, add_z]
      exact ⟨by linarith, by linarith, by linarith, by linarith, by linarith, by linarith⟩
  · have := main ⟨k, k, k⟩ hk hk hk
    rw [show (b.scale c k) = ⟨⟨(b.minPoint.x - c.x) * k + c.x, (b.minPoint.y - c.y) * k + c.y, (b.minPoint.z - c.z) * k + c.z⟩,
        ⟨(b.maxPoint.x - c.x) * k + c.x, (b.maxPoint.y - c.y) * k + c.y, (b.maxPoint.z - c.z) * k + c.z⟩⟩ from by
      unfold AABB.scale; ext <;> simp [mul_comm]]
    exact this
  · have := main s s1 s2 s3
    have e : ∀ p, Mat34.mulPos (Mat34.scaleAround s c) p = ⟨(p.x - c.x) * s.x + c.x, (p.y - c.y) * s.y + c.y, (p.z - c.z) * s.z + c.z⟩ := by
      intro p
      ext <;> simp [Mat34.mulPos, Mat34.scaleAround, Mat34.mulTranslate, Mat34.setTranslatePart, Mat34.translateScale, Mat.setAt] <;> ring
    simp only [AABB.scaleVec, e]
    exact this

example := C20_translate_scale (⟨⟨-1, 0, 2⟩, ⟨3, 1, 2⟩⟩ : AABB ℚ) ⟨1, 2, 3⟩ ⟨1, 1, 1⟩ ⟨2, 3, 4⟩ 2 (by norm_num) (by norm_num)

/-- C20 fails for quaternion arguments: the half size of the new box is the absolute value of the
rotated diagonal, so rotating the cube `[-1,1]^3` by 45 degrees about z flattens it. Here
the rotation about z with cosine 7/25 and sine 24/25 (a unit quaternion) sends the corner `(1, -1, 1)`
outside the computed box. -/
theorem C20_quat_violation : ∃ (b : AABB ℚ) (q : Quat ℚ) (p : V3 ℚ),
    Quat.normSq q = 1 ∧ p ∈ Spec.box b.minPoint b.maxPoint ∧
    Quat.transform q p ∉ Spec.box (b.transformQuat q).minPoint (b.transformQuat q).maxPoint := by
  refine ⟨⟨⟨-1, -1, -1⟩, ⟨1, 1, 1⟩⟩, ⟨0, 0, 3/5, 4/5⟩, ⟨1, -1, 1⟩, ?_, ?_, ?_⟩ <;>
  simp [Quat.normSq, Spec.box, AABB.transformQuat, Quat.transform, Quat.toFloat3x3, Mat3.mulVec, AABB.centerPoint,
    AABB.size, f3Abs, absF_eq] <;> norm_num

/-- C20: the quaternion version is right about the centre and about boxes reduced to a point. -/
theorem C20_transform_quat_partial (b : AABB α) (q : Quat α) (h : b.minPoint = b.maxPoint) :
    (b.transformQuat q).minPoint = Quat.transform q b.minPoint ∧ (b.transformQuat q).maxPoint = Quat.transform q b.minPoint := by
  have e : b.centerPoint = b.minPoint := by
    unfold AABB.centerPoint; rw [← h]; ext <;> simp <;> ring
  have e2 : b.size = 0 := by unfold AABB.size; rw [h]; simp
  unfold AABB.transformQuat; rw [e, e2]
  constructor <;> ext <;> simp [Quat.transform, Mat3.mulVec, f3Abs, absF_eq]

example := C20_transform_quat_partial (⟨⟨1, 2, 3⟩, ⟨1, 2, 3⟩⟩ : AABB ℚ) ⟨0, 4/5, 0, 3/5⟩ rfl

end MGL
