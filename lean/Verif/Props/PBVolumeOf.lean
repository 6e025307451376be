import Verif.Model.PBVolumeOf
import Verif.Props.PBVolume
import Verif.Props.OBBMore
import Verif.Props.AABB

/-! C102: boxes as volumes given by planes. -/

namespace MGL
open V3
variable {α : Type} [Field α] [LinearOrder α] [IsStrictOrderedRing α]

/-- C102: `AABB::ToPBVolume` has unit normals and contains exactly the points of the box. -/
theorem C102_ofAABB (b : AABB α) (hb : b.Proper) : b.toPBVolume.p.length = 6 ∧ (∀ q ∈ b.toPBVolume.p, lenSq q.normal = 1) ∧
    ∀ x, b.toPBVolume.contains x = true ↔ x ∈ Spec.box b.minPoint b.maxPoint := by
  obtain ⟨h1, h2⟩ := C19_face_planes b hb
  refine ⟨by simp [AABB.toPBVolume], ?_, ?_⟩
  · intro q hq
    simp only [AABB.toPBVolume, List.mem_map, List.mem_finRange, true_and] at hq
    obtain ⟨i, rfl⟩ := hq
    exact (h2 i).1
  · intro x
    rw [h1]
    simp [AABB.toPBVolume, PBVolume.contains, Plane.signedDistance, sub_pos, -List.finRange_succ]

example : (⟨⟨0, 0, 0⟩, ⟨1, 2, 3⟩⟩ : AABB ℚ).Proper ∧ (⟨⟨0, 0, 0⟩, ⟨1, 2, 3⟩⟩ : AABB ℚ).toPBVolume.contains ⟨1, 1, 3⟩ = true ∧
    (⟨⟨0, 0, 0⟩, ⟨1, 2, 3⟩⟩ : AABB ℚ).toPBVolume.contains ⟨1, 3, 3⟩ = false := by
  unfold AABB.Proper; decide +kernel

/-- C102: `OBB::ToPBVolume` has unit normals and contains exactly the points of the box. -/
theorem C102_ofOBB (o : OBB α) (ho : o.Valid) : o.toPBVolume.p.length = 6 ∧ (∀ q ∈ o.toPBVolume.p, lenSq q.normal = 1) ∧
    ∀ x, o.toPBVolume.contains x = true ↔ x ∈ Spec.obb o.pos o.axis0 o.axis1 o.axis2 o.r := by
  obtain ⟨h1, h2⟩ := C67_facePlanes o ho
  refine ⟨by simp [OBB.toPBVolume], ?_, ?_⟩
  · intro q hq
    simp only [OBB.toPBVolume, List.mem_map, List.mem_finRange, true_and] at hq
    obtain ⟨i, rfl⟩ := hq
    exact (h2 i).1
  · intro x
    rw [show Spec.obb o.pos o.axis0 o.axis1 o.axis2 o.r = o.points from rfl, h1]
    simp [OBB.toPBVolume, PBVolume.contains, Plane.signedDistance, sub_pos, -List.finRange_succ]

example : (⟨⟨1, 2, 3⟩, ⟨1, 2, 1⟩, ⟨3/5, 4/5, 0⟩, ⟨-4/5, 3/5, 0⟩, ⟨0, 0, 1⟩⟩ : OBB ℚ).Valid := by
  refine ⟨⟨?_, ?_, ?_, ?_, ?_, ?_⟩, ?_, ?_, ?_⟩ <;> decide +kernel

end MGL
