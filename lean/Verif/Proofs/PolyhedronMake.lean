import Mathlib.Tactic.LinearCombination
import Mathlib.Tactic.FieldSimp
import Verif.Model.PolyhedronMake
import Verif.Spec.MeshGeom
import Verif.Proofs.PolyhedronCanon

/-! Lemmas for the functions that build polyhedra. -/

set_option linter.unusedSectionVars false

namespace MGL
open V3 Spec
namespace Polyhedron

section
variable {α : Type} [Field α] [LinearOrder α] [IsStrictOrderedRing α]

/-- The corner lists of the faces, by index. -/
def at' (P : List (V3 α)) (i : ℤ) : V3 α := P.getD i.toNat ⟨0, 0, 0⟩

theorem faces_forall {p : Polyhedron α} (hv : p.faceIndicesValid = true) {Q : List (V3 α) → Prop} (h : ∀ f ∈ p.f, Q (f.map (at' p.v))) :
    ∃ F, p.faces = some F ∧ ∀ g ∈ F, Q g := by
  have hr : p.InRange := inRange_of_valid ((faceIndicesValid_iff p).1 hv)
  refine ⟨_, faces_eq hr, fun g hg => ?_⟩
  rw [List.mem_map] at hg
  obtain ⟨f, hf, rfl⟩ := hg
  exact h f hf

/-- A point in the frame `R`, `U`, `F` at `O`. -/
def pt (O R U F : V3 α) (r u f : α) : V3 α := O + f • F + r • R + u • U

theorem triple_pt (O R U F : V3 α) (r0 u0 f0 r1 u1 f1 r2 u2 f2 r3 u3 f3 : α) :
    dot (cross (pt O R U F r1 u1 f1 - pt O R U F r0 u0 f0) (pt O R U F r2 u2 f2 - pt O R U F r0 u0 f0))
      (pt O R U F r3 u3 f3 - pt O R U F r0 u0 f0) = dot (cross R U) F *
      (((r1 - r0) * (u2 - u0) - (u1 - u0) * (r2 - r0)) * (f3 - f0) +
       ((u1 - u0) * (f2 - f0) - (f1 - f0) * (u2 - u0)) * (r3 - r0) +
       ((f1 - f0) * (r2 - r0) - (r1 - r0) * (f2 - f0)) * (u3 - u0)) := by
  have e : ∀ r u f r' u' f', pt O R U F r u f - pt O R U F r' u' f' = (f - f') • F + (r - r') • R + (u - u') • U := by
    intro r u f r' u' f'
    ext <;> simp only [pt, add_x, add_y, add_z, sub_x, sub_y, sub_z, smul_x, smul_y, smul_z] <;> ring
  rw [e, e, e]
  generalize r1 - r0 = a1
  generalize r2 - r0 = a2
  generalize r3 - r0 = a3
  generalize u1 - u0 = b1
  generalize u2 - u0 = b2
  generalize u3 - u0 = b3
  generalize f1 - f0 = c1
  generalize f2 - f0 = c2
  generalize f3 - f0 = c3
  simp only [dot, cross, add_x, add_y, add_z, smul_x, smul_y, smul_z]
  ring

theorem faceOutward_of {P : List (V3 α)} {a b c : V3 α} {rest : List (V3 α)} (hP : ∀ x ∈ P, dot (cross (b - a) (c - a)) (x - a) ≤ 0)
    (hrest : ∀ x ∈ rest, dot (cross (b - a) (c - a)) (x - a) = 0) (hneg : ∃ x, dot (cross (b - a) (c - a)) (x - a) < 0) :
    FaceOutward P (a :: b :: c :: rest) := by
  refine ⟨a, b, c, rest, rfl, ?_, hP, ?_⟩
  · intro h0
    obtain ⟨x, hx⟩ := hneg
    rw [h0] at hx
    simp [dot] at hx
  · intro x hx
    simp only [List.mem_cons] at hx
    rcases hx with rfl | rfl | rfl | hx
    · simp [dot]
    · simp only [dot, cross, sub_x, sub_y, sub_z]; ring
    · simp only [dot, cross, sub_x, sub_y, sub_z]; ring
    · exact hrest x hx

theorem faceInward_of {P : List (V3 α)} {a b c : V3 α} {rest : List (V3 α)} (hP : ∀ x ∈ P, 0 ≤ dot (cross (b - a) (c - a)) (x - a))
    (hrest : ∀ x ∈ rest, dot (cross (b - a) (c - a)) (x - a) = 0) (hpos : ∃ x, 0 < dot (cross (b - a) (c - a)) (x - a)) :
    FaceInward P (a :: b :: c :: rest) := by
  refine ⟨a, b, c, rest, rfl, ?_, hP, ?_⟩
  · intro h0
    obtain ⟨x, hx⟩ := hpos
    rw [h0] at hx
    simp [dot] at hx
  · intro x hx
    simp only [List.mem_cons] at hx
    rcases hx with rfl | rfl | rfl | hx
    · simp [dot]
    · simp only [dot, cross, sub_x, sub_y, sub_z]; ring
    · simp only [dot, cross, sub_x, sub_y, sub_z]; ring
    · exact hrest x hx

/-- The corners of a frustum, in the order of the library. -/
def frustPts (O R U F : V3 α) (wn wf hn hf dn df : α) : List (V3 α) :=
  [pt O R U F (-wn) (-hn) dn, pt O R U F (-wf) (-hf) df, pt O R U F (-wn) hn dn, pt O R U F (-wf) hf df,
   pt O R U F wn (-hn) dn, pt O R U F wf (-hf) df, pt O R U F wn hn dn, pt O R U F wf hf df]

/-- Test of a face of four corners: the fifth point is strictly inside. -/
theorem faceOutward_quad {P : List (V3 α)} {a b c d : V3 α} (x : V3 α) (hP : ∀ x ∈ P, dot (cross (b - a) (c - a)) (x - a) ≤ 0)
    (hd : dot (cross (b - a) (c - a)) (d - a) = 0) (hx : dot (cross (b - a) (c - a)) (x - a) < 0) : FaceOutward P [a, b, c, d] :=
  faceOutward_of hP (by simpa using hd) ⟨x, hx⟩

set_option maxHeartbeats 4000000 in
theorem boxFaces_outward (O R U F : V3 α) (wn wf hn hf dn df : α) (hwn : 0 < wn) (hwf : 0 < wf) (hhn : 0 < hn) (hhf : 0 < hf)
    (hd : dn < df) (hD : 0 < dot (cross R U) F) :
    ∀ f ∈ boxFaces, FaceOutward (frustPts O R U F wn wf hn hf dn df) (f.map (at' (frustPts O R U F wn wf hn hf dn df))) := by
  have hd' := sub_pos.2 hd
  have k1 := mul_pos (mul_pos hwn hhn) hd'
  have k2 := mul_pos (mul_pos hwf hhf) hd'
  have k3 := mul_pos (mul_pos hwn hhf) hd'
  have k4 := mul_pos (mul_pos hwf hhn) hd'
  have hle : ∀ k : α, k ≤ 0 → dot (cross R U) F * k ≤ 0 := fun k hk => mul_nonpos_of_nonneg_of_nonpos hD.le hk
  have hlt : ∀ k : α, k < 0 → dot (cross R U) F * k < 0 := fun k hk => mul_neg_of_pos_of_neg hD hk
  have hze : ∀ k : α, k = 0 → dot (cross R U) F * k = 0 := fun k hk => by rw [hk, mul_zero]
  simp only [boxFaces, List.forall_mem_cons, List.map_cons, List.map_nil]
  refine ⟨?_, ?_, ?_, ?_, ?_, ?_, by simp⟩
  all_goals simp only [at', frustPts, Int.toNat_zero, Int.toNat_one, Int.reduceToNat, List.getD_cons_zero, List.getD_cons_succ]
  · refine faceOutward_quad (pt O R U F wn hn dn) ?_ ?_ ?_
    · simp only [List.forall_mem_cons, triple_pt]
      refine ⟨?_, ?_, ?_, ?_, ?_, ?_, ?_, ?_, by simp⟩ <;> (apply hle; linarith)
    · rw [triple_pt]; apply hze; ring
    · rw [triple_pt]; apply hlt; linarith
  · refine faceOutward_quad (pt O R U F (-wn) hn dn) ?_ ?_ ?_
    · simp only [List.forall_mem_cons, triple_pt]
      refine ⟨?_, ?_, ?_, ?_, ?_, ?_, ?_, ?_, by simp⟩ <;> (apply hle; linarith)
    · rw [triple_pt]; apply hze; ring
    · rw [triple_pt]; apply hlt; linarith
  · refine faceOutward_quad (pt O R U F wn hn dn) ?_ ?_ ?_
    · simp only [List.forall_mem_cons, triple_pt]
      refine ⟨?_, ?_, ?_, ?_, ?_, ?_, ?_, ?_, by simp⟩ <;> (apply hle; linarith)
    · rw [triple_pt]; apply hze; ring
    · rw [triple_pt]; apply hlt; linarith
  · refine faceOutward_quad (pt O R U F wn (-hn) dn) ?_ ?_ ?_
    · simp only [List.forall_mem_cons, triple_pt]
      refine ⟨?_, ?_, ?_, ?_, ?_, ?_, ?_, ?_, by simp⟩ <;> (apply hle; linarith)
    · rw [triple_pt]; apply hze; ring
    · rw [triple_pt]; apply hlt; linarith
  · refine faceOutward_quad (pt O R U F wn hn df) ?_ ?_ ?_
    · simp only [List.forall_mem_cons, triple_pt]
      refine ⟨?_, ?_, ?_, ?_, ?_, ?_, ?_, ?_, by simp⟩ <;> (apply hle; linarith)
    · rw [triple_pt]; apply hze; ring
    · rw [triple_pt]; apply hlt; linarith
  · refine faceOutward_quad (pt O R U F wn hn dn) ?_ ?_ ?_
    · simp only [List.forall_mem_cons, triple_pt]
      refine ⟨?_, ?_, ?_, ?_, ?_, ?_, ?_, ?_, by simp⟩ <;> (apply hle; linarith)
    · rw [triple_pt]; apply hze; ring
    · rw [triple_pt]; apply hlt; linarith

set_option maxHeartbeats 4000000 in
theorem frustumFaces_outward (O R U F : V3 α) (wn wf hn hf dn df : α) (hwn : 0 < wn) (hwf : 0 < wf) (hhn : 0 < hn) (hhf : 0 < hf)
    (hd : dn < df) (hD : dot (cross R U) F < 0) :
    ∀ f ∈ frustumFaces, FaceOutward (frustPts O R U F wn wf hn hf dn df) (f.map (at' (frustPts O R U F wn wf hn hf dn df))) := by
  have hd' := sub_pos.2 hd
  have k1 := mul_pos (mul_pos hwn hhn) hd'
  have k2 := mul_pos (mul_pos hwf hhf) hd'
  have k3 := mul_pos (mul_pos hwn hhf) hd'
  have k4 := mul_pos (mul_pos hwf hhn) hd'
  have hle : ∀ k : α, 0 ≤ k → dot (cross R U) F * k ≤ 0 := fun k hk => mul_nonpos_of_nonpos_of_nonneg hD.le hk
  have hlt : ∀ k : α, 0 < k → dot (cross R U) F * k < 0 := fun k hk => mul_neg_of_neg_of_pos hD hk
  have hze : ∀ k : α, k = 0 → dot (cross R U) F * k = 0 := fun k hk => by rw [hk, mul_zero]
  simp only [frustumFaces, List.forall_mem_cons, List.map_cons, List.map_nil, List.reverse_cons, List.reverse_nil, List.nil_append,
    List.cons_append]
  refine ⟨?_, ?_, ?_, ?_, ?_, ?_, by simp⟩
  all_goals simp only [at', frustPts, Int.toNat_zero, Int.toNat_one, Int.reduceToNat, List.getD_cons_zero, List.getD_cons_succ]
  · refine faceOutward_quad (pt O R U F wn hn df) ?_ ?_ ?_
    · simp only [List.forall_mem_cons, triple_pt]
      refine ⟨?_, ?_, ?_, ?_, ?_, ?_, ?_, ?_, by simp⟩ <;> (apply hle; linarith)
    · rw [triple_pt]; apply hze; ring
    · rw [triple_pt]; apply hlt; linarith
  · refine faceOutward_quad (pt O R U F wn hn dn) ?_ ?_ ?_
    · simp only [List.forall_mem_cons, triple_pt]
      refine ⟨?_, ?_, ?_, ?_, ?_, ?_, ?_, ?_, by simp⟩ <;> (apply hle; linarith)
    · rw [triple_pt]; apply hze; ring
    · rw [triple_pt]; apply hlt; linarith
  · refine faceOutward_quad (pt O R U F wn hn dn) ?_ ?_ ?_
    · simp only [List.forall_mem_cons, triple_pt]
      refine ⟨?_, ?_, ?_, ?_, ?_, ?_, ?_, ?_, by simp⟩ <;> (apply hle; linarith)
    · rw [triple_pt]; apply hze; ring
    · rw [triple_pt]; apply hlt; linarith
  · refine faceOutward_quad (pt O R U F (-wn) hn dn) ?_ ?_ ?_
    · simp only [List.forall_mem_cons, triple_pt]
      refine ⟨?_, ?_, ?_, ?_, ?_, ?_, ?_, ?_, by simp⟩ <;> (apply hle; linarith)
    · rw [triple_pt]; apply hze; ring
    · rw [triple_pt]; apply hlt; linarith
  · refine faceOutward_quad (pt O R U F wn (-hn) dn) ?_ ?_ ?_
    · simp only [List.forall_mem_cons, triple_pt]
      refine ⟨?_, ?_, ?_, ?_, ?_, ?_, ?_, ?_, by simp⟩ <;> (apply hle; linarith)
    · rw [triple_pt]; apply hze; ring
    · rw [triple_pt]; apply hlt; linarith
  · refine faceOutward_quad (pt O R U F wn hn dn) ?_ ?_ ?_
    · simp only [List.forall_mem_cons, triple_pt]
      refine ⟨?_, ?_, ?_, ?_, ?_, ?_, ?_, ?_, by simp⟩ <;> (apply hle; linarith)
    · rw [triple_pt]; apply hze; ring
    · rw [triple_pt]; apply hlt; linarith

set_option maxHeartbeats 4000000 in
theorem frustumFaces_reverse_outward (O R U F : V3 α) (wn wf hn hf dn df : α) (hwn : 0 < wn) (hwf : 0 < wf) (hhn : 0 < hn) (hhf : 0 < hf)
    (hd : dn < df) (hD : 0 < dot (cross R U) F) :
    ∀ f ∈ frustumFaces.map List.reverse, FaceOutward (frustPts O R U F wn wf hn hf dn df) (f.map (at' (frustPts O R U F wn wf hn hf dn df))) := by
  have hd' := sub_pos.2 hd
  have k1 := mul_pos (mul_pos hwn hhn) hd'
  have k2 := mul_pos (mul_pos hwf hhf) hd'
  have k3 := mul_pos (mul_pos hwn hhf) hd'
  have k4 := mul_pos (mul_pos hwf hhn) hd'
  have hle : ∀ k : α, k ≤ 0 → dot (cross R U) F * k ≤ 0 := fun k hk => mul_nonpos_of_nonneg_of_nonpos hD.le hk
  have hlt : ∀ k : α, k < 0 → dot (cross R U) F * k < 0 := fun k hk => mul_neg_of_pos_of_neg hD hk
  have hze : ∀ k : α, k = 0 → dot (cross R U) F * k = 0 := fun k hk => by rw [hk, mul_zero]
  simp only [frustumFaces, List.forall_mem_cons, List.map_cons, List.map_nil, List.reverse_cons, List.reverse_nil, List.nil_append,
    List.cons_append]
  refine ⟨?_, ?_, ?_, ?_, ?_, ?_, by simp⟩
  all_goals simp only [at', frustPts, Int.toNat_zero, Int.toNat_one, Int.reduceToNat, List.getD_cons_zero, List.getD_cons_succ]
  · refine faceOutward_quad (pt O R U F wn hn df) ?_ ?_ ?_
    · simp only [List.forall_mem_cons, triple_pt]
      refine ⟨?_, ?_, ?_, ?_, ?_, ?_, ?_, ?_, by simp⟩ <;> (apply hle; linarith)
    · rw [triple_pt]; apply hze; ring
    · rw [triple_pt]; apply hlt; linarith
  · refine faceOutward_quad (pt O R U F wn hn dn) ?_ ?_ ?_
    · simp only [List.forall_mem_cons, triple_pt]
      refine ⟨?_, ?_, ?_, ?_, ?_, ?_, ?_, ?_, by simp⟩ <;> (apply hle; linarith)
    · rw [triple_pt]; apply hze; ring
    · rw [triple_pt]; apply hlt; linarith
  · refine faceOutward_quad (pt O R U F wn hn dn) ?_ ?_ ?_
    · simp only [List.forall_mem_cons, triple_pt]
      refine ⟨?_, ?_, ?_, ?_, ?_, ?_, ?_, ?_, by simp⟩ <;> (apply hle; linarith)
    · rw [triple_pt]; apply hze; ring
    · rw [triple_pt]; apply hlt; linarith
  · refine faceOutward_quad (pt O R U F (-wn) hn dn) ?_ ?_ ?_
    · simp only [List.forall_mem_cons, triple_pt]
      refine ⟨?_, ?_, ?_, ?_, ?_, ?_, ?_, ?_, by simp⟩ <;> (apply hle; linarith)
    · rw [triple_pt]; apply hze; ring
    · rw [triple_pt]; apply hlt; linarith
  · refine faceOutward_quad (pt O R U F wn (-hn) dn) ?_ ?_ ?_
    · simp only [List.forall_mem_cons, triple_pt]
      refine ⟨?_, ?_, ?_, ?_, ?_, ?_, ?_, ?_, by simp⟩ <;> (apply hle; linarith)
    · rw [triple_pt]; apply hze; ring
    · rw [triple_pt]; apply hlt; linarith
  · refine faceOutward_quad (pt O R U F wn hn dn) ?_ ?_ ?_
    · simp only [List.forall_mem_cons, triple_pt]
      refine ⟨?_, ?_, ?_, ?_, ?_, ?_, ?_, ?_, by simp⟩ <;> (apply hle; linarith)
    · rw [triple_pt]; apply hze; ring
    · rw [triple_pt]; apply hlt; linarith

end
end Polyhedron
end MGL
