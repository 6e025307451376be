import Verif.Spec.MeshMeasure
import Verif.Model.PolyhedronMeasure
import Verif.Proofs.ConvexSurface
import Verif.Proofs.PolyhedronMerge
import Verif.Proofs.Polygon2D

/-! Sums over the triangles of a closed mesh do not depend on the reference point. -/

set_option linter.unusedSectionVars false

namespace MGL
open V3 Spec
namespace Polyhedron

theorem fanOf_map {β γ : Type*} (g : β → γ) : ∀ f : List β, fanOf (f.map g) = (fanOf f).map fun t => (g t.1, g t.2.1, g t.2.2)
  | [] => rfl
  | a :: r => by
    show Spec.fan (g a) (r.map g) = (Spec.fan a r).map _
    induction r with
    | nil => rfl
    | cons b r ih =>
      rcases r with _ | ⟨c, r⟩
      · rfl
      · rw [List.map_cons, List.map_cons, Spec.fan, Spec.fan, List.map_cons, ← ih]; rfl

section
variable {α : Type} [Field α] [LinearOrder α] [IsStrictOrderedRing α]

/-- The closed walk over a face, from an edge function that is antisymmetric. -/
theorem fan_boundary (ψ : ℤ × ℤ → α) (hψ : ∀ e, ψ e.swap = -ψ e) (a : ℤ) : ∀ (r : List ℤ) (b : ℤ),
    ((Spec.fan a (b :: r)).map fun t => ψ (t.1, t.2.1) + ψ (t.2.1, t.2.2) + ψ (t.2.2, t.1)).sum =
      ψ (a, b) + ((Polygon.walk b r).map ψ).sum + ψ (r.getLastD b, a)
  | [], b => by
    have := hψ (a, b)
    simp only [Spec.fan, Polygon.walk, List.zip_nil_right, List.map_nil, List.sum_nil, List.getLastD_nil]
    rw [show (a, b).swap = (b, a) from rfl] at this
    rw [this]; ring
  | c :: r, b => by
    have h := hψ (a, c)
    rw [show (a, c).swap = (c, a) from rfl] at h
    rw [Spec.fan, List.map_cons, List.sum_cons, fan_boundary ψ hψ a r c, Polygon.walk_cons, List.map_cons, List.sum_cons, List.getLastD_cons]
    dsimp only
    rw [h]; ring

theorem zip_tail_walk (a : ℤ) : ∀ (l : List ℤ) (b : ℤ), (b :: l).zip (l ++ [a]) = Polygon.walk b l ++ [(l.getLastD b, a)]
  | [], b => rfl
  | c :: l, b => by
    rw [List.cons_append, List.zip_cons_cons, zip_tail_walk a l c, Polygon.walk_cons, List.getLastD_cons]; rfl

theorem fanOf_boundary (ψ : ℤ × ℤ → α) (hψ : ∀ e, ψ e.swap = -ψ e) (f : List ℤ) :
    ((fanOf f).map fun t => ψ (t.1, t.2.1) + ψ (t.2.1, t.2.2) + ψ (t.2.2, t.1)).sum = ((faceEdges f).map ψ).sum := by
  have h0 : ∀ a, ψ (a, a) = 0 := by
    intro a
    have := hψ (a, a)
    rw [show (a, a).swap = (a, a) from rfl] at this
    linarith
  rcases f with _ | ⟨a, r⟩
  · rfl
  · rcases r with _ | ⟨b, r⟩
    · simp [fanOf, Spec.fan, faceEdges, h0]
    · show ((Spec.fan a (b :: r)).map _).sum = _
      have e : faceEdges (a :: b :: r) = Polygon.walk a (b :: r) ++ [((b :: r).getLastD a, a)] := by
        rw [faceEdges, ← zip_tail_walk]; rfl
      rw [fan_boundary ψ hψ, e, Polygon.walk_cons, List.map_append, List.sum_append, List.map_cons, List.sum_cons, List.map_singleton, List.sum_singleton, List.getLastD_cons]

theorem flatMap_sum {β : Type*} (fs : List (List ℤ)) (h : List ℤ → List β) (g : β → α) :
    ((fs.flatMap h).map g).sum = (fs.map fun f => ((h f).map g).sum).sum := by
  induction fs with
  | nil => rfl
  | cons f fs ih => simp only [List.flatMap_cons, List.map_append, List.sum_append, ih, List.map_cons, List.sum_cons]

theorem meshTriangles_cons (V : List (V3 α)) (f : List ℤ) (fs : List (List ℤ)) :
    meshTriangles V (f :: fs) = fanOf (f.map (corner V)) ++ meshTriangles V fs := rfl

/-- A closed mesh has no boundary: an antisymmetric edge function sums up to nothing over the triangles. -/
theorem mesh_boundary {V : List (V3 α)} {fs : List (List ℤ)} (hv : ValidFaces V.length fs) (hc : ClosedMesh fs) (ψ : V3 α → V3 α → α)
    (hψ : ∀ x y, ψ y x = -ψ x y) : ((meshTriangles V fs).map fun t => ψ t.1 t.2.1 + ψ t.2.1 t.2.2 + ψ t.2.2 t.1).sum = 0 := by
  have hψ' : ∀ e : ℤ × ℤ, (fun e : ℤ × ℤ => ψ (corner V e.1) (corner V e.2)) e.swap = -(fun e : ℤ × ℤ => ψ (corner V e.1) (corner V e.2)) e :=
    fun e => hψ _ _
  rw [meshTriangles, flatMap_sum, ← list_sum_swap hc (fun e : ℤ × ℤ => ψ (corner V e.1) (corner V e.2)) hψ', mesh_sum fs (fun f hf => by have := (hv f hf).1; omega)]
  congr 1
  refine List.map_congr_left fun f _ => ?_
  rw [← fanOf_boundary (fun e : ℤ × ℤ => ψ (corner V e.1) (corner V e.2)) hψ' f, fanOf_map, List.map_map]
  rfl

theorem tetra6_shift (o a b c : V3 α) : tetra6 o (a, b, c) = tetra6 0 (a, b, c) -
    (dot o (cross a b) + dot o (cross b c) + dot o (cross c a)) := by
  simp only [tetra6, dot, cross, sub_x, sub_y, sub_z, zero_x, zero_y, zero_z]; ring

theorem sum_tetra6 {V : List (V3 α)} {fs : List (List ℤ)} (hv : ValidFaces V.length fs) (hc : ClosedMesh fs) (o : V3 α) :
    ((meshTriangles V fs).map (tetra6 o)).sum = ((meshTriangles V fs).map (tetra6 0)).sum := by
  have hb := mesh_boundary (V := V) hv hc (fun x y => -dot o (cross x y)) (fun x y => by simp only [dot, cross]; ring)
  have e : tetra6 o = fun t : V3 α × V3 α × V3 α => tetra6 0 t + (-dot o (cross t.1 t.2.1) + -dot o (cross t.2.1 t.2.2) + -dot o (cross t.2.2 t.1)) := by
    funext t
    rw [show t = (t.1, t.2.1, t.2.2) from rfl, tetra6_shift]; ring
  rw [e, List.sum_map_add, hb, add_zero]

theorem signedVolume_const {V : List (V3 α)} {fs : List (List ℤ)} (hv : ValidFaces V.length fs) (hc : ClosedMesh fs) (o : V3 α) :
    signedVolume o V fs = signedVolume 0 V fs := by
  rw [signedVolume, signedVolume, sum_tetra6 hv hc]

theorem sum_x (l : List (V3 α)) : l.sum.x = (l.map V3.x).sum := by
  induction l with
  | nil => rfl
  | cons a l ih => simp [ih]
theorem sum_y (l : List (V3 α)) : l.sum.y = (l.map V3.y).sum := by
  induction l with
  | nil => rfl
  | cons a l ih => simp [ih]
theorem sum_z (l : List (V3 α)) : l.sum.z = (l.map V3.z).sum := by
  induction l with
  | nil => rfl
  | cons a l ih => simp [ih]

theorem moment_coord {V : List (V3 α)} {fs : List (List ℤ)} (hv : ValidFaces V.length fs) (hc : ClosedMesh fs) (o : V3 α) (g : V3 α → α)
    (hg : ∀ x y, g (x + y) = g x + g y) (hs : ∀ (k : α) x, g (k • x) = k * g x) :
    ((meshTriangles V fs).map fun t => g ((tetra6 o t / 6) • ((1 / 4 : α) • (o + t.1 + t.2.1 + t.2.2)))).sum =
    ((meshTriangles V fs).map fun t => g ((tetra6 0 t / 6) • ((1 / 4 : α) • ((0 : V3 α) + t.1 + t.2.1 + t.2.2)))).sum := by
  have hb := mesh_boundary (V := V) hv hc (fun x y => -(dot o (cross x y) / 24 * (g o + g x + g y))) (fun x y => by simp only [dot, cross]; ring)
  have h0 : g 0 = 0 := by
    have := hs 0 0
    rw [zero_mul] at this
    rw [← this]; congr 1; ext <;> simp
  have e : (fun t : V3 α × V3 α × V3 α => g ((tetra6 o t / 6) • ((1 / 4 : α) • (o + t.1 + t.2.1 + t.2.2)))) = fun t =>
      g ((tetra6 0 t / 6) • ((1 / 4 : α) • ((0 : V3 α) + t.1 + t.2.1 + t.2.2))) +
      (-(dot o (cross t.1 t.2.1) / 24 * (g o + g t.1 + g t.2.1)) + -(dot o (cross t.2.1 t.2.2) / 24 * (g o + g t.2.1 + g t.2.2)) +
        -(dot o (cross t.2.2 t.1) / 24 * (g o + g t.2.2 + g t.1))) := by
    funext t
    obtain ⟨a, b, c⟩ := t
    simp only [hs, hg, h0]
    rw [tetra6_shift o a b c]
    have hcr : tetra6 0 (a, b, c) • o = dot o (cross b c) • a + dot o (cross c a) • b + dot o (cross a b) • c := by
      ext <;> simp only [tetra6, dot, cross, sub_x, sub_y, sub_z, zero_x, zero_y, zero_z, add_x, add_y, add_z, smul_x, smul_y, smul_z] <;> ring
    have h := congrArg g hcr
    simp only [hg, hs] at h
    linear_combination h / 24
  rw [e, List.sum_map_add, hb, add_zero]

end

end Polyhedron
end MGL
