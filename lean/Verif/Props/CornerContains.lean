import Verif.Model.CornerContains
import Verif.Props.Sphere
import Verif.Props.OBBMore
import Verif.Props.FrustumMore
import Verif.Spec.Polygon

/-! C27, C36: containment of oriented boxes, frustums and convex hulls of vertices in spheres and oriented boxes. -/

namespace MGL
open V3

theorem ball_between (c : V3 ℝ) (r : ℝ) : ∀ p ∈ Spec.ball c r, ∀ q ∈ Spec.ball c r, ∀ t : ℝ, 0 ≤ t → t ≤ 1 → p + t • (q - p) ∈ Spec.ball c r := by
  intro p hp q hq t h0 h1
  have hp' : distSq p c ≤ r * r := hp
  have hq' : distSq q c ≤ r * r := hq
  show distSq (p + t • (q - p)) c ≤ r * r
  have e : distSq (p + t • (q - p)) c = (1 - t) * distSq p c + t * distSq q c - t * (1 - t) * distSq p q := by
    simp only [distSq, lenSq, dot, add_x, add_y, add_z, sub_x, sub_y, sub_z, smul_x, smul_y, smul_z]; ring
  have h2 : 0 ≤ distSq p q := lenSq_nonneg (p - q)
  have h3 : 0 ≤ t * (1 - t) * distSq p q := mul_nonneg (mul_nonneg h0 (by linarith)) h2
  rw [e]
  nlinarith

theorem corner_sum {n : ℕ} (c : Fin n → V3 ℝ) (i : Fin n) : ∃ w : Fin n → ℝ, (∀ j, 0 ≤ w j) ∧ ∑ j, w j = 1 ∧ c i = ∑ j, w j • c j := by
  refine ⟨Pi.single i 1, fun j => ?_, by simp, ?_⟩
  · by_cases e : j = i
    · subst e; simp
    · simp [e]
  · rw [Finset.sum_eq_single i]
    · ext <;> simp
    · intro j _ hj; rw [Pi.single_eq_of_ne hj]; ext <;> simp
    · simp

/-- For a convex set, all corners are in it exactly when their convex hull is. -/
theorem corners_iff {n : ℕ} {S H : Set (V3 ℝ)} (hS : ∀ p ∈ S, ∀ q ∈ S, ∀ t : ℝ, 0 ≤ t → t ≤ 1 → p + t • (q - p) ∈ S) (c : Fin n → V3 ℝ)
    (hH : ∀ p, p ∈ H ↔ ∃ w : Fin n → ℝ, (∀ i, 0 ≤ w i) ∧ ∑ i, w i = 1 ∧ p = ∑ i, w i • c i) : (∀ i, c i ∈ S) ↔ H ⊆ S := by
  constructor
  · intro h p hp
    obtain ⟨w, hw, hs, rfl⟩ := (hH p).1 hp
    exact sum_mem_of_convex hS _ _ _ (fun i _ => h i) (fun i _ => hw i) hs
  · intro h i
    exact h ((hH _).2 (corner_sum c i))

/-- C27: `Sphere::Contains(OBB)` holds exactly when the whole oriented box is in the ball. -/
theorem C27_contains_obb (s : Sphere ℝ) (b : OBB ℝ) (hx : 0 ≤ b.r.x) (hy : 0 ≤ b.r.y) (hz : 0 ≤ b.r.z) :
    s.containsOBB b = true ↔ b.points ⊆ Spec.ball s.pos s.r := by
  rw [← corners_iff (ball_between s.pos s.r) b.cornerPoint (C67_corners b hx hy hz).2]
  simp only [Sphere.containsOBB, List.all_eq_true, List.mem_finRange, forall_true_left, C27_contains_point]

example := C27_contains_obb ⟨⟨1, 2, 3⟩, 4⟩ ⟨⟨1, 2, 3⟩, ⟨1, 2, 1 / 2⟩, ⟨3/5, 4/5, 0⟩, ⟨-4/5, 3/5, 0⟩, ⟨0, 0, 1⟩⟩ (by norm_num) (by norm_num) (by norm_num)

/-- C27: `Sphere::Contains(Frustum)` holds exactly when the whole frustum is in the ball. -/
theorem C27_contains_frustum (s : Sphere ℝ) (f : Frustum) (hf : f.Valid) : s.containsFrustum f = true ↔ f.points ⊆ Spec.ball s.pos s.r := by
  rw [← corners_iff (ball_between s.pos s.r) f.cornerPoint (fun p => by rw [(Frustum.C71_corners f hf).2.1]; rfl)]
  simp only [Sphere.containsFrustum, List.all_eq_true, List.mem_finRange, forall_true_left, C27_contains_point]

example := C27_contains_frustum ⟨⟨1, 2, 3⟩, 4⟩ exPersp exPersp_valid

/-- C27: `Contains` of a polygon or polyhedron holds exactly when the whole convex hull of the vertices is in the ball. -/
theorem C27_contains_hull (s : Sphere ℝ) (vs : List (V3 ℝ)) : s.containsVertices vs = true ↔ Spec.hull3 vs ⊆ Spec.ball s.pos s.r := by
  rw [C27_contains_vertices]
  constructor
  · intro h x hx
    refine hx _ ?_ h
    intro p hp q hq a b ha hb hab
    have := ball_between s.pos s.r p hp q hq b hb (by linarith)
    convert this using 1
    have e : a = 1 - b := by linarith
    subst e
    ext <;> simp only [add_x, add_y, add_z, sub_x, sub_y, sub_z, smul_x, smul_y, smul_z] <;> ring
  · intro h v hv
    exact h fun K _ hK => hK v hv

example : (⟨⟨0, 0, 0⟩, 3⟩ : Sphere ℚ).containsVertices [⟨2, 1, 0⟩, ⟨1, 2, 2⟩, ⟨-3, 0, 0⟩] = true := by decide +kernel

/-- C36: `OBB::Contains(Frustum)` holds exactly when the whole frustum is in the box. -/
theorem C36_contains_frustum (o : OBB ℝ) (ho : Spec.Frame o.axis0 o.axis1 o.axis2) (f : Frustum) (hf : f.Valid) :
    o.containsFrustum f = true ↔ f.points ⊆ o.points := by
  rw [← corners_iff (fun p hp q hq t h0 h1 => obb_convex _ _ _ _ _ hp hq t h0 h1) f.cornerPoint
    (fun p => by rw [(Frustum.C71_corners f hf).2.1]; rfl)]
  simp only [OBB.containsFrustum, List.all_eq_true, List.mem_finRange, forall_true_left, C36_contains o ho]

example := C36_contains_frustum ⟨⟨1, 2, 3⟩, ⟨1, 2, 1 / 2⟩, ⟨3/5, 4/5, 0⟩, ⟨-4/5, 3/5, 0⟩, ⟨0, 0, 1⟩⟩
  (by constructor <;> norm_num [lenSq, dot]) exPersp exPersp_valid

end MGL
