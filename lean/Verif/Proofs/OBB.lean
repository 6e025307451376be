import Verif.Spec.OBB
import Verif.Proofs.Vec3
import Verif.Proofs.Dist
import Mathlib.LinearAlgebra.Matrix.NonsingularInverse
import Mathlib.Tactic.FinCases

set_option linter.unusedSectionVars false

/-! Coordinates in an orthonormal frame. -/

namespace MGL
open V3
variable {α : Type*} [Field α] [LinearOrder α] [IsStrictOrderedRing α]

namespace Spec.Frame

/-- The rows are orthonormal when the columns are. -/
theorem rows {u v w : V3 α} (h : Frame u v w) :
    (u.x * u.x + v.x * v.x + w.x * w.x = 1 ∧ u.y * u.y + v.y * v.y + w.y * w.y = 1 ∧
      u.z * u.z + v.z * v.z + w.z * w.z = 1) ∧
    u.x * u.y + v.x * v.y + w.x * w.y = 0 ∧ u.x * u.z + v.x * v.z + w.x * w.z = 0 ∧
      u.y * u.z + v.y * v.z + w.y * w.z = 0 := by
  obtain ⟨h1, h2, h3, h4, h5, h6⟩ := h
  simp only [dot] at *
  let M : Matrix (Fin 3) (Fin 3) α := !![u.x, u.y, u.z; v.x, v.y, v.z; w.x, w.y, w.z]
  have hM : M * M.transpose = 1 := by
    ext i j
    fin_cases i <;> fin_cases j <;> simp [M, Matrix.mul_apply, Fin.sum_univ_three, Matrix.one_apply] <;> linarith
  have hM' : M.transpose * M = 1 := mul_eq_one_comm.1 hM
  have e : ∀ i j, ∑ k, M k i * M k j = if i = j then 1 else 0 := by
    intro i j
    have := congrFun (congrFun hM' i) j
    simpa [Matrix.mul_apply, Matrix.one_apply] using this
  have e00 := e 0 0; have e11 := e 1 1; have e22 := e 2 2
  have e01 := e 0 1; have e02 := e 0 2; have e12 := e 1 2
  simp [M, Fin.sum_univ_three] at e00 e11 e22 e01 e02 e12
  exact ⟨⟨e00, e11, e22⟩, e01, e02, e12⟩

theorem expand {u v w : V3 α} (h : Frame u v w) (p : V3 α) :
    p = dot p u • u + dot p v • v + dot p w • w := by
  obtain ⟨⟨a, b, c⟩, d, e, f⟩ := h.rows
  ext <;> simp [dot]
  · linear_combination -p.x * a - p.y * d - p.z * e
  · linear_combination -p.x * d - p.y * b - p.z * f
  · linear_combination -p.x * e - p.y * f - p.z * c

theorem dot_eq {u v w : V3 α} (h : Frame u v w) (p q : V3 α) :
    dot p q = dot p u * dot q u + dot p v * dot q v + dot p w * dot q w := by
  obtain ⟨⟨a, b, c⟩, d, e, f⟩ := h.rows
  simp only [dot]
  linear_combination -p.x * q.x * a - p.y * q.y * b - p.z * q.z * c - (p.x * q.y + p.y * q.x) * d -
    (p.x * q.z + p.z * q.x) * e - (p.y * q.z + p.z * q.y) * f

/-- Coordinates of a point given in the frame. -/
theorem coords {u v w : V3 α} (h : Frame u v w) (c : V3 α) (s t k : α) :
    dot (c + s • u + t • v + k • w - c) u = s ∧ dot (c + s • u + t • v + k • w - c) v = t ∧
      dot (c + s • u + t • v + k • w - c) w = k := by
  obtain ⟨h1, h2, h3, h4, h5, h6⟩ := h
  simp only [dot] at h1 h2 h3 h4 h5 h6
  simp only [dot, sub_x, sub_y, sub_z, add_x, add_y, add_z, smul_x, smul_y, smul_z]
  refine ⟨?_, ?_, ?_⟩
  · linear_combination s * h1 + t * h4 + k * h5
  · linear_combination s * h4 + t * h2 + k * h6
  · linear_combination s * h5 + t * h6 + k * h3

theorem eq_add {u v w : V3 α} (h : Frame u v w) (c p : V3 α) :
    p = c + dot (p - c) u • u + dot (p - c) v • v + dot (p - c) w • w := by
  have e := h.expand (p - c)
  have ex := congrArg V3.x e; have ey := congrArg V3.y e; have ez := congrArg V3.z e
  simp only [sub_x, sub_y, sub_z, add_x, add_y, add_z, smul_x, smul_y, smul_z] at ex ey ez
  ext <;> simp only [add_x, add_y, add_z, smul_x, smul_y, smul_z] <;> linarith

/-- Membership in the oriented box in coordinates. -/
theorem mem_obb {u v w : V3 α} (h : Frame u v w) (c r p : V3 α) :
    p ∈ Spec.obb c u v w r ↔ |dot (p - c) u| ≤ r.x ∧ |dot (p - c) v| ≤ r.y ∧ |dot (p - c) w| ≤ r.z := by
  simp only [abs_le]
  constructor
  · rintro ⟨s, t, k, s1, s2, t1, t2, k1, k2, rfl⟩
    obtain ⟨e1, e2, e3⟩ := h.coords c s t k
    rw [e1, e2, e3]
    exact ⟨⟨s1, s2⟩, ⟨t1, t2⟩, k1, k2⟩
  · rintro ⟨⟨s1, s2⟩, ⟨t1, t2⟩, k1, k2⟩
    exact ⟨_, _, _, s1, s2, t1, t2, k1, k2, h.eq_add c p⟩

end Spec.Frame

theorem obb_convex (c u v w r : V3 α) {p q : V3 α} (hp : p ∈ Spec.obb c u v w r) (hq : q ∈ Spec.obb c u v w r)
    (t : α) (h0 : 0 ≤ t) (h1 : t ≤ 1) : p + t • (q - p) ∈ Spec.obb c u v w r := by
  obtain ⟨s, a, k, s1, s2, a1, a2, k1, k2, rfl⟩ := hp
  obtain ⟨s', a', k', s1', s2', a1', a2', k1', k2', rfl⟩ := hq
  refine ⟨s + t * (s' - s), a + t * (a' - a), k + t * (k' - k), ?_, ?_, ?_, ?_, ?_, ?_, ?_⟩
  any_goals nlinarith
  ext <;> simp <;> ring

theorem tri_subset_of_convex {S : Set (V3 α)} (hS : ∀ p ∈ S, ∀ q ∈ S, ∀ t : α, 0 ≤ t → t ≤ 1 → p + t • (q - p) ∈ S)
    {a b c : V3 α} (ha : a ∈ S) (hb : b ∈ S) (hc : c ∈ S) : Spec.tri a b c ⊆ S := by
  rintro p ⟨u, v, w, hu, hv, hw, hs, rfl⟩
  rcases eq_or_lt_of_le (add_nonneg hv hw) with e | e
  · have hv0 : v = 0 := by linarith
    have hw0 : w = 0 := by linarith
    have hu1 : u = 1 := by linarith
    subst hv0 hw0 hu1
    have : (1 : α) • a + (0 : α) • b + (0 : α) • c = a := by ext <;> simp
    rw [this]; exact ha
  · have h1 := hS b hb c hc (w / (v + w)) (div_nonneg hw e.le) (by rw [div_le_one e]; linarith)
    have h2 := hS a ha _ h1 (v + w) e.le (by linarith)
    have e0 : v + w ≠ 0 := e.ne'
    have : u • a + v • b + w • c = a + (v + w) • (b + (w / (v + w)) • (c - b) - a) := by
      have hu' : u = 1 - v - w := by linarith
      subst hu'
      ext <;> simp <;> field_simp <;> ring
    rw [this]; exact h2

theorem seg_subset_of_convex {S : Set (V3 α)} (hS : ∀ p ∈ S, ∀ q ∈ S, ∀ t : α, 0 ≤ t → t ≤ 1 → p + t • (q - p) ∈ S)
    {a b : V3 α} (ha : a ∈ S) (hb : b ∈ S) : Spec.seg a b ⊆ S := by
  rintro p ⟨t, h0, h1, rfl⟩
  exact hS a ha b hb t h0 h1

/-- A finite convex combination of points of a convex set is in the set. -/
theorem sum_mem_of_convex {S : Set (V3 α)} (hS : ∀ p ∈ S, ∀ q ∈ S, ∀ t : α, 0 ≤ t → t ≤ 1 → p + t • (q - p) ∈ S)
    {ι : Type*} [DecidableEq ι] (s : Finset ι) (f : ι → V3 α) (w : ι → α) (hf : ∀ i ∈ s, f i ∈ S)
    (hw : ∀ i ∈ s, 0 ≤ w i) (hs : ∑ i ∈ s, w i = 1) : ∑ i ∈ s, w i • f i ∈ S := by
  have key : ∀ s : Finset ι, (∀ i ∈ s, f i ∈ S) → (∀ i ∈ s, 0 ≤ w i) → 0 < ∑ i ∈ s, w i →
      ∃ y ∈ S, ∑ i ∈ s, w i • f i = (∑ i ∈ s, w i) • y := by
    intro s
    induction s using Finset.induction_on with
    | empty => intro _ _ h; simp at h
    | insert a s ha ih =>
      intro hf hw hpos
      rw [Finset.sum_insert ha] at hpos ⊢
      rw [Finset.sum_insert ha]
      have hwa := hw a (Finset.mem_insert_self _ _)
      have hfa := hf a (Finset.mem_insert_self _ _)
      have hws : ∀ i ∈ s, 0 ≤ w i := fun i hi => hw i (Finset.mem_insert_of_mem hi)
      have hfs : ∀ i ∈ s, f i ∈ S := fun i hi => hf i (Finset.mem_insert_of_mem hi)
      rcases eq_or_lt_of_le (Finset.sum_nonneg hws) with e | e
      · have z : ∑ i ∈ s, w i • f i = 0 := by
          apply Finset.sum_eq_zero
          intro i hi
          have := (Finset.sum_eq_zero_iff_of_nonneg hws).1 e.symm i hi
          rw [this]; ext <;> simp
        refine ⟨f a, hfa, ?_⟩
        rw [z, ← e]; ext <;> simp
      · obtain ⟨y, hy, ey⟩ := ih hfs hws e
        have hne : w a + ∑ i ∈ s, w i ≠ 0 := hpos.ne'
        refine ⟨f a + ((∑ i ∈ s, w i) / (w a + ∑ i ∈ s, w i)) • (y - f a),
          hS _ hfa _ hy _ (div_nonneg e.le hpos.le) (by rw [div_le_one hpos]; linarith), ?_⟩
        rw [ey]
        ext <;> simp <;> field_simp <;> ring
  obtain ⟨y, hy, ey⟩ := key s hf hw (by rw [hs]; exact one_pos)
  rw [ey, hs]
  have : (1 : α) • y = y := by ext <;> simp
  rw [this]; exact hy

end MGL
