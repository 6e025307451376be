import Verif.Model.Batch
import Verif.Spec.TRS
import Mathlib.Algebra.Order.Field.Rat

/-! C93: transforming arrays of vectors in place. -/

set_option linter.unusedSectionVars false

namespace MGL.Batch
open Spec
variable {α : Type*}

theorem write_at (k : ℕ) (mem : ℕ → α) (p : ℕ) (v : Fin k → α) (j : Fin k) : write k mem p v (p + j) = v j := by
  have h : p ≤ p + (j : ℕ) ∧ p + (j : ℕ) - p < k := ⟨by omega, by omega⟩
  unfold write
  rw [dif_pos h]
  congr 1
  exact Fin.ext (by simp)

theorem write_off (k : ℕ) (mem : ℕ → α) (p : ℕ) (v : Fin k → α) {q : ℕ} (h : ∀ j : Fin k, q ≠ p + j) : write k mem p v q = mem q := by
  unfold write
  rw [dif_neg]
  rintro ⟨h1, h2⟩
  exact h ⟨q - p, h2⟩ (by simp only; omega)

theorem loop_maps (k : ℕ) (f : (Fin k → α) → Fin k → α) {stride : ℕ} (hs : k ≤ stride) (n : ℕ) (mem : ℕ → α) :
    MapsRecords k stride n f mem (loop k f stride n mem) := by
  induction n with
  | zero => exact ⟨fun i hi => absurd hi (Nat.not_lt_zero i), fun p _ => rfl⟩
  | succ n ih =>
    obtain ⟨h1, h2⟩ := ih
    have e : loop k f stride (n + 1) mem = write k (loop k f stride n mem) (stride * n) (f (read k (loop k f stride n mem) (stride * n))) := by
      unfold loop
      rw [List.range_succ, List.foldl_append, List.foldl_cons, List.foldl_nil]
    have old : read k (loop k f stride n mem) (stride * n) = fun j : Fin k => mem (stride * n + j) := by
      funext j
      refine h2 _ fun i hi j' => ?_
      have := Nat.mul_le_mul_left stride (Nat.succ_le_of_lt hi)
      rw [Nat.mul_succ] at this
      have := j'.2
      omega
    rw [e, old]
    refine ⟨fun i hi j => ?_, fun p hp => ?_⟩
    · rcases Nat.lt_succ_iff_lt_or_eq.1 hi with hi | rfl
      · rw [write_off]
        · exact h1 i hi j
        · intro j'
          have := Nat.mul_le_mul_left stride (Nat.succ_le_of_lt hi)
          rw [Nat.mul_succ] at this
          have := j.2
          omega
      · exact write_at _ _ _ _ _
    · rw [write_off _ _ _ _ fun j => hp n (Nat.lt_succ_self n) j]
      exact h2 p fun i hi => hp i (Nat.lt_succ_of_lt hi)

theorem loopPtr_eq (k : ℕ) (f : (Fin k → α) → Fin k → α) (stride : ℕ) : ∀ (n s : ℕ) (mem : ℕ → α), loopPtr k f stride n mem (stride * s) =
    (List.range' s n).foldl (fun mem i => write k mem (stride * i) (f (read k mem (stride * i)))) mem := by
  intro n
  induction n with
  | zero => intro s mem; rfl
  | succ n ih =>
    intro s mem
    rw [List.range'_succ, List.foldl_cons, ← ih (s + 1)]
    rfl

theorem loopPtr_maps (k : ℕ) (f : (Fin k → α) → Fin k → α) {stride : ℕ} (hs : k ≤ stride) (n : ℕ) (mem : ℕ → α) :
    MapsRecords k stride n f mem (loopPtr k f stride n mem 0) := by
  have := loopPtr_eq k f stride n 0 mem
  rw [Nat.mul_zero, ← List.range_eq_range'] at this
  rw [this]
  exact loop_maps k f hs n mem

theorem _root_.MGL.Spec.MapsRecords.congr {k stride n : ℕ} {f g : (Fin k → α) → Fin k → α} {mem mem' : ℕ → α} (h : MapsRecords k stride n f mem mem')
    (e : ∀ v, f v = g v) : MapsRecords k stride n g mem mem' := by
  rwa [show f = g from funext e] at h

variable [Field α]

/-- C93: `float3x3::BatchTransform` multiplies each vector by the matrix and touches nothing else, for packed arrays and for any stride that
keeps the vectors apart. A `float4` keeps its `w`. -/
theorem C93_mat3 (m : Mat3 α) (n : ℕ) (mem : ℕ → α) {stride : ℕ} :
    (3 ≤ stride → MapsRecords 3 stride n (fun v => Matrix.mulVec m v) mem (mat3 m stride n mem)) ∧
    (4 ≤ stride → MapsRecords 4 stride n (fun v => Matrix.mulVec (linear4 m) v) mem (mat3Vec4 m stride n mem)) := by
  refine ⟨fun h => (loop_maps 3 _ h n mem).congr fun v => ?_, fun h => (loop_maps 4 _ h n mem).congr fun v => ?_⟩
  · ext i
    fin_cases i <;> simp [on3, Mat3.mulVec, Matrix.mulVec, dotProduct, Fin.sum_univ_three]
  · ext i
    fin_cases i <;> simp [mulVec4, linear4, Matrix.mulVec, dotProduct, Fin.sum_univ_four]

/-- C93: `float3x4::BatchTransformPos`, `BatchTransformDir` with a stride, and `BatchTransform` of `float4`s apply the affine map to each vector, as a
point (`w = 1`), a direction (`w = 0`) or with its own `w`, and touch nothing else. Missing: `BatchTransformDir` of a packed array, which is
wrong (`C93_dir_violation`). -/
theorem C93_mat34_partial (m : Mat34 α) (n : ℕ) (mem : ℕ → α) {stride : ℕ} :
    (3 ≤ stride → MapsRecords 3 stride n (fun v => Matrix.mulVec m ![v 0, v 1, v 2, 1]) mem (mat34Pos m stride n mem)) ∧
    (3 ≤ stride → MapsRecords 3 stride n (fun v => Matrix.mulVec m ![v 0, v 1, v 2, 0]) mem (mat34Dir m stride n mem)) ∧
    (4 ≤ stride → MapsRecords 4 stride n (fun v => Matrix.mulVec (affine m) v) mem (mat34Vec4 m stride n mem)) := by
  refine ⟨fun h => (loop_maps 3 _ h n mem).congr fun v => ?_, fun h => (loop_maps 3 _ h n mem).congr fun v => ?_, fun h => (loop_maps 4 _ h n mem).congr fun v => ?_⟩
  · ext i
    fin_cases i <;> simp [on3, Mat34.mulPos, Matrix.mulVec, dotProduct, Fin.sum_univ_four]
  · ext i
    fin_cases i <;> simp [on3, Mat34.mulDir, Matrix.mulVec, dotProduct, Fin.sum_univ_four]
  · ext i
    fin_cases i <;> simp [Mat34.mulVec4, affine, Matrix.mulVec, dotProduct, Fin.sum_univ_four]

/-- C93: the array versions of `float4x4::TransformPos`, `TransformDir` and `Transform` apply the matrix to each vector (the first three coordinates of
the product, or all four) and touch nothing else. -/
theorem C93_mat4 (m : Mat4 α) (n : ℕ) (mem : ℕ → α) {stride : ℕ} :
    (3 ≤ stride → MapsRecords 3 stride n (fun v i => Matrix.mulVec m ![v 0, v 1, v 2, 1] i.castSucc) mem (mat4Pos m stride n mem)) ∧
    (3 ≤ stride → MapsRecords 3 stride n (fun v i => Matrix.mulVec m ![v 0, v 1, v 2, 0] i.castSucc) mem (mat4Dir m stride n mem)) ∧
    (4 ≤ stride → MapsRecords 4 stride n (fun v => Matrix.mulVec m v) mem (mat4Vec4 m stride n mem)) ∧
    MapsRecords 3 3 n (fun v i => Matrix.mulVec m ![v 0, v 1, v 2, 1] i.castSucc) mem (mat4PosPacked m n mem) ∧
    MapsRecords 3 3 n (fun v i => Matrix.mulVec m ![v 0, v 1, v 2, 0] i.castSucc) mem (mat4DirPacked m n mem) ∧
    MapsRecords 4 4 n (fun v => Matrix.mulVec m v) mem (mat4Vec4Packed m n mem) := by
  have p : ∀ v, on3 (Mat4.mulPos m) v = fun i => Matrix.mulVec m ![v 0, v 1, v 2, 1] i.castSucc := fun v => by
    ext i
    fin_cases i <;> simp [on3, Mat4.mulPos, Matrix.mulVec, dotProduct, Fin.sum_univ_four]
  have d : ∀ v, on3 (Mat4.mulDir m) v = fun i => Matrix.mulVec m ![v 0, v 1, v 2, 0] i.castSucc := fun v => by
    ext i
    fin_cases i <;> simp [on3, Mat4.mulDir, Matrix.mulVec, dotProduct, Fin.sum_univ_four]
  have t : ∀ v, Mat4.mulVec4 m v = Matrix.mulVec m v := fun v => by
    ext i
    fin_cases i <;> simp [Mat4.mulVec4, Matrix.mulVec, dotProduct, Fin.sum_univ_four]
  exact ⟨fun h => (loopPtr_maps 3 _ h n mem).congr p, fun h => (loopPtr_maps 3 _ h n mem).congr d, fun h => (loopPtr_maps 4 _ h n mem).congr t,
    (loop_maps 3 _ (le_refl 3) n mem).congr p, (loop_maps 3 _ (le_refl 3) n mem).congr d, (loop_maps 4 _ (le_refl 4) n mem).congr t⟩

example := (C93_mat34_partial (!![1, 0, 0, 5; 0, 1, 0, 6; 0, 0, 1, 7] : Mat34 ℚ) 1000 (fun p => p) (stride := 8)).1 (by norm_num)

/-- C93: `float3x4::BatchTransformDir` of a packed array transforms its elements as points: a translation moves the directions. -/
theorem C93_dir_violation : ∃ (m : Mat34 ℚ) (mem : ℕ → ℚ), ¬ MapsRecords 3 3 1 (fun v => Matrix.mulVec m ![v 0, v 1, v 2, 0]) mem (mat34DirPacked m 1 mem) ∧
    (∀ v : Fin 3 → ℚ, Matrix.mulVec m ![v 0, v 1, v 2, 0] = v) ∧ mem 0 = 0 ∧ mat34DirPacked m 1 mem 0 = 5 := by
  have e : mat34DirPacked (!![1, 0, 0, 5; 0, 1, 0, 0; 0, 0, 1, 0] : Mat34 ℚ) 1 (fun _ => 0) 0 = 5 := by
    simp [mat34DirPacked, loop, List.range_succ, write, read, on3, Mat34.mulPos]
  have v : ∀ v : Fin 3 → ℚ, (!![1, 0, 0, 5; 0, 1, 0, 0; 0, 0, 1, 0] : Mat34 ℚ).mulVec ![v 0, v 1, v 2, 0] = v := fun v => by
    ext i
    fin_cases i <;> simp [Matrix.mulVec, dotProduct, Fin.sum_univ_four]
  refine ⟨_, fun _ => 0, fun h => ?_, v, rfl, e⟩
  have := h.1 0 (by norm_num) 0
  simp only [v] at this
  exact absurd (e.symm.trans this) (by norm_num)

end MGL.Batch
