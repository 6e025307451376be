import Verif.Proofs.LU
import Verif.Proofs.Pivot
import Verif.Spec.Echelon
import Mathlib.Analysis.Real.Sqrt

/-! C59: LU and Cholesky decomposition and row reduction of square matrices. -/

namespace MGL
open MatGen Spec
variable {α : Type*} [Field α] [LinearOrder α] [IsStrictOrderedRing α] {n : ℕ}

/-- **C59**: when `LUDecompose` succeeds, `lower` is unit lower triangular, `upper` is upper
triangular, and their product is the input. Any size. -/
theorem C59_lu_sound (m L U : Matrix (Fin n) (Fin n) α) (h : luDecompose m = some (L, U)) :
    UnitLower L ∧ Upper U ∧ L * U = m := by
  have h0 : LUInv m 0 (fun i j => if i = j then 1 else 0) (fun _ _ => 0) :=
    ⟨fun a => by simp, fun a k hk => by simp [ne_of_lt hk], fun _ _ _ => rfl, fun a c h => by omega⟩
  have := luLoop_spec m 0 (Nat.zero_le _) _ _ L U h0 (by rw [List.drop_zero]; exact h)
  refine ⟨⟨this.diag, this.low⟩, fun a b hb => this.up a b (Or.inr hb), ?_⟩
  ext a c
  rw [Matrix.mul_apply]
  exact this.prod a c (Or.inl a.isLt)

example := C59_lu_sound (!![2, 1; 6, 4] : Matrix (Fin 2) (Fin 2) ℚ) !![1, 0; 3, 1] !![2, 1; 0, 1] (by decide +kernel)

/-- **C59**: `LUDecompose` finds the factorisation whenever there is one whose pivots, except possibly
the last, are at least the tolerance 1e-4 in magnitude; the factorisation is the one given. -/
theorem C59_lu_complete (L U : Matrix (Fin n) (Fin n) α) (hL : UnitLower L) (hU : Upper U)
    (hp : ∀ i, (∃ a, i < a) → 1 / 10000 ≤ |U i i|) : luDecompose (L * U) = some (L, U) := by
  have := luLoop_complete (L * U) L U hL.1 hL.2 hU rfl (fun i hi => by
    have := hp i hi
    simp only [equalAbs, absF_eq, sub_zero, decide_eq_false_iff_not, not_lt]; exact this) 0 (Nat.zero_le _)
    (fun i j => if i = j then 1 else 0) (fun _ _ => 0) (fun a c => by simp) (fun a c => by simp)
  rw [List.drop_zero] at this
  exact this

/-- A factorisation meeting the hypotheses, with non-trivial factors. -/
example : UnitLower (!![1, 0; 3, 1] : Matrix (Fin 2) (Fin 2) ℚ) ∧ Upper (!![2, 5; 0, -1] : Matrix (Fin 2) (Fin 2) ℚ) ∧
    (∀ i, (∃ a, i < a) → 1 / 10000 ≤ |(!![2, 5; 0, -1] : Matrix (Fin 2) (Fin 2) ℚ) i i|) ∧
    luDecompose (!![2, 5; 6, 14] : Matrix (Fin 2) (Fin 2) ℚ) = some (!![1, 0; 3, 1], !![2, 5; 0, -1]) := by
  have h1 : UnitLower (!![1, 0; 3, 1] : Matrix (Fin 2) (Fin 2) ℚ) := by
    constructor <;> (intro a; fin_cases a) <;> simp [Fin.forall_fin_two]
  have h2 : Upper (!![2, 5; 0, -1] : Matrix (Fin 2) (Fin 2) ℚ) := by
    intro a b; fin_cases a <;> fin_cases b <;> simp
  have h3 : (∀ i, (∃ a, i < a) → 1 / 10000 ≤ |(!![2, 5; 0, -1] : Matrix (Fin 2) (Fin 2) ℚ) i i|) := by
    intro i _; fin_cases i <;> norm_num
  refine ⟨h1, h2, h3, ?_⟩
  have := C59_lu_complete _ _ h1 h2 h3
  rw [← this]
  congr 1
  ext i j; fin_cases i <;> fin_cases j <;> norm_num [Matrix.mul_apply, Fin.sum_univ_two]

/-- **C59**: the decomposition of `CholeskyDecompose` is documented to satisfy `L * Lᵀ = M`, but the
code fails for every 4x4 matrix, including every positive definite one. -/
theorem C59_cholesky_violation (m : Mat4 ℝ) : cholesky Real.sqrt m = none := by
  have gen : ∀ (M : Type) (f : M → Fin 4 → Option M) (x : M), (f x 0 = none ∨ ∃ y, f x 0 = some y ∧ f y 1 = none) →
      (List.finRange 4).foldlM f x = none := by
    intro M f x h
    have hl : List.finRange 4 = [0, 1, 2, 3] := by decide
    rw [hl, List.foldlM_cons]
    rcases h with h | ⟨y, h1, h2⟩
    · rw [h]; rfl
    · rw [h1]; show ([1, 2, 3] : List (Fin 4)).foldlM f y = none
      rw [List.foldlM_cons]
      rw [h2]; rfl
  apply gen
  by_cases h : m 0 0 = 0
  · right
    refine ⟨Mat.setAt (Mat.setAt (fun _ _ => 0) 0 0 (m 0 0)) 0 0 (Real.sqrt (m 0 0)), ?_, ?_⟩
    · show (if (Mat.setAt (fun _ _ => 0) 0 0 (m 0 0) : Mat4 ℝ) 0 0 ≠ 0 then none else _) = _
      rw [if_neg (by simp [Mat.setAt, h])]; rfl
    · have : (Mat.setAt (Mat.setAt (fun _ _ => 0) 0 0 (m 0 0)) 0 0 (Real.sqrt (m 0 0)) : Mat4 ℝ) 0 0 = 0 := by
        simp [Mat.setAt, h]
      generalize (Mat.setAt (Mat.setAt (fun _ _ => 0) 0 0 (m 0 0)) 0 0 (Real.sqrt (m 0 0)) : Mat4 ℝ) = l at *
      have e : choleskyRow m 1 l = none := by
        show ((if equalAbs (l 0 0) 0 then none else _ : Option (Mat4 ℝ)) >>= _) = none
        rw [if_pos (by rw [this]; simp [equalAbs, absF_eq])]; rfl
      show (choleskyRow m 1 l).bind _ = none
      rw [e]; rfl
  · left
    show (if (Mat.setAt (fun _ _ => 0) 0 0 (m 0 0) : Mat4 ℝ) 0 0 ≠ 0 then none else _) = none
    rw [if_pos (by simpa [Mat.setAt] using h)]

/-- The identity, which has the Cholesky factor `1`, is a witness. -/
example : (1 : Mat4 ℝ) * Matrix.transpose (1 : Mat4 ℝ) = 1 ∧ cholesky Real.sqrt (1 : Mat4 ℝ) = none :=
  ⟨by rw [Matrix.one_mul]; exact Matrix.transpose_one, C59_cholesky_violation _⟩

/-- **C59**: `Pivot` only applies invertible row operations: the result is `E * M` with `E` invertible
(so it has the same row space, rank and null space). Any size, any positive tolerance. -/
theorem C59_pivot_rowEquivalent (m : Matrix (Fin n) (Fin n) α) (eps : α) (he : 0 < eps) :
    ∃ E : Matrix (Fin n) (Fin n) α, IsUnit E ∧ pivot m eps = E * m := pivot_mul eps he m

example := C59_pivot_rowEquivalent (!![2, 1; 6, 4] : Matrix (Fin 2) (Fin 2) ℚ) (1/1000) (by norm_num)

/-- **C59** (partial): for every matrix, `Pivot` produces the reduced row echelon form once the
tolerance is small enough for that matrix. The full claim is for the fixed tolerance 1e-4, and
`C59_pivot_violation` shows that it fails for it. -/
theorem C59_pivot_echelon_partial (m : Matrix (Fin n) (Fin n) α) :
    ∃ δ : α, 0 < δ ∧ ∀ eps, 0 < eps → eps ≤ δ → ReducedRowEchelon (pivot m eps) := by
  have h0 : Ech m 0 0 := ⟨le_rfl, Nat.zero_le _, fun _ => 0, by omega, by omega, by omega, by omega, by omega⟩
  obtain ⟨δ, hδ, h⟩ := pivot_ech m 0 0 (Nat.zero_le _) h0
  refine ⟨δ, hδ, fun eps h1 h2 => ?_⟩
  obtain ⟨r, e1, e2, p, p1, p2, p3, p4, p5⟩ := h eps h1 h2
  rw [List.drop_zero] at *
  exact ⟨r, p, p1, fun k hk => ⟨by omega, p2 k hk⟩, p3, fun a b ha => p4 a b b.isLt ha, p5⟩

/-- **C59**: with the tolerance of the code, `Pivot` does not reduce every matrix to row echelon form:
`diag(1e-5, 1, 1, 1)` becomes a matrix whose last row starts before the rows above it. -/
theorem C59_pivot_violation :
    ∃ m : Mat4 ℚ, m.det ≠ 0 ∧ ¬ RowEchelonWeak (pivot m) := by
  refine ⟨!![1/100000, 0, 0, 0; 0, 1, 0, 0; 0, 0, 1, 0; 0, 0, 0, 1], ?_, ?_⟩
  · simp [Matrix.det_succ_row_zero, Fin.sum_univ_succ]
  · intro h
    have e1 : (pivot (!![1/100000, 0, 0, 0; 0, 1, 0, 0; 0, 0, 1, 0; 0, 0, 0, 1] : Mat4 ℚ)) 0 0 = 0 := by
      decide +kernel
    have e2 : (pivot (!![1/100000, 0, 0, 0; 0, 1, 0, 0; 0, 0, 1, 0; 0, 0, 0, 1] : Mat4 ℚ)) 3 0 ≠ 0 := by
      decide +kernel
    refine e2 (h 0 3 0 (by decide) (fun b hb => ?_) 0 le_rfl)
    have : b = 0 := by simpa using hb
    rw [this]; exact e1

/-- `RowEchelonWeak` is implied by the reduced form, so the violation is not an artefact. -/
example : ReducedRowEchelon (!![1, 0, 2; 0, 1, 3; 0, 0, 0] : Matrix (Fin 3) (Fin 3) ℚ) := by
  refine ⟨2, id, fun i j h _ => h, by simp; omega, ?_, ?_, ?_⟩
  · intro k hk a b hb
    have : b = 0 ∨ b = 1 := by
      rcases (by omega : k = 0 ∨ k = 1) with rfl | rfl
      · left; exact Fin.ext hb
      · right; exact Fin.ext hb
    rcases this with rfl | rfl <;> (simp at hb; subst hb) <;> fin_cases a <;> simp
  · intro a b ha; fin_cases a <;> fin_cases b <;> simp at ha ⊢
  · intro a b ha hb; fin_cases a <;> fin_cases b <;> simp at ha hb ⊢

end MGL
