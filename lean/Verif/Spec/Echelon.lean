import Mathlib.LinearAlgebra.Matrix.Notation

/-! Triangular and row echelon matrices. -/

namespace MGL.Spec
variable {α : Type*} [Zero α] [One α] {n : ℕ}

/-- Lower triangular with ones on the diagonal. -/
def UnitLower (L : Matrix (Fin n) (Fin n) α) : Prop := (∀ a, L a a = 1) ∧ ∀ a b, a < b → L a b = 0

/-- Upper triangular. -/
def Upper (U : Matrix (Fin n) (Fin n) α) : Prop := ∀ a b, b < a → U a b = 0

/-- Reduced row echelon form: the first `r` rows have their leading entries in columns
`p 0 < p 1 < ... < p (r - 1)`, these entries are 1 and the only nonzero ones in their columns, and
the rows from `r` on are zero. -/
def ReducedRowEchelon (m : Matrix (Fin n) (Fin n) α) : Prop :=
  ∃ (r : ℕ) (p : ℕ → ℕ), (∀ i j, i < j → j < r → p i < p j) ∧ (∀ k, k < r → k < n ∧ p k < n) ∧
    (∀ k, k < r → ∀ a b : Fin n, b.val = p k → m a b = if a.val = k then 1 else 0) ∧
    (∀ a b : Fin n, r ≤ a.val → m a b = 0) ∧
    (∀ a b : Fin n, a.val < r → b.val < p a.val → m a b = 0)

/-- Row echelon form in the weak sense: a row whose entries up to column `b` are all zero is followed
by rows whose entries up to column `b` are all zero. -/
def RowEchelonWeak (m : Matrix (Fin n) (Fin n) α) : Prop :=
  ∀ a a' b : Fin n, a < a' → (∀ b', b' ≤ b → m a b' = 0) → ∀ b', b' ≤ b → m a' b' = 0

end MGL.Spec
