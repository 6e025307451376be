import Verif.Spec.Mat
import Mathlib.Data.Matrix.Diagonal
import Mathlib.Data.Real.Basic

/-! Transforms as a scaling followed by a rotation and a translation, and arrays of records of numbers. -/

namespace MGL.Spec

/-- `m` is the map `p ↦ r (s * p) + t`: its linear part is `r` times the diagonal matrix of `s`, its last column is `t`. -/
def IsTRS (m : Matrix (Fin 3) (Fin 4) ℝ) (t : V3 ℝ) (r : Matrix (Fin 3) (Fin 3) ℝ) (s : V3 ℝ) : Prop :=
  (∀ i j : Fin 3, m i j.castSucc = (r * Matrix.diagonal s.toFun) i j) ∧ ∀ i : Fin 3, m i 3 = t.toFun i

/-- The columns have length 1. -/
def UnitColumns (r : Matrix (Fin 3) (Fin 3) ℝ) : Prop := ∀ j, r 0 j ^ 2 + r 1 j ^ 2 + r 2 j ^ 2 = 1

/-- Each column is not zero. -/
def NonzeroColumns (m : Matrix (Fin 3) (Fin 3) ℝ) : Prop := ∀ j, m 0 j ^ 2 + m 1 j ^ 2 + m 2 j ^ 2 ≠ 0

/-- Memory holds records of `k` numbers, `stride` apart. `mem'` comes from `mem` by applying `f` to each of the first `n` records and changing nothing
else. -/
def MapsRecords {α : Type*} (k stride n : ℕ) (f : (Fin k → α) → Fin k → α) (mem mem' : ℕ → α) : Prop :=
  (∀ i < n, ∀ j : Fin k, mem' (stride * i + j) = f (fun j => mem (stride * i + j)) j) ∧
  ∀ p, (∀ i < n, ∀ j : Fin k, p ≠ stride * i + j) → mem' p = mem p

end MGL.Spec
