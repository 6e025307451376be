import Mathlib.Order.Bounds.Basic
import Mathlib.Data.Finset.Card
import Mathlib.Data.Finset.Range

/-! Specifications for the integer bit functions. Nothing here refers to the model. -/

namespace MGL.Spec

/-- The powers of two among the natural numbers. -/
def PowTwo (n : ℕ) : Prop := ∃ k : ℕ, n = 2 ^ k

/-- `r` is the smallest power of two that is at least `x`. -/
def IsPowTwoCeil (x r : ℕ) : Prop := IsLeast {p : ℕ | PowTwo p ∧ x ≤ p} r

/-- `r` is the largest power of two that is at most `x`. -/
def IsPowTwoFloor (x r : ℕ) : Prop := IsGreatest {p : ℕ | PowTwo p ∧ p ≤ x} r

/-- Number of one bits of a word: how many bit positions below the width are set. -/
def popcount {w : ℕ} (v : BitVec w) : ℕ := ((Finset.range w).filter (fun i => v.getLsbD i = true)).card

/-- `r` is the smallest multiple of `n` that is at least `x` (over the integers). -/
def IsMultipleCeil (x n r : ℤ) : Prop := IsLeast {m : ℤ | n ∣ m ∧ x ≤ m} r

/-- The number a string of binary digits spells, most significant digit first. -/
def binaryValue (s : List Char) : ℕ := s.foldl (fun acc c => 2 * acc + (if c = '1' then 1 else 0)) 0

end MGL.Spec
