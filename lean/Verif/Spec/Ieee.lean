import Mathlib.Data.Rat.Defs
import Mathlib.Algebra.Field.Rat
import Mathlib.Algebra.GroupWithZero.Basic

/-! The meaning of IEEE-754 style bit patterns with `eb` exponent bits and `mb` mantissa bits.
A pattern is a natural number `v`; the sign bit is bit `eb + mb`. Nothing here refers to the
model. -/

namespace MGL.Spec

/-- Sign bit of a pattern (1 = negative). -/
def fSign (eb mb v : ℕ) : ℕ := v / 2 ^ (eb + mb) % 2
/-- Biased exponent field. -/
def fExp (eb mb v : ℕ) : ℕ := v / 2 ^ mb % 2 ^ eb
/-- Mantissa field. -/
def fMan (mb v : ℕ) : ℕ := v % 2 ^ mb

/-- Zero, denormal or normal number. -/
def FFinite (eb mb v : ℕ) : Prop := fExp eb mb v ≠ 2 ^ eb - 1
/-- Plus or minus infinity. -/
def FInf (eb mb v : ℕ) : Prop := fExp eb mb v = 2 ^ eb - 1 ∧ fMan mb v = 0
/-- Not a number. -/
def FNan (eb mb v : ℕ) : Prop := fExp eb mb v = 2 ^ eb - 1 ∧ fMan mb v ≠ 0

/-- Magnitude of a finite pattern: `0.m * 2^(1-bias)` for exponent field 0, else
`1.m * 2^(e-bias)`. -/
def fMag (eb mb : ℕ) (bias : ℤ) (v : ℕ) : ℚ :=
  if fExp eb mb v = 0 then (fMan mb v : ℚ) / 2 ^ mb * 2 ^ (1 - bias)
  else (1 + (fMan mb v : ℚ) / 2 ^ mb) * 2 ^ ((fExp eb mb v : ℤ) - bias)

/-- The number a finite pattern denotes. -/
def fValue (eb mb : ℕ) (bias : ℤ) (v : ℕ) : ℚ := (-1) ^ fSign eb mb v * fMag eb mb bias v

/-- Value of a 32-bit `float` pattern. -/
def f32Value (v : ℕ) : ℚ := fValue 8 23 127 v
/-- Value of a 16-bit half pattern. -/
def f16Value (v : ℕ) : ℚ := fValue 5 10 15 v

end MGL.Spec
