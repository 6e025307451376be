import Mathlib.Data.Rat.Floor

/-! The number a fixed point word stands for. -/

namespace MGL.Spec

/-- The rational number represented by the word `v` with `F` fraction bits. -/
def fixVal (F : ℕ) (v : ℤ) : ℚ := (v : ℚ) / 2 ^ F

/-- `x` rounded down to a multiple of `2^-F`. -/
def roundDown (F : ℕ) (x : ℚ) : ℚ := (⌊x * 2 ^ F⌋ : ℚ) / 2 ^ F

/-- `x` rounded up to a multiple of `2^-F`. -/
def roundUp (F : ℕ) (x : ℚ) : ℚ := (⌈x * 2 ^ F⌉ : ℚ) / 2 ^ F

/-- Representable in a signed `w`-bit word. -/
def InRange (w : ℕ) (x : ℤ) : Prop := -(2 ^ (w - 1)) ≤ x ∧ x < 2 ^ (w - 1)

end MGL.Spec
