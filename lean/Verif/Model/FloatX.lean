import Mathlib.Algebra.Order.Field.Basic

/-! Floating point numbers with their special values, for the code that computes with infinities. The finite values are those of an
ordered field; rounding, overflow and the sign of zero are not modelled: a zero is the positive zero. -/

namespace MGL

/-- A finite value, an infinity or not-a-number (no source line: the values of a C++ `float`; used for src/Geometry/KDTree.inl:328-449). -/
inductive FX (α : Type*) where
  | fin (a : α)
  | posInf
  | negInf
  | nan
deriving DecidableEq

namespace FX
variable {α : Type*} [Field α] [LinearOrder α]

/-- The infinity with the sign of a number; `0 * inf` is not-a-number. -/
def infOfSign (a : α) : FX α := if a > 0 then .posInf else if a < 0 then .negInf else .nan

/-- Multiplication by a finite number. -/
def mulFin (x : FX α) (a : α) : FX α :=
  match x with
  | .fin b => .fin (b * a)
  | .posInf => infOfSign a
  | .negInf => infOfSign (-a)
  | .nan => .nan

/-- Adding a finite number. -/
def finAdd (a : α) (x : FX α) : FX α :=
  match x with
  | .fin b => .fin (a + b)
  | .posInf => .posInf
  | .negInf => .negInf
  | .nan => .nan

/-- Division of finite numbers. -/
def div (a b : α) : FX α := if b = 0 then infOfSign a else .fin (a / b)

/-- `x <= a`; comparisons with not-a-number are false. -/
def leFin (x : FX α) (a : α) : Bool :=
  match x with
  | .fin b => decide (b ≤ a)
  | .posInf => false
  | .negInf => true
  | .nan => false

/-- `a < x`. -/
def finLt (a : α) (x : FX α) : Bool :=
  match x with
  | .fin b => decide (a < b)
  | .posInf => true
  | .negInf => false
  | .nan => false

/-- `a <= x`, for the left-hand side finite. -/
def finLe (a : α) (x : FX α) : Bool :=
  match x with
  | .fin b => decide (a ≤ b)
  | .posInf => true
  | .negInf => false
  | .nan => false

end FX
end MGL
