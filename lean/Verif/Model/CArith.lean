import Mathlib.Algebra.Group.Defs
import Mathlib.Algebra.Field.Defs
import Mathlib.Data.Int.Order.Basic

/-! Model of the integer arithmetic of `int` functions: every operation is done on exact integers
and a result that is not representable is undefined behaviour (`none`). -/

namespace MGL

/-- Result of one signed operation on a `w`-bit two's complement type: `none` is signed overflow,
which is undefined behaviour in C++ (no source line; this is the language rule). -/
def chk (w : ℕ) (x : ℤ) : Option ℤ := if -(2 ^ (w - 1)) ≤ x ∧ x < 2 ^ (w - 1) then some x else none

/-- src/Math/MathFunc.cpp:544-550 `int Factorial(int n)`: the loop body for the remaining values
`i, i+1, ..., i+left-1`. -/
def factorialLoop (result : ℤ) (i : ℤ) : (left : ℕ) → Option ℤ
  | 0 => some result
  | left + 1 => do
    let r ← chk 32 (result * i)
    factorialLoop r (i + 1) left

/-- src/Math/MathFunc.cpp:544-550 `int Factorial(int n)`; `i` runs from 2 to `n`. (`i++` past `n`
cannot overflow unless the product already has.) -/
def factorial (n : ℤ) : Option ℤ := factorialLoop 1 2 (n - 1).toNat

/-- src/Math/MathFunc.cpp:553-565 `int CombinatorialRec(int n, int k)`. -/
def combinatorialRec (n k : ℤ) : Option ℤ :=
  if _h : k ≤ 0 ∨ k ≥ n then some 1
  else do
    let a ← combinatorialRec (n - 1) (k - 1)
    let b ← combinatorialRec (n - 1) k
    chk 32 (a + b)
termination_by n.toNat
decreasing_by all_goals omega

/-- src/Math/MathFunc.cpp:582-583: the inner loop `for(j = lo; j <= hi; ++j) t1[j] = t2[j]+t2[j-1]`
with `left` values of `j` still to do. Reading or writing outside the `k+1` entries of a table half
is undefined (`none`). -/
def combInner (t2 : List ℤ) : (t1 : List ℤ) → (j left : ℕ) → Option (List ℤ)
  | t1, _, 0 => some t1
  | t1, j, left + 1 => do
    let a ← t2[j]?
    let b ← (if j = 0 then none else t2[j - 1]? : Option ℤ)
    let s ← chk 32 (a + b)
    if j < t1.length then combInner t2 (t1.set j s) (j + 1) left else none

/-- src/Math/MathFunc.cpp:580-585: the outer loop; `left` rows still to do, `i` the current row,
`(t1, t2)` the two table halves. The swap exchanges the roles of the halves. -/
def combOuter (n k : ℕ) : (t1 t2 : List ℤ) → (i left : ℕ) → Option (List ℤ × List ℤ)
  | t1, t2, _, 0 => some (t1, t2)
  | t1, t2, i, left + 1 => do
    let lo := max 1 ((i : ℤ) - n + k).toNat
    let hi := min k (i - 1)
    let t1' ← combInner t2 t1 lo (hi + 1 - lo)
    combOuter n k t2 t1' (i + 1) left

/-- src/Math/MathFunc.cpp:567-589 `int CombinatorialTab(int n, int k)`. The allocation size
`2*(k+1)` is an `int` computation; one allocation of `2*(k+1)` ints split into two halves of
`k+1` is modelled as two lists of length `k+1`. -/
def combinatorialTab (n k : ℤ) : Option ℤ :=
  if k = 0 ∨ k = n then some 1
  else if k < 0 ∨ k > n then some 0
  else do
    let k1 ← chk 32 (k + 1)
    let _ ← chk 32 (2 * k1)
    let kk := k.toNat
    let (_, t2) ← combOuter n.toNat kk (List.replicate (kk + 1) 1) (List.replicate (kk + 1) 1) 2
      (n.toNat - 1)
    t2[kk]?

/-- src/Math/MathFunc.cpp:597-599: the loop finding the highest set bit. -/
def powFindBit (exponent e : BitVec 32) : BitVec 32 :=
  if _h : exponent &&& e = 0#32 ∧ e > 0#32 then powFindBit exponent (e >>> 1) else e
termination_by e.toNat
decreasing_by
  obtain ⟨-, h⟩ := _h
  have h' : 0 < e.toNat := by simpa [BitVec.lt_def] using h
  simp only [BitVec.toNat_ushiftRight, Nat.shiftRight_one]
  omega

/-- src/Math/MathFunc.cpp:601-607: the square-and-multiply `do ... while(e > 0)` loop, over exact
arithmetic (rounding is not modelled). -/
def powLoop {α : Type*} [Monoid α] (base : α) (exponent : BitVec 32) (val : α) (e : BitVec 32) : α :=
  let val := val * val
  let val := val * (if exponent &&& e ≠ 0#32 then base else 1)
  let e' := e >>> 1
  if _h : e' > 0#32 then powLoop base exponent val e' else val
termination_by e.toNat
decreasing_by
  simp only [e', gt_iff_lt, BitVec.lt_def, BitVec.toNat_ofNat, BitVec.toNat_ushiftRight,
    Nat.shiftRight_one] at _h ⊢
  omega

/-- src/Math/MathFunc.cpp:591-610 `float PowUInt(float base, u32 exponent)`. -/
def powUInt {α : Type*} [Monoid α] (base : α) (exponent : BitVec 32) : α :=
  powLoop base exponent 1 (powFindBit exponent 0x80000000#32)

/-- src/Math/MathFunc.cpp:615-623 `float PowInt(float base, int exponent)`; `-exponent` of the most
negative `int` is undefined (`none`). A zero base with a negative exponent divides by zero, which
the theorems exclude by hypothesis. -/
def powInt {α : Type*} [Field α] (base : α) (exponent : BitVec 32) : Option α :=
  if exponent.toInt = 0 then some 1
  else if exponent.toInt < 0 then
    if exponent = 0x80000000#32 then none else some (1 / powUInt base (-exponent))
  else some (powUInt base exponent)

end MGL
