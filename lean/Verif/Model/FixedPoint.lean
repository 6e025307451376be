import Verif.Model.CArith

/-! Model of `FixedPoint<BaseT, F>` (src/Math/FixedPoint.h). A value is its raw integer; `w` is the
width of `BaseT` (`w ≥ 32`, so that integer promotion changes nothing) and `none` is signed overflow
or division by zero. A left shift is modelled as multiplication by a power of two with the overflow
check of a multiplication (before C++20 shifting a negative number left is also undefined; that is
ignored here). A right shift of a negative number is the arithmetic shift of every supported
compiler, i.e. division rounding down. -/

namespace MGL

/-- src/Math/FixedPoint.h:53-56 `FixedPoint(v)`. -/
def fpOfInt (w F : ℕ) (v : ℤ) : Option ℤ := chk w (v * 2 ^ F)

/-- src/Math/FixedPoint.h:59-62 `FixedPoint(whole, frac)`. -/
def fpOfPair (w F : ℕ) (whole frac : ℤ) : Option ℤ := do
  let a ← chk w (whole * 2 ^ F)
  chk w (a + frac)

/-- src/Math/FixedPoint.h:66-70 `FixedPoint(whole, nomin, denom)`. C++ `/` rounds towards zero. -/
def fpOfRatio (w F : ℕ) (whole nomin denom : ℤ) : Option ℤ := do
  let a ← chk w (whole * 2 ^ F)
  let b ← chk w (nomin * 2 ^ F)
  let q ← (if denom = 0 then none else chk w (b.tdiv denom) : Option ℤ)
  chk w (a + q)

/-- src/Math/FixedPoint.h:83 `Int()`. -/
def fpInt (F : ℕ) (v : ℤ) : ℤ := v / 2 ^ F

/-- src/Math/FixedPoint.h:85 `Frac()`: `value & ((1 << F) - 1)`. -/
def fpFrac (F : ℕ) (v : ℤ) : ℤ := v % 2 ^ F

/-- src/Math/FixedPoint.h:88-97 `Add(dst, src)` with `F` fraction bits in `dst`, `F2` in `src`. -/
def fpAdd (w F F2 : ℕ) (dst src : ℤ) : Option ℤ :=
  if F > F2 then do
    let s ← chk w (src * 2 ^ (F - F2))
    chk w (dst + s)
  else if F < F2 then chk w (dst + src / 2 ^ (F2 - F))
  else chk w (dst + src)

/-- src/Math/FixedPoint.h:99-103 `Add(dst, integer)`. -/
def fpAddInt (w F : ℕ) (dst src : ℤ) : Option ℤ := do
  let s ← chk w (src * 2 ^ F)
  chk w (dst + s)

/-- src/Math/FixedPoint.h:105-114 `Sub(dst, src)`. -/
def fpSub (w F F2 : ℕ) (dst src : ℤ) : Option ℤ :=
  if F > F2 then do
    let s ← chk w (src * 2 ^ (F - F2))
    chk w (dst - s)
  else if F < F2 then chk w (dst - src / 2 ^ (F2 - F))
  else chk w (dst - src)

/-- src/Math/FixedPoint.h:122-126 `Mul(dst, integer)`. -/
def fpMulInt (w : ℕ) (dst src : ℤ) : Option ℤ := chk w (dst * src)

/-- src/Math/FixedPoint.h:130-134 `MulExtraFast`. -/
def fpMulExtraFast (w F2 : ℕ) (a b : ℤ) : Option ℤ := do
  let p ← chk w (a * b)
  return p / 2 ^ F2

/-- src/Math/FixedPoint.h:138-143 `MulFast` (with `F2 = F`). -/
def fpMulFast (w F : ℕ) (a b : ℤ) : Option ℤ :=
  chk w ((a / 2 ^ ((F + 1) / 2)) * (b / 2 ^ (F / 2)))

/-- src/Math/FixedPoint.h:147-153 `MulPrecise`, with every intermediate checked. -/
def fpMulPrecise (w F : ℕ) (a b : ℤ) : Option ℤ := do
  let p ← chk w (fpInt F a * fpInt F b)
  let t1 ← chk w (p * 2 ^ F)
  let u ← chk w (fpInt F a * fpFrac F b)
  let v ← chk w (fpFrac F a * fpInt F b)
  let t2 ← chk w (u + v)
  let s ← chk w (t1 + t2)
  let q ← chk w (fpFrac F a * fpFrac F b)
  chk w (s + q / 2 ^ F)

/-- src/Math/FixedPoint.h:196-200 `Div(a, integer)`. -/
def fpDivInt (w : ℕ) (a b : ℤ) : Option ℤ := if b = 0 then none else chk w (a.tdiv b)

/-- src/Math/FixedPoint.h:202-206 `DivExtraFast`. -/
def fpDivExtraFast (w F2 : ℕ) (a b : ℤ) : Option ℤ := do
  let n ← chk w (a * 2 ^ F2)
  if b = 0 then none else chk w (n.tdiv b)

/-- src/Math/FixedPoint.h:268-272 `operator<(fixed, integer)`. -/
def fpLtInt (F : ℕ) (a b : ℤ) : Bool := fpInt F a < b

/-- src/Math/FixedPoint.h:274-278 `operator<(fixed, fixed)`. -/
def fpLt (a b : ℤ) : Bool := a < b

/-- src/Math/FixedPoint.h:280-284 `operator==(fixed, integer)`. -/
def fpEqInt (w F : ℕ) (a b : ℤ) : Option Bool := do
  let s ← chk w (b * 2 ^ F)
  return a == s

/-- src/Math/FixedPoint.h:286-290 `operator==(fixed, fixed)`. -/
def fpEq (a b : ℤ) : Bool := a == b

/-- src/Math/FixedPoint.h:298-308 `operator<<`; the intermediate products are not checked for
overflow here. -/
def fpPrint (F : ℕ) (f : ℤ) : String :=
  if fpLtInt F f 0 ∧ fpFrac F f ≠ 0 then
    toString (fpInt F f + 1) ++ "." ++ toString (((2 ^ F - fpFrac F f) * 10000).tdiv (2 ^ F))
  else toString (fpInt F f) ++ "." ++ toString ((fpFrac F f * 10000).tdiv (2 ^ F))

end MGL
