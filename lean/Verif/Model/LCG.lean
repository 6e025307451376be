import Verif.Model.CArith
import Verif.Spec.Ieee
import Mathlib.Algebra.Order.Floor.Defs
import Mathlib.Data.Rat.Floor

/-! Model of the linear congruential generator (src/Algorithm/Random/LCG.cpp). The generator state
is kept bit-exactly. Floats are the rationals they denote (`Spec.f32Value` of the bit pattern);
operations whose result may need rounding go through an arbitrary rounding function `r`. A division
by zero (modulus 0) and signed overflow are `none`. The Emscripten variant is not modelled. -/

namespace MGL

/-- src/Algorithm/Random/LCG.h:119-124, the four data members. -/
structure LCG where
  last : BitVec 32
  mul : BitVec 32
  inc : BitVec 32
  modulus : BitVec 32
  deriving DecidableEq

/-- src/Algorithm/Random/LCG.cpp:49-63 `Seed`; the warning has no effect on the state. -/
def LCG.seed (seed mul inc modulus : BitVec 32) : LCG :=
  { last := if seed = 0 ∧ inc = 0 then 1 else seed, mul, inc, modulus }

/-- src/Algorithm/Random/LCG.h:69-76: the default parameters. -/
def LCG.seedDefault (s : BitVec 32) : LCG := LCG.seed s 69621 0 0x7FFFFFFF

/-- src/Algorithm/Random/LCG.cpp:65-74 `IntFast`. -/
def LCG.intFast (g : LCG) : BitVec 32 × LCG :=
  let m := g.last * g.mul
  let l := m + (if m ≤ g.last then 1 else 0)
  (l, { g with last := l })

/-- src/Algorithm/Random/LCG.cpp:76-105 `Int()`: 64-bit arithmetic, truncated to 32 bits. -/
def LCG.int (g : LCG) : Option (BitVec 32 × LCG) :=
  if g.modulus = 0 then none
  else
    let newNum : BitVec 64 :=
      (g.last.setWidth 64 * g.mul.setWidth 64 + g.inc.setWidth 64) % g.modulus.setWidth 64
    let l : BitVec 32 := newNum.setWidth 32
    some (l, { g with last := l })

/-- src/Algorithm/Random/LCG.cpp:123-131 `Float()`. `f -= 1.f` is exact for `f` in [1,2). -/
def LCG.float (g : LCG) : Option (ℚ × LCG) := do
  let (i, g) ← g.int
  let bits := (i &&& 0x007FFFFF) ||| 0x3F800000
  return (Spec.f32Value bits.toNat - 1, g)

/-- src/Algorithm/Random/LCG.cpp:133-152 `Float01Incl()` with `left` tries remaining. -/
def LCG.float01InclLoop (g : LCG) : (left : ℕ) → Option (ℚ × LCG)
  | 0 => g.float
  | left + 1 => do
    let (i, g') ← g.int
    let val := i &&& 0x00FFFFFF
    if val > 0x800000 then float01InclLoop g' left
    else if val = 0x800000 then some (1, g')
    else some (Spec.f32Value (val ||| 0x3F800000).toNat - 1, g')

/-- src/Algorithm/Random/LCG.cpp:133-152 `Float01Incl()`. -/
def LCG.float01Incl (g : LCG) : Option (ℚ × LCG) := g.float01InclLoop 100

/-- src/Algorithm/Random/LCG.cpp:154-165 `FloatNeg1_1()`; the subtraction is exact. -/
def LCG.floatNeg1_1 (g : LCG) : Option (ℚ × LCG) := do
  let (i, g) ← g.int
  let one := ((i &&& 0x00800000) <<< 8) ||| 0x3F800000
  let bits := one ||| (i &&& 0x007FFFFF)
  return (Spec.f32Value bits.toNat - Spec.f32Value one.toNat, g)

/-- src/Algorithm/Random/LCG.cpp:174-184: the retry loop of `Float(a,b)`, `left` tries remaining.
`r` rounds the result of each of the three float operations. -/
def LCG.floatRangeLoop (r : ℚ → ℚ) (a b : ℚ) (g : LCG) : (left : ℕ) → Option (ℚ × LCG)
  | 0 => some (a, g)
  | left + 1 => do
    let (u, g') ← g.float
    let f := r (a + r (u * r (b - a)))
    if f ≠ b then some (f, g') else floatRangeLoop r a b g' left

/-- src/Algorithm/Random/LCG.cpp:167-185 `Float(a,b)`. -/
def LCG.floatRange (r : ℚ → ℚ) (a b : ℚ) (g : LCG) : Option (ℚ × LCG) :=
  if a = b then some (a, g) else g.floatRangeLoop r a b 10

/-- src/Algorithm/Random/LCG.cpp:187-195 `FloatIncl(a,b)`. -/
def LCG.floatIncl (r : ℚ → ℚ) (a b : ℚ) (g : LCG) : Option (ℚ × LCG) := do
  let (u, g) ← g.float
  return (r (a + r (u * r (b - a))), g)

/-- src/Algorithm/Random/LCG.cpp:107-121 `Int(a,b)`: `b-a+1` is `int` arithmetic, converted to float
(rounded), multiplied (rounded), truncated back to `int`, added. -/
def LCG.intRange (r : ℚ → ℚ) (a b : ℤ) (g : LCG) : Option (ℤ × LCG) := do
  let d ← chk 32 (b - a)
  let n ← chk 32 (d + 1)
  let (u, g) ← g.float
  let x := r (u * r n)
  let t ← chk 32 (if 0 ≤ x then ⌊x⌋ else ⌈x⌉)
  let num ← chk 32 (a + t)
  let num := if num < a then a else num
  let num := if num > b then b else num
  return (num, g)

/-- The calls a user can make on a seeded generator, apart from `IntFast` and `Seed`
(src/Algorithm/Random/LCG.h:80-115). -/
inductive LCGCall
  | int | intRange (a b : ℤ) | float | float01Incl | floatNeg1_1 | floatRange (a b : ℚ)
  | floatIncl (a b : ℚ)

/-- The generator state after one call (`none`: undefined behaviour). -/
def LCG.call (r : ℚ → ℚ) (g : LCG) : LCGCall → Option LCG
  | .int => g.int.map Prod.snd
  | .intRange a b => (g.intRange r a b).map Prod.snd
  | .float => g.float.map Prod.snd
  | .float01Incl => g.float01Incl.map Prod.snd
  | .floatNeg1_1 => g.floatNeg1_1.map Prod.snd
  | .floatRange a b => (g.floatRange r a b).map Prod.snd
  | .floatIncl a b => (g.floatIncl r a b).map Prod.snd

/-- The generator state after a list of calls (no source line: user code that calls src/Algorithm/Random/LCG.cpp). -/
def LCG.calls (r : ℚ → ℚ) (g : LCG) : List LCGCall → Option LCG
  | [] => some g
  | c :: cs => do (← g.call r c).calls r cs

/-- `n` calls of `Int()`, src/Algorithm/Random/LCG.cpp:76-105. -/
def LCG.steps (g : LCG) : ℕ → Option LCG
  | 0 => some g
  | n + 1 => do
    let g' ← g.steps n
    let (_, g'') ← g'.int
    return g''

end MGL
