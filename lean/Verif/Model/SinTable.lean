import Verif.Model.CArith
import Mathlib.Analysis.SpecialFunctions.Trigonometric.Basic

/-! Model of the look-up table sine and cosine (`MATH_USE_SINCOS_LOOKUPTABLE`). -/

namespace MGL

/-- The C++ conversion `(int)x` of a floating point value: truncation towards zero, undefined when
the result is not an `int`. -/
noncomputable def cTruncInt (x : ℝ) : Option ℤ := chk 32 (if 0 ≤ x then ⌊x⌋ else ⌈x⌉)

/-- src/Math/MathFunc.cpp:101-117: `fast_cossin_table[i] = sin(i * PI / 32768)` for `0 <= i < 65536`;
an access outside is undefined (`none`). Simplifications: `PI` is the real number pi and table
entries are not rounded. -/
noncomputable def sinTable (i : ℤ) : Option ℝ :=
  if 0 ≤ i ∧ i < 65536 then some (Real.sin (i * Real.pi / 32768)) else none

/-- `x & MASK_MAX_CIRCLE_ANGLE` (src/Math/MathFunc.cpp:95) on a two's complement `int`. -/
def maskAngle (x : ℤ) : ℤ := x % 65536

/-- Index computation of src/Math/MathFunc.cpp:119-124 `sin_lookuptable`, from the scaled angle `i`
on; the sign of the result is negated for negative `i`. -/
noncomputable def sinLookupIdx (i : ℤ) : Option ℝ :=
  if i < 0 then do
    let m ← chk 32 (-i)
    let t ← sinTable (maskAngle m)
    return -t
  else sinTable (maskAngle i)

/-- src/Math/MathFunc.cpp:126-131 `cos_lookuptable` from the scaled angle on. -/
noncomputable def cosLookupIdx (i : ℤ) : Option ℝ :=
  if i < 0 then do
    let m ← chk 32 (16384 - i)
    sinTable (maskAngle m)
  else do
    let m ← chk 32 (16384 + i)
    sinTable (maskAngle m)

/-- src/Math/MathFunc.cpp:133-139 `sincos_lookuptable` from the scaled angle on. -/
noncomputable def sincosLookupIdx (i : ℤ) : Option (ℝ × ℝ) := do
  let j ← if i ≥ 0 then some (maskAngle i) else (chk 32 (-i)).map (fun m => 65536 - maskAngle m)
  let s ← sinTable j
  let c ← sinTable (maskAngle (16384 + j))
  return (s, c)

/-- src/Math/MathFunc.cpp:141-145 `sincos_lookuptable_u16ScaledRadians`. -/
noncomputable def sincosLookupU16 (a : BitVec 16) : Option (ℝ × ℝ) := do
  let s ← sinTable a.toNat
  let c ← sinTable ((BitVec.ofNat 16 16384 + a).toNat)
  return (s, c)

/-- src/Math/MathFunc.cpp:119-124. -/
noncomputable def sinLookup (n : ℝ) : Option ℝ := do
  sinLookupIdx (← cTruncInt (n * (32768 / Real.pi)))

/-- src/Math/MathFunc.cpp:126-131. -/
noncomputable def cosLookup (n : ℝ) : Option ℝ := do
  cosLookupIdx (← cTruncInt (n * (32768 / Real.pi)))

/-- src/Math/MathFunc.cpp:133-139. -/
noncomputable def sincosLookup (n : ℝ) : Option (ℝ × ℝ) := do
  sincosLookupIdx (← cTruncInt (n * (32768 / Real.pi)))

end MGL
