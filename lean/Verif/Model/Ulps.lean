import Verif.Model.CArith

/-! Model of `EqualUlps`. -/

namespace MGL

/-- src/Math/MathOps.cpp:59-60 / 61-62: reinterpret the float as an `int` and, for negative ones,
replace it by `0x80000000 - i`. The literal is an `unsigned int`, so the subtraction wraps. -/
def ulpsInt (f : BitVec 32) : ℤ :=
  (if f.toInt < 0 then 0x80000000#32 - f else f).toInt

/-- src/Math/MathFunc.h `template<typename T> T Abs(const T &a)` at `T = int`: `-a` of the most
negative `int` overflows. -/
def absInt (a : ℤ) : Option ℤ := if a ≥ 0 then some a else chk 32 (-a)

/-- src/Math/MathOps.cpp:53-66 `bool EqualUlps(float a, float b, int maxUlps)`; `none` is
undefined behaviour of the signed subtraction (or of `Abs`). -/
def equalUlps (a b : BitVec 32) (maxUlps : ℤ) : Option Bool := do
  let d ← chk 32 (ulpsInt a - ulpsInt b)
  let d ← absInt d
  return decide (d ≤ maxUlps)

end MGL
