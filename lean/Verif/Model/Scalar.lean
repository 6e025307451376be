import Mathlib.Algebra.Order.Floor.Ring
import Mathlib.Algebra.Order.Field.Basic

/-! Model of the scalar helpers of MathFunc.h / MathFunc.cpp over an ordered field (exact arithmetic;
functions that only compare are over a linear order and therefore exact for floats without NaN). -/

namespace MGL

section Order
variable {α : Type*} [LinearOrder α]

/-- src/Math/MathFunc.h:328-333 `Clamp`. -/
def clamp (v lo hi : α) : α := if v ≤ hi then (if v ≥ lo then v else lo) else hi

/-- src/Math/MathFunc.h:342-346 and 374-382 `Min(a,b)`. -/
def min2 (a b : α) : α := if a ≤ b then a else b

/-- src/Math/MathFunc.h:350-364 `Max(a,b)`. -/
def max2 (a b : α) : α := if a ≥ b then a else b

/-- src/Math/MathFunc.h:368-372 `Min(a,b,c)`. -/
def min3 (a b c : α) : α := min2 (min2 a b) c

/-- src/Math/MathFunc.h:386-390 `Max(a,b,c)`. -/
def max3 (a b c : α) : α := max2 (max2 a b) c

/-- src/Math/MathFunc.h:394-398 `Min(a,b,c,d)`. -/
def min4 (a b c d : α) : α := min2 (min2 a b) (min2 c d)

/-- src/Math/MathFunc.h:402-406 `Max(a,b,c,d)`. -/
def max4 (a b c d : α) : α := max2 (max2 a b) (max2 c d)

end Order

section Field
variable {α : Type*} [Field α] [LinearOrder α]

/-- src/Math/MathFunc.h:338 `Clamp01`. -/
def clamp01 (v : α) : α := clamp v 0 1

/-- src/Math/MathFunc.h:423-437 `Abs`. -/
def absF (a : α) : α := if a ≥ 0 then a else -a

/-- src/Math/MathFunc.cpp:461-464 `Sign`. -/
def sign (x : α) : α := if x ≥ 0 then 1 else -1

/-- src/Math/MathFunc.cpp:466-469 `SignOrZero`. -/
def signOrZero (x eps : α) : α := if absF x ≤ eps then 0 else sign x

/-- src/Math/MathFunc.cpp:471-474 `Lerp`. -/
def lerp (a b t : α) : α := a + t * (b - a)

/-- src/Math/MathFunc.cpp:491-495 `InvLerp`. -/
def invLerp (a b x : α) : α := (x - a) / (b - a)

/-- src/Math/MathFunc.cpp:497-500 `Step(y, x)`. -/
def step (y x : α) : α := if x ≥ y then 1 else 0

/-- src/Math/MathFunc.cpp:502-505 `Ramp`. -/
def ramp (mn mx x : α) : α := if x ≤ mn then 0 else if x ≥ mx then 1 else (x - mn) / (mx - mn)

variable [FloorRing α]

/-- src/Math/MathFunc.cpp:441-449 `Floor` / `FloorInt`. -/
def floorF (x : α) : α := (⌊x⌋ : α)

/-- src/Math/MathFunc.cpp:430-439 `Ceil` / `CeilInt`. -/
def ceilF (x : α) : α := (⌈x⌉ : α)

/-- src/Math/MathFunc.cpp:451-459 `Round` / `RoundInt`. -/
def roundF (x : α) : α := floorF (x + 1 / 2)

/-- src/Math/MathFunc.cpp:536-539 `Frac`. -/
def frac (x : α) : α := x - floorF x

/-- src/Math/MathFunc.cpp:513-522 `Mod`: C's `fmod`, the remainder of the division truncated towards
zero. Only meaningful for `m ≠ 0` (C returns NaN). -/
def fmod (x m : α) : α := x - m * (if 0 ≤ x / m then (⌊x / m⌋ : α) else (⌈x / m⌉ : α))

/-- src/Math/MathFunc.cpp:524-534 `ModPos`. -/
def modPos (x m : α) : α := if fmod x m ≥ 0 then fmod x m else fmod x m + m

/-- src/Math/MathFunc.cpp:507-511 `PingPongMod`. -/
def pingPongMod (x m : α) : α :=
  let y := fmod x (m * 2)
  if y ≥ m then 2 * m - y else y

/-- src/Math/MathFunc.cpp:476-489 `LerpMod`. -/
def lerpMod (a b m t : α) : α :=
  let a := modPos a m
  let b := modPos b m
  if absF (b - a) * 2 ≤ m then lerp a b t
  else if a < b then modPos (lerp (a + m) b t) m
  else modPos (lerp a (b + m) t) m

/-- src/Math/MathFunc.cpp:524-528 `ModPos` with the addition rounded by `r` (`fmod` is always
exact). -/
def modPosRnd (r : α → α) (x m : α) : α :=
  if fmod x m ≥ 0 then fmod x m else r (fmod x m + m)

end Field

end MGL
