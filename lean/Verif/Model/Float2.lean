import Verif.Model.MinAreaRect
import Verif.Model.Float3R
import Verif.Model.Scalar

/-! Model of the other functions of `float2` over the reals. `Sqrt`, `sin`, `cos`, `acos` are the real functions, `atan2` the angle of `Float3R`. -/

namespace MGL.Float2
open V2
noncomputable section

/-- src/Math/float2.cpp:75-78 `LengthSq`, 80-83 `Length`. -/
def length (v : V2 ℝ) : ℝ := √(v.x * v.x + v.y * v.y)

/-- src/Math/float2.cpp:85-98 `SetFromPolarCoordinates` and `FromPolarCoordinates`. -/
def fromPolar (theta length : ℝ) : V2 ℝ := ⟨Real.cos theta * length, Real.sin theta * length⟩

/-- src/Math/float2.cpp:100-107 `ToPolarCoordinates`: angle and length. -/
def toPolar (v : V2 ℝ) : V2 ℝ := if length v > 1 / 10000 then ⟨atan2 v.y v.x, length v⟩ else ⟨0, 0⟩

/-- src/Math/float2.cpp:109-113 `AimedAngle`. -/
def aimedAngle (v : V2 ℝ) : ℝ := atan2 v.y v.x

/-- src/Math/float2.cpp:115-130 `Normalize`: the new value and what is returned. -/
def normalize (v : V2 ℝ) : V2 ℝ × ℝ := if v.x * v.x + v.y * v.y > 1 / 1000000 then ((1 / length v) • v, length v) else (⟨1, 0⟩, 0)

/-- src/Math/float2.cpp:141-152 `ScaleToLength`: the new value and what is returned. -/
def scaleToLength (v : V2 ℝ) (newLength : ℝ) : V2 ℝ × ℝ := if v.x * v.x + v.y * v.y < 1 / 1000000 then (v, 0) else ((newLength / length v) • v, length v)

/-- src/Math/float2.cpp:178-182 `IsPerpendicular`, and 437-440 `AreOrthogonal`. -/
def isPerpendicular (a b : V2 ℝ) (eps : ℝ) : Bool := decide (dot a b * dot a b ≤ eps * dot a a * dot b b)

/-- src/Math/float2.cpp:274-277 `MinElement`. -/
def minElement (v : V2 ℝ) : ℝ := min v.x v.y

/-- src/Math/float2.cpp:279-282 `MinElementIndex`. -/
def minElementIndex (v : V2 ℝ) : ℕ := if v.x ≤ v.y then 0 else 1

/-- src/Math/float2.cpp:284-287 `MaxElement`. -/
def maxElement (v : V2 ℝ) : ℝ := max v.x v.y

/-- src/Math/float2.cpp:289-292 `MaxElementIndex`. -/
def maxElementIndex (v : V2 ℝ) : ℕ := if v.x > v.y then 0 else 1

/-- src/Math/float2.h:97-102 `At`; `none` outside the vector. -/
def at' (v : V2 ℝ) : ℕ → Option ℝ
  | 0 => some v.x
  | 1 => some v.y
  | _ => none

/-- src/Math/float2.cpp:329-332 `Clamp`. -/
def clamp (v floor ceil : V2 ℝ) : V2 ℝ := ⟨MGL.clamp v.x floor.x ceil.x, MGL.clamp v.y floor.y ceil.y⟩

/-- src/Math/float2.cpp:344-354 `DistanceSq`, `Distance`. -/
def distance (a b : V2 ℝ) : ℝ := √((a.x - b.x) * (a.x - b.x) + (a.y - b.y) * (a.y - b.y))

/-- src/Math/float2.cpp:361-364 `Perp`. -/
def perp' (v : V2 ℝ) : V2 ℝ := ⟨-v.y, v.x⟩

/-- src/Math/float2.cpp:395-399 `ProjectToNorm`. -/
def projectToNorm (v d : V2 ℝ) : V2 ℝ := dot v d • d

/-- src/Math/float2.cpp:371-375 `Reflect`. -/
def reflect (v n : V2 ℝ) : V2 ℝ := (2 : ℝ) • projectToNorm v n - v

/-- src/Math/float2.cpp:377-387 `Refract`. -/
def refract (v normal : V2 ℝ) (neg pos : ℝ) : V2 ℝ :=
  let n := neg / pos
  let cosI := dot v normal
  let sinT2 := n * n * (1 - cosI * cosI)
  if sinT2 > 1 then reflect (-v) normal else n • v - (n + √(1 - sinT2)) • normal

/-- src/Math/float2.cpp:389-393 `ProjectTo`. -/
def projectTo (v d : V2 ℝ) : V2 ℝ := (1 / dot d d) • (dot v d • d)

/-- src/Math/float2.cpp:401-404 `AngleBetween`. -/
def angleBetween (v o : V2 ℝ) : ℝ := Real.arccos (dot v o) / √(dot v v * dot o o)

/-- src/Math/float2.cpp:406-411 `AngleBetweenNorm`. -/
def angleBetweenNorm (v o : V2 ℝ) : ℝ := Real.arccos (dot v o)

/-- src/Math/float2.cpp:413-422 `Lerp`. -/
def lerp (a b : V2 ℝ) (t : ℝ) : V2 ℝ := (1 - t) • a + t • b

/-- src/Math/float2.cpp:424-429 `Decompose`: the parallel and the perpendicular part. -/
def decompose (v d : V2 ℝ) : V2 ℝ × V2 ℝ := (dot v d • d, v - dot v d • d)

/-- src/Math/float2.cpp:431-435 `Orthogonalize`: the new `b`. -/
def orthogonalize (a b : V2 ℝ) : V2 ℝ := b - (dot a b / length a) • a

/-- src/Math/float2.cpp:443-448 `Orthonormalize`: the new `a` and `b`. -/
def orthonormalize (a b : V2 ℝ) : V2 ℝ × V2 ℝ :=
  let a := (normalize a).1
  (a, b - dot a b • a)

/-- src/Math/float2.cpp:467-472 `Rotate90CW`. -/
def rotate90CW (v : V2 ℝ) : V2 ℝ :=
  let oldX := v.x
  let v : V2 ℝ := ⟨v.y, v.y⟩
  ⟨v.x, -oldX⟩

/-- src/Math/float2.cpp:479-484 `Rotate90CCW`. -/
def rotate90CCW (v : V2 ℝ) : V2 ℝ :=
  let oldX := v.x
  let v : V2 ℝ := ⟨-v.y, v.y⟩
  ⟨v.x, oldX⟩

/-- src/Math/float2.cpp:491-499 `OrientedCCW`. -/
def orientedCCW (a b c : V2 ℝ) : Bool := decide ((a.x - c.x) * (b.y - c.y) - (a.y - c.y) * (b.x - c.x) ≥ 0)

/-- src/Math/float2.cpp:629-642 `RandomDir`, the loop; `rnd i` are the two numbers `lcg.Float(-r, r)` of round `i`, any two numbers. -/
def randomDirLoop (rnd : ℕ → ℝ × ℝ) (r : ℝ) : ℕ → ℕ → V2 ℝ
  | 0, _ => ⟨r, 0⟩
  | left + 1, i =>
    let (x, y) := rnd i
    let lenSq := x * x + y * y
    if lenSq ≥ 1 / 1000000 ∧ lenSq ≤ r * r then (r / √lenSq) • ⟨x, y⟩ else randomDirLoop rnd r left (i + 1)

/-- src/Math/float2.cpp:629-642 `RandomDir`. -/
def randomDir (rnd : ℕ → ℝ × ℝ) (r : ℝ) : V2 ℝ := randomDirLoop rnd r 1000 0

end
end MGL.Float2
