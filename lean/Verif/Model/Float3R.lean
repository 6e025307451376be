import Verif.Model.Float3
import Verif.Spec.Dist
import Mathlib.Analysis.SpecialFunctions.Complex.Arg
import Mathlib.Analysis.SpecialFunctions.Trigonometric.Inverse

/-! Model of the `float3` functions that need square roots or trigonometry, over the reals.
`Sqrt`, `sin`, `cos`, `acos`, `asin` are the real functions; `atan2(y, x)` is `Complex.arg (x + i y)`. -/

namespace MGL
noncomputable section

/-- `atan2` of the C library, over the reals (used at src/Math/float3.cpp:827, 835). -/
def atan2 (y x : ℝ) : ℝ := Complex.arg ⟨x, y⟩

/-- src/Math/float3.cpp:108-116 `Length`. -/
def f3Length (v : V3 ℝ) : ℝ := Real.sqrt (V3.lenSq v)

/-- src/Math/float3.cpp:118-139 `Normalize`: the new value and the returned old length (0 on failure). -/
def f3Normalize (v : V3 ℝ) : V3 ℝ × ℝ :=
  if f3Length v > 1 / 1000000 then ((1 / f3Length v) • v, f3Length v) else (⟨1, 0, 0⟩, 0)

/-- src/Math/float3.cpp:141-156 `Normalized`. -/
def f3Normalized (v : V3 ℝ) : V3 ℝ := (f3Normalize v).1

/-- src/Math/float3.cpp:158-173 `ScaleToLength`: the new value and the returned old length. -/
def f3ScaleToLength (v : V3 ℝ) (newLength : ℝ) : V3 ℝ × ℝ :=
  if V3.lenSq v < 1 / 1000000 then (⟨newLength, 0, 0⟩, 0)
  else ((newLength / Real.sqrt (V3.lenSq v)) • v, Real.sqrt (V3.lenSq v))

/-- src/Math/float3.cpp:184-187 `IsNormalized`; the default `epsilonSq` is 1e-5. -/
def f3IsNormalized (v : V3 ℝ) (eps : ℝ := 1 / 100000) : Bool := decide (|V3.lenSq v - 1| ≤ eps)

/-- src/Math/float3.cpp:189-192 `IsZero`; the default `epsilonSq` is 1e-7. -/
def f3IsZero (v : V3 ℝ) (eps : ℝ := 1 / 10000000) : Bool := decide (V3.lenSq v ≤ eps)

/-- src/Math/float3.cpp:199-203 `IsPerpendicular`; the default `epsilonSq` is 1e-5. -/
def f3IsPerpendicular (v o : V3 ℝ) (eps : ℝ := 1 / 100000) : Bool :=
  decide (V3.dot v o * V3.dot v o ≤ eps * V3.lenSq v * V3.lenSq o)

/-- src/Math/float3.cpp:205-208 `AreCollinear`; the default `epsilonSq` is 1e-7. -/
def f3AreCollinear (p1 p2 p3 : V3 ℝ) (eps : ℝ := 1 / 10000000) : Bool :=
  decide (V3.lenSq (V3.cross (p2 - p1) (p3 - p1)) ≤ eps)

/-- src/Math/float3.cpp:457-464 `ClampLength(maxLength)`. -/
def f3ClampLength (v : V3 ℝ) (maxLength : ℝ) : V3 ℝ :=
  if V3.lenSq v > maxLength * maxLength then (maxLength / Real.sqrt (V3.lenSq v)) • v else v

/-- src/Math/float3.cpp:466-475 `ClampLength(minLength, maxLength)`. -/
def f3ClampLength2 (v : V3 ℝ) (minLength maxLength : ℝ) : V3 ℝ :=
  if V3.lenSq v > maxLength * maxLength then (maxLength / Real.sqrt (V3.lenSq v)) • v
  else if V3.lenSq v < minLength * minLength then (minLength / Real.sqrt (V3.lenSq v)) • v
  else v

/-- src/Math/float3.cpp:498-506 `Distance`. -/
def f3Distance (a b : V3 ℝ) : ℝ := Real.sqrt (V3.distSq a b)

/-- src/Math/float3.cpp:569-580 `Perpendicular`. -/
def f3Perpendicular (v : V3 ℝ) (hint : V3 ℝ := ⟨0, 1, 0⟩) (hint2 : V3 ℝ := ⟨0, 0, 1⟩) : V3 ℝ :=
  let n := f3Normalize (V3.cross v hint)
  if n.2 = 0 then hint2 else n.1

/-- src/Math/float3.cpp:582-590 `AnotherPerpendicular`. -/
def f3AnotherPerpendicular (v : V3 ℝ) (hint : V3 ℝ := ⟨0, 1, 0⟩) (hint2 : V3 ℝ := ⟨0, 0, 1⟩) : V3 ℝ :=
  f3Normalized (V3.cross v (f3Perpendicular v hint hint2))

/-- `copysignf(1, z)`; the sign of a zero is given by `negZero`. -/
def copysign1 (negZero : Bool) (z : ℝ) : ℝ := if z < 0 ∨ (z = 0 ∧ negZero) then -1 else 1

/-- src/Math/float3.cpp:592-608 `PerpendicularBasis` (scalar path). `negZero` tells whether a zero
`z` is the negative zero. -/
def f3PerpendicularBasis (negZero : Bool) (v : V3 ℝ) : V3 ℝ × V3 ℝ :=
  let sign := copysign1 negZero v.z
  let a := -1 / (sign + v.z)
  let b := v.x * v.y * a
  (⟨1 + sign * v.x * v.x * a, sign * b, -sign * v.x⟩, ⟨b, sign + v.y * v.y * a, -v.y⟩)

/-- src/Math/float3.cpp:615-618 `ScalarTripleProduct`. -/
def f3ScalarTripleProduct (u v w : V3 ℝ) : ℝ := V3.dot (V3.cross u v) w

/-- src/Math/float3.cpp:644-648 `ProjectToNorm`. -/
def f3ProjectToNorm (v d : V3 ℝ) : V3 ℝ := V3.dot v d • d

/-- src/Math/float3.cpp:638-642 `ProjectTo`: `direction * Dot / LengthSq`. -/
def f3ProjectTo (v d : V3 ℝ) : V3 ℝ := (1 / V3.lenSq d) • (V3.dot v d • d)

/-- src/Math/float3.cpp:620-624 `Reflect`. -/
def f3Reflect (v n : V3 ℝ) : V3 ℝ := (2 : ℝ) • f3ProjectToNorm v n - v

/-- src/Math/float3.cpp:627-636 `Refract`. -/
def f3Refract (v normal : V3 ℝ) (neg pos : ℝ) : V3 ℝ :=
  let n := neg / pos
  let cosI := V3.dot v normal
  let sinT2 := n * n * (1 - cosI * cosI)
  if sinT2 > 1 then f3Reflect (-v) normal else n • v - (n + Real.sqrt (1 - sinT2)) • normal

/-- src/Math/float3.cpp:650-659 `AngleBetween`. -/
def f3AngleBetween (v o : V3 ℝ) : ℝ :=
  let cosa := V3.dot v o / Real.sqrt (V3.lenSq v * V3.lenSq o)
  if cosa ≥ 1 then 0 else if cosa ≤ -1 then Real.pi else Real.arccos cosa

/-- src/Math/float3.cpp:661-672 `AngleBetweenNorm`. -/
def f3AngleBetweenNorm (v o : V3 ℝ) : ℝ :=
  let cosa := V3.dot v o
  if cosa ≥ 1 then 0 else if cosa ≤ -1 then Real.pi else Real.arccos cosa

/-- src/Math/float3.cpp:674-679 `Decompose`: parallel and perpendicular part. -/
def f3Decompose (v d : V3 ℝ) : V3 ℝ × V3 ℝ := (f3ProjectToNorm v d, v - f3ProjectToNorm v d)

/-- src/Math/float3.cpp:681-685 `Lerp`. -/
def f3Lerp (a b : V3 ℝ) (t : ℝ) : V3 ℝ := (1 - t) • a + t • b

/-- src/Math/float3.cpp:692-696 `Orthogonalize(a, b)`: the new `b`. -/
def f3Orthogonalize2 (a b : V3 ℝ) : V3 ℝ := if f3IsZero a then b else b - f3ProjectTo b a

/-- src/Math/float3.cpp:698-707 `Orthogonalize(a, b, c)`: the new `b` and `c`. -/
def f3Orthogonalize3 (a b c : V3 ℝ) : V3 ℝ × V3 ℝ :=
  let b' := if f3IsZero a then b else b - f3ProjectTo b a
  let c' := if f3IsZero a then c else c - f3ProjectTo c a
  (b', if f3IsZero b' then c' else c' - f3ProjectTo c' b')

/-- src/Math/float3.cpp:721-728 `Orthonormalize(a, b)`. -/
def f3Orthonormalize2 (a b : V3 ℝ) : V3 ℝ × V3 ℝ :=
  let a := f3Normalized a
  (a, f3Normalized (b - f3ProjectToNorm b a))

/-- src/Math/float3.cpp:730-741 `Orthonormalize(a, b, c)`. -/
def f3Orthonormalize3 (a b c : V3 ℝ) : V3 ℝ × V3 ℝ × V3 ℝ :=
  let a := f3Normalized a
  let b := f3Normalized (b - f3ProjectToNorm b a)
  let c := c - f3ProjectToNorm c a
  let c := f3Normalized (c - f3ProjectToNorm c b)
  (a, b, c)

/-- src/Math/float3.cpp:785-793 `SetFromSphericalCoordinates(azimuth, inclination, radius)`. -/
def f3FromSpherical (azimuth inclination radius : ℝ) : V3 ℝ :=
  ⟨Real.cos inclination * Real.sin azimuth * radius, -Real.sin inclination * radius,
   Real.cos inclination * Real.cos azimuth * radius⟩

/-- src/Math/float3.cpp:802-811 `SetFromSphericalCoordinates(azimuth, inclination)`. -/
def f3FromSpherical2 (azimuth inclination : ℝ) : V3 ℝ :=
  ⟨Real.cos inclination * Real.sin azimuth, -Real.sin inclination, Real.cos inclination * Real.cos azimuth⟩

/-- src/Math/float3.cpp:820-830 `ToSphericalCoordinates`. -/
def f3ToSpherical (v : V3 ℝ) : V3 ℝ :=
  let n := f3Normalize v
  if n.2 ≤ 1 / 100000 then 0 else ⟨atan2 n.1.x n.1.z, Real.arcsin (-n.1.y), n.2⟩

/-- src/Math/float3.cpp:832-838 `ToSphericalCoordinatesNormalized`. -/
def f3ToSphericalNormalized (v : V3 ℝ) : ℝ × ℝ := (atan2 v.x v.z, Real.arcsin (-v.y))

end
end MGL
