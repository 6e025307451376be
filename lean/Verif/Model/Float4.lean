import Verif.Model.Float3R
import Verif.Spec.Vec4

/-! Model of class `float4` (src/Math/float4.h, src/Math/float4.cpp), scalar path, over the reals. The names without a digit, like
`Dot` and `Normalize`, are those of `Dot4` and `Normalize4` (src/Math/float4.h:377, 383, 402, 416, 438, 448, 646, 658), and `Cross` is
`Cross3` (src/Math/float4.h:665). Functions that change the vector return its new value. -/

namespace MGL.Float4
noncomputable section

/-- src/Math/float4.cpp:151-161 `Swizzled(i, j, k, l)`. -/
def swizzled (v : V4 ℝ) (i j k l : Fin 4) : V4 ℝ := ⟨v.get i, v.get j, v.get k, v.get l⟩

/-- src/Math/float4.cpp:146-149 `Swizzled(i, j, k)`. -/
def swizzled3 (v : V4 ℝ) (i j k : Fin 4) : V3 ℝ := ⟨v.get i, v.get j, v.get k⟩

/-- src/Math/float4.cpp:1091-1098 `FromScalar(scalar)`. -/
def fromScalar (s : ℝ) : V4 ℝ := ⟨s, s, s, s⟩

/-- src/Math/float4.cpp:1100-1109 `FromScalar(scalar, w)`. -/
def fromScalarW (s w : ℝ) : V4 ℝ := ⟨s, s, s, w⟩

/-- src/Math/float4.cpp:163-170 `xxxx`. -/
def xxxx (v : V4 ℝ) : V4 ℝ := fromScalar v.x

/-- src/Math/float4.cpp:172-179 `yyyy`. -/
def yyyy (v : V4 ℝ) : V4 ℝ := fromScalar v.x

/-- src/Math/float4.cpp:181-188 `zzzz`. -/
def zzzz (v : V4 ℝ) : V4 ℝ := fromScalar v.x

/-- src/Math/float4.cpp:217-224 `wwww`. -/
def wwww (v : V4 ℝ) : V4 ℝ := fromScalar v.x

/-- src/Math/float4.cpp:190-197 `xxxw`. -/
def xxxw (v : V4 ℝ) : V4 ℝ := ⟨v.x, v.x, v.x, v.w⟩

/-- src/Math/float4.cpp:199-206 `yyyw`. -/
def yyyw (v : V4 ℝ) : V4 ℝ := ⟨v.y, v.y, v.y, v.w⟩

/-- src/Math/float4.cpp:208-215 `zzzw`. -/
def zzzw (v : V4 ℝ) : V4 ℝ := ⟨v.z, v.z, v.z, v.w⟩

/-- src/Math/float4.cpp:283-290 `LengthSq3`. -/
def lengthSq3 (v : V4 ℝ) : ℝ := v.x * v.x + v.y * v.y + v.z * v.z

/-- src/Math/float4.cpp:292-299 `Length3`. -/
def length3 (v : V4 ℝ) : ℝ := Real.sqrt (v.x * v.x + v.y * v.y + v.z * v.z)

/-- src/Math/float4.cpp:301-308 `LengthSq4`. -/
def lengthSq4 (v : V4 ℝ) : ℝ := v.x * v.x + v.y * v.y + v.z * v.z + v.w * v.w

/-- src/Math/float4.cpp:310-317 `Length4`. -/
def length4 (v : V4 ℝ) : ℝ := Real.sqrt (v.x * v.x + v.y * v.y + v.z * v.z + v.w * v.w)

/-- src/Math/float4.cpp:319-343 `Normalize3`: the new vector and the result. -/
def normalize3 (v : V4 ℝ) : V4 ℝ × ℝ :=
  let lengthSq := lengthSq3 v
  if lengthSq > 1 / 1000000 then
    let length := Real.sqrt lengthSq
    let invLength := 1 / length
    (⟨v.x * invLength, v.y * invLength, v.z * invLength, v.w⟩, length)
  else (⟨1, 0, 0, v.w⟩, 0)

/-- src/Math/float4.cpp:345-357 `Normalized3`. -/
def normalized3 (v : V4 ℝ) : V4 ℝ := (normalize3 v).1

/-- src/Math/float4.cpp:359-379 `Normalize4`: the new vector and the result. -/
def normalize4 (v : V4 ℝ) : V4 ℝ × ℝ :=
  let lengthSq := lengthSq4 v
  if lengthSq > 1 / 1000000 then ((1 / Real.sqrt lengthSq) • v, Real.sqrt lengthSq) else (⟨1, 0, 0, 0⟩, 0)

/-- src/Math/float4.cpp:381-388 `Normalized4`. -/
def normalized4 (v : V4 ℝ) : V4 ℝ := (normalize4 v).1

/-- src/Math/float4.cpp:390-404 `NormalizeW`. -/
def normalizeW (v : V4 ℝ) : V4 ℝ :=
  if |v.w| > 1 / 1000000 then
    let invW := 1 / v.w
    ⟨v.x * invW, v.y * invW, v.z * invW, 1⟩
  else v

/-- src/Math/float4.cpp:406-409 `IsWZeroOrOne`; the default tolerance is 1e-3 (src/Math/float4.h:429). -/
def isWZeroOrOne (v : V4 ℝ) (eps : ℝ := 1 / 1000) : Bool := equalAbs v.w 0 eps || equalAbs v.w 1 eps

/-- src/Math/float4.cpp:411-414 `IsZero4`. -/
def isZero4 (v : V4 ℝ) (epsSq : ℝ := 1 / 1000000) : Bool := decide (lengthSq4 v ≤ epsSq)

/-- src/Math/float4.cpp:416-419 `IsZero3`. -/
def isZero3 (v : V4 ℝ) (epsSq : ℝ := 1 / 1000000) : Bool := decide (lengthSq3 v ≤ epsSq)

/-- src/Math/float4.cpp:421-424 `IsNormalized4`. -/
def isNormalized4 (v : V4 ℝ) (epsSq : ℝ := 1 / 100000) : Bool := decide (|lengthSq4 v - 1| ≤ epsSq)

/-- src/Math/float4.cpp:426-429 `IsNormalized3`. -/
def isNormalized3 (v : V4 ℝ) (epsSq : ℝ := 1 / 100000) : Bool := decide (|lengthSq3 v - 1| ≤ epsSq)

/-- src/Math/float4.cpp:431-443 `Scale3`. -/
def scale3 (v : V4 ℝ) (s : ℝ) : V4 ℝ := ⟨v.x * s, v.y * s, v.z * s, v.w⟩

/-- src/Math/float4.cpp:445-459 `ScaleToLength3`: the new vector and the result; 461-468 `ScaledToLength3` is the first. -/
def scaleToLength3 (v : V4 ℝ) (newLength : ℝ) : V4 ℝ × ℝ :=
  let length := lengthSq3 v
  if length < 1 / 1000000 then (v, 0)
  else
    let length := Real.sqrt length
    let scalar := newLength / length
    (⟨v.x * scalar, v.y * scalar, v.z * scalar, v.w⟩, length)

/-- src/Math/float4.cpp:470-476 `ScaleToLength`: the new vector and the result; `none` for the zero vector, where it divides by zero;
478-483 `ScaledToLength` is the first. -/
def scaleToLength (v : V4 ℝ) (newLength : ℝ) : Option (V4 ℝ × ℝ) :=
  let length := length4 v
  if length = 0 then none else some ((newLength / length) • v, length)

/-- src/Math/float4.cpp:787-803 `Dot3`. -/
def dot3 (a b : V4 ℝ) : ℝ := a.x * b.x + a.y * b.y + a.z * b.z

/-- src/Math/float4.cpp:805-812 `Dot4`. -/
def dot4 (a b : V4 ℝ) : ℝ := a.x * b.x + a.y * b.y + a.z * b.z + a.w * b.w

/-- src/Math/float4.cpp:490-494 `IsPerpendicular3`. -/
def isPerpendicular3 (a b : V4 ℝ) (epsSq : ℝ := 1 / 100000) : Bool :=
  decide (dot3 a b * dot3 a b ≤ epsSq * lengthSq4 a * lengthSq4 b)

/-- src/Math/float4.cpp:496-500 `IsPerpendicular`; 1042-1045 `AreOrthogonal(a, b)`. -/
def isPerpendicular (a b : V4 ℝ) (epsSq : ℝ := 1 / 100000) : Bool :=
  decide (dot4 a b * dot4 a b ≤ epsSq * lengthSq4 a * lengthSq4 b)

/-- src/Math/float4.cpp:552-559 `SumOfElements`. -/
def sumOfElements (v : V4 ℝ) : ℝ := v.x + v.y + v.z + v.w

/-- src/Math/float4.cpp:561-568 `ProductOfElements`. -/
def productOfElements (v : V4 ℝ) : ℝ := v.x * v.y * v.z * v.w

/-- src/Math/float4.cpp:570-573 `AverageOfElements`. -/
def averageOfElements (v : V4 ℝ) : ℝ := 1 / 4 * sumOfElements v

/-- src/Math/float4.cpp:575-578 `MinElement`. -/
def minElement (v : V4 ℝ) : ℝ := min2 (min2 v.x v.y) (min2 v.z v.w)

/-- src/Math/float4.cpp:580-596 `MinElementIndex`. -/
def minElementIndex (v : V4 ℝ) : Fin 4 :=
  if v.x < v.y then
    if v.z < v.w then (if v.x < v.z then 0 else 2) else (if v.x < v.w then 0 else 3)
  else
    if v.z < v.w then (if v.y < v.z then 1 else 2) else (if v.y < v.w then 1 else 3)

/-- src/Math/float4.cpp:598-601 `MaxElement`. -/
def maxElement (v : V4 ℝ) : ℝ := max2 (max2 v.x v.y) (min2 v.z v.w)

/-- src/Math/float4.cpp:603-619 `MaxElementIndex`. -/
def maxElementIndex (v : V4 ℝ) : Fin 4 :=
  if v.x > v.y then
    if v.z > v.w then (if v.x > v.z then 0 else 2) else (if v.x > v.w then 0 else 3)
  else
    if v.z > v.w then (if v.y > v.z then 1 else 2) else (if v.y > v.w then 1 else 3)

/-- src/Math/float4.cpp:621-628 `Abs`. -/
def abs (v : V4 ℝ) : V4 ℝ := ⟨absF v.x, absF v.y, absF v.z, absF v.w⟩

/-- src/Math/float4.cpp:630-637 `Neg3`. -/
def neg3 (v : V4 ℝ) : V4 ℝ := ⟨-v.x, -v.y, -v.z, v.w⟩

/-- src/Math/float4.cpp:648-652 `Recip3`. -/
def recip3 (v : V4 ℝ) : V4 ℝ := ⟨1 / v.x, 1 / v.y, 1 / v.z, v.w⟩

/-- src/Math/float4.cpp:654-670 `Recip4` and `RecipFast4`. -/
def recip4 (v : V4 ℝ) : V4 ℝ := ⟨1 / v.x, 1 / v.y, 1 / v.z, 1 / v.w⟩

/-- src/Math/float4.cpp:681-688 `Min(ceil)`; 672-679 is this with four equal elements. -/
def min (v c : V4 ℝ) : V4 ℝ := ⟨min2 v.x c.x, min2 v.y c.y, min2 v.z c.z, min2 v.w c.w⟩

/-- src/Math/float4.cpp:699-706 `Max(floor)`; 690-697 is this with four equal elements. -/
def max (v f : V4 ℝ) : V4 ℝ := ⟨max2 v.x f.x, max2 v.y f.y, max2 v.z f.z, max2 v.w f.w⟩

/-- src/Math/float4.cpp:708-718 `Clamp(floor, ceil)`; 720-730 `Clamp01` and 732-742 `Clamp` with numbers are this with four equal
elements. -/
def clamp (v f c : V4 ℝ) : V4 ℝ := ⟨MGL.clamp v.x f.x c.x, MGL.clamp v.y f.y c.y, MGL.clamp v.z f.z c.z, MGL.clamp v.w f.w c.w⟩

/-- src/Math/float4.cpp:744-763 `Distance3Sq` and `Distance3`, the latter. -/
def distance3 (a b : V4 ℝ) : ℝ :=
  let dx := a.x - b.x
  let dy := a.y - b.y
  let dz := a.z - b.z
  Real.sqrt (dx * dx + dy * dy + dz * dz)

/-- src/Math/float4.cpp:765-785 `Distance4Sq` and `Distance4`, the latter. -/
def distance4 (a b : V4 ℝ) : ℝ :=
  let dx := a.x - b.x
  let dy := a.y - b.y
  let dz := a.z - b.z
  let dw := a.w - b.w
  Real.sqrt (dx * dx + dy * dy + dz * dz + dw * dw)

/-- src/Math/float4.cpp:835-858 `Cross3`. -/
def cross3 (a b : V4 ℝ) : V4 ℝ := ⟨a.y * b.z - a.z * b.y, a.z * b.x - a.x * b.z, a.x * b.y - a.y * b.x, 0⟩

/-- src/Math/float4.cpp:860-868 `OuterProduct`: the entry in the given row and column. -/
def outerProduct (a b : V4 ℝ) (i j : Fin 4) : ℝ := a.get i * b.get j

/-- src/Math/float4.cpp:870-882 `Perpendicular3`. -/
def perpendicular3 (v : V4 ℝ) (hint : V3 ℝ := ⟨0, 1, 0⟩) (hint2 : V3 ℝ := ⟨0, 0, 1⟩) : V4 ℝ :=
  let n := f3Normalize (cross3 v (.mk3 hint 0)).xyz
  if n.2 = 0 then .mk3 hint2 0 else .mk3 n.1 0

/-- src/Math/float4.cpp:884-896 `Perpendicular`. -/
def perpendicular (v : V4 ℝ) (hint : V4 ℝ := ⟨0, 1, 0, 0⟩) (hint2 : V4 ℝ := ⟨0, 0, 1, 0⟩) : V4 ℝ :=
  let n := normalize4 (cross3 v hint)
  if n.2 = 0 then hint2 else n.1

/-- src/Math/float4.cpp:898-903 `AnotherPerpendicular3`. -/
def anotherPerpendicular3 (v : V4 ℝ) (hint : V3 ℝ := ⟨0, 1, 0⟩) (hint2 : V3 ℝ := ⟨0, 0, 1⟩) : V4 ℝ :=
  normalized3 (cross3 v (perpendicular3 v hint hint2))

/-- src/Math/float4.cpp:905-910 `AnotherPerpendicular`. -/
def anotherPerpendicular (v : V4 ℝ) (hint : V4 ℝ := ⟨0, 1, 0, 0⟩) (hint2 : V4 ℝ := ⟨0, 0, 1, 0⟩) : V4 ℝ :=
  normalized4 (cross3 v (perpendicular v hint hint2))

/-- src/Math/float4.cpp:993-998 `ProjectTo3`. -/
def projectTo3 (v : V4 ℝ) (t : V3 ℝ) : V4 ℝ := .mk3 ((1 / V3.lenSq t) • (V3.dot v.xyz t • t)) v.w

/-- src/Math/float4.cpp:1000-1005 `ProjectTo`. -/
def projectTo (v t : V4 ℝ) : V4 ℝ := (dot4 v t / lengthSq4 t) • t

/-- src/Math/float4.cpp:1007-1012 `ProjectToNorm3`. -/
def projectToNorm3 (v : V4 ℝ) (t : V3 ℝ) : V4 ℝ := .mk3 (V3.dot v.xyz t • t) v.w

/-- src/Math/float4.cpp:1014-1019 `ProjectToNorm`. -/
def projectToNorm (v t : V4 ℝ) : V4 ℝ := dot4 v t • t

/-- src/Math/float4.cpp:931-936 `Reflect3`. -/
def reflect3 (v : V4 ℝ) (n : V3 ℝ) : V4 ℝ := (2 : ℝ) • projectToNorm3 v n - v

/-- src/Math/float4.cpp:938-943 `Reflect`. -/
def reflect (v n : V4 ℝ) : V4 ℝ := (2 : ℝ) • projectToNorm v n - v

/-- src/Math/float4.cpp:946-955 `Refract`. -/
def refract (v normal : V4 ℝ) (neg pos : ℝ) : V4 ℝ :=
  let n := neg / pos
  let cosI := dot4 v normal
  let sinT2 := n * n * (1 - cosI * cosI)
  if sinT2 > 1 then reflect (-v) normal else n • v - (n + Real.sqrt (1 - sinT2)) • normal

/-- src/Math/float4.cpp:957-966 `AngleBetween3`. -/
def angleBetween3 (a b : V4 ℝ) : ℝ :=
  let cosa := dot3 a b / Real.sqrt (lengthSq3 a * lengthSq3 b)
  if cosa ≥ 1 then 0 else if cosa ≤ -1 then Real.pi else Real.arccos cosa

/-- src/Math/float4.cpp:968-973 `AngleBetweenNorm3`. -/
def angleBetweenNorm3 (a b : V4 ℝ) : ℝ := Real.arccos (dot3 a b)

/-- src/Math/float4.cpp:975-984 `AngleBetween4`. -/
def angleBetween4 (a b : V4 ℝ) : ℝ :=
  let cosa := dot4 a b / Real.sqrt (lengthSq4 a * lengthSq4 b)
  if cosa ≥ 1 then 0 else if cosa ≤ -1 then Real.pi else Real.arccos cosa

/-- src/Math/float4.cpp:986-991 `AngleBetweenNorm4`. -/
def angleBetweenNorm4 (a b : V4 ℝ) : ℝ := Real.arccos (dot4 a b)

/-- src/Math/float4.cpp:1021-1024 `AreCollinear`; the default tolerance is 1e-7. -/
def areCollinear (p1 p2 p3 : V4 ℝ) (eps : ℝ := 1 / 10000000) : Bool :=
  decide (lengthSq4 (cross3 (p2 - p1) (p3 - p1)) ≤ eps)

/-- src/Math/float4.cpp:1026-1040 `Lerp`. -/
def lerp (a b : V4 ℝ) (t : ℝ) : V4 ℝ := (1 - t) • a + t • b

/-- src/Math/float4.cpp:1054-1061 `Orthonormalize(a, b)`. -/
def orthonormalize2 (a b : V4 ℝ) : V4 ℝ × V4 ℝ :=
  let a := normalized4 a
  (a, normalized4 (b - projectToNorm b a))

/-- src/Math/float4.cpp:1063-1074 `Orthonormalize(a, b, c)`. -/
def orthonormalize3 (a b c : V4 ℝ) : V4 ℝ × V4 ℝ × V4 ℝ :=
  let a := normalized4 a
  let b := normalized4 (b - projectToNorm b a)
  let c := c - projectToNorm c a
  let c := normalized4 (c - projectToNorm c b)
  (a, b, c)

/-- src/Math/float4.cpp:1081-1089 `AreOrthonormal(a, b, c)`; the default tolerance is 1e-3. -/
def areOrthonormal (a b c : V4 ℝ) (eps : ℝ := 1 / 1000) : Bool :=
  isPerpendicular a b eps && isPerpendicular a c eps && isPerpendicular b c eps &&
  isNormalized4 a (eps * eps) && isNormalized4 b (eps * eps) && isNormalized4 c (eps * eps)

/-- src/Math/float4.cpp:1165-1181 `FromSphericalCoordinates(azimuth, inclination, radius)`. -/
def fromSpherical (azimuth inclination radius : ℝ) : V4 ℝ :=
  let cx := Real.cos inclination
  ⟨cx * Real.sin azimuth * radius, -Real.sin inclination * radius, cx * Real.cos azimuth * radius, 0⟩

/-- src/Math/float4.cpp:1183-1200 `FromSphericalCoordinates(azimuth, inclination)`. -/
def fromSpherical2 (azimuth inclination : ℝ) : V4 ℝ :=
  ⟨Real.cos inclination * Real.sin azimuth, -Real.sin inclination, Real.cos inclination * Real.cos azimuth, 0⟩

/-- src/Math/float4.cpp:1202-1212 `ToSphericalCoordinates`. -/
def toSpherical (v : V4 ℝ) : V3 ℝ :=
  let n := normalize4 v
  if n.2 ≤ 1 / 100000 then 0 else ⟨atan2 n.1.x n.1.z, Real.arcsin (-n.1.y), n.2⟩

/-- src/Math/float4.cpp:1214-1220 `ToSphericalCoordinatesNormalized`. -/
def toSphericalNormalized (v : V4 ℝ) : ℝ × ℝ := (atan2 v.x v.z, Real.arcsin (-v.y))

/-- src/Math/float4.cpp:1222-1236 `Equals`. -/
def equals (a b : V4 ℝ) (eps : ℝ := 1 / 1000) : Bool :=
  decide (absF (a.x - b.x) < eps) && decide (absF (a.y - b.y) < eps) && decide (absF (a.z - b.z) < eps) && decide (absF (a.w - b.w) < eps)

/-- src/Math/float4.cpp:1402-1409 `Add(s)`. -/
def add (v : V4 ℝ) (s : ℝ) : V4 ℝ := ⟨v.x + s, v.y + s, v.z + s, v.w + s⟩

/-- src/Math/float4.cpp:1411-1418 `Sub(s)`. -/
def sub (v : V4 ℝ) (s : ℝ) : V4 ℝ := ⟨v.x - s, v.y - s, v.z - s, v.w - s⟩

/-- src/Math/float4.cpp:1420-1427 `SubLeft(s)`. -/
def subLeft (v : V4 ℝ) (s : ℝ) : V4 ℝ := ⟨s - v.x, s - v.y, s - v.z, s - v.w⟩

/-- src/Math/float4.cpp:1429-1436 `DivLeft(s)`. -/
def divLeft (v : V4 ℝ) (s : ℝ) : V4 ℝ := ⟨s / v.x, s / v.y, s / v.z, s / v.w⟩

/-- src/Math/float4.cpp:1438-1445 `Mul`. -/
def mul (a b : V4 ℝ) : V4 ℝ := ⟨a.x * b.x, a.y * b.y, a.z * b.z, a.w * b.w⟩

/-- src/Math/float4.cpp:1447-1454 `Div`. -/
def div (a b : V4 ℝ) : V4 ℝ := ⟨a.x / b.x, a.y / b.y, a.z / b.z, a.w / b.w⟩

end
end MGL.Float4
