import Verif.Spec.Quat
import Verif.Model.Mat
import Verif.Model.Float3R

/-! Model of `Quat` (scalar path). Algebra over any field; square roots and trigonometry over the
reals. -/

namespace MGL
namespace Quat

section Field
variable {α : Type*} [Field α]

/-- src/Math/Quat.cpp:950 `identity`. -/
def identity : Quat α := ⟨0, 0, 0, 1⟩

/-- src/Math/Quat.cpp:846-853 `operator +`. -/
def add (q r : Quat α) : Quat α := ⟨q.x + r.x, q.y + r.y, q.z + r.z, q.w + r.w⟩

/-- src/Math/Quat.cpp:855-862 `operator -`. -/
def sub (q r : Quat α) : Quat α := ⟨q.x - r.x, q.y - r.y, q.z - r.z, q.w - r.w⟩

/-- src/Math/Quat.cpp:864-871 unary `operator -`. -/
def neg (q : Quat α) : Quat α := ⟨-q.x, -q.y, -q.z, -q.w⟩

/-- src/Math/Quat.cpp:873-880 `operator *(float)`. -/
def smul (q : Quat α) (s : α) : Quat α := ⟨q.x * s, q.y * s, q.z * s, q.w * s⟩

/-- src/Math/Quat.cpp:900-909 `operator /(float)`. -/
def sdiv (q : Quat α) (s : α) : Quat α := smul q (1 / s)

/-- src/Math/Quat.cpp:122-129 `Dot`. -/
def dot (q r : Quat α) : α := q.x * r.x + q.y * r.y + q.z * r.z + q.w * r.w

/-- src/Math/Quat.cpp:131-138 `LengthSq`. -/
def lengthSq (q : Quat α) : α := q.x * q.x + q.y * q.y + q.z * q.z + q.w * q.w

/-- src/Math/Quat.cpp:911-923 `operator *(Quat)`. -/
def mul (q r : Quat α) : Quat α :=
  ⟨q.x * r.w + q.y * r.z - q.z * r.y + q.w * r.x,
   -q.x * r.z + q.y * r.w + q.z * r.x + q.w * r.y,
   q.x * r.y - q.y * r.x + q.z * r.w + q.w * r.z,
   -q.x * r.x - q.y * r.y - q.z * r.z + q.w * r.w⟩

/-- src/Math/Quat.cpp:925-935 `operator /(Quat)`. -/
def div (q r : Quat α) : Quat α :=
  ⟨q.x * r.w - q.y * r.z + q.z * r.y - q.w * r.x,
   q.x * r.z + q.y * r.w - q.z * r.x - q.w * r.y,
   -q.x * r.y + q.y * r.x + q.z * r.w - q.w * r.z,
   q.x * r.x + q.y * r.y + q.z * r.z + q.w * r.w⟩

/-- src/Math/Quat.cpp:233-251 `Conjugate`, `Conjugated`. -/
def conjugate (q : Quat α) : Quat α := ⟨-q.x, -q.y, -q.z, q.w⟩

/-- src/Math/Quat.cpp:213-225 `Inverse`, `Inverted`. -/
def inverse (q : Quat α) : Quat α := conjugate q

/-- src/Math/Matrix.inl:879-888 `SetMatrixRotatePart(m, q)` on a 3x3 matrix; also `ToFloat3x3`
(src/Math/Quat.cpp:737-740) and the constructor float3x3(Quat). -/
def toFloat3x3 (q : Quat α) : Mat3 α :=
  !![1 - 2 * (q.y * q.y + q.z * q.z), 2 * (q.x * q.y - q.z * q.w), 2 * (q.x * q.z + q.y * q.w);
     2 * (q.x * q.y + q.z * q.w), 1 - 2 * (q.x * q.x + q.z * q.z), 2 * (q.y * q.z - q.x * q.w);
     2 * (q.x * q.z - q.y * q.w), 2 * (q.y * q.z + q.x * q.w), 1 - 2 * (q.x * q.x + q.y * q.y)]

/-- src/Math/Quat.cpp:253-271 `Transform(float3)` and 882-889 `operator *(float3)`. -/
def transform (q : Quat α) (v : V3 α) : V3 α := Mat3.mulVec (toFloat3x3 q) v

/-- src/Math/Quat.cpp:66-91 `WorldX`, `WorldY`, `WorldZ`. -/
def worldX (q : Quat α) : V3 α := transform q ⟨1, 0, 0⟩
@[inherit_doc worldX] def worldY (q : Quat α) : V3 α := transform q ⟨0, 1, 0⟩
@[inherit_doc worldX] def worldZ (q : Quat α) : V3 α := transform q ⟨0, 0, 1⟩

end Field

noncomputable section

/-- src/Math/Quat.cpp:140-147 `Length`. -/
def length (q : Quat ℝ) : ℝ := Real.sqrt (lengthSq q)

/-- src/Math/Quat.cpp:149-170 `Normalize` (scalar path): new value and returned old length. -/
def normalize (q : Quat ℝ) : Quat ℝ × ℝ :=
  if length q < 1 / 10000 then (q, 0) else (smul q (1 / length q), length q)

/-- src/Math/Quat.cpp:172-183 `Normalized`. -/
def normalized (q : Quat ℝ) : Quat ℝ := (normalize q).1

/-- src/Math/Quat.cpp:227-231 `InverseAndNormalize`. -/
def inverseAndNormalize (q : Quat ℝ) : Quat ℝ × ℝ := normalize (conjugate q)

/-- src/Math/Quat.cpp:117-120 `Angle`. -/
def angle (q : Quat ℝ) : ℝ := Real.arccos q.w * 2

/-- src/Math/Quat.cpp:93-115 `Axis`. -/
def axis (q : Quat ℝ) : V3 ℝ := (1 / Real.sqrt (1 - q.w * q.w)) • (⟨q.x, q.y, q.z⟩ : V3 ℝ)

/-- src/Math/Quat.cpp:418-430 `ToAxisAngle`. -/
def toAxisAngle (q : Quat ℝ) : V3 ℝ × ℝ :=
  let r := 1 / Real.sqrt (1 - q.w * q.w)
  (⟨q.x * r, q.y * r, q.z * r⟩, Real.arccos q.w * 2)

/-- src/Math/Quat.cpp:452-466 `SetFromAxisAngle`; also the constructor `Quat(axis, angle)` and
`RotateAxisAngle` (634-637). -/
def fromAxisAngle (axis : V3 ℝ) (angle : ℝ) : Quat ℝ :=
  ⟨axis.x * Real.sin (angle * (1 / 2)), axis.y * Real.sin (angle * (1 / 2)),
   axis.z * Real.sin (angle * (1 / 2)), Real.cos (angle * (1 / 2))⟩

/-- src/Math/Quat.cpp:619-632 `RotateX`, `RotateY`, `RotateZ`. -/
def rotateX (a : ℝ) : Quat ℝ := fromAxisAngle ⟨1, 0, 0⟩ a
@[inherit_doc rotateX] def rotateY (a : ℝ) : Quat ℝ := fromAxisAngle ⟨0, 1, 0⟩ a
@[inherit_doc rotateX] def rotateZ (a : ℝ) : Quat ℝ := fromAxisAngle ⟨0, 0, 1⟩ a

/-- src/Math/Quat.cpp:492-533 `SetQuatFrom` before the final normalisation. -/
def ofMat3Raw (m : Mat3 ℝ) : Quat ℝ :=
  let r := m 0 0 + m 1 1 + m 2 2
  if r > 0 then
    let w := Real.sqrt (r + 1) * (1 / 2)
    let i := 1 / (4 * w)
    ⟨(m 2 1 - m 1 2) * i, (m 0 2 - m 2 0) * i, (m 1 0 - m 0 1) * i, w⟩
  else if m 0 0 > m 1 1 ∧ m 0 0 > m 2 2 then
    let x := Real.sqrt (1 + m 0 0 - m 1 1 - m 2 2) * (1 / 2)
    let i := 1 / (4 * x)
    ⟨x, (m 0 1 + m 1 0) * i, (m 0 2 + m 2 0) * i, (m 2 1 - m 1 2) * i⟩
  else if m 1 1 > m 2 2 then
    let y := Real.sqrt (1 + m 1 1 - m 0 0 - m 2 2) * (1 / 2)
    let i := 1 / (4 * y)
    ⟨(m 0 1 + m 1 0) * i, y, (m 1 2 + m 2 1) * i, (m 0 2 - m 2 0) * i⟩
  else
    let z := Real.sqrt (1 + m 2 2 - m 0 0 - m 1 1) * (1 / 2)
    let i := 1 / (4 * z)
    ⟨(m 0 2 + m 2 0) * i, (m 1 2 + m 2 1) * i, z, (m 1 0 - m 0 1) * i⟩

/-- src/Math/Quat.cpp:492-536 `SetQuatFrom`, 538-576 `Set(float3x3)` and its siblings (which read
only the upper-left 3x3 part), and the constructors and `ToQuat` functions that call them. -/
def ofMat3 (m : Mat3 ℝ) : Quat ℝ := (normalize (ofMat3Raw m)).1

/-- src/Math/Quat.cpp:285-295 `Lerp`. -/
def lerp (a b : Quat ℝ) (t : ℝ) : Quat ℝ :=
  if dot a b ≥ 0 then normalized (add (smul a (1 - t)) (smul b t))
  else normalized (add (smul a (t - 1)) (smul b t))

/-- The polynomial used for arccos in `Slerp`, src/Math/Quat.cpp:351; the float constants are
replaced by their decimal values. -/
def slerpAcos (x : ℝ) : ℝ := (-0.69813170079773212 * x * x - 0.87266462599716477) * x + 1.5707963267948966

/-- The polynomial used for sine in `Slerp`, src/Math/Quat.cpp:361, 364. -/
def slerpSin (x : ℝ) : ℝ :=
  ((5.64311797634681035370e-03 * (x * x) - 1.55271410633428644799e-01) * (x * x) + 9.87862135574673806965e-01) * x

/-- src/Math/Quat.cpp:297-375 `Slerp` (scalar path, without sine look-up table). -/
def slerp (q q2 : Quat ℝ) (t : ℝ) : Quat ℝ :=
  let d := dot q q2
  let ang := if d < 0 then -d else d
  let sign : ℝ := if d < 0 then -1 else 1
  let ab : ℝ × ℝ :=
    if ang < 0.999 then
      let angle := slerpAcos ang
      let ta := t * angle
      (slerpSin (angle - ta), slerpSin ta)
    else (1 - t, t)
  normalized (add (smul q (ab.1 * sign)) (smul q2 ab.2))

/-- src/Math/Quat.cpp:402-408 `AngleBetween`. -/
def angleBetween (q target : Quat ℝ) : ℝ := angle (normalize (div target q)).1

/-- src/Math/Quat.cpp:410-416 `AxisFromTo`. -/
def axisFromTo (q target : Quat ℝ) : V3 ℝ := axis (normalize (div target q)).1

/-- src/Math/Quat.cpp:639-656 `RotateFromTo`. -/
def rotateFromTo (s t : V3 ℝ) : Quat ℝ :=
  let n := f3Normalize (V3.cross s t)
  if n.2 ≠ 0 then
    let h := 1 / 2 * V3.dot s t
    let c := Real.sqrt (1 / 2 + h)
    let sn := Real.sqrt (1 / 2 - h)
    ⟨n.1.x * sn, n.1.y * sn, n.1.z * sn, c⟩
  else ⟨1, 0, 0, 0⟩

/-- src/Math/Quat.cpp:377-387 `SlerpVector`. -/
def slerpVector (frm dst : V3 ℝ) (t : ℝ) : V3 ℝ :=
  if t ≤ 0 then frm else if t ≥ 1 then dst
  else transform (slerp identity (rotateFromTo frm dst) t) frm

/-- src/Math/Quat.cpp:389-400 `SlerpVectorAbs`. -/
def slerpVectorAbs (frm dst : V3 ℝ) (angleRadians : ℝ) : V3 ℝ :=
  if angleRadians ≤ 0 then frm
  else
    let q := rotateFromTo frm dst
    let a := angle q
    if a ≤ angleRadians then dst else transform (slerp identity q (angleRadians / a)) frm

end
end Quat

namespace Mat3
noncomputable section

/-- src/Math/Matrix.inl:31-39, float3x3.cpp:60-65 `RotateX`. -/
def rotateX (a : ℝ) : Mat3 ℝ := !![1, 0, 0; 0, Real.cos a, -Real.sin a; 0, Real.sin a, Real.cos a]

/-- src/Math/Matrix.inl:47-55, float3x3.cpp:67-72 `RotateY`. -/
def rotateY (a : ℝ) : Mat3 ℝ := !![Real.cos a, 0, Real.sin a; 0, 1, 0; -Real.sin a, 0, Real.cos a]

/-- src/Math/Matrix.inl:63-71, float3x3.cpp:74-79 `RotateZ`. -/
def rotateZ (a : ℝ) : Mat3 ℝ := !![Real.cos a, -Real.sin a, 0; Real.sin a, Real.cos a, 0; 0, 0, 1]

/-- src/Math/Matrix.inl:691-712 `SetRotationAxis3x3`, float3x3.cpp:81-86 `RotateAxisAngle`. -/
def rotateAxisAngle (a : V3 ℝ) (angle : ℝ) : Mat3 ℝ :=
  let s := Real.sin angle
  let c := Real.cos angle
  let c1 := 1 - c
  !![c + c1 * a.x * a.x, c1 * a.x * a.y - s * a.z, c1 * a.x * a.z + s * a.y;
     c1 * a.x * a.y + s * a.z, c + c1 * a.y * a.y, c1 * a.y * a.z - s * a.x;
     c1 * a.x * a.z - s * a.y, c1 * a.y * a.z + s * a.x, c + c1 * a.z * a.z]

/-- src/Math/float3x3.cpp:88-133 `RotateFromTo`. -/
def rotateFromTo (src dst : V3 ℝ) : Mat3 ℝ :=
  let dot := V3.dot src dst
  if |dot| > 999 / 1000 then
    let s := f3Abs src
    let unit : V3 ℝ := if s.x < s.y ∧ s.x < s.z then ⟨1, 0, 0⟩ else if s.y < s.z then ⟨0, 1, 0⟩ else ⟨0, 0, 1⟩
    let u := unit - src
    let v := unit - dst
    let uv := V3.dot u v
    let uu := V3.dot u u
    let vv := V3.dot v v
    let a := -2 / uu
    let b := -2 / vv
    let c := a * b * uv
    !![1 + a * u.x * u.x + b * v.x * v.x + c * v.x * u.x, a * u.x * u.y + b * v.x * v.y + c * v.x * u.y,
         a * u.x * u.z + b * v.x * v.z + c * v.x * u.z;
       a * u.y * u.x + b * v.y * v.x + c * v.y * u.x, 1 + a * u.y * u.y + b * v.y * v.y + c * v.y * u.y,
         a * u.y * u.z + b * v.y * v.z + c * v.y * u.z;
       a * u.z * u.x + b * v.z * v.x + c * v.z * u.x, a * u.z * u.y + b * v.z * v.y + c * v.z * u.y,
         1 + a * u.z * u.z + b * v.z * v.z + c * v.z * u.z]
  else
    let v := V3.cross src dst
    let h := (1 - dot) / V3.dot v v
    !![h * v.x * v.x + dot, h * v.y * v.x - v.z, h * v.z * v.x + v.y;
       h * v.x * v.y + v.z, h * v.y * v.y + dot, h * v.z * v.y - v.x;
       h * v.x * v.z - v.y, h * v.y * v.z + v.x, h * v.z * v.z + dot]

/-- src/Math/float3x3.cpp:1080-1092 `Orthonormalize(c0, c1, c2)` with `c0, c1, c2 = 0, 1, 2`. -/
def orthonormalize012 (m : Mat3 ℝ) : Mat3 ℝ :=
  let r := f3Orthonormalize3 (Mat3.col m 0) (Mat3.col m 1) (Mat3.col m 2)
  Mat3.ofCols r.1 r.2.1 r.2.2

/-- src/Math/float3x3.cpp:608-669 `LookAt`. -/
def lookAt (localForward targetDirection localUp worldUp : V3 ℝ) : Mat3 ℝ :=
  let localRight := f3Normalized (V3.cross localUp localForward)
  let worldRight := f3Normalized (V3.cross worldUp targetDirection)
  let perpWorldUp := f3Normalized (V3.cross targetDirection worldRight)
  let m1 := Mat3.ofCols worldRight perpWorldUp targetDirection
  let m2 := Mat3.ofRows localRight localUp localForward
  orthonormalize012 (Mat3.mul m1 m2)

/-- src/Math/float3x3.cpp:1094-1113 `RemoveScale`: every row is normalised. -/
def removeScale (m : Mat3 ℝ) : Mat3 ℝ :=
  Mat3.ofRows (f3Normalized (Mat3.row m 0)) (f3Normalized (Mat3.row m 1)) (f3Normalized (Mat3.row m 2))

end
end Mat3
end MGL
