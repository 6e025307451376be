import Verif.Model.Quat

/-! Model of the Euler angle constructors and extractors of `float3x3` (also used by float3x4, float4x4
and Quat through the upper-left 3x3 part). Generated from the source text by a mechanical translation;
`SinCos` is sine and cosine, `asin`, `acos` the principal inverses, `atan2 y x` the argument of `x + iy`. -/

namespace MGL
namespace Mat3
noncomputable section

/-- src/Math/Matrix.inl:78-89 `Set3x3PartRotateEulerXYZ`; float3x3.cpp:183-277 `FromEulerXYZ`. -/
def fromEulerXYZ (x y z : ℝ) : Mat3 ℝ :=
  !![Real.cos y * Real.cos z, -Real.cos y * Real.sin z, Real.sin y;
     Real.cos z * Real.sin x * Real.sin y + Real.cos x * Real.sin z, Real.cos x * Real.cos z - Real.sin x * Real.sin y * Real.sin z, -Real.cos y * Real.sin x;
     -Real.cos x * Real.cos z * Real.sin y + Real.sin x * Real.sin z, Real.cos z * Real.sin x + Real.cos x * Real.sin y * Real.sin z, Real.cos x * Real.cos y]

/-- src/Math/Matrix.inl:97-122 `ExtractEulerXYZ`; float3x3.cpp:1455-1466 `ToEulerXYZ`. -/
def toEulerXYZ (m : Mat3 ℝ) : V3 ℝ :=
  if m 0 2 < 1 then
    if m 0 2 > -1 then ⟨atan2 (-m 1 2) (m 2 2), Real.arcsin (m 0 2), atan2 (-m 0 1) (m 0 0)⟩
    else ⟨-atan2 (m 1 0) (m 1 1), -Real.pi/2, 0⟩
  else ⟨atan2 (m 1 0) (m 1 1), Real.pi/2, 0⟩

/-- src/Math/Matrix.inl:129-140 `Set3x3PartRotateEulerXZY`; float3x3.cpp:183-277 `FromEulerXZY`. -/
def fromEulerXZY (x z y : ℝ) : Mat3 ℝ :=
  !![Real.cos y * Real.cos z, -Real.sin z, Real.cos z * Real.sin y;
     Real.sin x * Real.sin y + Real.cos x * Real.cos y * Real.sin z, Real.cos x * Real.cos z, -Real.cos y * Real.sin x + Real.cos x * Real.sin y * Real.sin z;
     -Real.cos x * Real.sin y + Real.cos y * Real.sin x * Real.sin z, Real.cos z * Real.sin x, Real.cos x * Real.cos y + Real.sin x * Real.sin y * Real.sin z]

/-- src/Math/Matrix.inl:148-173 `ExtractEulerXZY`; float3x3.cpp:1455-1466 `ToEulerXZY`. -/
def toEulerXZY (m : Mat3 ℝ) : V3 ℝ :=
  if m 0 1 < 1 then
    if m 0 1 > -1 then ⟨atan2 (m 2 1) (m 1 1), Real.arcsin (-(m 0 1)), atan2 (m 0 2) (m 0 0)⟩
    else ⟨-atan2 (-m 2 0) (m 2 2), Real.pi/2, 0⟩
  else ⟨atan2 (-m 2 0) (m 2 2), -Real.pi/2, 0⟩

/-- src/Math/Matrix.inl:180-191 `Set3x3PartRotateEulerYXZ`; float3x3.cpp:183-277 `FromEulerYXZ`. -/
def fromEulerYXZ (y x z : ℝ) : Mat3 ℝ :=
  !![Real.cos y * Real.cos z + Real.sin x * Real.sin y * Real.sin z, Real.cos z * Real.sin x * Real.sin y - Real.cos y * Real.sin z, Real.cos x * Real.sin y;
     Real.cos x * Real.sin z, Real.cos x * Real.cos z, -Real.sin x;
     -Real.cos z * Real.sin y + Real.cos y * Real.sin x * Real.sin z, Real.cos y * Real.cos z * Real.sin x + Real.sin y * Real.sin z, Real.cos x * Real.cos y]

/-- src/Math/Matrix.inl:199-224 `ExtractEulerYXZ`; float3x3.cpp:1455-1466 `ToEulerYXZ`. -/
def toEulerYXZ (m : Mat3 ℝ) : V3 ℝ :=
  if m 1 2 < 1 then
    if m 1 2 > -1 then ⟨atan2 (m 0 2) (m 2 2), Real.arcsin (-(m 1 2)), atan2 (m 1 0) (m 1 1)⟩
    else ⟨-atan2 (-m 0 1) (m 0 0), Real.pi/2, 0⟩
  else ⟨atan2 (-m 0 1) (m 0 0), -Real.pi/2, 0⟩

/-- src/Math/Matrix.inl:231-242 `Set3x3PartRotateEulerYZX`; float3x3.cpp:183-277 `FromEulerYZX`. -/
def fromEulerYZX (y z x : ℝ) : Mat3 ℝ :=
  !![Real.cos y * Real.cos z, Real.sin x * Real.sin y - Real.cos x * Real.cos y * Real.sin z, Real.cos x * Real.sin y + Real.cos y * Real.sin x * Real.sin z;
     Real.sin z, Real.cos x * Real.cos z, -Real.cos z * Real.sin x;
     -Real.cos z * Real.sin y, Real.cos y * Real.sin x + Real.cos x * Real.sin y * Real.sin z, Real.cos x * Real.cos y - Real.sin x * Real.sin y * Real.sin z]

/-- src/Math/Matrix.inl:250-275 `ExtractEulerYZX`; float3x3.cpp:1455-1466 `ToEulerYZX`. -/
def toEulerYZX (m : Mat3 ℝ) : V3 ℝ :=
  if m 1 0 < 1 then
    if m 1 0 > -1 then ⟨atan2 (-m 2 0) (m 0 0), Real.arcsin (m 1 0), atan2 (-m 1 2) (m 1 1)⟩
    else ⟨-atan2 (m 2 1) (m 2 2), -Real.pi/2, 0⟩
  else ⟨atan2 (m 2 1) (m 2 2), Real.pi/2, 0⟩

/-- src/Math/Matrix.inl:282-293 `Set3x3PartRotateEulerZXY`; float3x3.cpp:183-277 `FromEulerZXY`. -/
def fromEulerZXY (z x y : ℝ) : Mat3 ℝ :=
  !![Real.cos y * Real.cos z - Real.sin x * Real.sin y * Real.sin z, -Real.cos x * Real.sin z, Real.cos z * Real.sin y + Real.cos y * Real.sin x * Real.sin z;
     Real.cos z * Real.sin x * Real.sin y + Real.cos y * Real.sin z, Real.cos x * Real.cos z, -Real.cos y * Real.cos z * Real.sin x + Real.sin y * Real.sin z;
     -Real.cos x * Real.sin y, Real.sin x, Real.cos x * Real.cos y]

/-- src/Math/Matrix.inl:301-326 `ExtractEulerZXY`; float3x3.cpp:1455-1466 `ToEulerZXY`. -/
def toEulerZXY (m : Mat3 ℝ) : V3 ℝ :=
  if m 2 1 < 1 then
    if m 2 1 > -1 then ⟨atan2 (-m 0 1) (m 1 1), Real.arcsin (m 2 1), atan2 (-m 2 0) (m 2 2)⟩
    else ⟨-atan2 (m 0 2) (m 0 0), -Real.pi/2, 0⟩
  else ⟨atan2 (m 0 2) (m 0 0), Real.pi/2, 0⟩

/-- src/Math/Matrix.inl:333-344 `Set3x3PartRotateEulerZYX`; float3x3.cpp:183-277 `FromEulerZYX`. -/
def fromEulerZYX (z y x : ℝ) : Mat3 ℝ :=
  !![Real.cos y * Real.cos z, Real.cos z * Real.sin x * Real.sin y - Real.cos x * Real.sin z, Real.cos x * Real.cos z * Real.sin y + Real.sin x * Real.sin z;
     Real.cos y * Real.sin z, Real.cos x * Real.cos z + Real.sin x * Real.sin y * Real.sin z, -Real.cos z * Real.sin x + Real.cos x * Real.sin y * Real.sin z;
     -Real.sin y, Real.cos y * Real.sin x, Real.cos x * Real.cos y]

/-- src/Math/Matrix.inl:352-377 `ExtractEulerZYX`; float3x3.cpp:1455-1466 `ToEulerZYX`. -/
def toEulerZYX (m : Mat3 ℝ) : V3 ℝ :=
  if m 2 0 < 1 then
    if m 2 0 > -1 then ⟨atan2 (m 1 0) (m 0 0), Real.arcsin (-(m 2 0)), atan2 (m 2 1) (m 2 2)⟩
    else ⟨-atan2 (-m 1 2) (m 1 1), Real.pi/2, 0⟩
  else ⟨atan2 (-m 1 2) (m 1 1), -Real.pi/2, 0⟩

/-- src/Math/Matrix.inl:384-395 `Set3x3PartRotateEulerXYX`; float3x3.cpp:183-277 `FromEulerXYX`. -/
def fromEulerXYX (x2 y x1 : ℝ) : Mat3 ℝ :=
  !![Real.cos y, Real.sin y * Real.sin x1, Real.sin y * Real.cos x1;
     Real.sin y * Real.sin x2, Real.cos x2 * Real.cos x1 - Real.cos y * Real.sin x2 * Real.sin x1, -Real.cos y * Real.cos x1 * Real.sin x2 - Real.cos x2 * Real.sin x1;
     -Real.sin y * Real.cos x2, Real.cos x1 * Real.sin x2 + Real.cos y * Real.cos x2 * Real.sin x1, Real.cos y * Real.cos x2 * Real.cos x1 - Real.sin x2 * Real.sin x1]

/-- src/Math/Matrix.inl:403-428 `ExtractEulerXYX`; float3x3.cpp:1455-1466 `ToEulerXYX`. -/
def toEulerXYX (m : Mat3 ℝ) : V3 ℝ :=
  if m 0 0 < 1 then
    if m 0 0 > -1 then ⟨atan2 (m 1 0) (-m 2 0), Real.arccos (m 0 0), atan2 (m 0 1) (m 0 2)⟩
    else ⟨-atan2 (-m 1 2) (m 1 1), Real.pi, 0⟩
  else ⟨atan2 (-m 1 2) (m 1 1), 0, 0⟩

/-- src/Math/Matrix.inl:435-446 `Set3x3PartRotateEulerXZX`; float3x3.cpp:183-277 `FromEulerXZX`. -/
def fromEulerXZX (x2 z x1 : ℝ) : Mat3 ℝ :=
  !![Real.cos z, -Real.sin z * Real.cos x1, Real.sin z * Real.sin x1;
     Real.sin z * Real.cos x2, Real.cos z * Real.cos x2 * Real.cos x1 - Real.sin x2 * Real.sin x1, -Real.cos x1 * Real.sin x2 - Real.cos z * Real.cos x2 * Real.sin x1;
     Real.sin z * Real.sin x2, Real.cos z * Real.cos x1 * Real.sin x2 + Real.cos x2 * Real.sin x1, Real.cos x2 * Real.cos x1 - Real.cos z * Real.sin x2 * Real.sin x1]

/-- src/Math/Matrix.inl:454-479 `ExtractEulerXZX`; float3x3.cpp:1455-1466 `ToEulerXZX`. -/
def toEulerXZX (m : Mat3 ℝ) : V3 ℝ :=
  if m 0 0 < 1 then
    if m 0 0 > -1 then ⟨atan2 (m 2 0) (m 1 0), Real.arccos (m 0 0), atan2 (m 0 2) (-m 0 1)⟩
    else ⟨-atan2 (m 2 1) (m 2 2), Real.pi, 0⟩
  else ⟨atan2 (m 2 1) (m 2 2), 0, 0⟩

/-- src/Math/Matrix.inl:486-497 `Set3x3PartRotateEulerYXY`; float3x3.cpp:183-277 `FromEulerYXY`. -/
def fromEulerYXY (y2 x y1 : ℝ) : Mat3 ℝ :=
  !![Real.cos y2 * Real.cos y1 - Real.cos x * Real.sin y2 * Real.sin y1, Real.sin x * Real.sin y2, Real.cos x * Real.cos y1 * Real.sin y2 + Real.cos y2 * Real.sin y1;
     Real.sin x * Real.sin y1, Real.cos x, -Real.sin x * Real.cos y1;
     -Real.cos y1 * Real.sin y2 - Real.cos x * Real.cos y2 * Real.sin y1, Real.sin x * Real.cos y2, Real.cos x * Real.cos y2 * Real.cos y1 - Real.sin y2 * Real.sin y1]

/-- src/Math/Matrix.inl:505-530 `ExtractEulerYXY`; float3x3.cpp:1455-1466 `ToEulerYXY`. -/
def toEulerYXY (m : Mat3 ℝ) : V3 ℝ :=
  if m 1 1 < 1 then
    if m 1 1 > -1 then ⟨atan2 (m 0 1) (m 2 1), Real.arccos (m 1 1), atan2 (m 1 0) (-m 1 2)⟩
    else ⟨-atan2 (m 0 2) (m 0 0), Real.pi, 0⟩
  else ⟨atan2 (m 0 2) (m 0 0), 0, 0⟩

/-- src/Math/Matrix.inl:537-548 `Set3x3PartRotateEulerYZY`; float3x3.cpp:183-277 `FromEulerYZY`. -/
def fromEulerYZY (y2 z y1 : ℝ) : Mat3 ℝ :=
  !![Real.cos z * Real.cos y2 * Real.cos y1 - Real.sin y2 * Real.sin y1, -Real.sin z * Real.cos y2, Real.cos y1 * Real.sin y2 + Real.cos z * Real.cos y2 * Real.sin y1;
     Real.sin z * Real.cos y1, Real.cos z, Real.sin z * Real.sin y1;
     -Real.cos z * Real.cos y1 * Real.sin y2 - Real.cos y2 * Real.sin y1, Real.sin z * Real.sin y2, Real.cos y2 * Real.cos y1 - Real.cos z * Real.sin y2 * Real.sin y1]

/-- src/Math/Matrix.inl:556-581 `ExtractEulerYZY`; float3x3.cpp:1455-1466 `ToEulerYZY`. -/
def toEulerYZY (m : Mat3 ℝ) : V3 ℝ :=
  if m 1 1 < 1 then
    if m 1 1 > -1 then ⟨atan2 (m 2 1) (-m 0 1), Real.arccos (m 1 1), atan2 (m 1 2) (m 1 0)⟩
    else ⟨-atan2 (-m 2 0) (m 2 2), Real.pi, 0⟩
  else ⟨atan2 (-m 2 0) (m 2 2), 0, 0⟩

/-- src/Math/Matrix.inl:588-599 `Set3x3PartRotateEulerZXZ`; float3x3.cpp:183-277 `FromEulerZXZ`. -/
def fromEulerZXZ (z2 x z1 : ℝ) : Mat3 ℝ :=
  !![Real.cos z2 * Real.cos z1 - Real.cos x * Real.sin z2 * Real.sin z1, -Real.cos x * Real.cos z1 * Real.sin z2 - Real.cos z2 * Real.sin z1, Real.sin x * Real.sin z2;
     Real.cos z1 * Real.sin z2 + Real.cos x * Real.cos z2 * Real.sin z1, Real.cos x * Real.cos z2 * Real.cos z1 - Real.sin z2 * Real.sin z1, -Real.sin x * Real.cos z2;
     Real.sin x * Real.sin z1, Real.sin x * Real.cos z1, Real.cos x]

/-- src/Math/Matrix.inl:607-632 `ExtractEulerZXZ`; float3x3.cpp:1455-1466 `ToEulerZXZ`. -/
def toEulerZXZ (m : Mat3 ℝ) : V3 ℝ :=
  if m 2 2 < 1 then
    if m 2 2 > -1 then ⟨atan2 (m 0 2) (-m 1 2), Real.arccos (m 2 2), atan2 (m 2 0) (m 2 1)⟩
    else ⟨-atan2 (-m 0 1) (m 0 0), Real.pi, 0⟩
  else ⟨atan2 (-m 0 1) (m 0 0), 0, 0⟩

/-- src/Math/Matrix.inl:639-650 `Set3x3PartRotateEulerZYZ`; float3x3.cpp:183-277 `FromEulerZYZ`. -/
def fromEulerZYZ (z2 y z1 : ℝ) : Mat3 ℝ :=
  !![Real.cos y * Real.cos z2 * Real.cos z1 - Real.sin z2 * Real.sin z1, -Real.cos z1 * Real.sin z2 - Real.cos y * Real.cos z2 * Real.sin z1, Real.sin y * Real.cos z2;
     Real.cos y * Real.cos z1 * Real.sin z2 + Real.cos z2 * Real.sin z1, Real.cos z2 * Real.cos z1 - Real.cos y * Real.sin z2 * Real.sin z1, Real.sin y * Real.sin z2;
     -Real.sin y * Real.cos z1, Real.sin y * Real.sin z1, Real.cos y]

/-- src/Math/Matrix.inl:658-683 `ExtractEulerZYZ`; float3x3.cpp:1455-1466 `ToEulerZYZ`. -/
def toEulerZYZ (m : Mat3 ℝ) : V3 ℝ :=
  if m 2 2 < 1 then
    if m 2 2 > -1 then ⟨atan2 (m 1 2) (m 0 2), Real.arccos (m 2 2), atan2 (m 2 1) (-m 2 0)⟩
    else ⟨-atan2 (m 1 0) (m 1 1), Real.pi, 0⟩
  else ⟨atan2 (m 1 0) (m 1 1), 0, 0⟩

end
end Mat3

namespace Quat
noncomputable section

/-- src/Math/Quat.cpp:692-703 `FromEulerXYZ`. -/
def fromEulerXYZ (a b c : ℝ) : Quat ℝ := normalized (mul (mul (rotateX a) (rotateY b)) (rotateZ c))

/-- src/Math/Quat.cpp:724-735 `ToEulerXYZ`. -/
def toEulerXYZ (q : Quat ℝ) : V3 ℝ := Mat3.toEulerXYZ (toFloat3x3 q)

/-- src/Math/Quat.cpp:692-703 `FromEulerXZY`. -/
def fromEulerXZY (a b c : ℝ) : Quat ℝ := normalized (mul (mul (rotateX a) (rotateZ b)) (rotateY c))

/-- src/Math/Quat.cpp:724-735 `ToEulerXZY`. -/
def toEulerXZY (q : Quat ℝ) : V3 ℝ := Mat3.toEulerXZY (toFloat3x3 q)

/-- src/Math/Quat.cpp:692-703 `FromEulerYXZ`. -/
def fromEulerYXZ (a b c : ℝ) : Quat ℝ := normalized (mul (mul (rotateY a) (rotateX b)) (rotateZ c))

/-- src/Math/Quat.cpp:724-735 `ToEulerYXZ`. -/
def toEulerYXZ (q : Quat ℝ) : V3 ℝ := Mat3.toEulerYXZ (toFloat3x3 q)

/-- src/Math/Quat.cpp:692-703 `FromEulerYZX`. -/
def fromEulerYZX (a b c : ℝ) : Quat ℝ := normalized (mul (mul (rotateY a) (rotateZ b)) (rotateX c))

/-- src/Math/Quat.cpp:724-735 `ToEulerYZX`. -/
def toEulerYZX (q : Quat ℝ) : V3 ℝ := Mat3.toEulerYZX (toFloat3x3 q)

/-- src/Math/Quat.cpp:692-703 `FromEulerZXY`. -/
def fromEulerZXY (a b c : ℝ) : Quat ℝ := normalized (mul (mul (rotateZ a) (rotateX b)) (rotateY c))

/-- src/Math/Quat.cpp:724-735 `ToEulerZXY`. -/
def toEulerZXY (q : Quat ℝ) : V3 ℝ := Mat3.toEulerZXY (toFloat3x3 q)

/-- src/Math/Quat.cpp:692-703 `FromEulerZYX`. -/
def fromEulerZYX (a b c : ℝ) : Quat ℝ := normalized (mul (mul (rotateZ a) (rotateY b)) (rotateX c))

/-- src/Math/Quat.cpp:724-735 `ToEulerZYX`. -/
def toEulerZYX (q : Quat ℝ) : V3 ℝ := Mat3.toEulerZYX (toFloat3x3 q)

/-- src/Math/Quat.cpp:692-703 `FromEulerXYX`. -/
def fromEulerXYX (a b c : ℝ) : Quat ℝ := normalized (mul (mul (rotateX a) (rotateY b)) (rotateX c))

/-- src/Math/Quat.cpp:724-735 `ToEulerXYX`. -/
def toEulerXYX (q : Quat ℝ) : V3 ℝ := Mat3.toEulerXYX (toFloat3x3 q)

/-- src/Math/Quat.cpp:692-703 `FromEulerXZX`. -/
def fromEulerXZX (a b c : ℝ) : Quat ℝ := normalized (mul (mul (rotateX a) (rotateZ b)) (rotateX c))

/-- src/Math/Quat.cpp:724-735 `ToEulerXZX`. -/
def toEulerXZX (q : Quat ℝ) : V3 ℝ := Mat3.toEulerXZX (toFloat3x3 q)

/-- src/Math/Quat.cpp:692-703 `FromEulerYXY`. -/
def fromEulerYXY (a b c : ℝ) : Quat ℝ := normalized (mul (mul (rotateY a) (rotateX b)) (rotateY c))

/-- src/Math/Quat.cpp:724-735 `ToEulerYXY`. -/
def toEulerYXY (q : Quat ℝ) : V3 ℝ := Mat3.toEulerYXY (toFloat3x3 q)

/-- src/Math/Quat.cpp:692-703 `FromEulerYZY`. -/
def fromEulerYZY (a b c : ℝ) : Quat ℝ := normalized (mul (mul (rotateY a) (rotateZ b)) (rotateY c))

/-- src/Math/Quat.cpp:724-735 `ToEulerYZY`. -/
def toEulerYZY (q : Quat ℝ) : V3 ℝ := Mat3.toEulerYZY (toFloat3x3 q)

/-- src/Math/Quat.cpp:692-703 `FromEulerZXZ`. -/
def fromEulerZXZ (a b c : ℝ) : Quat ℝ := normalized (mul (mul (rotateZ a) (rotateX b)) (rotateZ c))

/-- src/Math/Quat.cpp:724-735 `ToEulerZXZ`. -/
def toEulerZXZ (q : Quat ℝ) : V3 ℝ := Mat3.toEulerZXZ (toFloat3x3 q)

/-- src/Math/Quat.cpp:692-703 `FromEulerZYZ`. -/
def fromEulerZYZ (a b c : ℝ) : Quat ℝ := normalized (mul (mul (rotateZ a) (rotateY b)) (rotateZ c))

/-- src/Math/Quat.cpp:724-735 `ToEulerZYZ`. -/
def toEulerZYZ (q : Quat ℝ) : V3 ℝ := Mat3.toEulerZYZ (toFloat3x3 q)

end
end Quat
end MGL
