import Mathlib.LinearAlgebra.Matrix.Notation
import Mathlib.Data.Matrix.Basic
import Verif.Spec.Vec3
import Verif.Model.Float3
import Verif.Model.AABB

/-! Model of the algebraic part of `float3x3`, `float3x4`, `float4x4` (scalar path) and of the
`TranslateOp` / `ScaleOp` operators. A matrix is stored as the array of its entries, which is
Mathlib's `Matrix (Fin r) (Fin c) α`; none of Mathlib's matrix operations is used to define the
model, every entry is written as the code writes it. A `float4` is the array of its four
components. -/

namespace MGL
variable {α : Type*}

/-- src/Math/float3x3.h:60 `float v[3][3]`. -/
abbrev Mat3 (α : Type*) := Matrix (Fin 3) (Fin 3) α
/-- src/Math/float3x4.h:60 `float v[3][4]`. -/
abbrev Mat34 (α : Type*) := Matrix (Fin 3) (Fin 4) α
/-- src/Math/float4x4.h:71 `float v[4][4]`. -/
abbrev Mat4 (α : Type*) := Matrix (Fin 4) (Fin 4) α
/-- src/Math/float4.h `x, y, z, w`. -/
abbrev F4 (α : Type*) := Fin 4 → α

namespace Mat

/-- An assignment `m[i][j] = v` (src/Math/float3x3.h, float3x4.h and float4x4.h: the element access operators). -/
def setAt {r c : ℕ} (m : Matrix (Fin r) (Fin c) α) (i : Fin r) (j : Fin c) (v : α) :
    Matrix (Fin r) (Fin c) α := fun a b => if a = i ∧ b = j then v else m a b

/-- src/Math/MathFunc.h `Swap(m[i][j], m[k][l])`: read both, then assign both. -/
def swapAt {r c : ℕ} (m : Matrix (Fin r) (Fin c) α) (i : Fin r) (j : Fin c) (k : Fin r) (l : Fin c) :
    Matrix (Fin r) (Fin c) α :=
  let t := m i j
  setAt (setAt m i j (m k l)) k l t

end Mat

section Ring
variable [CommRing α]

/-! ### float3x3 -/

namespace Mat3

/-- src/Math/float3x3.cpp:39-46 constructor from rows is `!![...]`; 1536-1537 `identity`. -/
def identity : Mat3 α := !![1, 0, 0; 0, 1, 0; 0, 0, 1]

/-- src/Math/float3x3.cpp:1536 `zero`. -/
def zero : Mat3 α := !![0, 0, 0; 0, 0, 0; 0, 0, 0]

/-- src/Math/float3x3.cpp:412-432 `Row`. -/
def row (m : Mat3 α) (i : Fin 3) : V3 α := ⟨m i 0, m i 1, m i 2⟩

/-- src/Math/float3x3.cpp:398-411, 434-440 `Col`. -/
def col (m : Mat3 α) (j : Fin 3) : V3 α := ⟨m 0 j, m 1 j, m 2 j⟩

/-- src/Math/float3x3.cpp:48-53 constructor from columns. -/
def ofCols (c0 c1 c2 : V3 α) : Mat3 α :=
  !![c0.x, c1.x, c2.x; c0.y, c1.y, c2.y; c0.z, c1.z, c2.z]

/-- src/Math/float3x3.cpp:481-496 `SetRow` applied to all three rows. -/
def ofRows (r0 r1 r2 : V3 α) : Mat3 α :=
  !![r0.x, r0.y, r0.z; r1.x, r1.y, r1.z; r2.x, r2.y, r2.z]

/-- src/Math/float3x3.cpp:447-455 `ScaleRow`. -/
def scaleRow (m : Mat3 α) (r : Fin 3) (s : α) : Mat3 α := fun i j => if i = r then m i j * s else m i j

/-- src/Math/float3x3.cpp:457-464 `ScaleCol`. -/
def scaleCol (m : Mat3 α) (c : Fin 3) (s : α) : Mat3 α := fun i j => if j = c then m i j * s else m i j

/-- src/Math/float3x3.cpp:1138-1143 `Transform(x, y, z)` and 1216-1221 `operator *(float3)`. -/
def mulVec (m : Mat3 α) (v : V3 α) : V3 α :=
  ⟨m 0 0 * v.x + m 0 1 * v.y + m 0 2 * v.z,
   m 1 0 * v.x + m 1 1 * v.y + m 1 2 * v.z,
   m 2 0 * v.x + m 2 1 * v.y + m 2 2 * v.z⟩

/-- src/Math/float3x3.cpp:1125-1130 `TransformLeft`. -/
def transformLeft (m : Mat3 α) (v : V3 α) : V3 α :=
  ⟨v.x * m 0 0 + v.y * m 1 0 + v.z * m 2 0,
   v.x * m 0 1 + v.y * m 1 1 + v.z * m 2 1,
   v.x * m 0 2 + v.y * m 1 2 + v.z * m 2 2⟩

/-- src/Math/float3x3.cpp:1191-1209 `operator *(float3x3)`. -/
def mul (a b : Mat3 α) : Mat3 α :=
  !![a 0 0 * b 0 0 + a 0 1 * b 1 0 + a 0 2 * b 2 0,
       a 0 0 * b 0 1 + a 0 1 * b 1 1 + a 0 2 * b 2 1,
       a 0 0 * b 0 2 + a 0 1 * b 1 2 + a 0 2 * b 2 2;
     a 1 0 * b 0 0 + a 1 1 * b 1 0 + a 1 2 * b 2 0,
       a 1 0 * b 0 1 + a 1 1 * b 1 1 + a 1 2 * b 2 1,
       a 1 0 * b 0 2 + a 1 1 * b 1 2 + a 1 2 * b 2 2;
     a 2 0 * b 0 0 + a 2 1 * b 1 0 + a 2 2 * b 2 0,
       a 2 0 * b 0 1 + a 2 1 * b 1 1 + a 2 2 * b 2 1,
       a 2 0 * b 0 2 + a 2 1 * b 1 2 + a 2 2 * b 2 2]

/-- src/Math/float3x3.cpp:1300-1308, 1245-1257 `operator +`, `operator -`, 1231-1236 `operator *(float)`. -/
def add (a b : Mat3 α) : Mat3 α := fun i j => a i j + b i j
/-- src/Math/float3x3.cpp:1252-1257, 1300-1308 `operator -`. -/
def sub (a b : Mat3 α) : Mat3 α := fun i j => a i j - b i j
/-- src/Math/float3x3.cpp:1231-1236, 1268-1276 `operator *(float)`. -/
def smul (a : Mat3 α) (s : α) : Mat3 α := fun i j => a i j * s

/-- src/Math/float3x3.cpp:694-713 `Determinant`. -/
def determinant (m : Mat3 α) : α :=
  let a := m 0 0; let b := m 0 1; let c := m 0 2
  let d := m 1 0; let e := m 1 1; let f := m 1 2
  let g := m 2 0; let h := m 2 1; let i := m 2 2
  a * (e * i - f * h) + b * (f * g - d * i) + c * (d * h - e * g)

/-- src/Math/float3x3.cpp:715-738 `DeterminantSymmetric`. -/
def determinantSymmetric (m : Mat3 α) : α :=
  let a := m 0 0; let b := m 0 1; let c := m 0 2
  let d := m 1 1; let e := m 1 2; let f := m 2 2
  a * (d * f - e * e) + b * (2 * c * e - b * f) - c * c * d

/-- src/Math/float3x3.cpp:1046-1051 `Transpose`. -/
def transpose (m : Mat3 α) : Mat3 α :=
  Mat.swapAt (Mat.swapAt (Mat.swapAt m 0 1 1 0) 0 2 2 0) 1 2 2 1

/-- src/Math/float3x3.cpp:1075-1078 `Trace`. -/
def trace (m : Mat3 α) : α := m 0 0 + m 1 1 + m 2 2

/-- src/Math/float3x3.cpp:996-1004 `InverseOrthonormal`. -/
def inverseOrthonormal (m : Mat3 α) : Mat3 α := transpose m

/-- src/Math/float3x3.cpp:304-329 `ShearX`, `ShearY`, `ShearZ`. -/
def shearX (y z : α) : Mat3 α := !![1, y, z; 0, 1, 0; 0, 0, 1]
/-- src/Math/float3x3.cpp:313-320 `ShearY`. -/
def shearY (x z : α) : Mat3 α := !![1, 0, 0; x, 1, z; 0, 0, 1]
/-- src/Math/float3x3.cpp:322-329 `ShearZ`. -/
def shearZ (x y : α) : Mat3 α := !![1, 0, 0; 0, 1, 0; x, y, 1]

/-- src/Math/Matrix.inl:891-898 `SetMatrix3x3LinearPlaneMirror`, used by float3x3.cpp:331-337. -/
def mirror (n : V3 α) : Mat3 α :=
  let x := n.x; let y := n.y; let z := n.z
  !![1 - 2 * x * x, -2 * y * x, -2 * z * x;
     -2 * x * y, 1 - 2 * y * y, -2 * y * z;
     -2 * x * z, -2 * y * z, 1 - 2 * z * z]

/-- src/Math/Matrix.inl:909-916 `SetMatrix3x3LinearPlaneProject`, used by float3x3.cpp:339-346. -/
def project (n : V3 α) : Mat3 α :=
  let x := n.x; let y := n.y; let z := n.z
  !![1 - x * x, -y * x, -z * x;
     -x * y, 1 - y * y, -y * z;
     -x * z, -y * z, 1 - z * z]

/-- src/Math/TransformOps.cpp:155-162 `ScaleOp::ToFloat3x3` and float3x3.cpp:279-287 `Scale`. -/
def scale (s : V3 α) : Mat3 α := !![s.x, 0, 0; 0, s.y, 0; 0, 0, s.z]

/-- src/Math/float3x3.cpp:289-292 `ScaleAlongAxis`. -/
def scaleAlongAxis (axis : V3 α) (f : α) : Mat3 α := scale (f • axis)

/-- src/Math/TransformOps.cpp:183-193 `operator *(ScaleOp, float3x3)`. -/
def scaleMul (s : V3 α) (m : Mat3 α) : Mat3 α := scaleRow (scaleRow (scaleRow m 0 s.x) 1 s.y) 2 s.z

/-- src/Math/TransformOps.cpp:195-205 `operator *(float3x3, ScaleOp)`. -/
def mulScale (m : Mat3 α) (s : V3 α) : Mat3 α := scaleCol (scaleCol (scaleCol m 0 s.x) 1 s.y) 2 s.z

end Mat3

/-! ### float3x4 -/

namespace Mat34

/-- src/Math/float3x4.cpp:1734 `identity`. -/
def identity : Mat34 α := !![1, 0, 0, 0; 0, 1, 0, 0; 0, 0, 1, 0]

/-- src/Math/float3x4.cpp:572-577 `Float3x3Part`. -/
def float3x3Part (m : Mat34 α) : Mat3 α :=
  !![m 0 0, m 0 1, m 0 2; m 1 0, m 1 1, m 1 2; m 2 0, m 2 1, m 2 2]

/-- src/Math/float3x4.cpp:579-582 `TranslatePart`. -/
def translatePart (m : Mat34 α) : V3 α := ⟨m 0 3, m 1 3, m 2 3⟩

/-- src/Math/float3x4.cpp:58-62 constructor from a rotation part and a translation. -/
def ofParts (r : Mat3 α) (t : V3 α) : Mat34 α :=
  !![r 0 0, r 0 1, r 0 2, t.x; r 1 0, r 1 1, r 1 2, t.y; r 2 0, r 2 1, r 2 2, t.z]

/-- src/Math/float3x4.cpp:52-56 constructor from a float3x3. -/
def ofMat3 (r : Mat3 α) : Mat34 α := ofParts r 0

/-- src/Math/float3x4.h:489-490 `SetTranslatePart`. -/
def setTranslatePart (m : Mat34 α) (t : V3 α) : Mat34 α :=
  Mat.setAt (Mat.setAt (Mat.setAt m 0 3 t.x) 1 3 t.y) 2 3 t.z

/-- src/Math/float3x4.cpp:1104-1113 `TransformPos` (`MulPos`). -/
def mulPos (m : Mat34 α) (v : V3 α) : V3 α :=
  ⟨m 0 0 * v.x + m 0 1 * v.y + m 0 2 * v.z + m 0 3,
   m 1 0 * v.x + m 1 1 * v.y + m 1 2 * v.z + m 1 3,
   m 2 0 * v.x + m 2 1 * v.y + m 2 2 * v.z + m 2 3⟩

/-- src/Math/float3x4.cpp:1143-1152 `TransformDir` (`MulDir`). -/
def mulDir (m : Mat34 α) (v : V3 α) : V3 α :=
  ⟨m 0 0 * v.x + m 0 1 * v.y + m 0 2 * v.z,
   m 1 0 * v.x + m 1 1 * v.y + m 1 2 * v.z,
   m 2 0 * v.x + m 2 1 * v.y + m 2 2 * v.z⟩

/-- src/Math/float3x4.cpp:1160-1170 `Transform(float4)`. -/
def mulVec4 (m : Mat34 α) (v : F4 α) : F4 α :=
  ![m 0 0 * v 0 + m 0 1 * v 1 + m 0 2 * v 2 + m 0 3 * v 3,
    m 1 0 * v 0 + m 1 1 * v 1 + m 1 2 * v 2 + m 1 3 * v 3,
    m 2 0 * v 0 + m 2 1 * v 1 + m 2 2 * v 2 + m 2 3 * v 3,
    v 3]

/-- src/Math/float3x4.cpp:1252-1275 `operator *(float3x4)`. -/
def mul (a b : Mat34 α) : Mat34 α :=
  !![a 0 0 * b 0 0 + a 0 1 * b 1 0 + a 0 2 * b 2 0,
       a 0 0 * b 0 1 + a 0 1 * b 1 1 + a 0 2 * b 2 1,
       a 0 0 * b 0 2 + a 0 1 * b 1 2 + a 0 2 * b 2 2,
       a 0 0 * b 0 3 + a 0 1 * b 1 3 + a 0 2 * b 2 3 + a 0 3;
     a 1 0 * b 0 0 + a 1 1 * b 1 0 + a 1 2 * b 2 0,
       a 1 0 * b 0 1 + a 1 1 * b 1 1 + a 1 2 * b 2 1,
       a 1 0 * b 0 2 + a 1 1 * b 1 2 + a 1 2 * b 2 2,
       a 1 0 * b 0 3 + a 1 1 * b 1 3 + a 1 2 * b 2 3 + a 1 3;
     a 2 0 * b 0 0 + a 2 1 * b 1 0 + a 2 2 * b 2 0,
       a 2 0 * b 0 1 + a 2 1 * b 1 1 + a 2 2 * b 2 1,
       a 2 0 * b 0 2 + a 2 1 * b 1 2 + a 2 2 * b 2 2,
       a 2 0 * b 0 3 + a 2 1 * b 1 3 + a 2 2 * b 2 3 + a 2 3]

/-- src/Math/float3x4.cpp:1229-1250 `operator *(float3x3)`. -/
def mulMat3 (a : Mat34 α) (b : Mat3 α) : Mat34 α :=
  !![a 0 0 * b 0 0 + a 0 1 * b 1 0 + a 0 2 * b 2 0,
       a 0 0 * b 0 1 + a 0 1 * b 1 1 + a 0 2 * b 2 1,
       a 0 0 * b 0 2 + a 0 1 * b 1 2 + a 0 2 * b 2 2,
       a 0 3;
     a 1 0 * b 0 0 + a 1 1 * b 1 0 + a 1 2 * b 2 0,
       a 1 0 * b 0 1 + a 1 1 * b 1 1 + a 1 2 * b 2 1,
       a 1 0 * b 0 2 + a 1 1 * b 1 2 + a 1 2 * b 2 2,
       a 1 3;
     a 2 0 * b 0 0 + a 2 1 * b 1 0 + a 2 2 * b 2 0,
       a 2 0 * b 0 1 + a 2 1 * b 1 1 + a 2 2 * b 2 1,
       a 2 0 * b 0 2 + a 2 1 * b 1 2 + a 2 2 * b 2 2,
       a 2 3]

/-- src/Math/float3x4.cpp:1698-1702 `operator *(float3x3, float3x4)`. -/
def mat3Mul (a : Mat3 α) (b : Mat34 α) : Mat34 α := mul (ofMat3 a) b

/-- src/Math/float3x4.cpp:850-870 `Determinant`. -/
def determinant (m : Mat34 α) : α :=
  let a := m 0 0; let b := m 0 1; let c := m 0 2
  let d := m 1 0; let e := m 1 1; let f := m 1 2
  let g := m 2 0; let h := m 2 1; let i := m 2 2
  a * e * i + b * f * g + c * d * h - a * f * h - b * d * i - c * e * g

/-- src/Math/float3x4.cpp:995-1001 `Transpose3`. -/
def transpose3 (m : Mat34 α) : Mat34 α :=
  Mat.swapAt (Mat.swapAt (Mat.swapAt m 0 1 1 0) 0 2 2 0) 1 2 2 1

/-- src/Math/float3x4.cpp:952-993 `InverseOrthonormal`. -/
def inverseOrthonormal (m : Mat34 α) : Mat34 α :=
  let m := transpose3 m
  setTranslatePart m (mulDir m ⟨-m 0 3, -m 1 3, -m 2 3⟩)

/-- src/Math/Matrix.inl:900-907 `SetMatrix3x4AffinePlaneMirror`, used by float3x4.cpp:396-401. -/
def mirror (n : V3 α) (d : α) : Mat34 α := ofParts (Mat3.mirror n) ⟨2 * d * n.x, 2 * d * n.y, 2 * d * n.z⟩

/-- src/Math/Matrix.inl:918-925 `SetMatrix3x4AffinePlaneProject`, used by float3x4.cpp:403-408. -/
def project (n : V3 α) (d : α) : Mat34 α := ofParts (Mat3.project n) ⟨d * n.x, d * n.y, d * n.z⟩

/-- src/Math/TransformOps.cpp:49-56 `TranslateOp::ToFloat3x4`. -/
def translate (o : V3 α) : Mat34 α := !![1, 0, 0, o.x; 0, 1, 0, o.y; 0, 0, 1, o.z]

/-- src/Math/TransformOps.cpp:164-171 `ScaleOp::ToFloat3x4`. -/
def scale (s : V3 α) : Mat34 α := !![s.x, 0, 0, 0; 0, s.y, 0, 0; 0, 0, s.z, 0]

/-- src/Math/TransformOps.cpp:82-90 `operator *(TranslateOp, float3x4)`. -/
def translateMul (o : V3 α) (m : Mat34 α) : Mat34 α := setTranslatePart m (translatePart m + o)

/-- src/Math/TransformOps.cpp:92-100 `operator *(float3x4, TranslateOp)`. -/
def mulTranslate (m : Mat34 α) (o : V3 α) : Mat34 α := setTranslatePart m (mulPos m o)

/-- src/Math/TransformOps.cpp:207-216 `operator *(ScaleOp, float3x4)`. -/
def scaleMul (s : V3 α) (m : Mat34 α) : Mat34 α :=
  !![m 0 0 * s.x, m 0 1 * s.x, m 0 2 * s.x, m 0 3 * s.x;
     m 1 0 * s.y, m 1 1 * s.y, m 1 2 * s.y, m 1 3 * s.y;
     m 2 0 * s.z, m 2 1 * s.z, m 2 2 * s.z, m 2 3 * s.z]

/-- src/Math/TransformOps.cpp:218-227 `operator *(float3x4, ScaleOp)`. -/
def mulScale (m : Mat34 α) (s : V3 α) : Mat34 α :=
  !![m 0 0 * s.x, m 0 1 * s.y, m 0 2 * s.z, m 0 3;
     m 1 0 * s.x, m 1 1 * s.y, m 1 2 * s.z, m 1 3;
     m 2 0 * s.x, m 2 1 * s.y, m 2 2 * s.z, m 2 3]

/-- src/Math/TransformOps.cpp:262-271 `operator *(ScaleOp, TranslateOp)`. -/
def scaleTranslate (s o : V3 α) : Mat34 α :=
  !![s.x, 0, 0, s.x * o.x; 0, s.y, 0, s.y * o.y; 0, 0, s.z, s.z * o.z]

/-- src/Math/TransformOps.cpp:273-282 `operator *(TranslateOp, ScaleOp)`. -/
def translateScale (o s : V3 α) : Mat34 α :=
  !![s.x, 0, 0, o.x; 0, s.y, 0, o.y; 0, 0, s.z, o.z]

/-- src/Math/float3x4.cpp:198-206 `FromTRS(translate, rotate, scale)`. -/
def fromTRS (t : V3 α) (r : Mat3 α) (s : V3 α) : Mat34 α := mulScale (translateMul t (ofMat3 r)) s

/-- src/Math/float3x4.cpp:340-343 `Scale(scale, scaleCenter)`. -/
def scaleAround (s c : V3 α) : Mat34 α := mulTranslate (translateScale c s) (-c)

/-- src/Math/float3x4.cpp:146-149 (`RotateAxisAngle` about a point), 107-110, 120-123, 133-136,
161-164, 188-191: `Translate(p) * R * Translate(-p)` for a rotation matrix `R`. -/
def aroundPoint (r : Mat3 α) (p : V3 α) : Mat34 α := mulTranslate (translateMul p (ofMat3 r)) (-p)

end Mat34

/-! ### float4x4 -/

namespace Mat4

/-- src/Math/float4x4.cpp:2234 `identity`. -/
def identity : Mat4 α := !![1, 0, 0, 0; 0, 1, 0, 0; 0, 0, 1, 0; 0, 0, 0, 1]

/-- src/Math/float4x4.cpp:69-82 constructor from a float3x4. -/
def ofMat34 (m : Mat34 α) : Mat4 α :=
  !![m 0 0, m 0 1, m 0 2, m 0 3; m 1 0, m 1 1, m 1 2, m 1 3; m 2 0, m 2 1, m 2 2, m 2 3; 0, 0, 0, 1]

/-- src/Math/float4x4.cpp:54-67 constructor from a float3x3. -/
def ofMat3 (m : Mat3 α) : Mat4 α :=
  !![m 0 0, m 0 1, m 0 2, 0; m 1 0, m 1 1, m 1 2, 0; m 2 0, m 2 1, m 2 2, 0; 0, 0, 0, 1]

/-- src/Math/float4x4.cpp:777-793 `Float3x4Part`. -/
def float3x4Part (m : Mat4 α) : Mat34 α :=
  !![m 0 0, m 0 1, m 0 2, m 0 3; m 1 0, m 1 1, m 1 2, m 1 3; m 2 0, m 2 1, m 2 2, m 2 3]

/-- src/Math/float4x4.cpp:1718-1746 `operator *(float4x4)`. -/
def mul (a b : Mat4 α) : Mat4 α :=
  !![a 0 0 * b 0 0 + a 0 1 * b 1 0 + a 0 2 * b 2 0 + a 0 3 * b 3 0,
       a 0 0 * b 0 1 + a 0 1 * b 1 1 + a 0 2 * b 2 1 + a 0 3 * b 3 1,
       a 0 0 * b 0 2 + a 0 1 * b 1 2 + a 0 2 * b 2 2 + a 0 3 * b 3 2,
       a 0 0 * b 0 3 + a 0 1 * b 1 3 + a 0 2 * b 2 3 + a 0 3 * b 3 3;
     a 1 0 * b 0 0 + a 1 1 * b 1 0 + a 1 2 * b 2 0 + a 1 3 * b 3 0,
       a 1 0 * b 0 1 + a 1 1 * b 1 1 + a 1 2 * b 2 1 + a 1 3 * b 3 1,
       a 1 0 * b 0 2 + a 1 1 * b 1 2 + a 1 2 * b 2 2 + a 1 3 * b 3 2,
       a 1 0 * b 0 3 + a 1 1 * b 1 3 + a 1 2 * b 2 3 + a 1 3 * b 3 3;
     a 2 0 * b 0 0 + a 2 1 * b 1 0 + a 2 2 * b 2 0 + a 2 3 * b 3 0,
       a 2 0 * b 0 1 + a 2 1 * b 1 1 + a 2 2 * b 2 1 + a 2 3 * b 3 1,
       a 2 0 * b 0 2 + a 2 1 * b 1 2 + a 2 2 * b 2 2 + a 2 3 * b 3 2,
       a 2 0 * b 0 3 + a 2 1 * b 1 3 + a 2 2 * b 2 3 + a 2 3 * b 3 3;
     a 3 0 * b 0 0 + a 3 1 * b 1 0 + a 3 2 * b 2 0 + a 3 3 * b 3 0,
       a 3 0 * b 0 1 + a 3 1 * b 1 1 + a 3 2 * b 2 1 + a 3 3 * b 3 1,
       a 3 0 * b 0 2 + a 3 1 * b 1 2 + a 3 2 * b 2 2 + a 3 3 * b 3 2,
       a 3 0 * b 0 3 + a 3 1 * b 1 3 + a 3 2 * b 2 3 + a 3 3 * b 3 3]

/-- src/Math/float4x4.cpp:1660-1687 `operator *(float3x3)`. -/
def mulMat3 (a : Mat4 α) (b : Mat3 α) : Mat4 α :=
  !![a 0 0 * b 0 0 + a 0 1 * b 1 0 + a 0 2 * b 2 0,
       a 0 0 * b 0 1 + a 0 1 * b 1 1 + a 0 2 * b 2 1,
       a 0 0 * b 0 2 + a 0 1 * b 1 2 + a 0 2 * b 2 2,
       a 0 3;
     a 1 0 * b 0 0 + a 1 1 * b 1 0 + a 1 2 * b 2 0,
       a 1 0 * b 0 1 + a 1 1 * b 1 1 + a 1 2 * b 2 1,
       a 1 0 * b 0 2 + a 1 1 * b 1 2 + a 1 2 * b 2 2,
       a 1 3;
     a 2 0 * b 0 0 + a 2 1 * b 1 0 + a 2 2 * b 2 0,
       a 2 0 * b 0 1 + a 2 1 * b 1 1 + a 2 2 * b 2 1,
       a 2 0 * b 0 2 + a 2 1 * b 1 2 + a 2 2 * b 2 2,
       a 2 3;
     a 3 0 * b 0 0 + a 3 1 * b 1 0 + a 3 2 * b 2 0,
       a 3 0 * b 0 1 + a 3 1 * b 1 1 + a 3 2 * b 2 1,
       a 3 0 * b 0 2 + a 3 1 * b 1 2 + a 3 2 * b 2 2,
       a 3 3]

/-- src/Math/float4x4.cpp:1689-1716 `operator *(float3x4)`. -/
def mulMat34 (a : Mat4 α) (b : Mat34 α) : Mat4 α :=
  !![a 0 0 * b 0 0 + a 0 1 * b 1 0 + a 0 2 * b 2 0,
       a 0 0 * b 0 1 + a 0 1 * b 1 1 + a 0 2 * b 2 1,
       a 0 0 * b 0 2 + a 0 1 * b 1 2 + a 0 2 * b 2 2,
       a 0 0 * b 0 3 + a 0 1 * b 1 3 + a 0 2 * b 2 3 + a 0 3;
     a 1 0 * b 0 0 + a 1 1 * b 1 0 + a 1 2 * b 2 0,
       a 1 0 * b 0 1 + a 1 1 * b 1 1 + a 1 2 * b 2 1,
       a 1 0 * b 0 2 + a 1 1 * b 1 2 + a 1 2 * b 2 2,
       a 1 0 * b 0 3 + a 1 1 * b 1 3 + a 1 2 * b 2 3 + a 1 3;
     a 2 0 * b 0 0 + a 2 1 * b 1 0 + a 2 2 * b 2 0,
       a 2 0 * b 0 1 + a 2 1 * b 1 1 + a 2 2 * b 2 1,
       a 2 0 * b 0 2 + a 2 1 * b 1 2 + a 2 2 * b 2 2,
       a 2 0 * b 0 3 + a 2 1 * b 1 3 + a 2 2 * b 2 3 + a 2 3;
     a 3 0 * b 0 0 + a 3 1 * b 1 0 + a 3 2 * b 2 0,
       a 3 0 * b 0 1 + a 3 1 * b 1 1 + a 3 2 * b 2 1,
       a 3 0 * b 0 2 + a 3 1 * b 1 2 + a 3 2 * b 2 2,
       a 3 0 * b 0 3 + a 3 1 * b 1 3 + a 3 2 * b 2 3 + a 3 3]

/-- src/Math/float4x4.cpp:2155-2182 `operator *(float3x3, float4x4)`. -/
def mat3Mul (a : Mat3 α) (b : Mat4 α) : Mat4 α :=
  !![a 0 0 * b 0 0 + a 0 1 * b 1 0 + a 0 2 * b 2 0,
       a 0 0 * b 0 1 + a 0 1 * b 1 1 + a 0 2 * b 2 1,
       a 0 0 * b 0 2 + a 0 1 * b 1 2 + a 0 2 * b 2 2,
       a 0 0 * b 0 3 + a 0 1 * b 1 3 + a 0 2 * b 2 3;
     a 1 0 * b 0 0 + a 1 1 * b 1 0 + a 1 2 * b 2 0,
       a 1 0 * b 0 1 + a 1 1 * b 1 1 + a 1 2 * b 2 1,
       a 1 0 * b 0 2 + a 1 1 * b 1 2 + a 1 2 * b 2 2,
       a 1 0 * b 0 3 + a 1 1 * b 1 3 + a 1 2 * b 2 3;
     a 2 0 * b 0 0 + a 2 1 * b 1 0 + a 2 2 * b 2 0,
       a 2 0 * b 0 1 + a 2 1 * b 1 1 + a 2 2 * b 2 1,
       a 2 0 * b 0 2 + a 2 1 * b 1 2 + a 2 2 * b 2 2,
       a 2 0 * b 0 3 + a 2 1 * b 1 3 + a 2 2 * b 2 3;
     b 3 0,
       b 3 1,
       b 3 2,
       b 3 3]

/-- src/Math/float4x4.cpp:2184-2211 `operator *(float3x4, float4x4)`. -/
def mat34Mul (a : Mat34 α) (b : Mat4 α) : Mat4 α :=
  !![a 0 0 * b 0 0 + a 0 1 * b 1 0 + a 0 2 * b 2 0 + a 0 3 * b 3 0,
       a 0 0 * b 0 1 + a 0 1 * b 1 1 + a 0 2 * b 2 1 + a 0 3 * b 3 1,
       a 0 0 * b 0 2 + a 0 1 * b 1 2 + a 0 2 * b 2 2 + a 0 3 * b 3 2,
       a 0 0 * b 0 3 + a 0 1 * b 1 3 + a 0 2 * b 2 3 + a 0 3 * b 3 3;
     a 1 0 * b 0 0 + a 1 1 * b 1 0 + a 1 2 * b 2 0 + a 1 3 * b 3 0,
       a 1 0 * b 0 1 + a 1 1 * b 1 1 + a 1 2 * b 2 1 + a 1 3 * b 3 1,
       a 1 0 * b 0 2 + a 1 1 * b 1 2 + a 1 2 * b 2 2 + a 1 3 * b 3 2,
       a 1 0 * b 0 3 + a 1 1 * b 1 3 + a 1 2 * b 2 3 + a 1 3 * b 3 3;
     a 2 0 * b 0 0 + a 2 1 * b 1 0 + a 2 2 * b 2 0 + a 2 3 * b 3 0,
       a 2 0 * b 0 1 + a 2 1 * b 1 1 + a 2 2 * b 2 1 + a 2 3 * b 3 1,
       a 2 0 * b 0 2 + a 2 1 * b 1 2 + a 2 2 * b 2 2 + a 2 3 * b 3 2,
       a 2 0 * b 0 3 + a 2 1 * b 1 3 + a 2 2 * b 2 3 + a 2 3 * b 3 3;
     b 3 0,
       b 3 1,
       b 3 2,
       b 3 3]

/-- src/Math/float4x4.cpp:1585-1595 `Transform(float4)`. -/
def mulVec4 (m : Mat4 α) (v : F4 α) : F4 α :=
  ![m 0 0 * v 0 + m 0 1 * v 1 + m 0 2 * v 2 + m 0 3 * v 3,
    m 1 0 * v 0 + m 1 1 * v 1 + m 1 2 * v 2 + m 1 3 * v 3,
    m 2 0 * v 0 + m 2 1 * v 1 + m 2 2 * v 2 + m 2 3 * v 3,
    m 3 0 * v 0 + m 3 1 * v 1 + m 3 2 * v 2 + m 3 3 * v 3]

/-- src/Math/float4x4.cpp:2213-2223 `operator *(float4, float4x4)`. -/
def vec4Mul (v : F4 α) (m : Mat4 α) : F4 α :=
  ![v 0 * m 0 0 + v 1 * m 1 0 + v 2 * m 2 0 + v 3 * m 3 0,
    v 0 * m 0 1 + v 1 * m 1 1 + v 2 * m 2 1 + v 3 * m 3 1,
    v 0 * m 0 2 + v 1 * m 1 2 + v 2 * m 2 2 + v 3 * m 3 2,
    v 0 * m 0 3 + v 1 * m 1 3 + v 2 * m 2 3 + v 3 * m 3 3]

/-- src/Math/float4x4.cpp:1551-1561 `TransformPos` (`MulPos`). -/
def mulPos (m : Mat4 α) (v : V3 α) : V3 α :=
  ⟨m 0 0 * v.x + m 0 1 * v.y + m 0 2 * v.z + m 0 3,
   m 1 0 * v.x + m 1 1 * v.y + m 1 2 * v.z + m 1 3,
   m 2 0 * v.x + m 2 1 * v.y + m 2 2 * v.z + m 2 3⟩

/-- src/Math/float4x4.cpp:1573-1583 `TransformDir` (`MulDir`). -/
def mulDir (m : Mat4 α) (v : V3 α) : V3 α :=
  ⟨m 0 0 * v.x + m 0 1 * v.y + m 0 2 * v.z,
   m 1 0 * v.x + m 1 1 * v.y + m 1 2 * v.z,
   m 2 0 * v.x + m 2 1 * v.y + m 2 2 * v.z⟩

/-- src/Math/float4x4.cpp:1274 `SKIPNUM(val, skip)`. -/
def skipNum (v : Fin 3) (skip : Fin 4) : Fin 4 := if v.val ≥ skip.val then v.succ else v.castSucc

/-- src/Math/float4x4.cpp:1276-1288 `SubMatrix(i, j)`. -/
def subMatrix (m : Mat4 α) (i j : Fin 4) : Mat3 α :=
  let r0 := skipNum 0 i; let r1 := skipNum 1 i; let r2 := skipNum 2 i
  let c0 := skipNum 0 j; let c1 := skipNum 1 j; let c2 := skipNum 2 j
  !![m r0 c0, m r0 c1, m r0 c2; m r1 c0, m r1 c1, m r1 c2; m r2 c0, m r2 c1, m r2 c2]

/-- src/Math/float4x4.cpp:1290-1310 `Minor(i, j)`. -/
def minor (m : Mat4 α) (i j : Fin 4) : α :=
  let r0 := skipNum 0 i; let r1 := skipNum 1 i; let r2 := skipNum 2 i
  let c0 := skipNum 0 j; let c1 := skipNum 1 j; let c2 := skipNum 2 j
  let a := m r0 c0; let b := m r0 c1; let c := m r0 c2
  let d := m r1 c0; let e := m r1 c1; let f := m r1 c2
  let g := m r2 c0; let h := m r2 c1; let k := m r2 c2
  a * e * k + b * f * g + c * d * h - a * f * h - b * d * k - c * e * g

/-- src/Math/float4x4.cpp:1264-1272 `Determinant4`. -/
def determinant4 (m : Mat4 α) : α :=
  m 0 0 * minor m 0 0 - m 0 1 * minor m 0 1 + m 0 2 * minor m 0 2 - m 0 3 * minor m 0 3

/-- src/Math/float4x4.cpp:1244-1262 `Determinant3`. -/
def determinant3 (m : Mat4 α) : α :=
  let a := m 0 0; let b := m 0 1; let c := m 0 2
  let d := m 1 0; let e := m 1 1; let f := m 1 2
  let g := m 2 0; let h := m 2 1; let i := m 2 2
  a * e * i + b * f * g + c * d * h - a * f * h - b * d * i - c * e * g

/-- src/Math/float4x4.cpp:1312-1320 `Adjugate`. -/
def adjugate (m : Mat4 α) : Mat4 α :=
  fun iy ix => if (ix.val + iy.val) % 2 ≠ 0 then -minor m iy ix else minor m iy ix

/-- src/Math/float4x4.cpp:1409-1421 `Transpose`. -/
def transpose (m : Mat4 α) : Mat4 α :=
  Mat.swapAt (Mat.swapAt (Mat.swapAt (Mat.swapAt (Mat.swapAt (Mat.swapAt m 0 1 1 0) 0 2 2 0) 0 3 3 0)
    1 2 2 1) 1 3 3 1) 2 3 3 2

/-- src/Math/float4x4.cpp:1423-1437 `Transposed`. -/
def transposed (m : Mat4 α) : Mat4 α :=
  !![m 0 0, m 1 0, m 2 0, m 3 0; m 0 1, m 1 1, m 2 1, m 3 1;
     m 0 2, m 1 2, m 2 2, m 3 2; m 0 3, m 1 3, m 2 3, m 3 3]

/-- src/Math/float4x4.cpp:1454-1458 `Trace`. -/
def trace (m : Mat4 α) : α := m 0 0 + m 1 1 + m 2 2 + m 3 3

/-- src/Math/float4x4.cpp:1071-1083 `SetTranslatePart`. -/
def setTranslatePart (m : Mat4 α) (t : V3 α) : Mat4 α :=
  Mat.setAt (Mat.setAt (Mat.setAt m 0 3 t.x) 1 3 t.y) 2 3 t.z

/-- src/Math/float4x4.cpp:1393-1407 `InverseOrthonormal`. -/
def inverseOrthonormal (m : Mat4 α) : Mat4 α :=
  let m := Mat.swapAt (Mat.swapAt (Mat.swapAt m 0 1 1 0) 0 2 2 0) 1 2 2 1
  setTranslatePart m (mulDir m ⟨-m 0 3, -m 1 3, -m 2 3⟩)

/-- src/Math/TransformOps.cpp:58-66 `TranslateOp::ToFloat4x4`. -/
def translate (o : V3 α) : Mat4 α := !![1, 0, 0, o.x; 0, 1, 0, o.y; 0, 0, 1, o.z; 0, 0, 0, 1]

/-- src/Math/TransformOps.cpp:173-181 `ScaleOp::ToFloat4x4`. -/
def scale (s : V3 α) : Mat4 α := !![s.x, 0, 0, 0; 0, s.y, 0, 0; 0, 0, s.z, 0; 0, 0, 0, 1]

/-- src/Math/TransformOps.cpp:102-111 `operator *(TranslateOp, float4x4)`. -/
def translateMul (o : V3 α) (m : Mat4 α) : Mat4 α :=
  setTranslatePart m ((⟨m 0 3, m 1 3, m 2 3⟩ : V3 α) + o)

/-- src/Math/TransformOps.cpp:113-118 `operator *(float4x4, TranslateOp)`. -/
def mulTranslate (m : Mat4 α) (o : V3 α) : Mat4 α := setTranslatePart m (mulPos m o)

/-- src/Math/TransformOps.cpp:229-248 `operator *(ScaleOp, float4x4)`. -/
def scaleMul (s : V3 α) (m : Mat4 α) : Mat4 α :=
  !![m 0 0 * s.x, m 0 1 * s.x, m 0 2 * s.x, m 0 3 * s.x;
     m 1 0 * s.y, m 1 1 * s.y, m 1 2 * s.y, m 1 3 * s.y;
     m 2 0 * s.z, m 2 1 * s.z, m 2 2 * s.z, m 2 3 * s.z;
     m 3 0, m 3 1, m 3 2, m 3 3]

/-- src/Math/TransformOps.cpp:250-260 `operator *(float4x4, ScaleOp)`. -/
def mulScale (m : Mat4 α) (s : V3 α) : Mat4 α :=
  !![m 0 0 * s.x, m 0 1 * s.y, m 0 2 * s.z, m 0 3;
     m 1 0 * s.x, m 1 1 * s.y, m 1 2 * s.z, m 1 3;
     m 2 0 * s.x, m 2 1 * s.y, m 2 2 * s.z, m 2 3;
     m 3 0 * s.x, m 3 1 * s.y, m 3 2 * s.z, m 3 3]

/-- src/Math/float4x4.cpp:444-450 `Mirror`. -/
def mirror (n : V3 α) (d : α) : Mat4 α := ofMat34 (Mat34.mirror n d)

/-- src/Math/float4x4.cpp:574-579 `OrthographicProjection(Plane)`. `SetMatrix3x4AffinePlaneProject`
writes rows 0 to 2 only, so row 3 keeps whatever the uninitialised local variable held: `junk`. -/
def orthographicProjection (n : V3 α) (d : α) (junk : F4 α) : Mat4 α :=
  let p := Mat34.project n d
  !![p 0 0, p 0 1, p 0 2, p 0 3; p 1 0, p 1 1, p 1 2, p 1 3; p 2 0, p 2 1, p 2 2, p 2 3;
     junk 0, junk 1, junk 2, junk 3]

/-- src/Math/float4x4.cpp:602-607 `ComplementaryProjection`. -/
def complementaryProjection (m : Mat4 α) : Mat4 α := fun i j => (identity : Mat4 α) i j - m i j

end Mat4

end Ring

section Field
variable [Field α]

namespace Mat4

/-- src/Math/float4x4.cpp:452-461 `D3DOrthoProjLH`. -/
def d3dOrthoProjLH (n f h v : α) : Mat4 α :=
  !![2 / h, 0, 0, 0; 0, 2 / v, 0, 0; 0, 0, 1 / (f - n), n / (n - f); 0, 0, 0, 1]
/-- src/Math/float4x4.cpp:484-496 `D3DOrthoProjRH`. -/
def d3dOrthoProjRH (n f h v : α) : Mat4 α :=
  !![2 / h, 0, 0, 0; 0, 2 / v, 0, 0; 0, 0, 1 / (n - f), n / (n - f); 0, 0, 0, 1]
/-- src/Math/float4x4.cpp:498-507 `D3DPerspProjLH`. -/
def d3dPerspProjLH (n f h v : α) : Mat4 α :=
  !![2 * n / h, 0, 0, 0; 0, 2 * n / v, 0, 0; 0, 0, f / (f - n), n * f / (n - f); 0, 0, 1, 0]
/-- src/Math/float4x4.cpp:509-523 `D3DPerspProjRH`. -/
def d3dPerspProjRH (n f h v : α) : Mat4 α :=
  !![2 * n / h, 0, 0, 0; 0, 2 * n / v, 0, 0; 0, 0, f / (n - f), n * f / (n - f); 0, 0, -1, 0]
/-- src/Math/float4x4.cpp:525-535 `OpenGLOrthoProjLH`. -/
def openGLOrthoProjLH (n f h v : α) : Mat4 α :=
  !![2 / h, 0, 0, 0; 0, 2 / v, 0, 0; 0, 0, 2 / (f - n), (f + n) / (n - f); 0, 0, 0, 1]
/-- src/Math/float4x4.cpp:537-546 `OpenGLOrthoProjRH`. -/
def openGLOrthoProjRH (n f h v : α) : Mat4 α :=
  !![2 / h, 0, 0, 0; 0, 2 / v, 0, 0; 0, 0, 2 / (n - f), (f + n) / (n - f); 0, 0, 0, 1]
/-- src/Math/float4x4.cpp:548-558 `OpenGLPerspProjLH`. -/
def openGLPerspProjLH (n f h v : α) : Mat4 α :=
  !![2 * n / h, 0, 0, 0; 0, 2 * n / v, 0, 0; 0, 0, (n + f) / (f - n), 2 * n * f / (n - f); 0, 0, 1, 0]
/-- src/Math/float4x4.cpp:560-572 `OpenGLPerspProjRH`. -/
def openGLPerspProjRH (n f h v : α) : Mat4 α :=
  !![2 * n / h, 0, 0, 0; 0, 2 * n / v, 0, 0; 0, 0, (n + f) / (n - f), 2 * n * f / (n - f); 0, 0, -1, 0]

end Mat4

variable [LinearOrder α]

namespace Mat3

/-- src/Math/float3x3.cpp:789-824 `InverseFast`; `none` when it returns false (matrix unchanged). -/
def inverseFast (m : Mat3 α) (eps : α := 1 / 1000000) : Option (Mat3 α) :=
  let d := determinant m
  if equalAbs d 0 eps then none
  else
    let d := 1 / d
    some !![d * (m 1 1 * m 2 2 - m 1 2 * m 2 1), d * (m 0 2 * m 2 1 - m 0 1 * m 2 2),
            d * (m 0 1 * m 1 2 - m 0 2 * m 1 1);
            d * (m 1 2 * m 2 0 - m 1 0 * m 2 2), d * (m 0 0 * m 2 2 - m 0 2 * m 2 0),
            d * (m 0 2 * m 1 0 - m 0 0 * m 1 2);
            d * (m 1 0 * m 2 1 - m 1 1 * m 2 0), d * (m 2 0 * m 0 1 - m 0 0 * m 2 1),
            d * (m 0 0 * m 1 1 - m 0 1 * m 1 0)]

/-- src/Math/float3x3.cpp:1006-1044 `InverseSymmetric`; `none` when it returns false. -/
def inverseSymmetric (m : Mat3 α) : Option (Mat3 α) :=
  let a := m 0 0; let b := m 0 1; let c := m 0 2
  let d := m 1 1; let e := m 1 2; let f := m 2 2
  let df_ee := d * f - e * e
  let ce_bf := c * e - b * f
  let be_dc := b * e - d * c
  let det := a * df_ee + b * ce_bf + c * be_dc
  if equalAbs det 0 then none
  else
    let det := 1 / det
    some !![det * df_ee, det * ce_bf, det * be_dc;
            det * ce_bf, det * (a * f - c * c), det * (c * b - a * e);
            det * be_dc, det * (c * b - a * e), det * (a * d - b * b)]

/-- src/Math/float3x3.cpp:940-966 `InverseColOrthogonal`; `none` when it returns false. -/
def inverseColOrthogonal (m : Mat3 α) : Option (Mat3 α) :=
  let s1 := V3.lenSq (col m 0)
  let s2 := V3.lenSq (col m 1)
  let s3 := V3.lenSq (col m 2)
  if s1 < 1 / 100000000 ∨ s2 < 1 / 100000000 ∨ s3 < 1 / 100000000 then none
  else
    let s1 := 1 / s1; let s2 := 1 / s2; let s3 := 1 / s3
    let t := Mat.swapAt (Mat.swapAt (Mat.swapAt m 0 1 1 0) 0 2 2 0) 1 2 2 1
    some !![t 0 0 * s1, t 0 1 * s1, t 0 2 * s1;
            t 1 0 * s2, t 1 1 * s2, t 1 2 * s2;
            t 2 0 * s3, t 2 1 * s3, t 2 2 * s3]

/-- src/Math/float3x3.cpp:968-994 `InverseOrthogonalUniformScale`; `none` when it returns false. -/
def inverseOrthogonalUniformScale (m : Mat3 α) : Option (Mat3 α) :=
  let s := V3.lenSq (col m 0)
  if s < 1 / 100000000 then none
  else
    let s := 1 / s
    let t := Mat.swapAt (Mat.swapAt (Mat.swapAt m 0 1 1 0) 0 2 2 0) 1 2 2 1
    some (fun i j => t i j * s)

/-- src/Math/float3x3.cpp:826-931 `SolveAxb`: one row of the augmented matrix `v_i0 v_i1 v_i2 | b_i`. -/
structure AugRow (α : Type*) where
  v0 : α
  v1 : α
  v2 : α
  b : α
deriving DecidableEq

/-- src/Math/float3x3.cpp:845-859: pivot search in the first column. -/
def pivot1 (r0 r1 r2 : AugRow α) : AugRow α × AugRow α × AugRow α :=
  if absF r1.v0 ≥ absF r0.v0 ∧ absF r1.v0 ≥ absF r2.v0 then (r1, r0, r2)
  else if absF r2.v0 ≥ absF r0.v0 then (r2, r1, r0)
  else (r0, r1, r2)

/-- src/Math/float3x3.cpp:907-930: eliminate below the second pivot and substitute back.
Arguments: the scaled first row, the second and third rows with their first column cleared (the
stored `v0` is not read any more). -/
def solveTail (r0 r1 r2 : AugRow α) : Option (V3 α) :=
  if equalAbs r1.v1 0 then none
  else
    let denom := 1 / r1.v1
    let v12 := r1.v2 * denom
    let b1 := r1.b * denom
    let v22 := r2.v2 - r2.v1 * v12
    let b2 := r2.b - r2.v1 * b1
    if equalAbs v22 0 then none
    else
      let x2 := b2 / v22
      let x1 := b1 - x2 * v12
      let x0 := r0.b - x2 * r0.v2 - x1 * r0.v1
      some ⟨x0, x1, x2⟩

/-- src/Math/float3x3.cpp:826-931 `SolveAxb`; `none` when it returns false. -/
def solveAxb (m : Mat3 α) (b : V3 α) : Option (V3 α) :=
  let (r0, r1, r2) := pivot1 ⟨m 0 0, m 0 1, m 0 2, b.x⟩ ⟨m 1 0, m 1 1, m 1 2, b.y⟩ ⟨m 2 0, m 2 1, m 2 2, b.z⟩
  if equalAbs r0.v0 0 then none
  else
    let denom := 1 / r0.v0
    let r0 : AugRow α := ⟨r0.v0, r0.v1 * denom, r0.v2 * denom, r0.b * denom⟩
    let r1 : AugRow α := ⟨r1.v0, r1.v1 - r1.v0 * r0.v1, r1.v2 - r1.v0 * r0.v2, r1.b - r1.v0 * r0.b⟩
    let r2 : AugRow α := ⟨r2.v0, r2.v1 - r2.v0 * r0.v1, r2.v2 - r2.v0 * r0.v2, r2.b - r2.v0 * r0.b⟩
    if absF r2.v1 > absF r1.v1 then solveTail r0 r2 r1 else solveTail r0 r1 r2

end Mat3

namespace Mat34

/-- src/Math/float3x4.cpp:898-924 `InverseColOrthogonal`; `none` when it returns false. -/
def inverseColOrthogonal (m : Mat34 α) : Option (Mat34 α) :=
  let s1 := V3.lenSq ⟨m 0 0, m 1 0, m 2 0⟩
  let s2 := V3.lenSq ⟨m 0 1, m 1 1, m 2 1⟩
  let s3 := V3.lenSq ⟨m 0 2, m 1 2, m 2 2⟩
  if s1 < 1 / 100000000 ∨ s2 < 1 / 100000000 ∨ s3 < 1 / 100000000 then none
  else
    let s1 := 1 / s1; let s2 := 1 / s2; let s3 := 1 / s3
    let t := transpose3 m
    let u : Mat34 α := !![t 0 0 * s1, t 0 1 * s1, t 0 2 * s1, t 0 3;
                          t 1 0 * s2, t 1 1 * s2, t 1 2 * s2, t 1 3;
                          t 2 0 * s3, t 2 1 * s3, t 2 2 * s3, t 2 3]
    some (setTranslatePart u (mulDir u ⟨-u 0 3, -u 1 3, -u 2 3⟩))

/-- src/Math/float3x4.cpp:926-950 `InverseOrthogonalUniformScale`; the scale is read from column 0
after the transposition. The second component is the returned flag: on `false` the matrix has
already been transposed. -/
def inverseOrthogonalUniformScale (m : Mat34 α) : Mat34 α × Bool :=
  let t := transpose3 m
  let s := V3.lenSq ⟨t 0 0, t 1 0, t 2 0⟩
  if s = 0 then (t, false)
  else
    let s := 1 / s
    let u : Mat34 α := !![t 0 0 * s, t 0 1 * s, t 0 2 * s, t 0 3;
                          t 1 0 * s, t 1 1 * s, t 1 2 * s, t 1 3;
                          t 2 0 * s, t 2 1 * s, t 2 2 * s, t 2 3]
    (setTranslatePart u (mulDir u ⟨-u 0 3, -u 1 3, -u 2 3⟩), true)

end Mat34

end Field

end MGL
