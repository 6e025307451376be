import Verif.Spec.Vec3
import Verif.Model.Scalar

/-! Model of the component-wise part of `float3` (scalar path, `vec` = `float3`).

The operators `+`, `-`, unary `-`, `*` and `/` by a scalar (src/Math/float3.cpp:896-1011, 1079-1096),
`Dot` (518-525), `Cross` (547-558), `LengthSq` (98-106) and `DistanceSq` (477-488) are the
mathematical operations of `Spec/Vec3` term by term, and are used under those names. Division by a
scalar `v / s` is `v * (1 / s)` in the code (951-961) and `(1 / s) • v` here. -/

namespace MGL
variable {α : Type*}

section Order
variable [LinearOrder α]

/-- src/Math/float3.cpp:409-418 and float3.h:707 `Min(a, b)`. -/
def f3Min (a b : V3 α) : V3 α := ⟨min2 a.x b.x, min2 a.y b.y, min2 a.z b.z⟩

/-- src/Math/float3.cpp:431-440 and float3.h:708 `Max(a, b)`. -/
def f3Max (a b : V3 α) : V3 α := ⟨max2 a.x b.x, max2 a.y b.y, max2 a.z b.z⟩

/-- src/Math/MathFunc.h:368-372 `Min(a, b, c)` instantiated at `float3`. -/
def f3Min3 (a b c : V3 α) : V3 α := f3Min (f3Min a b) c

/-- src/Math/MathFunc.h:386-390 `Max(a, b, c)` instantiated at `float3`. -/
def f3Max3 (a b c : V3 α) : V3 α := f3Max (f3Max a b) c

/-- src/Math/float3.cpp:442-445 `Clamp(floor, ceil)`. -/
def f3Clamp (v lo hi : V3 α) : V3 α := f3Max (f3Min v hi) lo

/-- src/Math/float3.cpp:339-342 `MinElement`. -/
def f3MinElement (v : V3 α) : α := min2 (min2 v.x v.y) v.z

/-- src/Math/float3.cpp:352-355 `MaxElement`. -/
def f3MaxElement (v : V3 α) : α := max2 (max2 v.x v.y) v.z

/-- src/Math/float3.cpp:344-350 `MinElementIndex`. -/
def f3MinElementIndex (v : V3 α) : Fin 3 :=
  if v.x ≤ v.y ∧ v.x ≤ v.z then 0 else if v.y ≤ v.z then 1 else 2

/-- src/Math/float3.cpp:357-363 `MaxElementIndex`. -/
def f3MaxElementIndex (v : V3 α) : Fin 3 :=
  if v.x ≥ v.y ∧ v.x ≥ v.z then 0 else if v.y ≥ v.z then 1 else 2

end Order

section Field
variable [Field α] [LinearOrder α]

/-- src/Math/float3.cpp:365-374 `Abs`. -/
def f3Abs (v : V3 α) : V3 α := ⟨absF v.x, absF v.y, absF v.z⟩

/-- src/Math/float3.cpp:763-772 `SetFromScalar`, and the `DIR_VEC_SCALAR` macro. -/
def f3Scalar (s : α) : V3 α := ⟨s, s, s⟩

/-- src/Math/float3.cpp:1046-1055 `Mul` (component-wise product). -/
def f3Mul (a b : V3 α) : V3 α := ⟨a.x * b.x, a.y * b.y, a.z * b.z⟩

/-- src/Math/MathOps.cpp:24-27 `EqualAbs(a, b, epsilon)`; the default `epsilon` is `1e-4f`. -/
def equalAbs (a b : α) (eps : α := 1 / 10000) : Bool := decide (absF (a - b) < eps)

end Field
end MGL
