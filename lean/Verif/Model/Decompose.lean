import Verif.Model.Quat
import Verif.Model.Float3R

/-! Model of the functions that take transforms apart, and of the transforms of arrays. -/

namespace MGL
noncomputable section

namespace Mat3

/-- src/Math/float3x3.cpp:1468-1471 `ExtractScale`. -/
def extractScale (m : Mat3 ℝ) : V3 ℝ := ⟨f3Length (col m 0), f3Length (col m 1), f3Length (col m 2)⟩

/-- src/Math/float3x3.cpp:1485-1502 `Decompose(float3x3 &rotate, float3 &scale)`. -/
def decompose (m : Mat3 ℝ) : Mat3 ℝ × V3 ℝ :=
  let rotate := m
  let scale : V3 ℝ := ⟨f3Length (col rotate 0), f3Length (col rotate 1), f3Length (col rotate 2)⟩
  let rotate := scaleCol rotate 0 (1 / scale.x)
  let rotate := scaleCol rotate 1 (1 / scale.y)
  let rotate := scaleCol rotate 2 (1 / scale.z)
  (rotate, scale)

/-- src/Math/float3x3.cpp:1473-1483 `Decompose(Quat &rotate, float3 &scale)`. -/
def decomposeQuat (m : Mat3 ℝ) : Quat ℝ × V3 ℝ := (Quat.ofMat3 (decompose m).1, (decompose m).2)

/-- src/Math/float3x3.cpp:178-181 `FromRS(rotate, scale)`. -/
def fromRS (r : Mat3 ℝ) (s : V3 ℝ) : Mat3 ℝ := mulScale r s

/-- src/Math/float3x3.cpp:173-176 `FromRS(Quat, scale)`. -/
def fromRSQuat (q : Quat ℝ) (s : V3 ℝ) : Mat3 ℝ := mulScale (Quat.toFloat3x3 q) s

end Mat3

namespace Mat34

/-- src/Math/float3x4.cpp:1635-1638 `ExtractScale`. -/
def extractScale (m : Mat34 ℝ) : V3 ℝ := Mat3.extractScale (float3x3Part m)

/-- src/Math/float3x4.cpp:1652-1670 `Decompose(float3 &translate, float3x3 &rotate, float3 &scale)`. -/
def decompose (m : Mat34 ℝ) : V3 ℝ × Mat3 ℝ × V3 ℝ :=
  let rotate := float3x3Part m
  let scale : V3 ℝ := ⟨f3Length (Mat3.col rotate 0), f3Length (Mat3.col rotate 1), f3Length (Mat3.col rotate 2)⟩
  let rotate := Mat3.scaleCol rotate 0 (1 / scale.x)
  let rotate := Mat3.scaleCol rotate 1 (1 / scale.y)
  let rotate := Mat3.scaleCol rotate 2 (1 / scale.z)
  (translatePart m, rotate, scale)

/-- src/Math/float3x4.cpp:1640-1650 `Decompose(float3 &translate, Quat &rotate, float3 &scale)`. -/
def decomposeQuat (m : Mat34 ℝ) : V3 ℝ × Quat ℝ × V3 ℝ := ((decompose m).1, Quat.ofMat3 (decompose m).2.1, (decompose m).2.2)

/-- src/Math/float3x4.cpp:1672-1683 `Decompose(float3 &translate, float3x4 &rotate, float3 &scale)`. -/
def decompose34 (m : Mat34 ℝ) : V3 ℝ × Mat34 ℝ × V3 ℝ := ((decompose m).1, ofParts (decompose m).2.1 0, (decompose m).2.2)

/-- src/Math/float3x4.cpp:208-215 `DecomposeToTRS`. -/
def decomposeToTRS (m : Mat34 ℝ) : V3 ℝ × Mat3 ℝ × V3 ℝ :=
  let c := float3x3Part m
  let scale : V3 ℝ := ⟨f3Length (Mat3.col c 0), f3Length (Mat3.col c 1), f3Length (Mat3.col c 2)⟩
  (⟨m 0 3, m 1 3, m 2 3⟩, Mat3.ofCols ((1 / scale.x) • Mat3.col c 0) ((1 / scale.y) • Mat3.col c 1) ((1 / scale.z) • Mat3.col c 2), scale)

/-- src/Math/float3x4.cpp:193-196 `FromTRS(translate, Quat, scale)`. -/
def fromTRSQuat (t : V3 ℝ) (q : Quat ℝ) (s : V3 ℝ) : Mat34 ℝ := fromTRS t (Quat.toFloat3x3 q) s

end Mat34

namespace Mat4

/-- src/Math/float4x4.cpp:2074-2096 `Decompose(float3 &translate, float3x3 &rotate, float3 &scale)`. -/
def decompose (m : Mat4 ℝ) : V3 ℝ × Mat3 ℝ × V3 ℝ :=
  let rotate := Mat34.float3x3Part (float3x4Part m)
  let scale : V3 ℝ := ⟨f3Length (Mat3.col rotate 0), f3Length (Mat3.col rotate 1), f3Length (Mat3.col rotate 2)⟩
  let rotate := Mat3.scaleCol rotate 0 (1 / scale.x)
  let rotate := Mat3.scaleCol rotate 1 (1 / scale.y)
  let rotate := Mat3.scaleCol rotate 2 (1 / scale.z)
  (⟨m 0 3, m 1 3, m 2 3⟩, rotate, scale)

/-- src/Math/float4x4.cpp:2062-2072 `Decompose(float3 &translate, Quat &rotate, float3 &scale)`. -/
def decomposeQuat (m : Mat4 ℝ) : V3 ℝ × Quat ℝ × V3 ℝ := ((decompose m).1, Quat.ofMat3 (decompose m).2.1, (decompose m).2.2)

/-- src/Math/float4x4.cpp:2111-2123 `Decompose(float3 &translate, float4x4 &rotate, float3 &scale)`. -/
def decompose44 (m : Mat4 ℝ) : V3 ℝ × Mat4 ℝ × V3 ℝ := ((decompose m).1, ofMat34 (Mat34.ofParts (decompose m).2.1 0), (decompose m).2.2)

/-- src/Math/float4x4.cpp:245-248 `FromTRS(translate, float3x3, scale)`. -/
def fromTRS (t : V3 ℝ) (r : Mat3 ℝ) (s : V3 ℝ) : Mat4 ℝ := mulScale (translateMul t (ofMat3 r)) s

/-- src/Math/float4x4.cpp:255-258 `FromTRS(translate, float4x4, scale)`. -/
def fromTRS44 (t : V3 ℝ) (r : Mat4 ℝ) (s : V3 ℝ) : Mat4 ℝ := mulScale (translateMul t r) s

/-- src/Math/float4x4.cpp:240-243 `FromTRS(translate, Quat, scale)`. -/
def fromTRSQuat (t : V3 ℝ) (q : Quat ℝ) (s : V3 ℝ) : Mat4 ℝ := fromTRS t (Quat.toFloat3x3 q) s

end Mat4

end
end MGL
