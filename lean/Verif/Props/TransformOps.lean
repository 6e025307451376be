import Verif.Proofs.Mat4

/-! C57: the optimised products with `TranslateOp` and `ScaleOp` equal the matrix products with the
matrices those operators stand for. -/

namespace MGL
variable {α : Type*} [CommRing α]

/-- C57. `TranslateOp` moves points by its offset and leaves directions alone; `ScaleOp` scales both. -/
theorem C57_meaning (o s v : V3 α) :
    Mat34.mulPos (Mat34.translate o) v = v + o ∧ Mat34.mulDir (Mat34.translate o) v = v ∧
    Mat34.mulPos (Mat34.scale s) v = ⟨s.x * v.x, s.y * v.y, s.z * v.z⟩ ∧
    Mat34.mulDir (Mat34.scale s) v = ⟨s.x * v.x, s.y * v.y, s.z * v.z⟩ ∧
    Mat4.translate o = Spec.affine (Mat34.translate o) ∧ Mat4.scale s = Spec.affine (Mat34.scale s) ∧
    Mat4.scale s = Spec.linear4 (Mat3.scale s) := by
  refine ⟨?_, ?_, ?_, ?_, ?_, ?_, ?_⟩
  · ext <;> simp [Mat34.mulPos, Mat34.translate]
  · ext <;> simp [Mat34.mulDir, Mat34.translate]
  · ext <;> simp [Mat34.mulPos, Mat34.scale]
  · ext <;> simp [Mat34.mulDir, Mat34.scale]
  · ext i j; fin_cases i <;> fin_cases j <;> simp [Mat4.translate, Mat34.translate, Spec.affine]
  · ext i j; fin_cases i <;> fin_cases j <;> simp [Mat4.scale, Mat34.scale, Spec.affine]
  · ext i j; fin_cases i <;> fin_cases j <;> simp [Mat4.scale, Mat3.scale, Spec.linear4]

/-- C57. `TranslateOp * float3x4` and `float3x4 * TranslateOp` are the matrix products. -/
theorem C57_translate_mat34 (o : V3 α) (m : Mat34 α) :
    Spec.affine (Mat34.translateMul o m) = Spec.affine (Mat34.translate o) * Spec.affine m ∧
    Spec.affine (Mat34.mulTranslate m o) = Spec.affine m * Spec.affine (Mat34.translate o) := by
  rw [← Mat34.mul_eq, ← Mat34.mul_eq]
  constructor <;> congr 1 <;> ext i j <;> fin_cases i <;> fin_cases j <;>
    simp [Mat34.translateMul, Mat34.mulTranslate, Mat34.mul, Mat34.translate, Mat34.setTranslatePart,
      Mat34.translatePart, Mat34.mulPos, Mat.setAt, add_comm]

/-- C57. `ScaleOp * float3x4`, `float3x4 * ScaleOp`, `ScaleOp * TranslateOp`, `TranslateOp * ScaleOp`
are the matrix products. -/
theorem C57_scale_mat34 (o s : V3 α) (m : Mat34 α) :
    Spec.affine (Mat34.scaleMul s m) = Spec.affine (Mat34.scale s) * Spec.affine m ∧
    Spec.affine (Mat34.mulScale m s) = Spec.affine m * Spec.affine (Mat34.scale s) ∧
    Spec.affine (Mat34.scaleTranslate s o) = Spec.affine (Mat34.scale s) * Spec.affine (Mat34.translate o) ∧
    Spec.affine (Mat34.translateScale o s) = Spec.affine (Mat34.translate o) * Spec.affine (Mat34.scale s) := by
  simp only [← Mat34.mul_eq]
  refine ⟨?_, ?_, ?_, ?_⟩ <;> congr 1 <;> ext i j <;> fin_cases i <;> fin_cases j <;>
    simp [Mat34.scaleMul, Mat34.mulScale, Mat34.mul, Mat34.translate, Mat34.scale, Mat34.scaleTranslate,
      Mat34.translateScale, mul_comm]

/-- C57. `ScaleOp * float3x3`, `float3x3 * ScaleOp`, `ScaleOp * float4x4` and `float4x4 * ScaleOp` are the
matrix products, the latter two also for matrices with a projective last row. -/
theorem C57_scale_mat3_mat4 (s : V3 α) (m : Mat3 α) (k : Mat4 α) :
    Mat3.scaleMul s m = (Mat3.scale s * m : Matrix (Fin 3) (Fin 3) α) ∧
    Mat3.mulScale m s = (m * Mat3.scale s : Matrix (Fin 3) (Fin 3) α) ∧
    Mat4.scaleMul s k = (Mat4.scale s * k : Matrix (Fin 4) (Fin 4) α) ∧
    Mat4.mulScale k s = (k * Mat4.scale s : Matrix (Fin 4) (Fin 4) α) := by
  rw [← Mat3.mul_eq, ← Mat3.mul_eq, ← Mat4.mul_eq, ← Mat4.mul_eq]
  refine ⟨?_, ?_, ?_, ?_⟩ <;> ext i j <;> fin_cases i <;> fin_cases j <;>
    simp [Mat3.scaleMul, Mat3.mulScale, Mat3.scaleRow, Mat3.scaleCol, Mat3.mul, Mat3.scale, Mat4.scaleMul,
      Mat4.mulScale, Mat4.mul, Mat4.scale, mul_comm]

/-- C57, partial. `TranslateOp * float4x4` and `float4x4 * TranslateOp` are the matrix products when the
`float4x4` has last row `(0, 0, 0, 1)`; missing: matrices with a projective part, for which they are not
(`C57_translate_mat4_violation`). -/
theorem C57_translate_mat4_partial (o : V3 α) (m : Mat4 α) (h : m 3 = ![0, 0, 0, 1]) :
    Mat4.translateMul o m = (Mat4.translate o * m : Matrix (Fin 4) (Fin 4) α) ∧
    Mat4.mulTranslate m o = (m * Mat4.translate o : Matrix (Fin 4) (Fin 4) α) := by
  have h0 : m 3 0 = 0 := by rw [h]; rfl
  have h1 : m 3 1 = 0 := by rw [h]; rfl
  have h2 : m 3 2 = 0 := by rw [h]; rfl
  have h3 : m 3 3 = 1 := by rw [h]; rfl
  rw [← Mat4.mul_eq, ← Mat4.mul_eq]
  constructor <;> ext i j <;> fin_cases i <;> fin_cases j <;>
    simp [Mat4.translateMul, Mat4.mulTranslate, Mat4.mul, Mat4.translate, Mat4.setTranslatePart,
      Mat4.mulPos, Mat.setAt, h0, h1, h2, h3]

example := C57_translate_mat4_partial (⟨1, 2, 3⟩ : V3 ℚ) !![0, 2, 0, 5; 1, 0, 3, -1; 0, 1, 4, 2; 0, 0, 0, 1] rfl

/-- C57, counterexample: for a projection matrix `P`, `P * TranslateOp` is not `P * (matrix of the
translation)`; the code (unlike for `TranslateOp * P`) does not even check that `P` is affine. -/
theorem C57_translate_mat4_violation :
    Mat4.mulTranslate (!![1, 0, 0, 0; 0, 1, 0, 0; 0, 0, 1, -1; 0, 0, 1, 0] : Mat4 ℚ) ⟨0, 0, 5⟩ ≠
      (!![1, 0, 0, 0; 0, 1, 0, 0; 0, 0, 1, -1; 0, 0, 1, 0] * Mat4.translate ⟨0, 0, 5⟩ : Matrix (Fin 4) (Fin 4) ℚ) ∧
    Mat4.translateMul ⟨0, 0, 5⟩ (!![1, 0, 0, 0; 0, 1, 0, 0; 0, 0, 1, -1; 0, 0, 1, 0] : Mat4 ℚ) ≠
      (Mat4.translate ⟨0, 0, 5⟩ * !![1, 0, 0, 0; 0, 1, 0, 0; 0, 0, 1, -1; 0, 0, 1, 0] : Matrix (Fin 4) (Fin 4) ℚ) := by
  decide +kernel

example : (!![1, 2, 0, 4; 0, 1, 0, 5; 0, 0, 3, -1; 0, 0, 0, 1] : Mat4 ℚ) 3 = ![0, 0, 0, 1] := by decide +kernel

end MGL
