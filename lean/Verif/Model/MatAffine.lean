import Verif.Model.Mat
import Mathlib.Analysis.Real.Sqrt

/-! Model of the inverses of affine matrices in src/Math/Matrix.inl, over the reals. -/

namespace MGL
namespace Mat34
noncomputable section

/-- src/Math/Matrix.inl:723-729 `InverseAffineMatrixNoScale`. -/
def inverseAffineNoScale (m : Mat34 ℝ) : Mat34 ℝ :=
  let m := Mat.swapAt (Mat.swapAt (Mat.swapAt m 0 1 1 0) 0 2 2 0) 1 2 2 1
  setTranslatePart m (mulDir m ⟨-m 0 3, -m 1 3, -m 2 3⟩)

/-- src/Math/Matrix.inl:737, 752: the factor `sqrtf(1.f / float3(m[i][0], m[i][1], m[i][2]).LengthSq())`. -/
def recipRowLength (m : Mat34 ℝ) (i : Fin 3) : ℝ := Real.sqrt (1 / (m i 0 * m i 0 + m i 1 * m i 1 + m i 2 * m i 2))

/-- src/Math/Matrix.inl:739-741, 753-755: the first three elements of the row `r` are multiplied by `s`. -/
def scaleRow3 (m : Mat34 ℝ) (r : Fin 3) (s : ℝ) : Mat34 ℝ := fun i j => if i = r ∧ j ≠ 3 then m i j * s else m i j

/-- src/Math/Matrix.inl:732-744 `InverseAffineMatrixUniformScale`. -/
def inverseAffineUniformScale (m : Mat34 ℝ) : Mat34 ℝ :=
  let m := Mat.swapAt (Mat.swapAt (Mat.swapAt m 0 1 1 0) 0 2 2 0) 1 2 2 1
  let s := recipRowLength m 0
  let m := scaleRow3 (scaleRow3 (scaleRow3 m 0 s) 1 s) 2 s
  setTranslatePart m (mulDir m ⟨-m 0 3, -m 1 3, -m 2 3⟩)

/-- src/Math/Matrix.inl:747-760 `InverseAffineMatrixNonuniformScale`. -/
def inverseAffineNonuniformScale (m : Mat34 ℝ) : Mat34 ℝ :=
  let m := Mat.swapAt (Mat.swapAt (Mat.swapAt m 0 1 1 0) 0 2 2 0) 1 2 2 1
  let m := scaleRow3 m 0 (recipRowLength m 0)
  let m := scaleRow3 m 1 (recipRowLength m 1)
  let m := scaleRow3 m 2 (recipRowLength m 2)
  setTranslatePart m (mulDir m ⟨-m 0 3, -m 1 3, -m 2 3⟩)

end
end Mat34
end MGL
