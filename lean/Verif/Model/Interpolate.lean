import Mathlib.Analysis.SpecialFunctions.Trigonometric.Basic

/-! Model of the interpolation curves of src/Math/Interpolate.h over the real numbers. The `assume1` at the start of each (that `t` is in
`[0, 1]`) is no part of a release build. -/

namespace MGL.Interpolate

/-- src/Math/Interpolate.h:29-33. -/
def smoothStart (t : ℝ) : ℝ := t * t

/-- src/Math/Interpolate.h:36-40. -/
def smoothStart3 (t : ℝ) : ℝ := t * t * t

/-- src/Math/Interpolate.h:42-47. -/
def smoothStart4 (t : ℝ) : ℝ :=
  let tt := t * t
  tt * tt

/-- src/Math/Interpolate.h:49-54. -/
def smoothStart5 (t : ℝ) : ℝ :=
  let tt := t * t
  tt * tt * t

/-- src/Math/Interpolate.h:57-62. -/
def smoothStop (t : ℝ) : ℝ :=
  let oneT := 1 - t
  1 - oneT * oneT

/-- src/Math/Interpolate.h:64-69. -/
def smoothStop3 (t : ℝ) : ℝ :=
  let oneT := 1 - t
  1 - oneT * oneT * oneT

/-- src/Math/Interpolate.h:71-77. -/
def smoothStop4 (t : ℝ) : ℝ :=
  let oneT := 1 - t
  let oneT := oneT * oneT
  1 - oneT * oneT

/-- src/Math/Interpolate.h:79-85. -/
def smoothStop5 (t : ℝ) : ℝ :=
  let oneT := 1 - t
  let oneT2 := oneT * oneT
  1 - oneT2 * oneT2 * oneT

/-- src/Math/Interpolate.h:88-96. -/
def sharpStep (t : ℝ) : ℝ :=
  let tt := t * t
  t * (2 * tt + 2 - 3 * t)

/-- src/Math/Interpolate.h:100-109. -/
def smoothStep (t : ℝ) : ℝ :=
  let tt := t * t
  3 * tt - 2 * tt * t

/-- src/Math/Interpolate.h:125-131. -/
def smoothStep5 (t : ℝ) : ℝ :=
  let tt := t * t
  tt * t * (6 * tt - 15 * t + 10)

/-- src/Math/Interpolate.h:133-140. -/
def smoothStep7 (t : ℝ) : ℝ :=
  let tt := t * t
  let tttt := tt * tt
  tttt * (-20 * tt * t + 70 * tt - 84 * t + 35)

/-- src/Math/Interpolate.h:142-146, with the exact cosine and the exact number `pi`. -/
noncomputable def cosineStep01 (t : ℝ) : ℝ := 1 / 2 - Real.cos (t * Real.pi) * (1 / 2)

end MGL.Interpolate
