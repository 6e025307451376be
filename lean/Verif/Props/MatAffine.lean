import Verif.Model.MatAffine
import Verif.Props.Mat34

/-! C107: the inverses of affine matrices with and without scale in src/Math/Matrix.inl. -/

set_option linter.unusedSectionVars false

namespace MGL
open V3
namespace Mat34

/-- The point with the coordinates `v` in the frame with the axes `a`, `b`, `c` and the origin `t`. -/
def place (a b c t v : V3 ℝ) : V3 ℝ := v.x • a + v.y • b + v.z • c + t

/-- The affine matrix with the columns `a`, `b`, `c` and the translation `t`. -/
def ofFrame (a b c t : V3 ℝ) : Mat34 ℝ := !![a.x, b.x, c.x, t.x; a.y, b.y, c.y, t.y; a.z, b.z, c.z, t.z]

theorem mulPos_ofFrame (a b c t v : V3 ℝ) : mulPos (ofFrame a b c t) v = place a b c t v := by
  ext <;> simp [mulPos, ofFrame, place] <;> ring

theorem inverseAffineNoScale_eq (a b c t : V3 ℝ) : inverseAffineNoScale (ofFrame a b c t) =
    !![a.x, a.y, a.z, -dot a t; b.x, b.y, b.z, -dot b t; c.x, c.y, c.z, -dot c t] := by
  ext i j
  fin_cases i <;> fin_cases j <;>
    simp [inverseAffineNoScale, ofFrame, Mat.swapAt, Mat.setAt, setTranslatePart, mulDir, dot] <;> ring

theorem recip_sqrt {s : ℝ} (hs : 0 < s) {q : ℝ} (h : q = s ^ 2) : Real.sqrt (1 / q) = 1 / s := by
  rw [h, Real.sqrt_div zero_le_one, Real.sqrt_one, Real.sqrt_sq hs.le]

theorem inverseAffineUniformScale_eq (a b c t : V3 ℝ) (s : ℝ) (hs : 0 < s) (ha : dot a a = s ^ 2) : inverseAffineUniformScale (ofFrame a b c t) =
    !![a.x / s, a.y / s, a.z / s, -dot a t / s; b.x / s, b.y / s, b.z / s, -dot b t / s; c.x / s, c.y / s, c.z / s, -dot c t / s] := by
  have hr : recipRowLength (Mat.swapAt (Mat.swapAt (Mat.swapAt (ofFrame a b c t) 0 1 1 0) 0 2 2 0) 1 2 2 1) 0 = 1 / s := by
    refine recip_sqrt hs ?_
    rw [← ha]
    simp [ofFrame, Mat.swapAt, Mat.setAt, dot]
  unfold inverseAffineUniformScale
  simp only [hr]
  ext i j
  fin_cases i <;> fin_cases j <;>
    simp [ofFrame, Mat.swapAt, Mat.setAt, setTranslatePart, mulDir, dot, scaleRow3] <;> field_simp <;> ring

theorem inverseAffineNonuniformScale_eq (a b c t : V3 ℝ) (s : V3 ℝ) (h1 : 0 < s.x) (h2 : 0 < s.y) (h3 : 0 < s.z) (ha : dot a a = s.x ^ 2)
    (hb : dot b b = s.y ^ 2) (hc : dot c c = s.z ^ 2) : inverseAffineNonuniformScale (ofFrame a b c t) =
    !![a.x / s.x, a.y / s.x, a.z / s.x, -dot a t / s.x; b.x / s.y, b.y / s.y, b.z / s.y, -dot b t / s.y;
       c.x / s.z, c.y / s.z, c.z / s.z, -dot c t / s.z] := by
  unfold inverseAffineNonuniformScale
  generalize hm0 : Mat.swapAt (Mat.swapAt (Mat.swapAt (ofFrame a b c t) 0 1 1 0) 0 2 2 0) 1 2 2 1 = m0
  have e0 : m0 = !![a.x, a.y, a.z, t.x; b.x, b.y, b.z, t.y; c.x, c.y, c.z, t.z] := by
    rw [← hm0]
    ext i j
    fin_cases i <;> fin_cases j <;> simp [ofFrame, Mat.swapAt, Mat.setAt]
  subst e0
  clear hm0
  dsimp only
  have r0 : recipRowLength !![a.x, a.y, a.z, t.x; b.x, b.y, b.z, t.y; c.x, c.y, c.z, t.z] 0 = 1 / s.x :=
    recip_sqrt h1 (by rw [← ha]; simp [dot])
  rw [r0]
  have r1 : recipRowLength (scaleRow3 !![a.x, a.y, a.z, t.x; b.x, b.y, b.z, t.y; c.x, c.y, c.z, t.z] 0 (1 / s.x)) 1 = 1 / s.y :=
    recip_sqrt h2 (by rw [← hb]; simp [dot, scaleRow3])
  rw [r1]
  have r2 : recipRowLength (scaleRow3 (scaleRow3 !![a.x, a.y, a.z, t.x; b.x, b.y, b.z, t.y; c.x, c.y, c.z, t.z] 0 (1 / s.x)) 1 (1 / s.y)) 2 = 1 / s.z :=
    recip_sqrt h3 (by rw [← hc]; simp [dot, scaleRow3])
  rw [r2]
  ext i j
  fin_cases i <;> fin_cases j <;>
    simp [Mat.setAt, setTranslatePart, mulDir, dot, scaleRow3] <;> field_simp <;> ring

/-- C107: `InverseAffineMatrixNoScale` of a matrix with an orthonormal basis and any translation is its inverse: it maps the image of every point back
to the point. -/
theorem C107_noScale (a b c t : V3 ℝ) (ha : dot a a = 1) (hb : dot b b = 1) (hc : dot c c = 1) (hab : dot a b = 0) (hac : dot a c = 0)
    (hbc : dot b c = 0) (v : V3 ℝ) : mulPos (inverseAffineNoScale (ofFrame a b c t)) (place a b c t v) = v := by
  rw [inverseAffineNoScale_eq]
  ext
  · simp [mulPos, place, dot] at *
    linear_combination v.x * ha + v.y * hab + v.z * hac
  · simp [mulPos, place, dot] at *
    linear_combination v.x * hab + v.y * hb + v.z * hbc
  · simp [mulPos, place, dot] at *
    linear_combination v.x * hac + v.y * hbc + v.z * hc

example := C107_noScale ⟨0, 1, 0⟩ ⟨-1, 0, 0⟩ ⟨0, 0, 1⟩ ⟨3, 4, 5⟩ (by norm_num [dot]) (by norm_num [dot]) (by norm_num [dot]) (by norm_num [dot])
  (by norm_num [dot]) (by norm_num [dot]) ⟨1, 2, 3⟩

/-- C107, what `InverseAffineMatrixUniformScale` computes instead: for an orthogonal basis with axes of the length `s` the image of a point `v` is
mapped to `s v`, so that the result is the inverse only for the scale 1. -/
theorem C107_uniform_partial (a b c t : V3 ℝ) (s : ℝ) (hs : 0 < s) (ha : dot a a = s ^ 2) (hb : dot b b = s ^ 2) (hc : dot c c = s ^ 2)
    (hab : dot a b = 0) (hac : dot a c = 0) (hbc : dot b c = 0) :
    (∀ v, mulPos (inverseAffineUniformScale (ofFrame a b c t)) (place a b c t v) = s • v) ∧
    ((∀ v, mulPos (inverseAffineUniformScale (ofFrame a b c t)) (place a b c t v) = v) ↔ s = 1) := by
  have H : ∀ v, mulPos (inverseAffineUniformScale (ofFrame a b c t)) (place a b c t v) = s • v := by
    intro v
    rw [inverseAffineUniformScale_eq a b c t s hs ha]
    ext
    · simp [mulPos, place, dot] at *
      field_simp
      linear_combination v.x * ha + v.y * hab + v.z * hac
    · simp [mulPos, place, dot] at *
      field_simp
      linear_combination v.x * hab + v.y * hb + v.z * hbc
    · simp [mulPos, place, dot] at *
      field_simp
      linear_combination v.x * hac + v.y * hbc + v.z * hc
  refine ⟨H, fun h => ?_, fun h v => ?_⟩
  · have := (H ⟨1, 0, 0⟩).symm.trans (h ⟨1, 0, 0⟩)
    have := congrArg V3.x this
    simpa using this
  · rw [H, h]; ext <;> simp

example := C107_uniform_partial ⟨0, 2, 0⟩ ⟨-2, 0, 0⟩ ⟨0, 0, 2⟩ ⟨3, 4, 5⟩ 2 (by norm_num) (by norm_num [dot]) (by norm_num [dot]) (by norm_num [dot])
  (by norm_num [dot]) (by norm_num [dot]) (by norm_num [dot])

/-- C107, what `InverseAffineMatrixNonuniformScale` computes instead: for an orthogonal basis with axes of the lengths `s` the image of a point `v`
is mapped to `s v` by elements, so that the result is the inverse only for the scale 1 along each axis. -/
theorem C107_nonuniform_partial (a b c t s : V3 ℝ) (h1 : 0 < s.x) (h2 : 0 < s.y) (h3 : 0 < s.z) (ha : dot a a = s.x ^ 2) (hb : dot b b = s.y ^ 2)
    (hc : dot c c = s.z ^ 2) (hab : dot a b = 0) (hac : dot a c = 0) (hbc : dot b c = 0) :
    (∀ v, mulPos (inverseAffineNonuniformScale (ofFrame a b c t)) (place a b c t v) = ⟨s.x * v.x, s.y * v.y, s.z * v.z⟩) ∧
    ((∀ v, mulPos (inverseAffineNonuniformScale (ofFrame a b c t)) (place a b c t v) = v) ↔ s = ⟨1, 1, 1⟩) := by
  have H : ∀ v, mulPos (inverseAffineNonuniformScale (ofFrame a b c t)) (place a b c t v) = ⟨s.x * v.x, s.y * v.y, s.z * v.z⟩ := by
    intro v
    rw [inverseAffineNonuniformScale_eq a b c t s h1 h2 h3 ha hb hc]
    ext
    · simp [mulPos, place, dot] at *
      field_simp
      linear_combination v.x * ha + v.y * hab + v.z * hac
    · simp [mulPos, place, dot] at *
      field_simp
      linear_combination v.x * hab + v.y * hb + v.z * hbc
    · simp [mulPos, place, dot] at *
      field_simp
      linear_combination v.x * hac + v.y * hbc + v.z * hc
  refine ⟨H, fun h => ?_, fun h v => ?_⟩
  · have := (H ⟨1, 1, 1⟩).symm.trans (h ⟨1, 1, 1⟩)
    simpa [V3.ext_iff] using this
  · rw [H, h]; ext <;> simp

example := C107_nonuniform_partial ⟨0, 2, 0⟩ ⟨-3, 0, 0⟩ ⟨0, 0, 4⟩ ⟨3, 4, 5⟩ ⟨2, 3, 4⟩ (by norm_num) (by norm_num) (by norm_num) (by norm_num [dot])
  (by norm_num [dot]) (by norm_num [dot]) (by norm_num [dot]) (by norm_num [dot]) (by norm_num [dot])

/-- C107, the violation: neither of the two functions inverts the scale by 2. -/
theorem C107_scale_violation : mulPos (inverseAffineUniformScale (ofFrame ⟨2, 0, 0⟩ ⟨0, 2, 0⟩ ⟨0, 0, 2⟩ 0)) (mulPos (ofFrame ⟨2, 0, 0⟩ ⟨0, 2, 0⟩ ⟨0, 0, 2⟩ 0) ⟨1, 1, 1⟩) =
      ⟨2, 2, 2⟩ ∧
    mulPos (inverseAffineNonuniformScale (ofFrame ⟨2, 0, 0⟩ ⟨0, 2, 0⟩ ⟨0, 0, 2⟩ 0)) (mulPos (ofFrame ⟨2, 0, 0⟩ ⟨0, 2, 0⟩ ⟨0, 0, 2⟩ 0) ⟨1, 1, 1⟩) =
      ⟨2, 2, 2⟩ := by
  rw [mulPos_ofFrame]
  constructor
  · rw [(C107_uniform_partial ⟨2, 0, 0⟩ ⟨0, 2, 0⟩ ⟨0, 0, 2⟩ 0 2 (by norm_num) (by norm_num [dot]) (by norm_num [dot]) (by norm_num [dot])
      (by norm_num [dot]) (by norm_num [dot]) (by norm_num [dot])).1]
    ext <;> norm_num
  · rw [(C107_nonuniform_partial ⟨2, 0, 0⟩ ⟨0, 2, 0⟩ ⟨0, 0, 2⟩ 0 ⟨2, 2, 2⟩ (by norm_num) (by norm_num) (by norm_num) (by norm_num [dot]) (by norm_num [dot])
      (by norm_num [dot]) (by norm_num [dot]) (by norm_num [dot]) (by norm_num [dot])).1]
    ext <;> norm_num

end Mat34
end MGL
