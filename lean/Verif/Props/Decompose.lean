import Verif.Model.Decompose
import Verif.Spec.TRS
import Verif.Props.Quat

/-! C92: taking a transform apart into translation, rotation and scale, and putting it together. -/

set_option linter.unusedSectionVars false
set_option linter.unusedSimpArgs false

namespace MGL
open Spec

theorem length_col (m : Mat3 ℝ) (j : Fin 3) : f3Length (Mat3.col m j) = √(m 0 j ^ 2 + m 1 j ^ 2 + m 2 j ^ 2) := by
  simp only [f3Length, V3.lenSq, V3.dot, Mat3.col]; congr 1; ring

theorem Mat3.decompose_fst (m : Mat3 ℝ) (i j : Fin 3) : (Mat3.decompose m).1 i j = m i j * (1 / f3Length (Mat3.col m j)) := by
  fin_cases j <;> simp [Mat3.decompose, Mat3.scaleCol]

theorem Mat3.decompose_snd (m : Mat3 ℝ) (j : Fin 3) : (Mat3.decompose m).2.toFun j = f3Length (Mat3.col m j) := by
  fin_cases j <;> rfl

/-- What `Decompose` promises about the linear part `m`: `m = r * diag s`, positive scale, unit columns, and orthogonal columns stay
orthogonal; without a reflection, `r` is a rotation. -/
theorem Mat3.decompose_spec (m : Mat3 ℝ) (h : NonzeroColumns m) :
    (Mat3.decompose m).1 * Matrix.diagonal (Mat3.decompose m).2.toFun = m ∧ (∀ j, 0 < (Mat3.decompose m).2.toFun j) ∧ UnitColumns (Mat3.decompose m).1 ∧
    (ColOrthogonal m → Orthonormal (Mat3.decompose m).1 ∧ (0 < m.det → IsRotation (Mat3.decompose m).1)) := by
  have pos : ∀ j, 0 < f3Length (Mat3.col m j) := fun j => by
    rw [length_col]; exact Real.sqrt_pos.2 (lt_of_le_of_ne (by positivity) (Ne.symm (h j)))
  have sq : ∀ j, f3Length (Mat3.col m j) ^ 2 = m 0 j ^ 2 + m 1 j ^ 2 + m 2 j ^ 2 := fun j => by
    rw [length_col]; exact Real.sq_sqrt (by positivity)
  have c1 : (Mat3.decompose m).1 * Matrix.diagonal (Mat3.decompose m).2.toFun = m := by
    ext i j
    rw [Matrix.mul_diagonal, Mat3.decompose_fst, Mat3.decompose_snd]
    have := (pos j).ne'
    field_simp
  have c3 : UnitColumns (Mat3.decompose m).1 := fun j => by
    simp only [Mat3.decompose_fst]
    have := (pos j).ne'
    have := sq j
    field_simp
    linarith
  refine ⟨c1, fun j => by rw [Mat3.decompose_snd]; exact pos j, c3, fun ho => ?_⟩
  have c4 : Orthonormal (Mat3.decompose m).1 := by
    unfold Orthonormal
    ext i j
    rw [Matrix.mul_apply, Fin.sum_univ_three]
    simp only [Matrix.transpose_apply]
    by_cases e : i = j
    · subst e
      rw [Matrix.one_apply_eq]
      have := c3 i
      linarith
    · rw [Matrix.one_apply_ne e]
      simp only [Mat3.decompose_fst]
      have := ho i j e
      linear_combination (1 / f3Length (Mat3.col m i)) * (1 / f3Length (Mat3.col m j)) * this
  refine ⟨c4, fun hd => ⟨c4, ?_⟩⟩
  have d2 : (Mat3.decompose m).1.det * (Mat3.decompose m).1.det = 1 := by
    have := congrArg Matrix.det c4
    rwa [Matrix.det_mul, Matrix.det_transpose, Matrix.det_one] at this
  have d1 : 0 < (Mat3.decompose m).1.det := by
    have e := congrArg Matrix.det c1
    rw [Matrix.det_mul, Matrix.det_diagonal] at e
    rw [← e] at hd
    refine (pos_iff_pos_of_mul_pos hd).2 (Finset.prod_pos fun j _ => ?_)
    rw [Mat3.decompose_snd]; exact pos j
  nlinarith

theorem Mat3.decompose_mul (r : Mat3 ℝ) (s : V3 ℝ) (hr : UnitColumns r) (hs : ∀ j, 0 < s.toFun j) :
    Mat3.decompose (r * Matrix.diagonal s.toFun) = (r, s) := by
  have l : ∀ j, f3Length (Mat3.col (r * Matrix.diagonal s.toFun) j) = s.toFun j := fun j => by
    rw [length_col]
    simp only [Matrix.mul_diagonal]
    rw [show (r 0 j * s.toFun j) ^ 2 + (r 1 j * s.toFun j) ^ 2 + (r 2 j * s.toFun j) ^ 2 = s.toFun j ^ 2 * (r 0 j ^ 2 + r 1 j ^ 2 + r 2 j ^ 2) by ring, hr j, mul_one,
      Real.sqrt_sq (hs j).le]
  refine Prod.ext ?_ ?_
  · ext i j
    rw [Mat3.decompose_fst, l, Matrix.mul_diagonal]
    have := (hs j).ne'
    field_simp
  · have := fun j => (Mat3.decompose_snd (r * Matrix.diagonal s.toFun) j).trans (l j)
    ext
    · exact this 0
    · exact this 1
    · exact this 2

theorem Mat3.fromRS_eq (r : Mat3 ℝ) (s : V3 ℝ) : Mat3.fromRS r s = r * Matrix.diagonal s.toFun := by
  ext i j
  rw [Matrix.mul_diagonal]
  fin_cases j <;> simp [Mat3.fromRS, Mat3.mulScale, Mat3.scaleCol, V3.toFun]

theorem Mat34.decompose_eq (m : Mat34 ℝ) : Mat34.decompose m = (Mat34.translatePart m, Mat3.decompose (Mat34.float3x3Part m)) := rfl

theorem Mat34.decomposeToTRS_eq (m : Mat34 ℝ) : Mat34.decomposeToTRS m = Mat34.decompose m := by
  refine Prod.ext rfl (Prod.ext ?_ rfl)
  ext i j
  rw [Mat34.decompose_eq, Mat3.decompose_fst]
  fin_cases i <;> fin_cases j <;> simp [Mat34.decomposeToTRS, Mat3.ofCols, Mat3.col, mul_comm]

theorem isTRS_iff (m : Mat34 ℝ) (t : V3 ℝ) (r : Mat3 ℝ) (s : V3 ℝ) :
    IsTRS m t r s ↔ Mat34.float3x3Part m = r * Matrix.diagonal s.toFun ∧ Mat34.translatePart m = t := by
  constructor
  · rintro ⟨h1, h2⟩
    refine ⟨?_, ?_⟩
    · ext i j
      rw [← h1 i j]
      fin_cases i <;> fin_cases j <;> rfl
    · ext
      · exact h2 0
      · exact h2 1
      · exact h2 2
  · rintro ⟨h1, rfl⟩
    refine ⟨fun i j => ?_, fun i => ?_⟩
    · rw [← h1]
      fin_cases i <;> fin_cases j <;> rfl
    · fin_cases i <;> rfl

theorem Mat34.fromTRS_isTRS (t : V3 ℝ) (r : Mat3 ℝ) (s : V3 ℝ) : IsTRS (Mat34.fromTRS t r s) t r s := by
  refine ⟨fun i j => ?_, fun i => ?_⟩
  · rw [Matrix.mul_diagonal]
    fin_cases i <;> fin_cases j <;>
      simp [Mat34.fromTRS, Mat34.mulScale, Mat34.translateMul, Mat34.setTranslatePart, Mat.setAt, Mat34.ofMat3, Mat34.ofParts, Mat34.translatePart, V3.toFun]
  · fin_cases i <;>
      simp [Mat34.fromTRS, Mat34.mulScale, Mat34.translateMul, Mat34.setTranslatePart, Mat.setAt, Mat34.ofMat3, Mat34.ofParts, Mat34.translatePart, V3.toFun]

theorem isTRS_unique {m m' : Mat34 ℝ} {t : V3 ℝ} {r : Mat3 ℝ} {s : V3 ℝ} (h : IsTRS m t r s) (h' : IsTRS m' t r s) : m = m' := by
  ext i j
  refine Fin.lastCases ?_ (fun j => ?_) j
  · exact (h.2 i).trans (h'.2 i).symm
  · exact (h.1 i j).trans (h'.1 i j).symm

/-- C92: `float3x3::Decompose` finds the rotation and the positive scale of a matrix without zero columns; composing them with `FromRS` gives the
matrix back. -/
theorem C92_decompose3 (m : Mat3 ℝ) (h : NonzeroColumns m) :
    m = (Mat3.decompose m).1 * Matrix.diagonal (Mat3.decompose m).2.toFun ∧ Mat3.fromRS (Mat3.decompose m).1 (Mat3.decompose m).2 = m ∧
    (∀ j, 0 < (Mat3.decompose m).2.toFun j) ∧ UnitColumns (Mat3.decompose m).1 ∧ Mat3.extractScale m = (Mat3.decompose m).2 ∧
    (ColOrthogonal m → 0 < m.det → IsRotation (Mat3.decompose m).1 ∧ Mat3.fromRSQuat (Mat3.decomposeQuat m).1 (Mat3.decomposeQuat m).2 = m) := by
  obtain ⟨h1, h2, h3, h4⟩ := Mat3.decompose_spec m h
  refine ⟨h1.symm, (Mat3.fromRS_eq _ _).trans h1, h2, h3, rfl, fun ho hd => ?_⟩
  have hr := (h4 ho).2 hd
  refine ⟨hr, ?_⟩
  show Mat3.fromRS (Quat.toFloat3x3 (Quat.ofMat3 (Mat3.decompose m).1)) (Mat3.decompose m).2 = m
  rw [(Quat.C41_fromMatrix _ hr).2.1, Mat3.fromRS_eq, h1]

/-- C92: `float3x4::Decompose` (to a float3x3 or float3x4 rotation) and `DecomposeToTRS` split a transform whose columns are not zero into
a scaling, a map with unit columns and a translation, and `FromTRS` gives the transform back. If the columns are orthogonal, the middle part
is orthonormal, and a rotation if the transform does not mirror; then the version with a quaternion gives the transform back as well. -/
theorem C92_decompose34 (m : Mat34 ℝ) (h : NonzeroColumns (Mat34.float3x3Part m)) :
    let d := Mat34.decompose m
    IsTRS m d.1 d.2.1 d.2.2 ∧ Mat34.fromTRS d.1 d.2.1 d.2.2 = m ∧ (∀ j, 0 < d.2.2.toFun j) ∧ UnitColumns d.2.1 ∧ Mat34.extractScale m = d.2.2 ∧
    Mat34.decomposeToTRS m = d ∧ Mat34.decompose34 m = (d.1, Mat34.ofMat3 d.2.1, d.2.2) ∧
    (ColOrthogonal (Mat34.float3x3Part m) → Orthonormal d.2.1 ∧ (0 < (Mat34.float3x3Part m).det → IsRotation d.2.1 ∧
      Mat34.fromTRSQuat (Mat34.decomposeQuat m).1 (Mat34.decomposeQuat m).2.1 (Mat34.decomposeQuat m).2.2 = m)) := by
  obtain ⟨h1, h2, h3, h4⟩ := Mat3.decompose_spec _ h
  have t : IsTRS m (Mat34.decompose m).1 (Mat34.decompose m).2.1 (Mat34.decompose m).2.2 := (isTRS_iff _ _ _ _).2 ⟨h1.symm, rfl⟩
  refine ⟨t, isTRS_unique (Mat34.fromTRS_isTRS _ _ _) t, h2, h3, rfl, Mat34.decomposeToTRS_eq m, rfl, fun ho => ⟨(h4 ho).1, fun hd => ?_⟩⟩
  have hr := (h4 ho).2 hd
  refine ⟨hr, ?_⟩
  show Mat34.fromTRS _ (Quat.toFloat3x3 (Quat.ofMat3 (Mat34.decompose m).2.1)) _ = m
  have e := (Quat.C41_fromMatrix _ hr).2.1
  rw [show Quat.toFloat3x3 (Quat.ofMat3 (Mat34.decompose m).2.1) = (Mat34.decompose m).2.1 from e]
  exact isTRS_unique (Mat34.fromTRS_isTRS _ _ _) t

/-- C92: taking apart what `FromTRS` (or `FromRS`) put together from a rotation and positive scales gives the parts; a quaternion comes back up to
its sign. -/
theorem C92_compose (t : V3 ℝ) (r : Mat3 ℝ) (s : V3 ℝ) (hr : IsRotation r) (hs : ∀ j, 0 < s.toFun j) :
    Mat34.decompose (Mat34.fromTRS t r s) = (t, r, s) ∧ Mat3.decompose (Mat3.fromRS r s) = (r, s) ∧
    ∀ q : Quat ℝ, Quat.normSq q = 1 → (Mat34.decomposeQuat (Mat34.fromTRSQuat t q s)).1 = t ∧ (Mat34.decomposeQuat (Mat34.fromTRSQuat t q s)).2.2 = s ∧
      ((Mat34.decomposeQuat (Mat34.fromTRSQuat t q s)).2.1 = q ∨ (Mat34.decomposeQuat (Mat34.fromTRSQuat t q s)).2.1 = Quat.neg q) := by
  have unit : ∀ r : Mat3 ℝ, Orthonormal r → UnitColumns r := fun r h j => by
    have := congrFun (congrFun h j) j
    rw [Matrix.mul_apply, Fin.sum_univ_three, Matrix.one_apply_eq] at this
    simp only [Matrix.transpose_apply] at this
    linarith
  have main : ∀ r : Mat3 ℝ, Orthonormal r → Mat34.decompose (Mat34.fromTRS t r s) = (t, r, s) := fun r h => by
    obtain ⟨h1, h2⟩ := (isTRS_iff _ _ _ _).1 (Mat34.fromTRS_isTRS t r s)
    rw [Mat34.decompose_eq, h1, h2, Mat3.decompose_mul r s (unit r h) hs]
  refine ⟨main r hr.1, by rw [Mat3.fromRS_eq, Mat3.decompose_mul r s (unit r hr.1) hs], fun q hq => ?_⟩
  have e := main _ ((Quat.C40_matrix q).2.1 hq).1
  unfold Mat34.decomposeQuat Mat34.fromTRSQuat
  rw [e]
  exact ⟨rfl, rfl, Quat.C41_roundtrip q hq⟩

theorem Mat4.fromTRS_eq (t : V3 ℝ) (r : Mat3 ℝ) (s : V3 ℝ) : Mat4.fromTRS t r s = Mat4.ofMat34 (Mat34.fromTRS t r s) := by
  ext i j
  fin_cases i <;> fin_cases j <;>
    simp [Mat4.fromTRS, Mat4.mulScale, Mat4.translateMul, Mat4.setTranslatePart, Mat4.ofMat3, Mat4.ofMat34, Mat34.fromTRS, Mat34.mulScale, Mat34.translateMul, Mat34.setTranslatePart, Mat.setAt,
      Mat34.ofMat3, Mat34.ofParts, Mat34.translatePart]

/-- C92: `float4x4::Decompose` agrees with `float3x4::Decompose` of the upper part, and `float4x4::FromTRS` gives back a matrix without projection; with
a quaternion if the columns are orthogonal and the matrix does not mirror. -/
theorem C92_decompose44 (m : Mat4 ℝ) (hp : ∀ j, m 3 j = if j = 3 then 1 else 0) (h : NonzeroColumns (Mat34.float3x3Part (Mat4.float3x4Part m))) :
    let d := Mat4.decompose m
    IsTRS (Mat4.float3x4Part m) d.1 d.2.1 d.2.2 ∧ Mat4.fromTRS d.1 d.2.1 d.2.2 = m ∧ (∀ j, 0 < d.2.2.toFun j) ∧ UnitColumns d.2.1 ∧
    Mat4.fromTRS44 (Mat4.decompose44 m).1 (Mat4.decompose44 m).2.1 (Mat4.decompose44 m).2.2 = m ∧
    (ColOrthogonal (Mat34.float3x3Part (Mat4.float3x4Part m)) → Orthonormal d.2.1 ∧ (0 < (Mat34.float3x3Part (Mat4.float3x4Part m)).det → IsRotation d.2.1 ∧
      Mat4.fromTRSQuat (Mat4.decomposeQuat m).1 (Mat4.decomposeQuat m).2.1 (Mat4.decomposeQuat m).2.2 = m)) := by
  have e : Mat4.decompose m = Mat34.decompose (Mat4.float3x4Part m) := rfl
  have em : Mat4.ofMat34 (Mat4.float3x4Part m) = m := by
    ext i j
    have := hp j
    fin_cases i <;> fin_cases j <;> simp_all [Mat4.ofMat34, Mat4.float3x4Part]
  obtain ⟨h1, h2, h3, h4, -, -, -, h5⟩ := C92_decompose34 _ h
  have c2 : Mat4.fromTRS (Mat4.decompose m).1 (Mat4.decompose m).2.1 (Mat4.decompose m).2.2 = m := by rw [Mat4.fromTRS_eq, e, h2, em]
  refine ⟨h1, c2, h3, h4, ?_, fun ho => ⟨(h5 ho).1, fun hd => ⟨((h5 ho).2 hd).1, ?_⟩⟩⟩
  · rw [← c2]
    have : Mat4.ofMat34 (Mat34.ofParts (Mat4.decompose m).2.1 0) = Mat4.ofMat3 (Mat4.decompose m).2.1 := by
      ext i j
      fin_cases i <;> fin_cases j <;> simp [Mat4.ofMat34, Mat34.ofParts, Mat4.ofMat3]
    unfold Mat4.fromTRS44 Mat4.decompose44 
    rw [c2, this]
    exact c2
  · unfold Mat4.fromTRSQuat
    rw [Mat4.fromTRS_eq]
    exact (congrArg Mat4.ofMat34 ((h5 ho).2 hd).2).trans em

example : NonzeroColumns !![0, -2, 0; 3, 0, 0; 0, 0, 5] ∧ ColOrthogonal (!![0, -2, 0; 3, 0, 0; 0, 0, 5] : Mat3 ℝ) ∧ 0 < (!![0, -2, 0; 3, 0, 0; 0, 0, 5] : Mat3 ℝ).det := by
  refine ⟨fun j => ?_, fun i j h => ?_, ?_⟩
  · fin_cases j <;> simp
  · fin_cases i <;> fin_cases j <;> simp_all
  · simp [Matrix.det_fin_three]

example : ∃ (r : Mat3 ℝ) (s : V3 ℝ), IsRotation r ∧ ∀ j, 0 < s.toFun j :=
  ⟨!![0, -1, 0; 1, 0, 0; 0, 0, 1], ⟨2, 3, 5⟩, ⟨by unfold Orthonormal; ext i j; fin_cases i <;> fin_cases j <;> simp [Matrix.mul_apply, Fin.sum_univ_three],
    by simp [Matrix.det_fin_three]⟩, fun j => by fin_cases j <;> norm_num [V3.toFun]⟩

/-- C92: the version of `Decompose` with a quaternion asks for orthogonal columns only, but for a transform that mirrors it loses the reflection: putting
the parts of `x ↦ -x` together gives the identity. -/
theorem C92_mirror_violation : ∃ m : Mat34 ℝ, ColOrthogonal (Mat34.float3x3Part m) ∧ NonzeroColumns (Mat34.float3x3Part m) ∧
    Mat34.fromTRSQuat (Mat34.decomposeQuat m).1 (Mat34.decomposeQuat m).2.1 (Mat34.decomposeQuat m).2.2 ≠ m ∧ (Mat34.decomposeQuat m).2.1 = Quat.identity := by
  refine ⟨!![-1, 0, 0, 0; 0, 1, 0, 0; 0, 0, 1, 0], fun i j h => ?_, fun j => ?_, ?_⟩
  · fin_cases i <;> fin_cases j <;> simp_all [Mat34.float3x3Part]
  · fin_cases j <;> simp [Mat34.float3x3Part]
  have e : (Mat34.decompose (!![-1, 0, 0, 0; 0, 1, 0, 0; 0, 0, 1, 0] : Mat34 ℝ)).2.1 = !![-1, 0, 0; 0, 1, 0; 0, 0, 1] := by
    ext i j
    rw [Mat34.decompose_eq]
    show (Mat3.decompose _).1 i j = _
    rw [Mat3.decompose_fst, length_col]
    fin_cases i <;> fin_cases j <;> simp [Mat34.float3x3Part]
  have q : (Mat34.decomposeQuat (!![-1, 0, 0, 0; 0, 1, 0, 0; 0, 0, 1, 0] : Mat34 ℝ)).2.1 = Quat.identity := by
    show Quat.ofMat3 _ = _
    rw [e]
    have h : (0 : ℝ) < √2 := by positivity
    have raw : Quat.ofMat3Raw (!![-1, 0, 0; 0, 1, 0; 0, 0, 1] : Mat3 ℝ) = ⟨0, 0, 0, √2 * (1 / 2)⟩ := by
      unfold Quat.ofMat3Raw
      simp
      norm_num
    have l : Quat.length ⟨0, 0, 0, √2 * (1 / 2)⟩ = √2 * (1 / 2) := by
      unfold Quat.length Quat.lengthSq
      rw [show (0 : ℝ) * 0 + 0 * 0 + 0 * 0 + √2 * (1 / 2) * (√2 * (1 / 2)) = (√2 * (1 / 2)) ^ 2 by ring, Real.sqrt_sq (by positivity)]
    have g : ¬ √2 * (1 / 2) < (1 / 10000 : ℝ) := by
      have : (1 : ℝ) ≤ √2 := Real.one_le_sqrt.2 (by norm_num)
      linarith
    unfold Quat.ofMat3 Quat.normalize
    rw [raw, l, if_neg g]
    simp only [Quat.smul, Quat.identity, Quat.mk.injEq]
    refine ⟨by ring, by ring, by ring, by field_simp⟩
  refine ⟨fun h => ?_, q⟩
  have hs : 0 ≤ (Mat34.decomposeQuat (!![-1, 0, 0, 0; 0, 1, 0, 0; 0, 0, 1, 0] : Mat34 ℝ)).2.2.x := Real.sqrt_nonneg _
  have := congrFun (congrFun h 0) 0
  unfold Mat34.fromTRSQuat at this
  rw [q] at this
  have t := (Mat34.fromTRS_isTRS (Mat34.decomposeQuat (!![-1, 0, 0, 0; 0, 1, 0, 0; 0, 0, 1, 0] : Mat34 ℝ)).1 (Quat.toFloat3x3 Quat.identity)
    (Mat34.decomposeQuat (!![-1, 0, 0, 0; 0, 1, 0, 0; 0, 0, 1, 0] : Mat34 ℝ)).2.2).1 0 0
  rw [Matrix.mul_diagonal] at t
  have u := t.symm.trans this
  simp [Quat.toFloat3x3, Quat.identity, V3.toFun] at u
  linarith

end MGL
