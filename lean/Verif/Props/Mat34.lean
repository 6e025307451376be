import Verif.Proofs.Mat4

/-! C38: `float3x4`, read as the affine map with 4x4 matrix `Spec.affine M`. -/

namespace MGL
variable {α : Type*}

section Ring
variable [CommRing α]

/-- C38. `MulPos`, `MulDir` and `operator *(float4)` multiply the homogeneous point, direction and
4-vector by the 4x4 matrix with last row `(0, 0, 0, 1)`. -/
theorem C38_transforms (m : Mat34 α) (v : V3 α) (w : F4 α) :
    (Mat34.mulPos m v).hpos = Matrix.mulVec (Spec.affine m) v.hpos ∧
    (Mat34.mulDir m v).hdir = Matrix.mulVec (Spec.affine m) v.hdir ∧
    Mat34.mulVec4 m w = Matrix.mulVec (Spec.affine m) w :=
  ⟨Mat34.mulPos_eq m v, Mat34.mulDir_eq m v, Mat34.mulVec4_eq m w⟩

/-- C38. `MulPos` is affine with linear part `MulDir` and translation `TranslatePart`; `MulDir` is linear. -/
theorem C38_affine (m : Mat34 α) (p q : V3 α) (s t : α) :
    Mat34.mulPos m (p + q) = Mat34.mulPos m p + Mat34.mulDir m q ∧
    Mat34.mulPos m p - Mat34.mulPos m q = Mat34.mulDir m (p - q) ∧
    Mat34.mulPos m 0 = Mat34.translatePart m ∧
    Mat34.mulPos m ((1 - t) • p + t • q) = (1 - t) • Mat34.mulPos m p + t • Mat34.mulPos m q ∧
    Mat34.mulDir m (s • p + t • q) = s • Mat34.mulDir m p + t • Mat34.mulDir m q := by
  refine ⟨?_, ?_, ?_, ?_, ?_⟩ <;> ext <;> simp [Mat34.mulPos, Mat34.mulDir, Mat34.translatePart] <;> ring

/-- C38. `operator *` is the product of the 4x4 matrices, associative with neutral `identity`, and it
composes: `(A * B).MulPos(v) = A.MulPos(B.MulPos(v))`. -/
theorem C38_mul (a b c : Mat34 α) (v : V3 α) :
    Spec.affine (Mat34.mul a b) = Spec.affine a * Spec.affine b ∧
    Mat34.mul (Mat34.mul a b) c = Mat34.mul a (Mat34.mul b c) ∧
    Mat34.mul Mat34.identity a = a ∧ Mat34.mul a Mat34.identity = a ∧
    Mat34.mulPos (Mat34.mul a b) v = Mat34.mulPos a (Mat34.mulPos b v) ∧
    Mat34.mulDir (Mat34.mul a b) v = Mat34.mulDir a (Mat34.mulDir b v) := by
  refine ⟨Mat34.mul_eq a b, ?_, ?_, ?_, Mat34.mulPos_mul a b v, ?_⟩
  · apply Spec.affine_inj; simp only [Mat34.mul_eq, Matrix.mul_assoc]
  · apply Spec.affine_inj; rw [Mat34.mul_eq, Mat34.affine_identity, Matrix.one_mul]
  · apply Spec.affine_inj; rw [Mat34.mul_eq, Mat34.affine_identity, Matrix.mul_one]
  · ext <;> simp [Mat34.mulDir, Mat34.mul] <;> ring

/-- C38. Products with a `float3x3` on either side agree with promoting it to a 4x4 matrix. -/
theorem C38_mul_mat3 (a : Mat34 α) (b : Mat3 α) :
    Spec.affine (Mat34.mulMat3 a b) = Spec.affine a * Spec.linear4 b ∧
    Spec.affine (Mat34.mat3Mul b a) = Spec.linear4 b * Spec.affine a ∧
    Spec.affine (Mat34.ofMat3 b) = Spec.linear4 b :=
  ⟨Mat34.mulMat3_eq a b, by rw [Mat34.mat3Mul, Mat34.mul_eq, Mat34.ofMat3_eq], Mat34.ofMat3_eq b⟩

/-- C38. `Determinant` is the determinant of the 3x3 part and is multiplicative. -/
theorem C38_determinant (a b : Mat34 α) :
    Mat34.determinant a = Matrix.det (Matrix.of fun i j : Fin 3 => a i j.castSucc) ∧
    Mat34.determinant (Mat34.mul a b) = Mat34.determinant a * Mat34.determinant b := by
  constructor
  · rw [Mat34.determinant_eq]; congr 1
    ext i j; fin_cases i <;> fin_cases j <;> rfl
  · simp [Mat34.determinant, Mat34.mul]; ring

/-- C38. `InverseOrthonormal` of a rigid transform undoes it, on both sides, for points and directions. -/
theorem C38_inverseOrthonormal (m : Mat34 α)
    (h : Spec.Orthonormal (Matrix.of fun i j : Fin 3 => m i j.castSucc)) (v : V3 α) :
    Mat34.mul (Mat34.inverseOrthonormal m) m = Mat34.identity ∧
    Mat34.mul m (Mat34.inverseOrthonormal m) = Mat34.identity ∧
    Mat34.mulPos (Mat34.inverseOrthonormal m) (Mat34.mulPos m v) = v ∧
    Mat34.mulPos m (Mat34.mulPos (Mat34.inverseOrthonormal m) v) = v := by
  have h2 : Mat34.mul m (Mat34.inverseOrthonormal m) = Mat34.identity := by
    have hr := mul_eq_one_comm.1 h
    have e : ∀ i j, m i 0 * m j 0 + m i 1 * m j 1 + m i 2 * m j 2 = if i = j then 1 else 0 := by
      intro i j
      have := congrFun (congrFun hr i) j
      rw [Matrix.mul_apply, Fin.sum_univ_three, Matrix.one_apply] at this
      exact this
    have e00 := e 0 0; have e01 := e 0 1; have e02 := e 0 2
    have e10 := e 1 0; have e11 := e 1 1; have e12 := e 1 2
    have e20 := e 2 0; have e21 := e 2 1; have e22 := e 2 2
    simp at e00 e01 e02 e10 e11 e12 e20 e21 e22
    ext i j
    fin_cases i <;> fin_cases j <;>
      simp [Mat34.mul, Mat34.inverseOrthonormal, Mat34.transpose3, Mat34.setTranslatePart, Mat34.mulDir,
        Mat34.identity, Mat.swapAt, Mat.setAt]
    · linear_combination e00
    · linear_combination e01
    · linear_combination e02
    · linear_combination (-m 0 3) * e00 - m 1 3 * e01 - m 2 3 * e02
    · linear_combination e10
    · linear_combination e11
    · linear_combination e12
    · linear_combination (-m 0 3) * e10 - m 1 3 * e11 - m 2 3 * e12
    · linear_combination e20
    · linear_combination e21
    · linear_combination e22
    · linear_combination (-m 0 3) * e20 - m 1 3 * e21 - m 2 3 * e22
  have h1 : Mat34.mul (Mat34.inverseOrthonormal m) m = Mat34.identity := by
    apply Spec.affine_inj
    have := congrArg Spec.affine h2
    rw [Mat34.mul_eq, Mat34.affine_identity] at this
    rw [Mat34.mul_eq, Mat34.affine_identity]
    exact mul_eq_one_comm.1 this
  refine ⟨h1, h2, ?_, ?_⟩
  · rw [← Mat34.mulPos_mul, h1, Mat34.mulPos_identity]
  · rw [← Mat34.mulPos_mul, h2, Mat34.mulPos_identity]

example : Spec.Orthonormal (Matrix.of fun i j : Fin 3 =>
    (!![3/5, -4/5, 0, 7; 4/5, 3/5, 0, 8; 0, 0, 1, 9] : Mat34 ℚ) i j.castSucc) := by
  unfold Spec.Orthonormal; decide +kernel

/-- C38. `FromTRS(t, R, s)` scales, then rotates, then translates. -/
theorem C38_fromTRS (t s : V3 α) (r : Mat3 α) (v : V3 α) :
    Mat34.mulPos (Mat34.fromTRS t r s) v = Mat3.mulVec r ⟨s.x * v.x, s.y * v.y, s.z * v.z⟩ + t := by
  ext <;> simp [Mat34.mulPos, Mat34.fromTRS, Mat34.mulScale, Mat34.translateMul, Mat34.setTranslatePart,
    Mat34.translatePart, Mat34.ofMat3, Mat34.ofParts, Mat3.mulVec, Mat.setAt] <;> ring

/-- C38. Rotating or scaling about a centre point fixes the centre and acts on offsets from it. -/
theorem C38_about_point (r : Mat3 α) (s c v : V3 α) :
    Mat34.mulPos (Mat34.aroundPoint r c) (c + v) = c + Mat3.mulVec r v ∧
    Mat34.mulPos (Mat34.scaleAround s c) (c + v) = c + ⟨s.x * v.x, s.y * v.y, s.z * v.z⟩ := by
  constructor <;> ext <;> simp [Mat34.mulPos, Mat34.aroundPoint, Mat34.scaleAround, Mat34.mulTranslate,
    Mat34.translateMul, Mat34.translateScale, Mat34.setTranslatePart,
    Mat34.translatePart, Mat34.ofMat3, Mat34.ofParts, Mat3.mulVec, Mat.setAt] <;> ring

/-- C38. `Mirror(Plane(n, d))` is the reflection in `{x | n·x = d}`: it fixes the plane pointwise,
moves every point along the normal to the opposite signed distance, and is its own inverse. -/
theorem C38_mirror (n : V3 α) (d : α) (hn : V3.dot n n = 1) (p : V3 α) :
    Mat34.mulPos (Mat34.mirror n d) p = p - (2 * (V3.dot n p - d)) • n ∧
    (V3.dot n p = d → Mat34.mulPos (Mat34.mirror n d) p = p) ∧
    V3.dot n (Mat34.mulPos (Mat34.mirror n d) p) - d = -(V3.dot n p - d) ∧
    Mat34.mulPos (Mat34.mirror n d) (Mat34.mulPos (Mat34.mirror n d) p) = p := by
  have key : ∀ p, Mat34.mulPos (Mat34.mirror n d) p = p - (2 * (V3.dot n p - d)) • n := by
    intro p; ext <;> simp [Mat34.mulPos, Mat34.mirror, Mat34.ofParts, Mat3.mirror, V3.dot] <;> ring
  have h3 : ∀ p, V3.dot n (Mat34.mulPos (Mat34.mirror n d) p) - d = -(V3.dot n p - d) := by
    intro p; rw [key]; simp only [V3.dot] at hn ⊢; simp
    linear_combination (-2 * (n.x * p.x + n.y * p.y + n.z * p.z - d)) * hn
  refine ⟨key p, ?_, h3 p, ?_⟩
  · intro h; rw [key, h]; ext <;> simp
  · rw [key (Mat34.mulPos _ p), h3 p, key]; ext <;> simp <;> ring

example := C38_mirror (⟨3/5, 0, 4/5⟩ : V3 ℚ) 2 (by norm_num [V3.dot])

/-- C38. `OrthographicProjection(Plane(n, d))` projects onto the plane along its normal. -/
theorem C38_project (n : V3 α) (d : α) (hn : V3.dot n n = 1) (p : V3 α) :
    Mat34.mulPos (Mat34.project n d) p = p - (V3.dot n p - d) • n ∧
    V3.dot n (Mat34.mulPos (Mat34.project n d) p) = d ∧
    (V3.dot n p = d → Mat34.mulPos (Mat34.project n d) p = p) := by
  have key : Mat34.mulPos (Mat34.project n d) p = p - (V3.dot n p - d) • n := by
    ext <;> simp [Mat34.mulPos, Mat34.project, Mat34.ofParts, Mat3.project, V3.dot] <;> ring
  refine ⟨key, ?_, ?_⟩
  · rw [key]; simp only [V3.dot] at hn ⊢; simp
    linear_combination (-(n.x * p.x + n.y * p.y + n.z * p.z - d)) * hn
  · intro h; rw [key, h]; ext <;> simp

example : V3.dot (⟨2/3, 1/3, 2/3⟩ : V3 ℚ) ⟨2/3, 1/3, 2/3⟩ = 1 := by decide +kernel

end Ring

section Field
variable [Field α] [LinearOrder α] [IsStrictOrderedRing α]

/-- C38. If the generic `Inverse()` returns true then the matrix has become the two-sided inverse, and
`MulPos` with it undoes `MulPos`. -/
theorem C38_inverse (m : Mat34 α) (eps : α) (he : 0 < eps) (ht : (Mat34.inverse m eps).2 = true) (v : V3 α) :
    Mat34.mul (Mat34.inverse m eps).1 m = Mat34.identity ∧
    Mat34.mul m (Mat34.inverse m eps).1 = Mat34.identity ∧
    Mat34.mulPos (Mat34.inverse m eps).1 (Mat34.mulPos m v) = v ∧
    Mat34.mulPos m (Mat34.mulPos (Mat34.inverse m eps).1 v) = v := by
  have hl : (Mat4.inverse (Mat4.ofMat34 m) eps).1 * Spec.affine m = 1 := by
    have := MatGen.inverseMatrix_left (Mat4.ofMat34 m) eps he ht
    rw [Mat4.ofMat34_eq] at this ⊢; exact this
  have hr : Spec.affine m * (Mat4.inverse (Mat4.ofMat34 m) eps).1 = 1 := mul_eq_one_comm.1 hl
  have hrow : ∀ j, (Mat4.inverse (Mat4.ofMat34 m) eps).1 3 j = if j = 3 then 1 else 0 := by
    intro j
    have := congrFun (congrFun hr 3) j
    rw [Matrix.mul_apply, Fin.sum_univ_four, Matrix.one_apply] at this
    simp [Spec.affine] at this
    rw [this]; simp only [eq_comm]
  have he' : Spec.affine (Mat34.inverse m eps).1 = (Mat4.inverse (Mat4.ofMat34 m) eps).1 := by
    simp only [Mat34.inverse]
    generalize (Mat4.inverse (Mat4.ofMat34 m) eps).1 = A at hrow
    ext i j
    have h3 := hrow j
    fin_cases i <;> fin_cases j <;> simp [Spec.affine, Mat4.float3x4Part] at h3 ⊢ <;> exact h3.symm
  have h1 : Mat34.mul (Mat34.inverse m eps).1 m = Mat34.identity := by
    apply Spec.affine_inj; rw [Mat34.mul_eq, he', hl, Mat34.affine_identity]
  have h2 : Mat34.mul m (Mat34.inverse m eps).1 = Mat34.identity := by
    apply Spec.affine_inj; rw [Mat34.mul_eq, he', hr, Mat34.affine_identity]
  exact ⟨h1, h2, by rw [← Mat34.mulPos_mul, h1, Mat34.mulPos_identity],
    by rw [← Mat34.mulPos_mul, h2, Mat34.mulPos_identity]⟩

example : (Mat34.inverse (!![0, 2, 0, 1; 1, 0, 3, 2; 0, 1, 4, 3] : Mat34 ℚ)).2 = true := by decide +kernel

/-- C38. The generic `Inverse()` returns false when the 3x3 part is singular, and true for every affine
map with non-singular 3x3 part once the tolerance is small enough. -/
theorem C38_inverse_success (m : Mat34 α) :
    (Mat34.determinant m = 0 → ∀ eps, 0 < eps → (Mat34.inverse m eps).2 = false) ∧
    (Mat34.determinant m ≠ 0 → ∃ δ > 0, ∀ eps, 0 < eps → eps ≤ δ → (Mat34.inverse m eps).2 = true) := by
  have hd : Matrix.det (Mat4.ofMat34 m) = Mat34.determinant m := by
    rw [← Mat4.determinant4_eq]
    simp [Mat4.determinant4, Mat4.minor, Mat4.skipNum, Mat4.ofMat34, Mat34.determinant]; ring
  constructor
  · intro h eps he
    by_contra hc
    have := (C38_determinant (Mat34.inverse m eps).1 m).2
    rw [(C38_inverse m eps he (by simpa using hc) 0).1, h, mul_zero] at this
    simp [Mat34.determinant, Mat34.identity] at this
  · intro h
    rw [← hd] at h
    exact MatGen.inverseMatrix_progress _ h

/-- C38. `InverseColOrthogonal` (translate, rotate, possibly non-uniform scale): fails exactly when a
column of the 3x3 part has squared length below 1e-8, and otherwise undoes the transform. -/
theorem C38_inverseColOrthogonal (m : Mat34 α)
    (ho : Spec.ColOrthogonal (Matrix.of fun i j : Fin 3 => m i j.castSucc)) :
    (Mat34.inverseColOrthogonal m = none ↔
      ∃ j : Fin 3, m 0 j.castSucc ^ 2 + m 1 j.castSucc ^ 2 + m 2 j.castSucc ^ 2 < 1 / 100000000) ∧
    ∀ i, Mat34.inverseColOrthogonal m = some i →
      Mat34.mul i m = Mat34.identity ∧ Mat34.mul m i = Mat34.identity := by
  have h01 := ho 0 1 (by decide)
  have h02 := ho 0 2 (by decide)
  have h12 := ho 1 2 (by decide)
  simp only [Matrix.of_apply] at h01 h02 h12
  change m 0 0 * m 0 1 + m 1 0 * m 1 1 + m 2 0 * m 2 1 = 0 at h01
  change m 0 0 * m 0 2 + m 1 0 * m 1 2 + m 2 0 * m 2 2 = 0 at h02
  change m 0 1 * m 0 2 + m 1 1 * m 1 2 + m 2 1 * m 2 2 = 0 at h12
  by_cases h : m 0 0 * m 0 0 + m 1 0 * m 1 0 + m 2 0 * m 2 0 < 1 / 100000000 ∨
      m 0 1 * m 0 1 + m 1 1 * m 1 1 + m 2 1 * m 2 1 < 1 / 100000000 ∨
      m 0 2 * m 0 2 + m 1 2 * m 1 2 + m 2 2 * m 2 2 < 1 / 100000000
  · have e : Mat34.inverseColOrthogonal m = none := if_pos h
    rw [e]
    refine ⟨⟨fun _ => ?_, fun _ => rfl⟩, by simp⟩
    rcases h with h | h | h
    · exact ⟨0, by change m 0 0 ^ 2 + m 1 0 ^ 2 + m 2 0 ^ 2 < _; linarith⟩
    · exact ⟨1, by change m 0 1 ^ 2 + m 1 1 ^ 2 + m 2 1 ^ 2 < _; linarith⟩
    · exact ⟨2, by change m 0 2 ^ 2 + m 1 2 ^ 2 + m 2 2 ^ 2 < _; linarith⟩
  · have e : ∃ k0 k1 k2 : α, k0 * (m 0 0 * m 0 0 + m 1 0 * m 1 0 + m 2 0 * m 2 0) = 1 ∧
        k1 * (m 0 1 * m 0 1 + m 1 1 * m 1 1 + m 2 1 * m 2 1) = 1 ∧
        k2 * (m 0 2 * m 0 2 + m 1 2 * m 1 2 + m 2 2 * m 2 2) = 1 ∧
        Mat34.inverseColOrthogonal m = some !![m 0 0 * k0, m 1 0 * k0, m 2 0 * k0,
            m 0 0 * k0 * -m 0 3 + m 1 0 * k0 * -m 1 3 + m 2 0 * k0 * -m 2 3;
          m 0 1 * k1, m 1 1 * k1, m 2 1 * k1,
            m 0 1 * k1 * -m 0 3 + m 1 1 * k1 * -m 1 3 + m 2 1 * k1 * -m 2 3;
          m 0 2 * k2, m 1 2 * k2, m 2 2 * k2,
            m 0 2 * k2 * -m 0 3 + m 1 2 * k2 * -m 1 3 + m 2 2 * k2 * -m 2 3] := by
      have hn := h
      push Not at hn
      obtain ⟨g0, g1, g2⟩ := hn
      refine ⟨_, _, _, one_div_mul_cancel ?_, one_div_mul_cancel ?_, one_div_mul_cancel ?_, ?_⟩
      · intro h0; rw [h0] at g0; norm_num at g0
      · intro h0; rw [h0] at g1; norm_num at g1
      · intro h0; rw [h0] at g2; norm_num at g2
      · refine (if_neg h).trans (congrArg some ?_)
        ext i j
        fin_cases i <;> fin_cases j <;>
          simp [Mat34.transpose3, Mat34.setTranslatePart, Mat34.mulDir, Mat.swapAt, Mat.setAt, V3.lenSq, V3.dot]
    obtain ⟨k0, k1, k2, e0, e1, e2, e⟩ := e
    rw [e]
    refine ⟨⟨by simp, ?_⟩, ?_⟩
    · rintro ⟨j, hj⟩
      exfalso
      apply h
      fin_cases j
      · left; change m 0 0 ^ 2 + m 1 0 ^ 2 + m 2 0 ^ 2 < _ at hj; linarith
      · right; left; change m 0 1 ^ 2 + m 1 1 ^ 2 + m 2 1 ^ 2 < _ at hj; linarith
      · right; right; change m 0 2 ^ 2 + m 1 2 ^ 2 + m 2 2 ^ 2 < _ at hj; linarith
    · intro i hi
      simp only [Option.some.injEq] at hi
      have h1 : Mat34.mul i m = Mat34.identity := by
        rw [← hi]
        ext a b
        fin_cases a <;> fin_cases b <;> simp [Mat34.mul, Mat34.identity]
        · linear_combination e0
        · linear_combination k0 * h01
        · linear_combination k0 * h02
        · ring
        · linear_combination k1 * h01
        · linear_combination e1
        · linear_combination k1 * h12
        · ring
        · linear_combination k2 * h02
        · linear_combination k2 * h12
        · linear_combination e2
        · ring
      refine ⟨h1, ?_⟩
      apply Spec.affine_inj
      have := congrArg Spec.affine h1
      rw [Mat34.mul_eq, Mat34.affine_identity] at this ⊢
      exact mul_eq_one_comm.1 this

example : Spec.ColOrthogonal (Matrix.of fun i j : Fin 3 =>
      (!![3, -8, 0, 5; 4, 6, 0, 6; 0, 0, 1, 7] : Mat34 ℚ) i j.castSucc) ∧
    Mat34.inverseColOrthogonal (!![3, -8, 0, 5; 4, 6, 0, 6; 0, 0, 1, 7] : Mat34 ℚ) ≠ none := by
  unfold Spec.ColOrthogonal; decide +kernel

/-- C38. `InverseOrthogonalUniformScale` (translate, rotate, uniform scale `s`, `s² = q`): returns false
exactly when the scale is zero, and otherwise undoes the transform. -/
theorem C38_inverseOrthogonalUniformScale (m : Mat34 α) (q : α)
    (h : (Matrix.of fun i j : Fin 3 => m i j.castSucc).transpose * (Matrix.of fun i j : Fin 3 => m i j.castSucc)
      = Matrix.diagonal (fun _ => q)) :
    ((Mat34.inverseOrthogonalUniformScale m).2 = false ↔ q = 0) ∧
    ((Mat34.inverseOrthogonalUniformScale m).2 = true →
      Mat34.mul (Mat34.inverseOrthogonalUniformScale m).1 m = Mat34.identity ∧
      Mat34.mul m (Mat34.inverseOrthogonalUniformScale m).1 = Mat34.identity) := by
  have c : ∀ i j : Fin 3, m 0 i.castSucc * m 0 j.castSucc + m 1 i.castSucc * m 1 j.castSucc +
      m 2 i.castSucc * m 2 j.castSucc = if i = j then q else 0 := by
    intro i j
    have := congrFun (congrFun h i) j
    rw [Matrix.mul_apply, Fin.sum_univ_three, Matrix.diagonal_apply] at this
    exact this
  have c00 : m 0 0 * m 0 0 + m 1 0 * m 1 0 + m 2 0 * m 2 0 = q := c 0 0
  have c01 : m 0 0 * m 0 1 + m 1 0 * m 1 1 + m 2 0 * m 2 1 = 0 := c 0 1
  have c02 : m 0 0 * m 0 2 + m 1 0 * m 1 2 + m 2 0 * m 2 2 = 0 := c 0 2
  have c11 : m 0 1 * m 0 1 + m 1 1 * m 1 1 + m 2 1 * m 2 1 = q := c 1 1
  have c12 : m 0 1 * m 0 2 + m 1 1 * m 1 2 + m 2 1 * m 2 2 = 0 := c 1 2
  have c22 : m 0 2 * m 0 2 + m 1 2 * m 1 2 + m 2 2 * m 2 2 = q := c 2 2
  -- the first row has the same squared length as the columns
  have hrow : m 0 0 * m 0 0 + m 0 1 * m 0 1 + m 0 2 * m 0 2 = q := by
    by_cases hq : q = 0
    · subst hq
      have z00 : m 0 0 = 0 := by nlinarith [mul_self_nonneg (m 0 0), mul_self_nonneg (m 1 0), mul_self_nonneg (m 2 0)]
      have z01 : m 0 1 = 0 := by nlinarith [mul_self_nonneg (m 0 1), mul_self_nonneg (m 1 1), mul_self_nonneg (m 2 1)]
      have z02 : m 0 2 = 0 := by nlinarith [mul_self_nonneg (m 0 2), mul_self_nonneg (m 1 2), mul_self_nonneg (m 2 2)]
      rw [z00, z01, z02]; ring
    · have hN : ((1 / q) • (Matrix.of fun i j : Fin 3 => m i j.castSucc).transpose) *
          (Matrix.of fun i j : Fin 3 => m i j.castSucc) = 1 := by
        rw [Matrix.smul_mul, h]
        ext i j
        rw [Matrix.smul_apply, Matrix.diagonal_apply, Matrix.one_apply]
        split_ifs <;> simp [hq]
      have hN' := mul_eq_one_comm.1 hN
      have := congrFun (congrFun hN' 0) 0
      rw [Matrix.mul_smul, Matrix.smul_apply, Matrix.mul_apply, Fin.sum_univ_three, Matrix.one_apply] at this
      change (1 / q) * (m 0 0 * m 0 0 + m 0 1 * m 0 1 + m 0 2 * m 0 2) = 1 at this
      field_simp at this
      linear_combination this
  have hs : V3.lenSq (⟨Mat34.transpose3 m 0 0, Mat34.transpose3 m 1 0, Mat34.transpose3 m 2 0⟩ : V3 α) = q := by
    rw [← hrow]; simp [V3.lenSq, V3.dot, Mat34.transpose3, Mat.swapAt, Mat.setAt]
  unfold Mat34.inverseOrthogonalUniformScale
  simp only [hs]
  by_cases hq : q = 0
  · simp [hq]
  · simp only [if_neg hq]
    refine ⟨by simp [hq], fun _ => ?_⟩
    have hk : (1 / q) * q = 1 := one_div_mul_cancel hq
    generalize 1 / q = k at hk
    have key : ∀ X : Mat34 α, Mat34.mul X m = Mat34.identity → Mat34.mul X m = Mat34.identity ∧
        Mat34.mul m X = Mat34.identity := by
      intro X h1
      refine ⟨h1, ?_⟩
      apply Spec.affine_inj
      have := congrArg Spec.affine h1
      rw [Mat34.mul_eq, Mat34.affine_identity] at this ⊢
      exact mul_eq_one_comm.1 this
    apply key
    ext a b
    fin_cases a <;> fin_cases b <;> simp [Mat34.mul, Mat34.identity, Mat34.transpose3, Mat34.setTranslatePart,
      Mat34.mulDir, Mat.swapAt, Mat.setAt]
    · linear_combination k * c00 + hk
    · linear_combination k * c01
    · linear_combination k * c02
    · ring
    · linear_combination k * c01
    · linear_combination k * c11 + hk
    · linear_combination k * c12
    · ring
    · linear_combination k * c02
    · linear_combination k * c12
    · linear_combination k * c22 + hk
    · ring

example : (Matrix.of fun i j : Fin 3 => (!![3, -4, 0, 5; 4, 3, 0, 6; 0, 0, 5, 7] : Mat34 ℚ) i j.castSucc).transpose *
    (Matrix.of fun i j : Fin 3 => (!![3, -4, 0, 5; 4, 3, 0, 6; 0, 0, 5, 7] : Mat34 ℚ) i j.castSucc)
      = Matrix.diagonal (fun _ => 25) := by decide +kernel

end Field
end MGL
