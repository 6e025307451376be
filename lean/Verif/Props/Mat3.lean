import Verif.Proofs.Mat3

/-! C37: `float3x3`. Reference notions: Mathlib's matrix product, determinant, transpose. -/

namespace MGL
variable {α : Type*}

section Ring
variable [CommRing α]

/-- C37. `M * v` is the product of the matrix with the column `v`. -/
theorem C37_mulVec_is_matrix_vector_product (m : Mat3 α) (v : V3 α) :
    (Mat3.mulVec m v).toFun = Matrix.mulVec m v.toFun := Mat3.mulVec_eq m v

/-- C37. `v * M` (`TransformLeft`) is the product of the row `v` with the matrix. -/
theorem C37_vecMul_is_vector_matrix_product (m : Mat3 α) (v : V3 α) :
    (Mat3.transformLeft m v).toFun = Matrix.vecMul v.toFun m := Mat3.transformLeft_eq m v

/-- C37. `M * v` is linear in `v`. -/
theorem C37_mulVec_linear (m : Mat3 α) (s t : α) (u v : V3 α) :
    Mat3.mulVec m (s • u + t • v) = s • Mat3.mulVec m u + t • Mat3.mulVec m v := by
  ext <;> simp [Mat3.mulVec] <;> ring

/-- C37. `A * B` is the matrix product. -/
theorem C37_mul_is_matrix_product (a b : Mat3 α) : Mat3.mul a b = (a * b : Matrix (Fin 3) (Fin 3) α) :=
  Mat3.mul_eq a b

/-- C37. `(A * B) * v = A * (B * v)`: the product is the composition of the two transforms. -/
theorem C37_mul_composes (a b : Mat3 α) (v : V3 α) :
    Mat3.mulVec (Mat3.mul a b) v = Mat3.mulVec a (Mat3.mulVec b v) := Mat3.mulVec_mul a b v

/-- C37. The product is associative and `identity` is neutral on both sides. -/
theorem C37_mul_monoid (a b c : Mat3 α) :
    Mat3.mul (Mat3.mul a b) c = Mat3.mul a (Mat3.mul b c) ∧
    Mat3.mul Mat3.identity a = a ∧ Mat3.mul a Mat3.identity = a := by
  simp only [Mat3.mul_eq, Mat3.identity_eq]
  exact ⟨Matrix.mul_assoc a b c, Matrix.one_mul a, Matrix.mul_one a⟩

/-- C37. `Determinant` is the determinant, hence multiplicative. -/
theorem C37_determinant (a b : Mat3 α) :
    Mat3.determinant a = Matrix.det a ∧
    Mat3.determinant (Mat3.mul a b) = Mat3.determinant a * Mat3.determinant b := by
  rw [Mat3.determinant_eq, Mat3.determinant_eq, Mat3.determinant_eq, Mat3.mul_eq]
  exact ⟨rfl, Matrix.det_mul a b⟩

/-- C37. `DeterminantSymmetric` equals `Determinant` on every symmetric matrix. -/
theorem C37_determinantSymmetric (m : Mat3 α) (h : Matrix.transpose m = m) :
    Mat3.determinantSymmetric m = Matrix.det m := by
  have h10 : m 1 0 = m 0 1 := congrFun (congrFun h 0) 1
  have h20 : m 2 0 = m 0 2 := congrFun (congrFun h 0) 2
  have h21 : m 2 1 = m 1 2 := congrFun (congrFun h 1) 2
  rw [Matrix.det_fin_three, Mat3.determinantSymmetric, h10, h20, h21]; ring

example : Matrix.transpose (!![1, 2, 3; 2, 5, 4; 3, 4, 7] : Mat3 ℤ) = !![1, 2, 3; 2, 5, 4; 3, 4, 7] := by
  decide

/-- C37. `Transpose` exchanges rows and columns, and reverses products. -/
theorem C37_transpose (a b : Mat3 α) :
    (∀ i j, Mat3.transpose a i j = a j i) ∧
    Mat3.transpose (Mat3.mul a b) = Mat3.mul (Mat3.transpose b) (Mat3.transpose a) := by
  simp only [Mat3.mul_eq, Mat3.transpose_eq]
  exact ⟨fun i j => rfl, Matrix.transpose_mul a b⟩

/-- C37. `InverseOrthonormal` of a matrix with orthonormal columns is its two-sided inverse. -/
theorem C37_inverseOrthonormal (m : Mat3 α) (h : Spec.Orthonormal m) :
    Mat3.mul (Mat3.inverseOrthonormal m) m = Mat3.identity ∧
    Mat3.mul m (Mat3.inverseOrthonormal m) = Mat3.identity := by
  simp only [Mat3.mul_eq, Mat3.inverseOrthonormal, Mat3.transpose_eq, Mat3.identity_eq]
  exact ⟨h, mul_eq_one_comm.1 h⟩

example : Spec.Orthonormal (!![3/5, -4/5, 0; 4/5, 3/5, 0; 0, 0, 1] : Mat3 ℚ) := by
  unfold Spec.Orthonormal; decide +kernel

/-- C37. `Scale(s)` multiplies the components by the factors. -/
theorem C37_scale (s v : V3 α) : Mat3.mulVec (Mat3.scale s) v = ⟨s.x * v.x, s.y * v.y, s.z * v.z⟩ := by
  ext <;> simp [Mat3.mulVec, Mat3.scale]

/-- C37. `ShearX/Y/Z` add multiples of the two other coordinates to one coordinate. -/
theorem C37_shear (a b : α) (v : V3 α) :
    Mat3.mulVec (Mat3.shearX a b) v = ⟨v.x + a * v.y + b * v.z, v.y, v.z⟩ ∧
    Mat3.mulVec (Mat3.shearY a b) v = ⟨v.x, v.y + a * v.x + b * v.z, v.z⟩ ∧
    Mat3.mulVec (Mat3.shearZ a b) v = ⟨v.x, v.y, v.z + a * v.x + b * v.y⟩ := by
  refine ⟨?_, ?_, ?_⟩ <;> ext <;> simp [Mat3.mulVec, Mat3.shearX, Mat3.shearY, Mat3.shearZ] <;> ring

/-- C37. `Mirror(Plane(n, 0))` is the reflection `v ↦ v - 2 (n·v) n`: it fixes the plane, negates the
normal, is its own inverse, preserves dot products and reverses orientation. -/
theorem C37_mirror (n : V3 α) (hn : V3.dot n n = 1) (u v : V3 α) :
    Mat3.mulVec (Mat3.mirror n) v = v - (2 * V3.dot n v) • n ∧
    (V3.dot n v = 0 → Mat3.mulVec (Mat3.mirror n) v = v) ∧
    Mat3.mulVec (Mat3.mirror n) n = -n ∧
    Mat3.mulVec (Mat3.mirror n) (Mat3.mulVec (Mat3.mirror n) v) = v ∧
    V3.dot (Mat3.mulVec (Mat3.mirror n) u) (Mat3.mulVec (Mat3.mirror n) v) = V3.dot u v ∧
    Matrix.det (Mat3.mirror n) = -1 := by
  have key : ∀ v, Mat3.mulVec (Mat3.mirror n) v = v - (2 * V3.dot n v) • n := by
    intro v; ext <;> simp [Mat3.mulVec, Mat3.mirror, V3.dot] <;> ring
  simp only [V3.dot] at hn
  refine ⟨key v, ?_, ?_, ?_, ?_, ?_⟩
  · intro h; rw [key, h]; ext <;> simp
  · rw [key]; ext <;> simp [V3.dot, hn] <;> ring
  · rw [key, key]
    ext <;> simp [V3.dot]
    · linear_combination (4 * (n.x * v.x + n.y * v.y + n.z * v.z) * n.x) * hn
    · linear_combination (4 * (n.x * v.x + n.y * v.y + n.z * v.z) * n.y) * hn
    · linear_combination (4 * (n.x * v.x + n.y * v.y + n.z * v.z) * n.z) * hn
  · rw [key, key]; simp [V3.dot]
    linear_combination (4 * (n.x * u.x + n.y * u.y + n.z * u.z) * (n.x * v.x + n.y * v.y + n.z * v.z)) * hn
  · rw [Matrix.det_fin_three]; simp [Mat3.mirror]; linear_combination (-2) * hn

example := C37_mirror (⟨3/5, 0, 4/5⟩ : V3 ℚ) (by norm_num [V3.dot])

/-- C37. `OrthographicProjection(Plane(n, 0))` is `v ↦ v - (n·v) n`: the image lies in the plane, the
plane is fixed, so the map is idempotent. -/
theorem C37_project (n : V3 α) (hn : V3.dot n n = 1) (v : V3 α) :
    Mat3.mulVec (Mat3.project n) v = v - V3.dot n v • n ∧
    V3.dot n (Mat3.mulVec (Mat3.project n) v) = 0 ∧
    (V3.dot n v = 0 → Mat3.mulVec (Mat3.project n) v = v) ∧
    Mat3.mulVec (Mat3.project n) (Mat3.mulVec (Mat3.project n) v) = Mat3.mulVec (Mat3.project n) v := by
  have key : ∀ v, Mat3.mulVec (Mat3.project n) v = v - V3.dot n v • n := by
    intro v; ext <;> simp [Mat3.mulVec, Mat3.project, V3.dot] <;> ring
  have h0 : V3.dot n (Mat3.mulVec (Mat3.project n) v) = 0 := by
    rw [key]; simp only [V3.dot] at hn ⊢; simp
    linear_combination (-(n.x * v.x + n.y * v.y + n.z * v.z)) * hn
  have h1 : ∀ v, V3.dot n v = 0 → Mat3.mulVec (Mat3.project n) v = v := by
    intro v h; rw [key, h]; ext <;> simp
  exact ⟨key v, h0, h1 v, h1 _ h0⟩

example : V3.dot (⟨2/3, 1/3, 2/3⟩ : V3 ℚ) ⟨2/3, 1/3, 2/3⟩ = 1 := by decide +kernel

end Ring

/-- C37 is violated by `ScaleAlongAxis`: documented as a scale by `f` along `axis` that leaves the
directions perpendicular to it alone, it collapses them. Along `x` by 2, `y` is sent to 0. -/
theorem C60_scaleAlongAxis_violation :
    Mat3.mulVec (Mat3.scaleAlongAxis ⟨1, 0, 0⟩ (2 : ℚ)) ⟨0, 1, 0⟩ = 0 := by decide +kernel

section Field
variable [Field α] [LinearOrder α] [IsStrictOrderedRing α]

/-- C37. If `Inverse()` returns true, the matrix has become the two-sided inverse of the original, for
every positive tolerance. If it returns false, the matrix is unchanged. -/
theorem C37_inverse (m : Mat3 α) (eps : α) (he : 0 < eps) :
    ((Mat3.inverse m eps).2 = true →
      Mat3.mul (Mat3.inverse m eps).1 m = Mat3.identity ∧ Mat3.mul m (Mat3.inverse m eps).1 = Mat3.identity) ∧
    ((Mat3.inverse m eps).2 = false → (Mat3.inverse m eps).1 = m) := by
  unfold Mat3.inverse
  by_cases h : (MatGen.inverseMatrix m eps).2 = true
  · simp only [h, if_true, true_implies, Bool.true_eq_false, false_implies, and_true]
    simp only [Mat3.mul_eq, Mat3.identity_eq]
    have := MatGen.inverseMatrix_left m eps he h
    exact ⟨this, mul_eq_one_comm.1 this⟩
  · simp [h]

example : (Mat3.inverse (!![0, 2, 0; 1, 0, 3; 0, 1, 4] : Mat3 ℚ)).2 = true ∧
    (Mat3.inverse (!![0, 2, 0; 1, 0, 3; 0, 1, 4] : Mat3 ℚ)).1 = !![3/8, 1, -3/4; 1/2, 0, 0; -1/8, 0, 1/4] := by
  decide +kernel

/-- C37. `Inverse()` undoes the transform: `M⁻¹ * (M * v) = v`, `M * (M⁻¹ * v) = v`. -/
theorem C37_inverse_undoes (m : Mat3 α) (eps : α) (he : 0 < eps) (ht : (Mat3.inverse m eps).2 = true) (v : V3 α) :
    Mat3.mulVec (Mat3.inverse m eps).1 (Mat3.mulVec m v) = v ∧
    Mat3.mulVec m (Mat3.mulVec (Mat3.inverse m eps).1 v) = v := by
  obtain ⟨h1, h2⟩ := (C37_inverse m eps he).1 ht
  rw [← Mat3.mulVec_mul, ← Mat3.mulVec_mul, h1, h2, Mat3.mulVec_identity]; exact ⟨rfl, rfl⟩

example := C37_inverse_undoes (!![0, 2, 0; 1, 0, 3; 0, 1, 4] : Mat3 ℚ) (1/1000) (by norm_num) (by decide +kernel)

/-- C37. `Inverse()` returns false on every singular matrix, and true on every non-singular one once the
tolerance is small enough. -/
theorem C37_inverse_success (m : Mat3 α) :
    (Matrix.det m = 0 → ∀ eps, 0 < eps → (Mat3.inverse m eps).2 = false) ∧
    (Matrix.det m ≠ 0 → ∃ δ > 0, ∀ eps, 0 < eps → eps ≤ δ → (Mat3.inverse m eps).2 = true) := by
  constructor
  · intro hd eps he
    by_contra h
    have h1 := ((C37_inverse m eps he).1 (by simpa using h)).1
    rw [Mat3.mul_eq, Mat3.identity_eq] at h1
    have := congrArg Matrix.det h1
    rw [Matrix.det_mul, hd, mul_zero, Matrix.det_one] at this
    exact zero_ne_one this
  · intro hd
    obtain ⟨δ, h0, h1⟩ := MatGen.inverseMatrix_progress m hd
    exact ⟨δ, h0, fun eps he hle => by simp [Mat3.inverse, h1 eps he hle]⟩

/-- C37. `InverseFast` (Cramer's rule) fails exactly when the determinant is within the tolerance of
zero, and otherwise yields the two-sided inverse. -/
theorem C37_inverseFast (m : Mat3 α) (eps : α) (he : 0 < eps) :
    (Mat3.inverseFast m eps = none ↔ |Matrix.det m| < eps) ∧
    ∀ i, Mat3.inverseFast m eps = some i → Mat3.mul i m = Mat3.identity ∧ Mat3.mul m i = Mat3.identity := by
  have hdet := Mat3.determinant_eq m
  unfold Mat3.inverseFast
  simp only [equalAbs, absF_eq, sub_zero, decide_eq_true_eq, hdet]
  by_cases h : |Matrix.det m| < eps
  · simp [h]
  · rw [if_neg h]
    refine ⟨by simp [h], ?_⟩
    intro i hi
    have hne : Matrix.det m ≠ 0 := by
      intro h0; rw [h0, abs_zero] at h; exact h he
    simp only [Option.some.injEq] at hi
    have h1 : Mat3.mul m i = Mat3.identity := by
      rw [← hi]
      have hd := Matrix.det_fin_three m
      generalize Matrix.det m = d at *
      ext a b
      fin_cases a <;> fin_cases b <;> simp [Mat3.mul, Mat3.identity] <;> field_simp <;> rw [hd] <;> ring
    rw [Mat3.mul_eq, Mat3.identity_eq] at h1
    simp only [Mat3.mul_eq, Mat3.identity_eq]
    exact ⟨mul_eq_one_comm.1 h1, h1⟩

example : (Mat3.inverseFast (!![0, 2, 0; 1, 0, 3; 0, 1, 4] : Mat3 ℚ)) =
    some !![3/8, 1, -3/4; 1/2, 0, 0; -1/8, 0, 1/4] := by decide +kernel

/-- C37. `InverseSymmetric` on a symmetric matrix: fails exactly when the determinant is within 1e-4 of
zero, and otherwise yields the two-sided inverse. -/
theorem C37_inverseSymmetric (m : Mat3 α) (hs : Matrix.transpose m = m) :
    (Mat3.inverseSymmetric m = none ↔ |Matrix.det m| < 1 / 10000) ∧
    ∀ i, Mat3.inverseSymmetric m = some i → Mat3.mul i m = Mat3.identity ∧ Mat3.mul m i = Mat3.identity := by
  have h10 : m 1 0 = m 0 1 := congrFun (congrFun hs 0) 1
  have h20 : m 2 0 = m 0 2 := congrFun (congrFun hs 0) 2
  have h21 : m 2 1 = m 1 2 := congrFun (congrFun hs 1) 2
  have hd : m 0 0 * (m 1 1 * m 2 2 - m 1 2 * m 1 2) + m 0 1 * (m 0 2 * m 1 2 - m 0 1 * m 2 2) +
      m 0 2 * (m 0 1 * m 1 2 - m 1 1 * m 0 2) = Matrix.det m := by
    rw [Matrix.det_fin_three, h10, h20, h21]; ring
  unfold Mat3.inverseSymmetric
  simp only [equalAbs, absF_eq, sub_zero, decide_eq_true_eq, hd]
  by_cases h : |Matrix.det m| < 1 / 10000
  · rw [if_pos h]; exact ⟨⟨fun _ => h, fun _ => rfl⟩, by simp⟩
  · rw [if_neg h]
    refine ⟨by simp only [reduceCtorEq, false_iff]; exact h, ?_⟩
    intro i hi
    have hne : Matrix.det m ≠ 0 := by
      intro h0; rw [h0, abs_zero] at h; exact h (by norm_num)
    simp only [Option.some.injEq] at hi
    have h1 : Mat3.mul m i = Mat3.identity := by
      rw [← hi]
      generalize Matrix.det m = d at *
      ext a b
      fin_cases a <;> fin_cases b <;> simp [Mat3.mul, Mat3.identity, h10, h20, h21] <;> field_simp <;>
        (try rw [← hd]) <;> ring
    rw [Mat3.mul_eq, Mat3.identity_eq] at h1
    simp only [Mat3.mul_eq, Mat3.identity_eq]
    exact ⟨mul_eq_one_comm.1 h1, h1⟩

example : Mat3.inverseSymmetric (!![2, 1, 0; 1, 2, 0; 0, 0, 1] : Mat3 ℚ) =
    some !![2/3, -1/3, 0; -1/3, 2/3, 0; 0, 0, 1] := by decide +kernel

/-- C37. `InverseColOrthogonal` on a matrix with pairwise orthogonal columns: fails exactly when some
column has squared length below 1e-8, and otherwise yields the two-sided inverse. -/
theorem C37_inverseColOrthogonal (m : Mat3 α) (ho : Spec.ColOrthogonal m) :
    (Mat3.inverseColOrthogonal m = none ↔ ∃ j, m 0 j ^ 2 + m 1 j ^ 2 + m 2 j ^ 2 < 1 / 100000000) ∧
    ∀ i, Mat3.inverseColOrthogonal m = some i → Mat3.mul i m = Mat3.identity ∧ Mat3.mul m i = Mat3.identity := by
  have h01 := ho 0 1 (by decide)
  have h02 := ho 0 2 (by decide)
  have h12 := ho 1 2 (by decide)
  by_cases h : m 0 0 * m 0 0 + m 1 0 * m 1 0 + m 2 0 * m 2 0 < 1 / 100000000 ∨
      m 0 1 * m 0 1 + m 1 1 * m 1 1 + m 2 1 * m 2 1 < 1 / 100000000 ∨
      m 0 2 * m 0 2 + m 1 2 * m 1 2 + m 2 2 * m 2 2 < 1 / 100000000
  · have e : Mat3.inverseColOrthogonal m = none := if_pos h
    rw [e]; refine ⟨⟨fun _ => ?_, fun _ => rfl⟩, by simp⟩
    rcases h with h | h | h
    · exact ⟨0, by linarith⟩
    · exact ⟨1, by linarith⟩
    · exact ⟨2, by linarith⟩
  · have e : Mat3.inverseColOrthogonal m = some
        !![m 0 0 * (1 / (m 0 0 * m 0 0 + m 1 0 * m 1 0 + m 2 0 * m 2 0)),
           m 1 0 * (1 / (m 0 0 * m 0 0 + m 1 0 * m 1 0 + m 2 0 * m 2 0)),
           m 2 0 * (1 / (m 0 0 * m 0 0 + m 1 0 * m 1 0 + m 2 0 * m 2 0));
           m 0 1 * (1 / (m 0 1 * m 0 1 + m 1 1 * m 1 1 + m 2 1 * m 2 1)),
           m 1 1 * (1 / (m 0 1 * m 0 1 + m 1 1 * m 1 1 + m 2 1 * m 2 1)),
           m 2 1 * (1 / (m 0 1 * m 0 1 + m 1 1 * m 1 1 + m 2 1 * m 2 1));
           m 0 2 * (1 / (m 0 2 * m 0 2 + m 1 2 * m 1 2 + m 2 2 * m 2 2)),
           m 1 2 * (1 / (m 0 2 * m 0 2 + m 1 2 * m 1 2 + m 2 2 * m 2 2)),
           m 2 2 * (1 / (m 0 2 * m 0 2 + m 1 2 * m 1 2 + m 2 2 * m 2 2))] := if_neg h
    rw [e]; push Not at h
    obtain ⟨g0, g1, g2⟩ := h
    refine ⟨⟨by simp, ?_⟩, ?_⟩
    · rintro ⟨j, hj⟩
      exfalso
      fin_cases j <;> simp at hj
      · nlinarith
      · nlinarith
      · nlinarith
    · intro i hi
      simp only [Option.some.injEq] at hi
      have n0 : m 0 0 * m 0 0 + m 1 0 * m 1 0 + m 2 0 * m 2 0 ≠ 0 := by
        intro h0; rw [h0] at g0; norm_num at g0
      have n1 : m 0 1 * m 0 1 + m 1 1 * m 1 1 + m 2 1 * m 2 1 ≠ 0 := by
        intro h0; rw [h0] at g1; norm_num at g1
      have n2 : m 0 2 * m 0 2 + m 1 2 * m 1 2 + m 2 2 * m 2 2 ≠ 0 := by
        intro h0; rw [h0] at g2; norm_num at g2
      clear e g0 g1 g2
      generalize e0 : m 0 0 * m 0 0 + m 1 0 * m 1 0 + m 2 0 * m 2 0 = q0 at *
      generalize e1 : m 0 1 * m 0 1 + m 1 1 * m 1 1 + m 2 1 * m 2 1 = q1 at *
      generalize e2 : m 0 2 * m 0 2 + m 1 2 * m 1 2 + m 2 2 * m 2 2 = q2 at *
      have h1 : Mat3.mul i m = Mat3.identity := by
        rw [← hi]
        ext a b
        fin_cases a <;> fin_cases b <;> simp [Mat3.mul, Mat3.identity] <;> field_simp <;> linarith
      rw [Mat3.mul_eq, Mat3.identity_eq] at h1
      simp only [Mat3.mul_eq, Mat3.identity_eq]
      exact ⟨h1, mul_eq_one_comm.1 h1⟩

example : Spec.ColOrthogonal (!![3, -8, 0; 4, 6, 0; 0, 0, 1] : Mat3 ℚ) ∧
    Mat3.inverseColOrthogonal (!![3, -8, 0; 4, 6, 0; 0, 0, 1] : Mat3 ℚ) ≠ none := by
  unfold Spec.ColOrthogonal; decide +kernel

/-- C37. `InverseOrthogonalUniformScale` on a matrix whose columns are pairwise orthogonal with equal
lengths `s`: fails exactly when `s² < 1e-8`, and otherwise yields the two-sided inverse. -/
theorem C37_inverseOrthogonalUniformScale (m : Mat3 α) (ho : Spec.ColOrthogonal m) (q : α)
    (hq : ∀ j, m 0 j ^ 2 + m 1 j ^ 2 + m 2 j ^ 2 = q) :
    (Mat3.inverseOrthogonalUniformScale m = none ↔ q < 1 / 100000000) ∧
    ∀ i, Mat3.inverseOrthogonalUniformScale m = some i →
      Mat3.mul i m = Mat3.identity ∧ Mat3.mul m i = Mat3.identity := by
  unfold Mat3.inverseOrthogonalUniformScale
  have h01 := ho 0 1 (by decide)
  have h02 := ho 0 2 (by decide)
  have h12 := ho 1 2 (by decide)
  have q0 := hq 0
  have q1 := hq 1
  have q2 := hq 2
  have hs : V3.lenSq (Mat3.col m 0) = q := by simp only [V3.lenSq, Mat3.col, V3.dot]; linarith
  simp only [hs]
  by_cases h : q < 1 / 100000000
  · rw [if_pos h]; exact ⟨⟨fun _ => h, fun _ => rfl⟩, by simp⟩
  · rw [if_neg h]; refine ⟨⟨by simp, fun h' => absurd h' h⟩, ?_⟩
    intro i hi
    replace hi := Option.some.inj hi
    have hn : q ≠ 0 := by intro h0; rw [h0] at h; exact h (by norm_num)
    have h1 : Mat3.mul i m = Mat3.identity := by
      rw [← hi]
      ext a b
      fin_cases a <;> fin_cases b <;> simp [Mat3.mul, Mat3.identity, Mat.swapAt, Mat.setAt] <;> field_simp <;>
        linarith
    rw [Mat3.mul_eq, Mat3.identity_eq] at h1
    simp only [Mat3.mul_eq, Mat3.identity_eq]
    exact ⟨h1, mul_eq_one_comm.1 h1⟩

example : Spec.ColOrthogonal (!![3, -4, 0; 4, 3, 0; 0, 0, 5] : Mat3 ℚ) ∧
    ∀ j, (!![3, -4, 0; 4, 3, 0; 0, 0, 5] : Mat3 ℚ) 0 j ^ 2 + (!![3, -4, 0; 4, 3, 0; 0, 0, 5] : Mat3 ℚ) 1 j ^ 2 +
      (!![3, -4, 0; 4, 3, 0; 0, 0, 5] : Mat3 ℚ) 2 j ^ 2 = 25 := by
  unfold Spec.ColOrthogonal; decide +kernel

end Field
end MGL
