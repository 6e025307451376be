import Verif.Model.Float4
import Verif.Proofs.Float3R

/-! Helper lemmas for `float4`. -/

namespace MGL.Float4
open V4

theorem lengthSq3_eq (v : V4 ℝ) : lengthSq3 v = V3.lenSq v.xyz := rfl
theorem lengthSq4_eq (v : V4 ℝ) : lengthSq4 v = lenSq v := rfl
theorem dot3_eq (a b : V4 ℝ) : dot3 a b = V3.dot a.xyz b.xyz := rfl
theorem dot4_eq (a b : V4 ℝ) : dot4 a b = dot a b := rfl

theorem lenSq_nonneg (v : V4 ℝ) : 0 ≤ lenSq v := by
  simp only [lenSq, dot]
  nlinarith [mul_self_nonneg v.x, mul_self_nonneg v.y, mul_self_nonneg v.z, mul_self_nonneg v.w]

theorem len_nonneg (v : V4 ℝ) : 0 ≤ len v := Real.sqrt_nonneg _

theorem len_mul_self (v : V4 ℝ) : len v * len v = lenSq v := Real.mul_self_sqrt (lenSq_nonneg v)

theorem lenSq_smul (t : ℝ) (v : V4 ℝ) : lenSq (t • v) = t * t * lenSq v := by
  simp only [lenSq, dot, smul_x, smul_y, smul_z, smul_w]; ring

theorem len_smul (t : ℝ) (v : V4 ℝ) : len (t • v) = |t| * len v := by
  unfold len; rw [lenSq_smul, Real.sqrt_mul (mul_self_nonneg t), Real.sqrt_mul_self_eq_abs]

theorem lenSq_eq_zero {v : V4 ℝ} (h : lenSq v = 0) : v = 0 := by
  simp only [lenSq, dot] at h
  have hx := mul_self_nonneg v.x
  have hy := mul_self_nonneg v.y
  have hz := mul_self_nonneg v.z
  have hw := mul_self_nonneg v.w
  ext
  · exact mul_self_eq_zero.1 (le_antisymm (by linarith) hx)
  · exact mul_self_eq_zero.1 (le_antisymm (by linarith) hy)
  · exact mul_self_eq_zero.1 (le_antisymm (by linarith) hz)
  · exact mul_self_eq_zero.1 (le_antisymm (by linarith) hw)

theorem lenSq_pos {v : V4 ℝ} (h : v ≠ 0) : 0 < lenSq v :=
  lt_of_le_of_ne (lenSq_nonneg v) fun h' => h (lenSq_eq_zero h'.symm)

theorem len_pos {v : V4 ℝ} (h : v ≠ 0) : 0 < len v := Real.sqrt_pos.2 (lenSq_pos h)

theorem dot_sq_le (a b : V4 ℝ) : dot a b * dot a b ≤ lenSq a * lenSq b := by
  simp only [lenSq, dot]
  nlinarith [mul_self_nonneg (a.x * b.y - a.y * b.x), mul_self_nonneg (a.x * b.z - a.z * b.x), mul_self_nonneg (a.x * b.w - a.w * b.x),
    mul_self_nonneg (a.y * b.z - a.z * b.y), mul_self_nonneg (a.y * b.w - a.w * b.y), mul_self_nonneg (a.z * b.w - a.w * b.z)]

theorem abs_dot_le (a b : V4 ℝ) : |dot a b| ≤ len a * len b := by
  apply abs_le_of_sq_le_sq _ (mul_nonneg (len_nonneg a) (len_nonneg b))
  have := dot_sq_le a b
  rw [← len_mul_self, ← len_mul_self] at this
  nlinarith

/-- A squared length above 1e-6 is a length above 1e-3. -/
theorem lenSq_gt {v : V4 ℝ} : 1 / 1000000 < lenSq v ↔ 1 / 1000 < len v := by
  have h0 := len_nonneg v
  rw [← len_mul_self]
  constructor <;> intro h <;> nlinarith

theorem lenSq3_gt {v : V3 ℝ} : 1 / 1000000 < V3.lenSq v ↔ 1 / 1000 < V3.len v := by
  have h0 := V3.len_nonneg v
  rw [← V3.len_mul_self]
  constructor <;> intro h <;> nlinarith

theorem normalize4_pos {v : V4 ℝ} (h : 1 / 1000 < len v) : normalize4 v = ((1 / len v) • v, len v) := by
  unfold normalize4
  rw [lengthSq4_eq]
  dsimp only
  rw [if_pos (lenSq_gt.2 h)]
  rfl

theorem normalize4_neg {v : V4 ℝ} (h : ¬ 1 / 1000 < len v) : normalize4 v = (⟨1, 0, 0, 0⟩, 0) := by
  unfold normalize4
  rw [lengthSq4_eq]
  dsimp only
  rw [if_neg (fun c => h (lenSq_gt.1 c))]

theorem lenSq_normalized (v : V4 ℝ) : lenSq (normalized4 v) = 1 := by
  unfold normalized4
  by_cases h : 1 / 1000 < len v
  · rw [normalize4_pos h]
    have h0 : len v ≠ 0 := by intro h0; rw [h0] at h; norm_num at h
    simp only [lenSq_smul]
    rw [← len_mul_self]; field_simp
  · rw [normalize4_neg h]; simp [lenSq, dot]

theorem normalized4_pos {v : V4 ℝ} (h : 1 / 1000 < len v) : normalized4 v = (1 / len v) • v := by
  unfold normalized4; rw [normalize4_pos h]

theorem normalize3_pos {v : V4 ℝ} (h : 1 / 1000 < V3.len v.xyz) :
    normalize3 v = (.mk3 ((1 / V3.len v.xyz) • v.xyz) v.w, V3.len v.xyz) := by
  unfold normalize3
  rw [lengthSq3_eq]
  dsimp only
  rw [if_pos (lenSq3_gt.2 h)]
  refine Prod.ext ?_ rfl
  ext
  · show v.x * (1 / V3.len v.xyz) = 1 / V3.len v.xyz * v.x; ring
  · show v.y * (1 / V3.len v.xyz) = 1 / V3.len v.xyz * v.y; ring
  · show v.z * (1 / V3.len v.xyz) = 1 / V3.len v.xyz * v.z; ring
  · rfl

theorem normalize3_neg {v : V4 ℝ} (h : ¬ 1 / 1000 < V3.len v.xyz) : normalize3 v = (⟨1, 0, 0, v.w⟩, 0) := by
  unfold normalize3
  rw [lengthSq3_eq]
  dsimp only
  rw [if_neg (fun c => h (lenSq3_gt.1 c))]

/-- The common tail of the functions that compute an angle from its cosine. -/
theorem angle_tail {c : ℝ} (h2 : -1 ≤ c) (h1 : c ≤ 1) :
    (if c ≥ 1 then 0 else if c ≤ -1 then Real.pi else Real.arccos c) = Real.arccos c := by
  split_ifs with c1 c2
  · rw [le_antisymm h1 c1, Real.arccos_one]
  · rw [le_antisymm c2 h2, Real.arccos_neg_one]
  · rfl

end MGL.Float4
