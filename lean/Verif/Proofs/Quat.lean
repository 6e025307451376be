import Verif.Model.Quat
import Verif.Spec.Mat
import Verif.Proofs.Mat3
import Verif.Proofs.Float3R
import Mathlib.LinearAlgebra.Matrix.Adjugate
import Mathlib.LinearAlgebra.Matrix.NonsingularInverse

/-! Helper lemmas about quaternions and rotation matrices. -/

namespace MGL
open V3

/-- The scalar equations satisfied by a rotation matrix. -/
structure RotEqs {α : Type*} [CommRing α] (m : Matrix (Fin 3) (Fin 3) α) : Prop where
  r00 : m 0 0 * m 0 0 + m 0 1 * m 0 1 + m 0 2 * m 0 2 = 1
  r01 : m 0 0 * m 1 0 + m 0 1 * m 1 1 + m 0 2 * m 1 2 = 0
  r02 : m 0 0 * m 2 0 + m 0 1 * m 2 1 + m 0 2 * m 2 2 = 0
  r11 : m 1 0 * m 1 0 + m 1 1 * m 1 1 + m 1 2 * m 1 2 = 1
  r12 : m 1 0 * m 2 0 + m 1 1 * m 2 1 + m 1 2 * m 2 2 = 0
  r22 : m 2 0 * m 2 0 + m 2 1 * m 2 1 + m 2 2 * m 2 2 = 1
  c00 : m 0 0 * m 0 0 + m 1 0 * m 1 0 + m 2 0 * m 2 0 = 1
  c01 : m 0 0 * m 0 1 + m 1 0 * m 1 1 + m 2 0 * m 2 1 = 0
  c02 : m 0 0 * m 0 2 + m 1 0 * m 1 2 + m 2 0 * m 2 2 = 0
  c11 : m 0 1 * m 0 1 + m 1 1 * m 1 1 + m 2 1 * m 2 1 = 1
  c12 : m 0 1 * m 0 2 + m 1 1 * m 1 2 + m 2 1 * m 2 2 = 0
  c22 : m 0 2 * m 0 2 + m 1 2 * m 1 2 + m 2 2 * m 2 2 = 1
  k00 : m 1 1 * m 2 2 - m 1 2 * m 2 1 = m 0 0
  k01 : m 1 2 * m 2 0 - m 1 0 * m 2 2 = m 0 1
  k02 : m 1 0 * m 2 1 - m 1 1 * m 2 0 = m 0 2
  k10 : m 2 1 * m 0 2 - m 2 2 * m 0 1 = m 1 0
  k11 : m 2 2 * m 0 0 - m 2 0 * m 0 2 = m 1 1
  k12 : m 2 0 * m 0 1 - m 2 1 * m 0 0 = m 1 2
  k20 : m 0 1 * m 1 2 - m 0 2 * m 1 1 = m 2 0
  k21 : m 0 2 * m 1 0 - m 0 0 * m 1 2 = m 2 1
  k22 : m 0 0 * m 1 1 - m 0 1 * m 1 0 = m 2 2

theorem rotEqs {α : Type*} [CommRing α] {m : Matrix (Fin 3) (Fin 3) α} (h : Spec.IsRotation m) : RotEqs m := by
  obtain ⟨h1, h2⟩ := h
  have hc : Matrix.transpose m * m = 1 := h1
  have hr : m * Matrix.transpose m = 1 := mul_eq_one_comm.1 hc
  have hk : Matrix.adjugate m = Matrix.transpose m := by
    have e : Matrix.adjugate m * m = 1 := by rw [Matrix.adjugate_mul, h2, one_smul]
    calc Matrix.adjugate m = Matrix.adjugate m * (m * Matrix.transpose m) := by rw [hr, Matrix.mul_one]
      _ = Matrix.transpose m := by rw [← Matrix.mul_assoc, e, Matrix.one_mul]
  have C : ∀ i j, m 0 i * m 0 j + m 1 i * m 1 j + m 2 i * m 2 j = (1 : Matrix (Fin 3) (Fin 3) α) i j := by
    intro i j
    have := congrFun (congrFun hc i) j
    simpa [Matrix.mul_apply, Fin.sum_univ_three] using this
  have R : ∀ i j, m i 0 * m j 0 + m i 1 * m j 1 + m i 2 * m j 2 = (1 : Matrix (Fin 3) (Fin 3) α) i j := by
    intro i j
    have := congrFun (congrFun hr i) j
    simpa [Matrix.mul_apply, Fin.sum_univ_three] using this
  have K : ∀ i j, Matrix.adjugate m j i = m i j := by
    intro i j
    have := congrFun (congrFun hk j) i
    simpa using this
  rw [Matrix.adjugate_fin_three] at K
  constructor
  · simpa using R 0 0
  · simpa using R 0 1
  · simpa using R 0 2
  · simpa using R 1 1
  · simpa using R 1 2
  · simpa using R 2 2
  · simpa using C 0 0
  · simpa using C 0 1
  · simpa using C 0 2
  · simpa using C 1 1
  · simpa using C 1 2
  · simpa using C 2 2
  · have := K 0 0; simp at this; linear_combination this
  · have := K 0 1; simp at this; linear_combination this
  · have := K 0 2; simp at this; linear_combination this
  · have := K 1 0; simp at this; linear_combination this
  · have := K 1 1; simp at this; linear_combination this
  · have := K 1 2; simp at this; linear_combination this
  · have := K 2 0; simp at this; linear_combination this
  · have := K 2 1; simp at this; linear_combination this
  · have := K 2 2; simp at this; linear_combination this

namespace Quat

section
variable {α : Type*} [Field α]

@[simp] theorem toH_re (q : Quat α) : (toH q).re = q.w := rfl
@[simp] theorem toH_imI (q : Quat α) : (toH q).imI = q.x := rfl
@[simp] theorem toH_imJ (q : Quat α) : (toH q).imJ = q.y := rfl
@[simp] theorem toH_imK (q : Quat α) : (toH q).imK = q.z := rfl
@[simp] theorem pureH_re (v : V3 α) : (pureH v).re = 0 := rfl
@[simp] theorem pureH_imI (v : V3 α) : (pureH v).imI = v.x := rfl
@[simp] theorem pureH_imJ (v : V3 α) : (pureH v).imJ = v.y := rfl
@[simp] theorem pureH_imK (v : V3 α) : (pureH v).imK = v.z := rfl

/-- The rotation polynomial, homogeneous in the quaternion. -/
def rotH (q : Quat α) (v : V3 α) : V3 α :=
  ⟨(q.x * q.x + q.w * q.w - q.y * q.y - q.z * q.z) * v.x + 2 * (q.x * q.y - q.z * q.w) * v.y + 2 * (q.x * q.z + q.y * q.w) * v.z,
   2 * (q.x * q.y + q.z * q.w) * v.x + (q.y * q.y + q.w * q.w - q.x * q.x - q.z * q.z) * v.y + 2 * (q.y * q.z - q.x * q.w) * v.z,
   2 * (q.x * q.z - q.y * q.w) * v.x + 2 * (q.y * q.z + q.x * q.w) * v.y + (q.z * q.z + q.w * q.w - q.x * q.x - q.y * q.y) * v.z⟩

theorem transform_eq (q : Quat α) (v : V3 α) (h : normSq q = 1) : transform q v = rotH q v := by
  unfold normSq at h
  ext <;> simp only [transform, Mat3.mulVec, toFloat3x3, rotH] <;> simp [-mul_eq_mul_right_iff]
  · linear_combination (-v.x) * h
  · linear_combination (-v.y) * h
  · linear_combination (-v.z) * h

theorem normSq_mul (q r : Quat α) : normSq (mul q r) = normSq q * normSq r := by
  simp only [normSq, mul]; ring

theorem rotH_mul (q r : Quat α) (v : V3 α) : rotH (mul q r) v = rotH q (rotH r v) := by
  ext <;> simp only [rotH, mul] <;> ring

theorem dot_rotH (q : Quat α) (a b : V3 α) : V3.dot (rotH q a) (rotH q b) = normSq q * normSq q * V3.dot a b := by
  simp only [V3.dot, rotH, normSq]; ring

theorem cross_rotH (q : Quat α) (a b : V3 α) : V3.cross (rotH q a) (rotH q b) = normSq q • rotH q (V3.cross a b) := by
  ext <;> simp only [V3.cross, rotH, normSq, smul_x, smul_y, smul_z] <;> ring

theorem rotH_conj (q : Quat α) (v : V3 α) : rotH (conjugate q) (rotH q v) = (normSq q * normSq q) • v := by
  ext <;> simp only [rotH, conjugate, normSq, smul_x, smul_y, smul_z] <;> ring

end

theorem lengthSq_eq (q : Quat ℝ) : lengthSq q = normSq q := rfl

theorem normSq_nonneg (q : Quat ℝ) : 0 ≤ normSq q := by
  unfold normSq; nlinarith [mul_self_nonneg q.x, mul_self_nonneg q.y, mul_self_nonneg q.z, mul_self_nonneg q.w]

theorem normSq_smul (q : Quat ℝ) (s : ℝ) : normSq (smul q s) = s * s * normSq q := by
  simp only [normSq, smul]; ring

theorem normalize_unit (q : Quat ℝ) (h : normSq q = 1) : normalize q = (q, 1) := by
  have hl : length q = 1 := by unfold length; rw [lengthSq_eq, h, Real.sqrt_one]
  unfold normalize
  rw [hl, if_neg (by norm_num)]
  refine Prod.ext ?_ rfl
  ext <;> simp [smul]

theorem normSq_normalized (q : Quat ℝ) (h : 1 / 10000 ≤ length q) : normSq (normalized q) = 1 := by
  unfold normalized normalize
  rw [if_neg (not_lt.2 h)]
  show normSq (smul q (1 / length q)) = 1
  have hl : length q * length q = normSq q := Real.mul_self_sqrt (normSq_nonneg q)
  have h0 : length q ≠ 0 := by intro h0; rw [h0] at h; norm_num at h
  rw [normSq_smul, ← hl]; field_simp

/-- From the products `4 q_i q_j` one reads off the matrix. -/
theorem toFloat3x3_of_products (m : Mat3 ℝ) (q : Quat ℝ)
    (xx : 4 * (q.x * q.x) = 1 + m 0 0 - m 1 1 - m 2 2) (yy : 4 * (q.y * q.y) = 1 + m 1 1 - m 0 0 - m 2 2)
    (zz : 4 * (q.z * q.z) = 1 + m 2 2 - m 0 0 - m 1 1) (ww : 4 * (q.w * q.w) = 1 + m 0 0 + m 1 1 + m 2 2)
    (xy : 4 * (q.x * q.y) = m 0 1 + m 1 0) (xz : 4 * (q.x * q.z) = m 0 2 + m 2 0) (yz : 4 * (q.y * q.z) = m 1 2 + m 2 1)
    (xw : 4 * (q.x * q.w) = m 2 1 - m 1 2) (yw : 4 * (q.y * q.w) = m 0 2 - m 2 0) (zw : 4 * (q.z * q.w) = m 1 0 - m 0 1) :
    normSq q = 1 ∧ toFloat3x3 q = m := by
  constructor
  · unfold normSq; linear_combination (1 / 4) * xx + (1 / 4) * yy + (1 / 4) * zz + (1 / 4) * ww
  · ext i j
    fin_cases i <;> fin_cases j <;> simp [toFloat3x3]
    · linear_combination (-1 / 2) * yy - (1 / 2) * zz
    · linear_combination (1 / 2) * xy - (1 / 2) * zw
    · linear_combination (1 / 2) * xz + (1 / 2) * yw
    · linear_combination (1 / 2) * xy + (1 / 2) * zw
    · linear_combination (-1 / 2) * xx - (1 / 2) * zz
    · linear_combination (1 / 2) * yz - (1 / 2) * xw
    · linear_combination (1 / 2) * xz - (1 / 2) * yw
    · linear_combination (1 / 2) * yz + (1 / 2) * xw
    · linear_combination (-1 / 2) * xx - (1 / 2) * yy

/-- Products of the components when one is read from the diagonal and the others divided by it. -/
theorem prod_of_pivot {K p a b Ka Kb Kab : ℝ} (hK : 0 < K) (hp : p = Real.sqrt K * (1 / 2))
    (ha : a = Ka * (1 / (4 * p))) (hb : b = Kb * (1 / (4 * p))) (h : Ka * Kb = K * Kab) :
    4 * (p * p) = K ∧ 4 * (a * p) = Ka ∧ 4 * (b * p) = Kb ∧ 4 * (a * b) = Kab := by
  have hs := Real.mul_self_sqrt hK.le
  have hs0 := Real.sqrt_pos.2 hK
  have hp0 : p ≠ 0 := by rw [hp]; positivity
  have e1 : 4 * (p * p) = K := by rw [hp]; linear_combination hs
  have e2 : 4 * (a * p) = Ka := by rw [ha]; field_simp
  have e3 : 4 * (b * p) = Kb := by rw [hb]; field_simp
  refine ⟨e1, e2, e3, ?_⟩
  have : K * (4 * (a * b)) = K * Kab := by
    rw [← h, ← e1, ← e2, ← e3]; ring
  exact mul_left_cancel₀ hK.ne' this

theorem prod_sq {K p a Ka Kab : ℝ} (hK : 0 < K) (hp : p = Real.sqrt K * (1 / 2))
    (ha : Ka * (1 / (4 * p)) = a) (h : Ka * Ka = K * Kab) :
    4 * (p * p) = K ∧ 4 * (a * p) = Ka ∧ 4 * (a * p) = Ka ∧ 4 * (a * a) = Kab :=
  prod_of_pivot hK hp ha.symm ha.symm h

theorem ofMat3Raw_spec (m : Mat3 ℝ) (hm : Spec.IsRotation m) :
    normSq (ofMat3Raw m) = 1 ∧ toFloat3x3 (ofMat3Raw m) = m := by
  have E := rotEqs hm
  obtain ⟨r00, r01, r02, r11, r12, r22, c00, c01, c02, c11, c12, c22, k00, k01, k02, k10, k11, k12, k20, k21, k22⟩ := E
  unfold ofMat3Raw
  dsimp only
  by_cases h1 : m 0 0 + m 1 1 + m 2 2 > 0
  · rw [if_pos h1]
    set w := Real.sqrt (m 0 0 + m 1 1 + m 2 2 + 1) * (1 / 2) with hw
    have hK : 0 < m 0 0 + m 1 1 + m 2 2 + 1 := by linarith
    obtain ⟨ww, xw, _, xx⟩ := prod_sq (Kab := 1 + m 0 0 - m 1 1 - m 2 2) hK hw
      (rfl : (m 2 1 - m 1 2) * (1 / (4 * w)) = _) (by linear_combination r11 + r22 - c00 + 2 * k00)
    obtain ⟨_, yw, _, yy⟩ := prod_sq (Kab := 1 + m 1 1 - m 0 0 - m 2 2) hK hw
      (rfl : (m 0 2 - m 2 0) * (1 / (4 * w)) = _) (by linear_combination r00 + r22 - c11 + 2 * k11)
    obtain ⟨_, zw, _, zz⟩ := prod_sq (Kab := 1 + m 2 2 - m 0 0 - m 1 1) hK hw
      (rfl : (m 1 0 - m 0 1) * (1 / (4 * w)) = _) (by linear_combination -r22 + c00 + c11 + 2 * k22)
    obtain ⟨_, _, _, xy⟩ := prod_of_pivot (Kab := m 0 1 + m 1 0) hK hw
      (rfl : (m 2 1 - m 1 2) * (1 / (4 * w)) = _) (rfl : (m 0 2 - m 2 0) * (1 / (4 * w)) = _)
      (by linear_combination -r01 - c01 + k01 + k10)
    obtain ⟨_, _, _, xz⟩ := prod_of_pivot (Kab := m 0 2 + m 2 0) hK hw
      (rfl : (m 2 1 - m 1 2) * (1 / (4 * w)) = _) (rfl : (m 1 0 - m 0 1) * (1 / (4 * w)) = _)
      (by linear_combination -r02 - c02 + k02 + k20)
    obtain ⟨_, _, _, yz⟩ := prod_of_pivot (Kab := m 1 2 + m 2 1) hK hw
      (rfl : (m 0 2 - m 2 0) * (1 / (4 * w)) = _) (rfl : (m 1 0 - m 0 1) * (1 / (4 * w)) = _)
      (by linear_combination -r12 - c12 + k12 + k21)
    exact toFloat3x3_of_products m _ xx yy zz (by linear_combination ww) xy xz yz xw yw zw
  · rw [if_neg h1]
    rw [gt_iff_lt, not_lt] at h1
    by_cases h2 : m 0 0 > m 1 1 ∧ m 0 0 > m 2 2
    · rw [if_pos h2]
      obtain ⟨h2a, h2b⟩ := h2
      set x := Real.sqrt (1 + m 0 0 - m 1 1 - m 2 2) * (1 / 2) with hx
      have hK : 0 < 1 + m 0 0 - m 1 1 - m 2 2 := by linarith
      obtain ⟨xx, xy, _, yy⟩ := prod_sq (Kab := 1 + m 1 1 - m 0 0 - m 2 2) hK hx
        (rfl : (m 0 1 + m 1 0) * (1 / (4 * x)) = _) (by linear_combination -r22 + c00 + c11 - 2 * k22)
      obtain ⟨_, xz, _, zz⟩ := prod_sq (Kab := 1 + m 2 2 - m 0 0 - m 1 1) hK hx
        (rfl : (m 0 2 + m 2 0) * (1 / (4 * x)) = _) (by linear_combination r00 + r22 - c11 - 2 * k11)
      obtain ⟨_, xw, _, ww⟩ := prod_sq (Kab := 1 + m 0 0 + m 1 1 + m 2 2) hK hx
        (rfl : (m 2 1 - m 1 2) * (1 / (4 * x)) = _) (by linear_combination r11 + r22 - c00 + 2 * k00)
      obtain ⟨_, _, _, yz⟩ := prod_of_pivot (Kab := m 1 2 + m 2 1) hK hx
        (rfl : (m 0 1 + m 1 0) * (1 / (4 * x)) = _) (rfl : (m 0 2 + m 2 0) * (1 / (4 * x)) = _)
        (by linear_combination r12 + c12 + k12 + k21)
      obtain ⟨_, _, _, yw⟩ := prod_of_pivot (Kab := m 0 2 - m 2 0) hK hx
        (rfl : (m 0 1 + m 1 0) * (1 / (4 * x)) = _) (rfl : (m 2 1 - m 1 2) * (1 / (4 * x)) = _)
        (by linear_combination r02 - c02 + k02 - k20)
      obtain ⟨_, _, _, zw⟩ := prod_of_pivot (Kab := m 1 0 - m 0 1) hK hx
        (rfl : (m 0 2 + m 2 0) * (1 / (4 * x)) = _) (rfl : (m 2 1 - m 1 2) * (1 / (4 * x)) = _)
        (by linear_combination -r01 + c01 - k01 + k10)
      exact toFloat3x3_of_products m _ xx yy zz ww (by linear_combination xy) (by linear_combination xz) yz
        (by linear_combination xw) yw zw
    · rw [if_neg h2]
      by_cases h3 : m 1 1 > m 2 2
      · rw [if_pos h3]
        have h2a : m 0 0 ≤ m 1 1 := by
          by_contra hc; exact h2 ⟨not_le.1 hc, lt_trans h3 (not_le.1 hc)⟩
        set y := Real.sqrt (1 + m 1 1 - m 0 0 - m 2 2) * (1 / 2) with hy
        have hK : 0 < 1 + m 1 1 - m 0 0 - m 2 2 := by linarith
        obtain ⟨yy, xy, _, xx⟩ := prod_sq (Kab := 1 + m 0 0 - m 1 1 - m 2 2) hK hy
          (rfl : (m 0 1 + m 1 0) * (1 / (4 * y)) = _) (by linear_combination -r22 + c00 + c11 - 2 * k22)
        obtain ⟨_, yz, _, zz⟩ := prod_sq (Kab := 1 + m 2 2 - m 0 0 - m 1 1) hK hy
          (rfl : (m 1 2 + m 2 1) * (1 / (4 * y)) = _) (by linear_combination r11 + r22 - c00 - 2 * k00)
        obtain ⟨_, yw, _, ww⟩ := prod_sq (Kab := 1 + m 0 0 + m 1 1 + m 2 2) hK hy
          (rfl : (m 0 2 - m 2 0) * (1 / (4 * y)) = _) (by linear_combination r00 + r22 - c11 + 2 * k11)
        obtain ⟨_, _, _, xz⟩ := prod_of_pivot (Kab := m 0 2 + m 2 0) hK hy
          (rfl : (m 0 1 + m 1 0) * (1 / (4 * y)) = _) (rfl : (m 1 2 + m 2 1) * (1 / (4 * y)) = _)
          (by linear_combination r02 + c02 + k02 + k20)
        obtain ⟨_, _, _, xw⟩ := prod_of_pivot (Kab := m 2 1 - m 1 2) hK hy
          (rfl : (m 0 1 + m 1 0) * (1 / (4 * y)) = _) (rfl : (m 0 2 - m 2 0) * (1 / (4 * y)) = _)
          (by linear_combination -r12 + c12 - k12 + k21)
        obtain ⟨_, _, _, zw⟩ := prod_of_pivot (Kab := m 1 0 - m 0 1) hK hy
          (rfl : (m 1 2 + m 2 1) * (1 / (4 * y)) = _) (rfl : (m 0 2 - m 2 0) * (1 / (4 * y)) = _)
          (by linear_combination r01 - c01 - k01 + k10)
        exact toFloat3x3_of_products m _ xx yy zz ww xy xz (by linear_combination yz) xw
          (by linear_combination yw) zw
      · rw [if_neg h3]
        rw [gt_iff_lt, not_lt] at h3
        have h2a : m 0 0 ≤ m 2 2 := by
          by_contra hc; exact h2 ⟨lt_of_le_of_lt h3 (not_le.1 hc), not_le.1 hc⟩
        set z := Real.sqrt (1 + m 2 2 - m 0 0 - m 1 1) * (1 / 2) with hz
        have hK : 0 < 1 + m 2 2 - m 0 0 - m 1 1 := by linarith
        obtain ⟨zz, xz, _, xx⟩ := prod_sq (Kab := 1 + m 0 0 - m 1 1 - m 2 2) hK hz
          (rfl : (m 0 2 + m 2 0) * (1 / (4 * z)) = _) (by linear_combination r00 + r22 - c11 - 2 * k11)
        obtain ⟨_, yz, _, yy⟩ := prod_sq (Kab := 1 + m 1 1 - m 0 0 - m 2 2) hK hz
          (rfl : (m 1 2 + m 2 1) * (1 / (4 * z)) = _) (by linear_combination r11 + r22 - c00 - 2 * k00)
        obtain ⟨_, zw, _, ww⟩ := prod_sq (Kab := 1 + m 0 0 + m 1 1 + m 2 2) hK hz
          (rfl : (m 1 0 - m 0 1) * (1 / (4 * z)) = _) (by linear_combination -r22 + c00 + c11 + 2 * k22)
        obtain ⟨_, _, _, xy⟩ := prod_of_pivot (Kab := m 0 1 + m 1 0) hK hz
          (rfl : (m 0 2 + m 2 0) * (1 / (4 * z)) = _) (rfl : (m 1 2 + m 2 1) * (1 / (4 * z)) = _)
          (by linear_combination r01 + c01 + k01 + k10)
        obtain ⟨_, _, _, xw⟩ := prod_of_pivot (Kab := m 2 1 - m 1 2) hK hz
          (rfl : (m 0 2 + m 2 0) * (1 / (4 * z)) = _) (rfl : (m 1 0 - m 0 1) * (1 / (4 * z)) = _)
          (by linear_combination r12 - c12 - k12 + k21)
        obtain ⟨_, _, _, yw⟩ := prod_of_pivot (Kab := m 0 2 - m 2 0) hK hz
          (rfl : (m 1 2 + m 2 1) * (1 / (4 * z)) = _) (rfl : (m 1 0 - m 0 1) * (1 / (4 * z)) = _)
          (by linear_combination -r02 + c02 + k02 - k20)
        exact toFloat3x3_of_products m _ xx yy zz ww xy xz yz xw yw (by linear_combination zw)

end Quat
end MGL
