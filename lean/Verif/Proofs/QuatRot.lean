import Verif.Proofs.Quat

/-! Helper lemmas for quaternion interpolation and direction-to-direction rotations. -/

namespace MGL
open V3
namespace Quat

theorem transform_cross {α : Type*} [Field α] (u : V3 α) (w : α) (v : V3 α) :
    transform ⟨u.x, u.y, u.z, w⟩ v = v + (2 * w) • V3.cross u v + (2 : α) • V3.cross u (V3.cross u v) := by
  ext <;> simp [transform, Mat3.mulVec, toFloat3x3, V3.cross] <;> ring

theorem normalized_smul_pos (q : Quat ℝ) (h : normSq q = 1) (k : ℝ) (hk : 1 / 10000 ≤ k) :
    normalized (smul q k) = q := by
  have hk0 : 0 < k := by linarith [show (0 : ℝ) < 1 / 10000 by norm_num]
  have hl : length (smul q k) = k := by
    unfold length; rw [lengthSq_eq, normSq_smul, h, mul_one, Real.sqrt_mul_self hk0.le]
  have e : normalize (smul q k) = (smul (smul q k) (1 / length (smul q k)), length (smul q k)) :=
    if_neg (not_lt.2 (by rw [hl]; exact hk))
  unfold normalized
  rw [e, hl]
  ext <;> simp only [smul] <;> field_simp

/-- A combination with non-negative weights of unit quaternions at non-negative inner product is at
least as long as each term. -/
theorem length_comb (p r : Quat ℝ) (hp : normSq p = 1) (hr : normSq r = 1) (h : 0 ≤ inner p r) (a b : ℝ)
    (ha : 0 ≤ a) (hb : 0 ≤ b) : a ≤ length (add (smul p a) (smul r b)) ∧ b ≤ length (add (smul p a) (smul r b)) := by
  have e : lengthSq (add (smul p a) (smul r b)) = a * a + b * b + 2 * (a * b) * inner p r := by
    simp only [normSq] at hp hr
    simp only [lengthSq, add, smul, inner]
    linear_combination a * a * hp + b * b * hr
  have hab := mul_nonneg (mul_nonneg ha hb) h
  constructor
  · apply Real.le_sqrt_of_sq_le; rw [e]; nlinarith [mul_self_nonneg b]
  · apply Real.le_sqrt_of_sq_le; rw [e]; nlinarith [mul_self_nonneg a]

theorem slerpAcos_bounds {x : ℝ} (h0 : 0 ≤ x) (h1 : x < 0.999) : 0.001 ≤ slerpAcos x ∧ slerpAcos x ≤ 1.6 := by
  unfold slerpAcos
  have h2 : x * x ≤ 0.999 * 0.999 := by nlinarith
  have h3 : x * (x * x) ≤ 0.999 * (0.999 * 0.999) := by nlinarith
  have h4 : 0 ≤ x * (x * x) := by positivity
  constructor <;> nlinarith

theorem slerpSin_lower {x : ℝ} (h0 : 0 ≤ x) (h1 : x ≤ 1.6) : 0.5 * x ≤ slerpSin x := by
  unfold slerpSin
  have h2 : x * x ≤ 2.56 := by nlinarith
  have h3 : 0 ≤ (x * x) * (x * x) := by positivity
  have : 0.5 ≤ (5.64311797634681035370e-03 * (x * x) - 1.55271410633428644799e-01) * (x * x) + 9.87862135574673806965e-01 := by
    nlinarith
  nlinarith

theorem slerpSin_zero : slerpSin 0 = 0 := by norm_num [slerpSin]

theorem near_spec (q r : Quat ℝ) (h : normSq q = 1) : normSq (near q r) = 1 ∧ 0 ≤ inner (near q r) r := by
  unfold near
  by_cases hd : 0 ≤ inner q r
  · rw [if_pos hd]; exact ⟨h, hd⟩
  · rw [if_neg hd]
    refine ⟨by rw [← h]; simp only [normSq]; ring, ?_⟩
    have : inner (⟨-q.x, -q.y, -q.z, -q.w⟩ : Quat ℝ) r = -inner q r := by simp only [inner]; ring
    rw [this]; linarith [not_le.1 hd]

theorem lerp_eq (q r : Quat ℝ) (t : ℝ) : lerp q r t = normalized (add (smul (near q r) (1 - t)) (smul r t)) := by
  unfold lerp near
  by_cases hd : 0 ≤ inner q r
  · rw [if_pos hd, if_pos (show dot q r ≥ 0 from hd)]
  · rw [if_neg hd, if_neg (show ¬ dot q r ≥ 0 from hd)]
    congr 1
    ext <;> simp only [add, smul] <;> ring

theorem slerp_eq (q r : Quat ℝ) (t : ℝ) (hq : normSq q = 1) (ht0 : 0 ≤ t) (ht1 : t ≤ 1) :
    ∃ a b : ℝ, 0 ≤ a ∧ 0 ≤ b ∧ (1 / 10000 ≤ a ∨ 1 / 10000 ≤ b) ∧ (t = 0 → b = 0) ∧ (t = 1 → a = 0) ∧
      (t = 1 / 2 → a = b) ∧
      slerp q r t = normalized (add (smul (near q r) a) (smul r b)) := by
  obtain ⟨_, hn2⟩ := near_spec q r hq
  have key : ∀ a b, add (smul q (a * if dot q r < 0 then -1 else 1)) (smul r b) = add (smul (near q r) a) (smul r b) := by
    intro a b
    unfold near
    by_cases hd : 0 ≤ inner q r
    · have hd' : ¬ dot q r < 0 := not_lt.2 hd
      rw [if_pos hd, if_neg hd', mul_one]
    · have hd' : dot q r < 0 := not_le.1 hd
      rw [if_neg hd, if_pos hd']
      ext <;> simp only [add, smul] <;> ring
  have habs : 0 ≤ (if dot q r < 0 then -dot q r else dot q r) := by
    split_ifs with h
    · linarith
    · exact not_lt.1 h
  by_cases hang : (if dot q r < 0 then -dot q r else dot q r) < 0.999
  · obtain ⟨b1, b2⟩ := slerpAcos_bounds habs hang
    set A := slerpAcos (if dot q r < 0 then -dot q r else dot q r) with hA
    have hA0 : 0 ≤ A := by linarith
    have e : slerp q r t = normalized (add (smul q (slerpSin (A - t * A) * if dot q r < 0 then -1 else 1)) (smul r (slerpSin (t * A)))) := by
      unfold slerp
      simp only [if_pos hang, ← hA]
    have u0 : 0 ≤ t * A := by positivity
    have u1 : t * A ≤ A := by nlinarith
    have l1 := slerpSin_lower (x := A - t * A) (by linarith) (by linarith)
    have l2 := slerpSin_lower (x := t * A) u0 (by linarith)
    refine ⟨slerpSin (A - t * A), slerpSin (t * A), by linarith, by linarith, ?_, ?_, ?_, ?_, by rw [e, key]⟩
    · rcases le_total (t * A) (A / 2) with h | h
      · left; linarith
      · right; linarith
    · intro h; rw [h, zero_mul, slerpSin_zero]
    · intro h; rw [h, one_mul, sub_self, slerpSin_zero]
    · intro h; rw [h]; congr 1; ring
  · have e : slerp q r t = normalized (add (smul q ((1 - t) * if dot q r < 0 then -1 else 1)) (smul r t)) := by
      unfold slerp
      simp only [if_neg hang]
    refine ⟨1 - t, t, by linarith, ht0, ?_, fun h => h, fun h => by rw [h]; ring, fun h => by rw [h]; norm_num, by rw [e, key]⟩
    rcases le_total t (1 / 2) with h | h
    · left; linarith
    · right; linarith

theorem normalized_comb (p r : Quat ℝ) (hp : normSq p = 1) (hr : normSq r = 1) (hn : 0 ≤ inner p r) (a b : ℝ)
    (ha : 0 ≤ a) (hb : 0 ≤ b) (hab : 1 / 10000 ≤ a ∨ 1 / 10000 ≤ b) :
    normSq (normalized (add (smul p a) (smul r b))) = 1 ∧
    (b = 0 → normalized (add (smul p a) (smul r b)) = p) ∧
    (a = 0 → normalized (add (smul p a) (smul r b)) = r) ∧
    (∃ k : ℝ, 0 < k ∧ normalized (add (smul p a) (smul r b)) = add (smul p (k * a)) (smul r (k * b))) := by
  obtain ⟨l1, l2⟩ := length_comb p r hp hr hn a b ha hb
  have hl : 1 / 10000 ≤ length (add (smul p a) (smul r b)) := by rcases hab with h | h <;> linarith
  have hl0 : 0 < length (add (smul p a) (smul r b)) := by linarith [show (0 : ℝ) < 1 / 10000 by norm_num]
  refine ⟨normSq_normalized _ hl, ?_, ?_, 1 / length (add (smul p a) (smul r b)), by positivity, ?_⟩
  · intro h
    have hak : 1 / 10000 ≤ a := by
      rcases hab with h' | h'
      · exact h'
      · rw [h] at h'; norm_num at h'
    have : add (smul p a) (smul r b) = smul p a := by rw [h]; ext <;> simp [add, smul]
    rw [this]; exact normalized_smul_pos p hp a hak
  · intro h
    have hbk : 1 / 10000 ≤ b := by
      rcases hab with h' | h'
      · rw [h] at h'; norm_num at h'
      · exact h'
    have : add (smul p a) (smul r b) = smul r b := by rw [h]; ext <;> simp [add, smul]
    rw [this]; exact normalized_smul_pos r hr b hbk
  · have e : normalized (add (smul p a) (smul r b)) = smul (add (smul p a) (smul r b)) (1 / length (add (smul p a) (smul r b))) := by
      unfold normalized normalize; rw [if_neg (not_lt.2 hl)]
    rw [e]
    ext <;> simp only [add, smul] <;> ring

end Quat
end MGL

namespace MGL
open V3

theorem cols_rotation (r f : V3 ℝ) (hr : lenSq r = 1) (hf : lenSq f = 1) (h : V3.dot r f = 0) :
    Spec.IsRotation (Mat3.ofCols r (V3.cross f r) f) := by
  simp only [lenSq, V3.dot] at hr hf h
  constructor
  · show Matrix.transpose _ * _ = _
    ext i j
    rw [Matrix.mul_apply, Fin.sum_univ_three]
    fin_cases i <;> fin_cases j <;> simp [Mat3.ofCols, V3.cross]
    · linear_combination hr
    · ring
    · linear_combination h
    · ring
    · linear_combination hf * (r.x * r.x + r.y * r.y + r.z * r.z) + hr - h * (r.x * f.x + r.y * f.y + r.z * f.z)
    · ring
    · linear_combination h
    · ring
    · linear_combination hf
  · rw [Matrix.det_fin_three]
    simp [Mat3.ofCols, V3.cross]
    linear_combination hf * (r.x * r.x + r.y * r.y + r.z * r.z) + hr - h * (r.x * f.x + r.y * f.y + r.z * f.z)

theorem rotation_mul {a b : Mat3 ℝ} (ha : Spec.IsRotation a) (hb : Spec.IsRotation b) : Spec.IsRotation (a * b) := by
  refine ⟨?_, by rw [Matrix.det_mul, ha.2, hb.2, one_mul]⟩
  show Matrix.transpose (a * b) * (a * b) = 1
  have h1 : Matrix.transpose a * a = 1 := ha.1
  have h2 : Matrix.transpose b * b = 1 := hb.1
  rw [Matrix.transpose_mul, Matrix.mul_assoc, ← Matrix.mul_assoc (Matrix.transpose a), h1, Matrix.one_mul, h2]

theorem rotation_transpose {a : Mat3 ℝ} (ha : Spec.IsRotation a) : Spec.IsRotation (Matrix.transpose a) := by
  refine ⟨?_, by rw [Matrix.det_transpose, ha.2]⟩
  show Matrix.transpose (Matrix.transpose a) * Matrix.transpose a = 1
  have h1 : Matrix.transpose a * a = 1 := ha.1
  rw [Matrix.transpose_transpose]; exact mul_eq_one_comm.1 h1

theorem orthonormalize012_rotation {m : Mat3 ℝ} (hm : Spec.IsRotation m) : Mat3.orthonormalize012 m = m := by
  have E := rotEqs hm
  have u0 : lenSq (Mat3.col m 0) = 1 := E.c00
  have u1 : lenSq (Mat3.col m 1) = 1 := E.c11
  have u2 : lenSq (Mat3.col m 2) = 1 := E.c22
  have d10 : V3.dot (Mat3.col m 1) (Mat3.col m 0) = 0 := by have := E.c01; simp only [V3.dot, Mat3.col]; linarith
  have d20 : V3.dot (Mat3.col m 2) (Mat3.col m 0) = 0 := by have := E.c02; simp only [V3.dot, Mat3.col]; linarith
  have d21 : V3.dot (Mat3.col m 2) (Mat3.col m 1) = 0 := by have := E.c12; simp only [V3.dot, Mat3.col]; linarith
  have z : ∀ v w : V3 ℝ, v - (0 : ℝ) • w = v := by intro v w; ext <;> simp
  have e : f3Orthonormalize3 (Mat3.col m 0) (Mat3.col m 1) (Mat3.col m 2) = (Mat3.col m 0, Mat3.col m 1, Mat3.col m 2) := by
    unfold f3Orthonormalize3 f3ProjectToNorm
    simp only [f3Normalized_unit u0, d10, d20, z, f3Normalized_unit u1, d21, f3Normalized_unit u2]
  unfold Mat3.orthonormalize012
  rw [e]
  ext i j; fin_cases i <;> fin_cases j <;> simp [Mat3.ofCols, Mat3.col]

/-- Householder reflection. -/
def house (a : ℝ) (u : V3 ℝ) : Mat3 ℝ :=
  !![1 + a * u.x * u.x, a * u.x * u.y, a * u.x * u.z;
     a * u.y * u.x, 1 + a * u.y * u.y, a * u.y * u.z;
     a * u.z * u.x, a * u.z * u.y, 1 + a * u.z * u.z]

theorem house_orth (a : ℝ) (u : V3 ℝ) (h : a * lenSq u = -2) : Matrix.transpose (house a u) * house a u = 1 := by
  simp only [lenSq, V3.dot] at h
  ext i j
  rw [Matrix.mul_apply, Fin.sum_univ_three]
  fin_cases i <;> fin_cases j <;> simp [house]
  · linear_combination (a * u.x * u.x) * h
  · linear_combination (a * u.x * u.y) * h
  · linear_combination (a * u.x * u.z) * h
  · linear_combination (a * u.x * u.y) * h
  · linear_combination (a * u.y * u.y) * h
  · linear_combination (a * u.y * u.z) * h
  · linear_combination (a * u.x * u.z) * h
  · linear_combination (a * u.y * u.z) * h
  · linear_combination (a * u.z * u.z) * h

theorem house_det (a : ℝ) (u : V3 ℝ) (h : a * lenSq u = -2) : (house a u).det = -1 := by
  simp only [lenSq, V3.dot] at h
  rw [Matrix.det_fin_three]
  simp [house]
  linear_combination h

theorem house_rotation (a b : ℝ) (u v : V3 ℝ) (h : a * lenSq u = -2) (h' : b * lenSq v = -2) :
    Spec.IsRotation (house b v * house a u) := by
  refine ⟨?_, by rw [Matrix.det_mul, house_det _ _ h, house_det _ _ h']; norm_num⟩
  show Matrix.transpose _ * _ = _
  rw [Matrix.transpose_mul, Matrix.mul_assoc, ← Matrix.mul_assoc (Matrix.transpose (house b v)), house_orth _ _ h', Matrix.one_mul, house_orth _ _ h]

/-- Reflecting in the plane orthogonal to `q - p` swaps the unit vectors `p` and `q`. -/
theorem house_swap (a : ℝ) (p q : V3 ℝ) (hp : lenSq p = 1) (hq : lenSq q = 1) (h : a * lenSq (q - p) = -2) :
    Matrix.mulVec (house a (q - p)) p.toFun = q.toFun := by
  simp only [lenSq, V3.dot, sub_x, sub_y, sub_z] at hp hq h
  have h2 : a * ((q.x - p.x) * p.x + (q.y - p.y) * p.y + (q.z - p.z) * p.z) = 1 := by
    linear_combination (-1 / 2) * h - (a / 2) * hp + (a / 2) * hq
  ext i
  rw [Matrix.mulVec, dotProduct, Fin.sum_univ_three]
  fin_cases i <;> simp [house, V3.toFun]
  · linear_combination (q.x - p.x) * h2
  · linear_combination (q.y - p.y) * h2
  · linear_combination (q.z - p.z) * h2

/-- Any unit quaternion carrying `s` to `t` turns by at least the angle between them. -/
theorem w_le_of_maps (r : Quat ℝ) (s t : V3 ℝ) (hr : Quat.normSq r = 1) (hs : lenSq s = 1)
    (h : Quat.transform r s = t) : 2 * (r.w * r.w) - 1 ≤ V3.dot s t := by
  rw [← h, Quat.transform_eq _ _ hr]
  simp only [Quat.normSq] at hr
  simp only [lenSq, V3.dot] at hs
  have : V3.dot s (Quat.rotH r s) = (2 * (r.w * r.w) - 1) + 2 * (r.x * s.x + r.y * s.y + r.z * s.z) ^ 2 := by
    simp only [V3.dot, Quat.rotH]
    linear_combination (r.w * r.w - r.x * r.x - r.y * r.y - r.z * r.z) * hs - hr
  rw [this]; nlinarith [sq_nonneg (r.x * s.x + r.y * s.y + r.z * s.z)]

theorem trace_le_of_maps (m : Mat3 ℝ) (hm : Spec.IsRotation m) (s t : V3 ℝ) (hs : lenSq s = 1)
    (h : Matrix.mulVec m s.toFun = t.toFun) : m 0 0 + m 1 1 + m 2 2 ≤ 1 + 2 * V3.dot s t := by
  obtain ⟨h1, h2⟩ := Quat.ofMat3Raw_spec m hm
  generalize Quat.ofMat3Raw m = r at h1 h2
  subst h2
  have := w_le_of_maps r s t h1 hs (V3.toFun_inj (by rw [← h, ← Mat3.mulVec_eq]; rfl))
  have e : Quat.toFloat3x3 r 0 0 + Quat.toFloat3x3 r 1 1 + Quat.toFloat3x3 r 2 2 = 4 * (r.w * r.w) - 1 := by
    simp only [Quat.normSq] at h1
    simp [Quat.toFloat3x3]; linear_combination (-4) * h1
  rw [e]; linarith

end MGL
