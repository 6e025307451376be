import Verif.Proofs.QuatRot

/-! C62: rotations that carry one direction to another (`RotateFromTo`, `LookAt`); C60: `RemoveScale`. -/

namespace MGL
open V3

/-- C62: for unit directions that are not (nearly) collinear, `Quat::RotateFromTo` is a unit quaternion
carrying the source to the target, and no rotation doing so has a smaller angle (a larger |w|). -/
theorem C62_quat_rotateFromTo_partial (s t : V3 ℝ) (hs : lenSq s = 1) (ht : lenSq t = 1)
    (hc : 1 / 1000000 < len (V3.cross s t)) :
    Quat.normSq (Quat.rotateFromTo s t) = 1 ∧ Quat.transform (Quat.rotateFromTo s t) s = t ∧
    0 ≤ (Quat.rotateFromTo s t).w ∧
    (∀ r : Quat ℝ, Quat.normSq r = 1 → Quat.transform r s = t → |r.w| ≤ (Quat.rotateFromTo s t).w) := by
  have hL := len_mul_self (V3.cross s t)
  have hL0 : 0 < len (V3.cross s t) := by linarith [show (0 : ℝ) < 1 / 1000000 by norm_num]
  have hlag : lenSq (V3.cross s t) = 1 - V3.dot s t * V3.dot s t := by
    have hs' := hs; have ht' := ht
    simp only [lenSq, V3.dot] at hs' ht'
    simp only [lenSq, V3.dot, V3.cross]
    linear_combination (t.x * t.x + t.y * t.y + t.z * t.z) * hs' + ht'
  have hn : f3Normalize (V3.cross s t) = ((1 / len (V3.cross s t)) • V3.cross s t, len (V3.cross s t)) := f3Normalize_pos hc
  set L := len (V3.cross s t) with hLdef
  set d := V3.dot s t with hd
  have hd2 : d * d < 1 := by nlinarith
  have hd1 : -1 < d := by nlinarith
  have hd1' : d < 1 := by nlinarith
  set c := Real.sqrt (1 / 2 + 1 / 2 * d) with hcd
  set n := Real.sqrt (1 / 2 - 1 / 2 * d) with hnd
  have hcc : c * c = 1 / 2 + 1 / 2 * d := Real.mul_self_sqrt (by linarith)
  have hnn : n * n = 1 / 2 - 1 / 2 * d := Real.mul_self_sqrt (by linarith)
  have hc0 : 0 ≤ c := Real.sqrt_nonneg _
  have hn0 : 0 ≤ n := Real.sqrt_nonneg _
  have hcn : c * n = L / 2 := by
    have h1 : (c * n) * (c * n) = (L / 2) * (L / 2) := by
      have : (c * n) * (c * n) = (c * c) * (n * n) := by ring
      rw [this, hcc, hnn]; linear_combination (-1 / 4) * hL - (1 / 4) * hlag
    have h2 : 0 ≤ c * n := by positivity
    nlinarith
  set k := (1 / L) * n with hk
  have hkL : k * L = n := by rw [hk]; field_simp
  have h2ck : 2 * c * k = 1 := by
    rw [hk]
    calc 2 * c * (1 / L * n) = 2 * (c * n) * (1 / L) := by ring
      _ = 1 := by rw [hcn]; field_simp
  have hk2 : k * k * (1 - d * d) = 1 / 2 - 1 / 2 * d := by
    rw [← hlag, ← hL, ← hnn, ← hkL]; ring
  have e : Quat.rotateFromTo s t = ⟨(k • V3.cross s t).x, (k • V3.cross s t).y, (k • V3.cross s t).z, c⟩ := by
    unfold Quat.rotateFromTo
    rw [hn]
    dsimp only
    rw [if_pos hL0.ne']
    ext
    · show 1 / L * _ * n = k * _; rw [hk]; ring
    · show 1 / L * _ * n = k * _; rw [hk]; ring
    · show 1 / L * _ * n = k * _; rw [hk]; ring
    · rfl
  have hcr1 : V3.cross (V3.cross s t) s = t - d • s := by
    simp only [lenSq, V3.dot] at hs
    ext <;> simp [V3.cross, hd, V3.dot]
    · linear_combination t.x * hs
    · linear_combination t.y * hs
    · linear_combination t.z * hs
  have hcr2 : V3.cross (V3.cross s t) (t - d • s) = -((1 - d * d) • s) := by
    simp only [lenSq, V3.dot] at hs ht
    rw [V3.dot] at hd
    ext <;> simp [V3.cross]
    · linear_combination (-s.x) * ht - (d * t.x) * hs - (t.x + d * s.x) * hd
    · linear_combination (-s.y) * ht - (d * t.y) * hs - (t.y + d * s.y) * hd
    · linear_combination (-s.z) * ht - (d * t.z) * hs - (t.z + d * s.z) * hd
  have hu : Quat.normSq (Quat.rotateFromTo s t) = 1 := by
    rw [e]
    have : Quat.normSq (⟨(k • V3.cross s t).x, (k • V3.cross s t).y, (k • V3.cross s t).z, c⟩ : Quat ℝ) = k * k * lenSq (V3.cross s t) + c * c := by
      simp only [Quat.normSq, lenSq, V3.dot, smul_x, smul_y, smul_z]; ring
    rw [this, hlag, hk2, hcc]; ring
  have hm : Quat.transform (Quat.rotateFromTo s t) s = t := by
    rw [e, Quat.transform_cross]
    have c1 : V3.cross (k • V3.cross s t) s = k • (t - d • s) := by
      rw [← hcr1]; ext <;> simp [V3.cross] <;> ring
    have c2 : V3.cross (k • V3.cross s t) (k • (t - d • s)) = (k * k) • (-((1 - d * d) • s)) := by
      rw [← hcr2]; ext <;> simp [V3.cross] <;> ring
    rw [c1, c2]
    ext <;> simp
    · linear_combination (t.x - d * s.x) * h2ck - 2 * s.x * hk2
    · linear_combination (t.y - d * s.y) * h2ck - 2 * s.y * hk2
    · linear_combination (t.z - d * s.z) * h2ck - 2 * s.z * hk2
  refine ⟨hu, hm, by rw [e]; exact hc0, ?_⟩
  intro r hr hrm
  have := w_le_of_maps r s t hr hs hrm
  rw [e]
  apply abs_le_of_sq_le_sq' _ hc0 |> abs_le.2
  rw [sq, sq, hcc]; linarith

/-- Non-vacuity: x to y. -/
example : lenSq (⟨1, 0, 0⟩ : V3 ℝ) = 1 ∧ lenSq (⟨0, 1, 0⟩ : V3 ℝ) = 1 ∧
    1 / 1000000 < len (V3.cross (⟨1, 0, 0⟩ : V3 ℝ) ⟨0, 1, 0⟩) := by
  refine ⟨by norm_num [lenSq, V3.dot], by norm_num [lenSq, V3.dot], ?_⟩
  have : lenSq (V3.cross (⟨1, 0, 0⟩ : V3 ℝ) ⟨0, 1, 0⟩) = 1 := by norm_num [lenSq, V3.dot, V3.cross]
  unfold len; rw [this, Real.sqrt_one]; norm_num

/-- C62: for equal directions `Quat::RotateFromTo` is not the identity but a half turn about x, which
turns `y` to `-y`. -/
theorem C62_quat_rotateFromTo_violation : ∃ s : V3 ℝ, lenSq s = 1 ∧
    Quat.transform (Quat.rotateFromTo s s) s = -s := by
  refine ⟨⟨0, 1, 0⟩, by norm_num [lenSq, V3.dot], ?_⟩
  have h : ¬ 1 / 1000000 < len (V3.cross (⟨0, 1, 0⟩ : V3 ℝ) ⟨0, 1, 0⟩) := by
    have : lenSq (V3.cross (⟨0, 1, 0⟩ : V3 ℝ) ⟨0, 1, 0⟩) = 0 := by norm_num [lenSq, V3.dot, V3.cross]
    unfold len; rw [this, Real.sqrt_zero]; norm_num
  have e : Quat.rotateFromTo (⟨0, 1, 0⟩ : V3 ℝ) ⟨0, 1, 0⟩ = ⟨1, 0, 0, 0⟩ := by
    unfold Quat.rotateFromTo
    rw [f3Normalize_neg h]
    simp
  rw [e]
  ext <;> simp [Quat.transform, Mat3.mulVec, Quat.toFloat3x3]
  norm_num

/-- C62: `float3x3::RotateFromTo` of unit directions is always a rotation matrix that carries the source
to the target, also for equal and for opposite directions. -/
theorem C62_mat_rotateFromTo (s t : V3 ℝ) (hs : lenSq s = 1) (ht : lenSq t = 1) :
    Spec.IsRotation (Mat3.rotateFromTo s t) ∧ Matrix.mulVec (Mat3.rotateFromTo s t) s.toFun = t.toFun := by
  have hs' := hs; have ht' := ht
  simp only [lenSq, V3.dot] at hs' ht'
  have hcs : V3.dot s t * V3.dot s t ≤ 1 := by
    have := cauchy s t; rw [hs, ht] at this; linarith
  by_cases hd : |V3.dot s t| > 999 / 1000
  · -- Householder branch
    have hbig : (999 / 1000) * (999 / 1000) < V3.dot s t * V3.dot s t := by
      have := abs_nonneg (V3.dot s t)
      rw [← abs_mul_abs_self (V3.dot s t)]; nlinarith
    -- the helper unit vector
    have hunit : ∃ p : V3 ℝ, lenSq p = 1 ∧ V3.dot s p * V3.dot s p ≤ 1 / 2 ∧
        (if (f3Abs s).x < (f3Abs s).y ∧ (f3Abs s).x < (f3Abs s).z then (⟨1, 0, 0⟩ : V3 ℝ)
          else if (f3Abs s).y < (f3Abs s).z then ⟨0, 1, 0⟩ else ⟨0, 0, 1⟩) = p := by
      have ax : (f3Abs s).x = |s.x| := by simp only [f3Abs]; exact absF_eq _
      have ay : (f3Abs s).y = |s.y| := by simp only [f3Abs]; exact absF_eq _
      have az : (f3Abs s).z = |s.z| := by simp only [f3Abs]; exact absF_eq _
      rw [ax, ay, az]
      have bx := abs_mul_abs_self s.x; have by' := abs_mul_abs_self s.y; have bz := abs_mul_abs_self s.z
      have nx := abs_nonneg s.x; have ny := abs_nonneg s.y; have nz := abs_nonneg s.z
      by_cases h1 : |s.x| < |s.y| ∧ |s.x| < |s.z|
      · rw [if_pos h1]
        refine ⟨_, by norm_num [lenSq, V3.dot], ?_, rfl⟩
        simp only [V3.dot]; nlinarith [h1.1, h1.2]
      · rw [if_neg h1]
        by_cases h2 : |s.y| < |s.z|
        · rw [if_pos h2]
          refine ⟨_, by norm_num [lenSq, V3.dot], ?_, rfl⟩
          simp only [V3.dot]; nlinarith
        · rw [if_neg h2]
          refine ⟨_, by norm_num [lenSq, V3.dot], ?_, rfl⟩
          simp only [V3.dot]; nlinarith [not_lt.1 h2]
    obtain ⟨p, hp, hsp, hpe⟩ := hunit
    have hps : lenSq (p - s) ≠ 0 := by
      intro h0
      have := lenSq_eq_zero.1 h0
      have hps : s = p := by
        have hx := congrArg V3.x this; have hy := congrArg V3.y this; have hz := congrArg V3.z this
        simp at hx hy hz
        ext <;> linarith
      rw [← hps] at hsp
      have : V3.dot s s = 1 := hs
      rw [this] at hsp; norm_num at hsp
    have hpt : lenSq (p - t) ≠ 0 := by
      intro h0
      have := lenSq_eq_zero.1 h0
      have hpt : t = p := by
        have hx := congrArg V3.x this; have hy := congrArg V3.y this; have hz := congrArg V3.z this
        simp at hx hy hz
        ext <;> linarith
      rw [← hpt] at hsp; nlinarith
    have ha : -2 / V3.dot (p - s) (p - s) * lenSq (p - s) = -2 := div_mul_cancel₀ _ hps
    have hb : -2 / V3.dot (p - t) (p - t) * lenSq (p - t) = -2 := div_mul_cancel₀ _ hpt
    have e : Mat3.rotateFromTo s t = house (-2 / V3.dot (p - t) (p - t)) (p - t) * house (-2 / V3.dot (p - s) (p - s)) (p - s) := by
      unfold Mat3.rotateFromTo
      dsimp only
      rw [if_pos hd, hpe]
      generalize -2 / V3.dot (p - s) (p - s) = a
      generalize -2 / V3.dot (p - t) (p - t) = b
      generalize p - s = u
      generalize p - t = v
      ext i j
      rw [Matrix.mul_apply, Fin.sum_univ_three]
      fin_cases i <;> fin_cases j <;> simp [house, V3.dot] <;> ring
    refine ⟨by rw [e]; exact house_rotation _ _ _ _ ha hb, ?_⟩
    rw [e, ← Matrix.mulVec_mulVec, house_swap _ s p hs hp ha]
    have hsym : house (-2 / V3.dot (p - t) (p - t)) (p - t) = house (-2 / V3.dot (p - t) (p - t)) (t - p) := by
      ext i j; fin_cases i <;> fin_cases j <;> simp [house] <;> ring
    rw [hsym]
    refine house_swap _ p t hp ht ?_
    have hsy : lenSq (t - p) = lenSq (p - t) := by simp only [lenSq, V3.dot, sub_x, sub_y, sub_z]; ring
    rw [hsy]; exact hb
  · -- Rodrigues branch
    have hd2 : V3.dot s t * V3.dot s t ≤ (999 / 1000) * (999 / 1000) := by
      rw [← abs_mul_abs_self (V3.dot s t)]
      have := abs_nonneg (V3.dot s t); have := not_lt.1 hd; nlinarith
    have hlag : V3.dot (V3.cross s t) (V3.cross s t) = 1 - V3.dot s t * V3.dot s t := by
      simp only [V3.dot, V3.cross]
      linear_combination (t.x * t.x + t.y * t.y + t.z * t.z) * hs' + ht'
    have hv0 : V3.dot (V3.cross s t) (V3.cross s t) ≠ 0 := by rw [hlag]; nlinarith
    have hh : (1 - V3.dot s t) / V3.dot (V3.cross s t) (V3.cross s t) * V3.dot (V3.cross s t) (V3.cross s t) = 1 - V3.dot s t := div_mul_cancel₀ _ hv0
    set h := (1 - V3.dot s t) / V3.dot (V3.cross s t) (V3.cross s t) with hhd
    have e : Mat3.rotateFromTo s t =
        !![h * (V3.cross s t).x * (V3.cross s t).x + V3.dot s t, h * (V3.cross s t).y * (V3.cross s t).x - (V3.cross s t).z, h * (V3.cross s t).z * (V3.cross s t).x + (V3.cross s t).y;
           h * (V3.cross s t).x * (V3.cross s t).y + (V3.cross s t).z, h * (V3.cross s t).y * (V3.cross s t).y + V3.dot s t, h * (V3.cross s t).z * (V3.cross s t).y - (V3.cross s t).x;
           h * (V3.cross s t).x * (V3.cross s t).z - (V3.cross s t).y, h * (V3.cross s t).y * (V3.cross s t).z + (V3.cross s t).x, h * (V3.cross s t).z * (V3.cross s t).z + V3.dot s t] := by
      unfold Mat3.rotateFromTo
      dsimp only
      rw [if_neg hd]
    have hr1 : V3.cross (V3.cross s t) s = t - V3.dot s t • s := by
      ext <;> simp [V3.cross, V3.dot]
      · linear_combination t.x * hs'
      · linear_combination t.y * hs'
      · linear_combination t.z * hs'
    have hr0 : V3.dot (V3.cross s t) s = 0 := by simp only [V3.dot, V3.cross]; ring
    generalize hcv : V3.cross s t = v at *
    generalize hdv : V3.dot s t = d at *
    have hh' : h * (v.x * v.x + v.y * v.y + v.z * v.z) = 1 - d := hh
    have hl' : v.x * v.x + v.y * v.y + v.z * v.z = 1 - d * d := hlag
    have h1d : h * (1 - d * d) = 1 - d := by rw [← hl']; exact hh'
    have h1d' : h * (1 + d) = 1 := by
      have hne : 1 - d ≠ 0 := by nlinarith
      have : (1 - d) * (h * (1 + d)) = (1 - d) * 1 := by linear_combination h1d
      exact mul_left_cancel₀ hne this
    refine ⟨⟨?_, ?_⟩, ?_⟩
    · rw [e]
      show Matrix.transpose _ * _ = _
      ext i j
      rw [Matrix.mul_apply, Fin.sum_univ_three]
      fin_cases i <;> fin_cases j <;> simp
      · linear_combination (h * v.x * v.x) * hh' + hl' + (v.x * v.x) * h1d'
      · linear_combination (h * v.x * v.y) * hh' + (v.x * v.y) * h1d'
      · linear_combination (h * v.x * v.z) * hh' + (v.x * v.z) * h1d'
      · linear_combination (h * v.x * v.y) * hh' + (v.x * v.y) * h1d'
      · linear_combination (h * v.y * v.y) * hh' + hl' + (v.y * v.y) * h1d'
      · linear_combination (h * v.y * v.z) * hh' + (v.y * v.z) * h1d'
      · linear_combination (h * v.x * v.z) * hh' + (v.x * v.z) * h1d'
      · linear_combination (h * v.y * v.z) * hh' + (v.y * v.z) * h1d'
      · linear_combination (h * v.z * v.z) * hh' + hl' + (v.z * v.z) * h1d'
    · rw [e, Matrix.det_fin_three]
      simp
      linear_combination (d * d) * hh' + d * hl' + h * (v.x * v.x + v.y * v.y + v.z * v.z) * hl' + (1 - d * d) * hh'
    · rw [e, ← Mat3.mulVec_eq]
      congr 1
      have q0 : v.x * s.x + v.y * s.y + v.z * s.z = 0 := hr0
      have qx := congrArg V3.x hr1; have qy := congrArg V3.y hr1; have qz := congrArg V3.z hr1
      simp only [V3.cross, sub_x, sub_y, sub_z, smul_x, smul_y, smul_z] at qx qy qz
      ext <;> simp [Mat3.mulVec]
      · linear_combination (h * v.x) * q0 + qx
      · linear_combination (h * v.y) * q0 + qy
      · linear_combination (h * v.z) * q0 + qz

example := C62_mat_rotateFromTo ⟨3/5, 0, 4/5⟩ ⟨0, 1, 0⟩ (by norm_num [lenSq, dot]) (by norm_num [lenSq, dot])

/-- C62: away from collinear directions `float3x3::RotateFromTo` is the rotation with the smallest
angle: every rotation carrying source to target has at most its trace (`1 + 2 cos angle`). -/
theorem C62_mat_rotateFromTo_shortest_partial (s t : V3 ℝ) (hs : lenSq s = 1) (ht : lenSq t = 1)
    (hd : |V3.dot s t| ≤ 999 / 1000) (m : Matrix (Fin 3) (Fin 3) ℝ) (hm : Spec.IsRotation m)
    (hmap : Matrix.mulVec m s.toFun = t.toFun) :
    Matrix.trace m ≤ Matrix.trace (Mat3.rotateFromTo s t) := by
  have h1 := trace_le_of_maps m hm s t hs hmap
  have hs' := hs; have ht' := ht
  simp only [lenSq, V3.dot] at hs' ht'
  have hd2 : V3.dot s t * V3.dot s t ≤ (999 / 1000) * (999 / 1000) := by
    rw [← abs_mul_abs_self (V3.dot s t)]
    have := abs_nonneg (V3.dot s t); nlinarith
  have hlag : V3.dot (V3.cross s t) (V3.cross s t) = 1 - V3.dot s t * V3.dot s t := by
    simp only [V3.dot, V3.cross]
    linear_combination (t.x * t.x + t.y * t.y + t.z * t.z) * hs' + ht'
  have hv0 : V3.dot (V3.cross s t) (V3.cross s t) ≠ 0 := by rw [hlag]; nlinarith
  have hh : (1 - V3.dot s t) / V3.dot (V3.cross s t) (V3.cross s t) * V3.dot (V3.cross s t) (V3.cross s t) = 1 - V3.dot s t := div_mul_cancel₀ _ hv0
  rw [Matrix.trace_fin_three, Matrix.trace_fin_three]
  refine h1.trans (le_of_eq ?_)
  unfold Mat3.rotateFromTo
  dsimp only
  rw [if_neg (not_lt.2 hd)]
  generalize (1 - V3.dot s t) / V3.dot (V3.cross s t) (V3.cross s t) = h at hh
  generalize V3.cross s t = v at *
  generalize V3.dot s t = d at *
  have hh' : h * (v.x * v.x + v.y * v.y + v.z * v.z) = 1 - d := hh
  simp
  linear_combination (-1) * hh'

example : lenSq (⟨2 / 3, 1 / 3, -2 / 3⟩ : V3 ℝ) = 1 ∧ lenSq (⟨0, 3 / 5, 4 / 5⟩ : V3 ℝ) = 1 ∧
    |V3.dot (⟨2 / 3, 1 / 3, -2 / 3⟩ : V3 ℝ) ⟨0, 3 / 5, 4 / 5⟩| ≤ 999 / 1000 := by
  refine ⟨by norm_num [lenSq, V3.dot], by norm_num [lenSq, V3.dot], ?_⟩
  have : V3.dot (⟨2 / 3, 1 / 3, -2 / 3⟩ : V3 ℝ) ⟨0, 3 / 5, 4 / 5⟩ = -(1 / 3) := by norm_num [V3.dot]
  rw [this, abs_neg, abs_of_pos (by norm_num)]; norm_num

/-- C62: for nearly equal directions the returned rotation is not the shortest one: there is another
rotation carrying source to target with a larger trace. -/
theorem C62_mat_rotateFromTo_shortest_violation : ∃ (s t : V3 ℝ) (m : Matrix (Fin 3) (Fin 3) ℝ),
    lenSq s = 1 ∧ lenSq t = 1 ∧ Spec.IsRotation m ∧ Matrix.mulVec m s.toFun = t.toFun ∧
    Matrix.trace (Mat3.rotateFromTo s t) < Matrix.trace m := by
  have hs : lenSq (⟨1, 0, 0⟩ : V3 ℝ) = 1 := by norm_num [lenSq, V3.dot]
  have hf : lenSq (⟨0, 0, 1⟩ : V3 ℝ) = 1 := by norm_num [lenSq, V3.dot]
  have ht : lenSq (⟨2499 / 2501, 100 / 2501, 0⟩ : V3 ℝ) = 1 := by norm_num [lenSq, V3.dot]
  refine ⟨⟨1, 0, 0⟩, ⟨2499 / 2501, 100 / 2501, 0⟩, _, hs, ht,
    cols_rotation ⟨2499 / 2501, 100 / 2501, 0⟩ ⟨0, 0, 1⟩ ht hf (by norm_num [V3.dot]), ?_, ?_⟩
  · ext i
    rw [Matrix.mulVec, dotProduct, Fin.sum_univ_three]
    fin_cases i <;> simp [Mat3.ofCols, V3.toFun, V3.cross]
  · have hd : V3.dot (⟨1, 0, 0⟩ : V3 ℝ) ⟨2499 / 2501, 100 / 2501, 0⟩ = 2499 / 2501 := by norm_num [V3.dot]
    rw [Matrix.trace_fin_three, Matrix.trace_fin_three]
    unfold Mat3.rotateFromTo
    dsimp only
    rw [hd, if_pos (by rw [abs_of_pos] <;> norm_num)]
    have a0 : absF (0 : ℝ) = 0 := by rw [absF_eq, abs_zero]
    have a1 : absF (1 : ℝ) = 1 := by rw [absF_eq, abs_one]
    rw [if_neg (by simp [f3Abs, a0, a1]), if_neg (by simp [f3Abs, a0])]
    simp [Mat3.ofCols, V3.cross, V3.dot]
    norm_num

/-- C62: `LookAt` for an orthonormal local frame, a unit target direction and a world-up direction not
(nearly) collinear with it: a rotation that maps forward to the target and local up into the plane of
target and world up, on the side of world up. -/
theorem C62_lookAt (lf td lu wu : V3 ℝ) (hlf : lenSq lf = 1) (hlu : lenSq lu = 1) (hperp : V3.dot lf lu = 0)
    (htd : lenSq td = 1) (hwu : 1 / 1000000 < len (V3.cross wu td)) :
    Spec.IsRotation (Mat3.lookAt lf td lu wu) ∧
    Matrix.mulVec (Mat3.lookAt lf td lu wu) lf.toFun = td.toFun ∧
    ∃ a b : ℝ, 0 < a ∧ Matrix.mulVec (Mat3.lookAt lf td lu wu) lu.toFun = (a • wu + b • td).toFun := by
  have hL0 : 0 < len (V3.cross wu td) := by linarith [show (0 : ℝ) < 1 / 1000000 by norm_num]
  set k := 1 / len (V3.cross wu td) with hk
  have hk0 : 0 < k := by positivity
  have hwr : f3Normalized (V3.cross wu td) = k • V3.cross wu td := f3Normalized_pos hwu
  have hwr1 : lenSq (k • V3.cross wu td) = 1 := by rw [← hwr]; exact lenSq_normalized _
  have hwrd : V3.dot (k • V3.cross wu td) td = 0 := by simp only [V3.dot, V3.cross, smul_x, smul_y, smul_z]; ring
  have hpw1 : lenSq (V3.cross td (k • V3.cross wu td)) = 1 := by
    have hl := lagrange td (k • V3.cross wu td)
    rw [hwr1, htd, dot_comm, hwrd] at hl
    linarith
  have hlr1 : lenSq (V3.cross lu lf) = 1 := by
    have hl := lagrange lu lf
    rw [hlu, hlf, dot_comm, hperp] at hl
    linarith
  have hlrd : V3.dot (V3.cross lu lf) lf = 0 := by simp only [V3.dot, V3.cross]; ring
  have hback : V3.cross lf (V3.cross lu lf) = lu := by
    have hlf' := hlf; have hp' := hperp
    simp only [lenSq, V3.dot] at hlf' hp'
    ext <;> simp only [V3.cross]
    · linear_combination lu.x * hlf' - lf.x * hp'
    · linear_combination lu.y * hlf' - lf.y * hp'
    · linear_combination lu.z * hlf' - lf.z * hp'
  have A := cols_rotation (k • V3.cross wu td) td hwr1 htd hwrd
  have B := cols_rotation (V3.cross lu lf) lf hlr1 hlf hlrd
  rw [hback] at B
  have hM : Mat3.mul (Mat3.ofCols (k • V3.cross wu td) (V3.cross td (k • V3.cross wu td)) td) (Mat3.ofRows (V3.cross lu lf) lu lf) =
      Mat3.ofCols (k • V3.cross wu td) (V3.cross td (k • V3.cross wu td)) td * Matrix.transpose (Mat3.ofCols (V3.cross lu lf) lu lf) := by
    rw [Mat3.mul_eq]; congr 1
    ext i j; fin_cases i <;> fin_cases j <;> rfl
  have hrot := rotation_mul A (rotation_transpose B)
  have e : Mat3.lookAt lf td lu wu = Mat3.ofCols (k • V3.cross wu td) (V3.cross td (k • V3.cross wu td)) td * Matrix.transpose (Mat3.ofCols (V3.cross lu lf) lu lf) := by
    unfold Mat3.lookAt
    dsimp only
    rw [f3Normalized_unit hlr1, hwr, f3Normalized_unit hpw1, hM, orthonormalize012_rotation hrot]
  have EB := rotEqs B
  have tf : Matrix.mulVec (Matrix.transpose (Mat3.ofCols (V3.cross lu lf) lu lf)) lf.toFun = ![0, 0, 1] := by
    have h1 := EB.c02; have h2 := EB.c12; have h3 := EB.c22
    simp [Mat3.ofCols] at h1 h2 h3
    ext i
    rw [Matrix.mulVec, dotProduct, Fin.sum_univ_three]
    fin_cases i <;> simp [Mat3.ofCols, V3.toFun]
    · linear_combination h1
    · linear_combination h2
    · linear_combination h3
  have tu : Matrix.mulVec (Matrix.transpose (Mat3.ofCols (V3.cross lu lf) lu lf)) lu.toFun = ![0, 1, 0] := by
    have h1 := EB.c01; have h2 := EB.c11; have h3 := EB.c12
    simp [Mat3.ofCols] at h1 h2 h3
    ext i
    rw [Matrix.mulVec, dotProduct, Fin.sum_univ_three]
    fin_cases i <;> simp [Mat3.ofCols, V3.toFun]
    · linear_combination h1
    · linear_combination h2
    · linear_combination h3
  refine ⟨by rw [e]; exact hrot, ?_, k, -k * V3.dot td wu, hk0, ?_⟩
  · rw [e, ← Matrix.mulVec_mulVec, tf]
    ext i
    rw [Matrix.mulVec, dotProduct, Fin.sum_univ_three]
    fin_cases i <;> simp [Mat3.ofCols, V3.toFun]
  · rw [e, ← Matrix.mulVec_mulVec, tu]
    have htd' := htd
    simp only [lenSq, V3.dot] at htd'
    ext i
    rw [Matrix.mulVec, dotProduct, Fin.sum_univ_three]
    fin_cases i <;> simp [Mat3.ofCols, V3.toFun, V3.cross, V3.dot]
    · linear_combination (k * wu.x) * htd'
    · linear_combination (k * wu.y) * htd'
    · linear_combination (k * wu.z) * htd'

example : 1 / 1000000 < len (V3.cross (⟨0, 1, 0⟩ : V3 ℝ) ⟨3 / 5, 4 / 5, 0⟩) := by
  have : lenSq (V3.cross (⟨0, 1, 0⟩ : V3 ℝ) ⟨3 / 5, 4 / 5, 0⟩) = (3 / 5) ^ 2 := by norm_num [lenSq, V3.dot, V3.cross]
  unfold len; rw [this, Real.sqrt_sq (by norm_num)]; norm_num

/-- C60: `RemoveScale` normalises the rows, so for `M = R * S` with `R` a rotation and `S` a (non-uniform)
positive scale the result is in general not `R` and not even orthonormal. -/
theorem C60_removeScale_violation : ∃ r s : Matrix (Fin 3) (Fin 3) ℝ, Spec.IsRotation r ∧
    s = Matrix.diagonal ![2, 1, 1] ∧ ¬ Spec.Orthonormal (Mat3.removeScale (r * s)) := by
  have hx : lenSq (⟨3 / 5, 4 / 5, 0⟩ : V3 ℝ) = 1 := by norm_num [lenSq, V3.dot]
  have hz : lenSq (⟨0, 0, 1⟩ : V3 ℝ) = 1 := by norm_num [lenSq, V3.dot]
  refine ⟨_, _, cols_rotation ⟨3 / 5, 4 / 5, 0⟩ ⟨0, 0, 1⟩ hx hz (by norm_num [V3.dot]), rfl, ?_⟩
  set m := Mat3.ofCols (⟨3 / 5, 4 / 5, 0⟩ : V3 ℝ) (V3.cross ⟨0, 0, 1⟩ ⟨3 / 5, 4 / 5, 0⟩) ⟨0, 0, 1⟩ * Matrix.diagonal ![2, 1, 1] with hm
  intro ho
  have ho' : Matrix.transpose (Mat3.removeScale m) * Mat3.removeScale m = 1 := ho
  have hr : Mat3.removeScale m * Matrix.transpose (Mat3.removeScale m) = 1 := mul_eq_one_comm.1 ho'
  have h01 := congrFun (congrFun hr 0) 1
  rw [Matrix.mul_apply, Fin.sum_univ_three] at h01
  have e0 : Mat3.row m 0 = ⟨6 / 5, -4 / 5, 0⟩ := by
    rw [hm]; ext <;> simp [Mat3.row, Mat3.ofCols, V3.cross, Matrix.mul_apply, Fin.sum_univ_three] <;> norm_num
  have e1 : Mat3.row m 1 = ⟨8 / 5, 3 / 5, 0⟩ := by
    rw [hm]; ext <;> simp [Mat3.row, Mat3.ofCols, V3.cross, Matrix.mul_apply, Fin.sum_univ_three] <;> norm_num
  have l0 : 1 / 1000000 < len (⟨6 / 5, -4 / 5, 0⟩ : V3 ℝ) := by
    unfold len; apply Real.lt_sqrt_of_sq_lt; norm_num [lenSq, V3.dot]
  have l1 : 1 / 1000000 < len (⟨8 / 5, 3 / 5, 0⟩ : V3 ℝ) := by
    unfold len; apply Real.lt_sqrt_of_sq_lt; norm_num [lenSq, V3.dot]
  simp [Mat3.removeScale, Mat3.ofRows, e0, e1, f3Normalized_pos l0, f3Normalized_pos l1] at h01
  have p0 : len (⟨6 / 5, -4 / 5, 0⟩ : V3 ℝ) ≠ 0 := by intro h; rw [h] at l0; norm_num at l0
  have p1 : len (⟨8 / 5, 3 / 5, 0⟩ : V3 ℝ) ≠ 0 := by intro h; rw [h] at l1; norm_num at l1
  field_simp at h01
  norm_num at h01
  exact p0 ((congrArg (fun y : ℝ => len (⟨6 / 5, y, 0⟩ : V3 ℝ)) (by norm_num : (-4 / 5 : ℝ) = -(4 / 5))).trans h01)

end MGL
