import Verif.Spec.Clip
import Verif.Proofs.Mat4
import Mathlib.Tactic.Positivity

/-! C58: each projection matrix maps exactly its view volume into the clip volume of its API. -/

namespace MGL
variable {α : Type*} [Field α] [LinearOrder α] [IsStrictOrderedRing α]

private theorem ortho_xy {h x : α} (hh : 0 < h) : |2 / h * x / 1| ≤ 1 ↔ |x| ≤ h / 2 := by
  rw [div_one, abs_mul, abs_of_pos (by positivity : (0 : α) < 2 / h), div_mul_eq_mul_div, div_le_one hh,
    le_div_iff₀ two_pos, mul_comm]

private theorem persp_xy {n h x d : α} (hn : 0 < n) (hh : 0 < h) (hd : 0 < d) :
    |2 * n / h * x / d| ≤ 1 ↔ |x| ≤ h / 2 * (d / n) := by
  have e : 2 * n / h * x / d = (2 * n / (h * d)) * x := by field_simp
  have e' : h / 2 * (d / n) = (h * d) / (2 * n) := by field_simp
  rw [e, e', abs_mul, abs_of_pos (by positivity : (0 : α) < 2 * n / (h * d)), div_mul_eq_mul_div,
    div_le_one (by positivity), le_div_iff₀ (by positivity), mul_comm]

omit [IsStrictOrderedRing α] in
private theorem clipD3D (a b c d : α) :
    Spec.InD3DClip ![a, b, c, d] ↔ 0 < d ∧ |a / d| ≤ 1 ∧ |b / d| ≤ 1 ∧ 0 ≤ c / d ∧ c / d ≤ 1 := Iff.rfl

omit [IsStrictOrderedRing α] in
private theorem clipGL (a b c d : α) :
    Spec.InGLClip ![a, b, c, d] ↔ 0 < d ∧ |a / d| ≤ 1 ∧ |b / d| ≤ 1 ∧ |c / d| ≤ 1 := Iff.rfl

private theorem ortho_d3d {n f h v x y d : α} (hnf : n < f) (hh : 0 < h) (hv : 0 < v) :
    Spec.InOrthoVolume n f h v x y d ↔ Spec.InD3DClip ![2 / h * x, 2 / v * y, (d - n) / (f - n), 1] := by
  have hd : 0 < f - n := sub_pos.2 hnf
  rw [clipD3D, ortho_xy hh, ortho_xy hv, div_one, le_div_iff₀ hd, zero_mul, div_le_one hd, Spec.InOrthoVolume]
  constructor
  · rintro ⟨h1, h2, h3, h4⟩; exact ⟨one_pos, h3, h4, by linarith, by linarith⟩
  · rintro ⟨-, h3, h4, h1, h2⟩; exact ⟨by linarith, by linarith, h3, h4⟩

private theorem ortho_gl {n f h v x y d : α} (hnf : n < f) (hh : 0 < h) (hv : 0 < v) :
    Spec.InOrthoVolume n f h v x y d ↔ Spec.InGLClip ![2 / h * x, 2 / v * y, (2 * d - (f + n)) / (f - n), 1] := by
  have hd : 0 < f - n := sub_pos.2 hnf
  rw [clipGL, ortho_xy hh, ortho_xy hv, div_one, abs_le (a := _ / _), le_div_iff₀ hd, div_le_one hd, Spec.InOrthoVolume]
  constructor
  · rintro ⟨h1, h2, h3, h4⟩; exact ⟨one_pos, h3, h4, by linarith, by linarith⟩
  · rintro ⟨-, h3, h4, h1, h2⟩; exact ⟨by linarith, by linarith, h3, h4⟩

private theorem persp_d3d {n f h v x y d : α} (hn : 0 < n) (hnf : n < f) (hh : 0 < h) (hv : 0 < v) :
    Spec.InPerspVolume n f h v x y d ↔
      Spec.InD3DClip ![2 * n / h * x, 2 * n / v * y, f * (d - n) / (f - n), d] := by
  have hd : 0 < f - n := sub_pos.2 hnf
  have hf : 0 < f := hn.trans hnf
  rw [clipD3D, Spec.InPerspVolume]
  constructor
  · rintro ⟨h1, h2, h3, h4⟩
    have h0 : 0 < d := lt_of_lt_of_le hn h1
    refine ⟨h0, (persp_xy hn hh h0).2 h3, (persp_xy hn hv h0).2 h4, ?_, ?_⟩
    · have : 0 ≤ d - n := by linarith
      positivity
    · rw [div_div, div_le_one (by positivity)]; nlinarith
  · rintro ⟨h0, h3, h4, h1, h2⟩
    rw [div_div] at h1 h2
    have hfd : 0 < (f - n) * d := by positivity
    rw [le_div_iff₀ hfd, zero_mul] at h1
    rw [div_le_one hfd] at h2
    refine ⟨?_, ?_, (persp_xy hn hh h0).1 h3, (persp_xy hn hv h0).1 h4⟩
    · have := nonneg_of_mul_nonneg_right h1 hf; linarith
    · have : n * (d - f) ≤ 0 := by linarith
      have := nonpos_of_mul_nonpos_right this hn; linarith

private theorem persp_gl {n f h v x y d : α} (hn : 0 < n) (hnf : n < f) (hh : 0 < h) (hv : 0 < v) :
    Spec.InPerspVolume n f h v x y d ↔
      Spec.InGLClip ![2 * n / h * x, 2 * n / v * y, ((n + f) * d - 2 * n * f) / (f - n), d] := by
  have hd : 0 < f - n := sub_pos.2 hnf
  have hf : 0 < f := hn.trans hnf
  rw [clipGL, Spec.InPerspVolume]
  constructor
  · rintro ⟨h1, h2, h3, h4⟩
    have h0 : 0 < d := lt_of_lt_of_le hn h1
    have hfd : 0 < (f - n) * d := by positivity
    refine ⟨h0, (persp_xy hn hh h0).2 h3, (persp_xy hn hv h0).2 h4, ?_⟩
    rw [div_div, abs_le, le_div_iff₀ hfd, div_le_one hfd]
    constructor <;> nlinarith
  · rintro ⟨h0, h3, h4, h1⟩
    have hfd : 0 < (f - n) * d := by positivity
    rw [div_div, abs_le, le_div_iff₀ hfd, div_le_one hfd] at h1
    refine ⟨?_, ?_, (persp_xy hn hh h0).1 h3, (persp_xy hn hv h0).1 h4⟩
    · have : 0 ≤ (2 * f) * (d - n) := by linarith [h1.1]
      have := nonneg_of_mul_nonneg_right this (by positivity); linarith
    · have : (2 * n) * (d - f) ≤ 0 := by linarith [h1.2]
      have := nonpos_of_mul_nonpos_right this (by positivity); linarith

/-- C58. `D3DOrthoProjLH` / `D3DOrthoProjRH`: a point is in the orthographic view volume (camera looking
along +z resp. -z) iff its image is in the Direct3D clip volume. -/
theorem C58_d3dOrtho (n f h v : α) (hnf : n < f) (hh : 0 < h) (hv : 0 < v) (p : V3 α) :
    (Spec.InOrthoVolume n f h v p.x p.y p.z ↔
      Spec.InD3DClip (Mat4.mulVec4 (Mat4.d3dOrthoProjLH n f h v) p.hpos)) ∧
    (Spec.InOrthoVolume n f h v p.x p.y (-p.z) ↔
      Spec.InD3DClip (Mat4.mulVec4 (Mat4.d3dOrthoProjRH n f h v) p.hpos)) := by
  have hd : f - n ≠ 0 := (sub_pos.2 hnf).ne'
  have hd' : n - f ≠ 0 := (sub_neg.2 hnf).ne
  rw [ortho_d3d hnf hh hv, ortho_d3d hnf hh hv]
  constructor <;> refine Eq.to_iff (congrArg _ ?_) <;> ext i <;> fin_cases i <;>
    simp [Mat4.mulVec4, Mat4.d3dOrthoProjLH, Mat4.d3dOrthoProjRH, V3.hpos] <;> field_simp <;> ring

example := C58_d3dOrtho (1 : ℚ) 100 4 3 (by norm_num) (by norm_num) (by norm_num)

/-- C58. `OpenGLOrthoProjLH` / `OpenGLOrthoProjRH`. -/
theorem C58_openGLOrtho (n f h v : α) (hnf : n < f) (hh : 0 < h) (hv : 0 < v) (p : V3 α) :
    (Spec.InOrthoVolume n f h v p.x p.y p.z ↔
      Spec.InGLClip (Mat4.mulVec4 (Mat4.openGLOrthoProjLH n f h v) p.hpos)) ∧
    (Spec.InOrthoVolume n f h v p.x p.y (-p.z) ↔
      Spec.InGLClip (Mat4.mulVec4 (Mat4.openGLOrthoProjRH n f h v) p.hpos)) := by
  have hd : f - n ≠ 0 := (sub_pos.2 hnf).ne'
  have hd' : n - f ≠ 0 := (sub_neg.2 hnf).ne
  rw [ortho_gl hnf hh hv, ortho_gl hnf hh hv]
  constructor <;> refine Eq.to_iff (congrArg _ ?_) <;> ext i <;> fin_cases i <;>
    simp [Mat4.mulVec4, Mat4.openGLOrthoProjLH, Mat4.openGLOrthoProjRH, V3.hpos] <;> field_simp <;> ring

example := C58_openGLOrtho (1 : ℚ) 100 4 3 (by norm_num) (by norm_num) (by norm_num)

/-- C58. `D3DPerspProjLH` / `D3DPerspProjRH`: a point is in the perspective view volume iff its image is in
the Direct3D clip volume. -/
theorem C58_d3dPersp (n f h v : α) (hn : 0 < n) (hnf : n < f) (hh : 0 < h) (hv : 0 < v) (p : V3 α) :
    (Spec.InPerspVolume n f h v p.x p.y p.z ↔
      Spec.InD3DClip (Mat4.mulVec4 (Mat4.d3dPerspProjLH n f h v) p.hpos)) ∧
    (Spec.InPerspVolume n f h v p.x p.y (-p.z) ↔
      Spec.InD3DClip (Mat4.mulVec4 (Mat4.d3dPerspProjRH n f h v) p.hpos)) := by
  have hd : f - n ≠ 0 := (sub_pos.2 hnf).ne'
  have hd' : n - f ≠ 0 := (sub_neg.2 hnf).ne
  rw [persp_d3d hn hnf hh hv, persp_d3d hn hnf hh hv]
  constructor <;> refine Eq.to_iff (congrArg _ ?_) <;> ext i <;> fin_cases i <;>
    simp [Mat4.mulVec4, Mat4.d3dPerspProjLH, Mat4.d3dPerspProjRH, V3.hpos] <;> field_simp <;> ring

example := C58_d3dPersp (1 : ℚ) 100 4 3 (by norm_num) (by norm_num) (by norm_num) (by norm_num)

/-- C58. `OpenGLPerspProjLH` / `OpenGLPerspProjRH`. -/
theorem C58_openGLPersp (n f h v : α) (hn : 0 < n) (hnf : n < f) (hh : 0 < h) (hv : 0 < v) (p : V3 α) :
    (Spec.InPerspVolume n f h v p.x p.y p.z ↔
      Spec.InGLClip (Mat4.mulVec4 (Mat4.openGLPerspProjLH n f h v) p.hpos)) ∧
    (Spec.InPerspVolume n f h v p.x p.y (-p.z) ↔
      Spec.InGLClip (Mat4.mulVec4 (Mat4.openGLPerspProjRH n f h v) p.hpos)) := by
  have hd : f - n ≠ 0 := (sub_pos.2 hnf).ne'
  have hd' : n - f ≠ 0 := (sub_neg.2 hnf).ne
  rw [persp_gl hn hnf hh hv, persp_gl hn hnf hh hv]
  constructor <;> refine Eq.to_iff (congrArg _ ?_) <;> ext i <;> fin_cases i <;>
    simp [Mat4.mulVec4, Mat4.openGLPerspProjLH, Mat4.openGLPerspProjRH, V3.hpos] <;> field_simp <;> ring

example := C58_openGLPersp (1 : ℚ) 100 4 3 (by norm_num) (by norm_num) (by norm_num) (by norm_num)

/-- C58. Depth is mapped monotonically: of two points in front of the camera the nearer one gets the
smaller `z/w`. -/
theorem C58_depth_order (n f h v : α) (hn : 0 < n) (hnf : n < f) (p q : V3 α) (hp : 0 < p.z) (hpq : p.z < q.z) :
    Mat4.mulVec4 (Mat4.d3dPerspProjLH n f h v) p.hpos 2 / Mat4.mulVec4 (Mat4.d3dPerspProjLH n f h v) p.hpos 3 <
    Mat4.mulVec4 (Mat4.d3dPerspProjLH n f h v) q.hpos 2 / Mat4.mulVec4 (Mat4.d3dPerspProjLH n f h v) q.hpos 3 ∧
    Mat4.mulVec4 (Mat4.openGLPerspProjLH n f h v) p.hpos 2 / Mat4.mulVec4 (Mat4.openGLPerspProjLH n f h v) p.hpos 3 <
    Mat4.mulVec4 (Mat4.openGLPerspProjLH n f h v) q.hpos 2 / Mat4.mulVec4 (Mat4.openGLPerspProjLH n f h v) q.hpos 3 := by
  have hd : 0 < f - n := sub_pos.2 hnf
  have hf : 0 < f := hn.trans hnf
  have hq : 0 < q.z := hp.trans hpq
  have e : n - f = -(f - n) := by ring
  have hk : 0 < n * f / (f - n) := by positivity
  have hinv : 1 / q.z < 1 / p.z := one_div_lt_one_div_of_lt hp hpq
  constructor
  · have key : ∀ z : α, 0 < z → (f / (f - n) * z + n * f / (n - f)) / z = f / (f - n) - n * f / (f - n) * (1 / z) := by
      intro z hz; rw [e, div_neg]; field_simp; ring
    simp [Mat4.mulVec4, Mat4.d3dPerspProjLH, V3.hpos]
    rw [key _ hp, key _ hq]
    have := mul_lt_mul_of_pos_left hinv hk
    linarith
  · have key : ∀ z : α, 0 < z → ((n + f) / (f - n) * z + 2 * n * f / (n - f)) / z =
        (n + f) / (f - n) - 2 * (n * f / (f - n)) * (1 / z) := by
      intro z hz; rw [e, div_neg]; field_simp; ring
    simp [Mat4.mulVec4, Mat4.openGLPerspProjLH, V3.hpos]
    rw [key _ hp, key _ hq]
    have := mul_lt_mul_of_pos_left hinv hk
    linarith

example : Spec.InPerspVolume (1 : ℚ) 100 2 2 10 (-10) 20 ∧ Spec.InOrthoVolume (1 : ℚ) 100 2 2 1 (-1) 20 ∧
    ¬ Spec.InPerspVolume (1 : ℚ) 100 2 2 30 (-10) 20 := by
  simp only [Spec.InPerspVolume, Spec.InOrthoVolume]; decide +kernel

end MGL
