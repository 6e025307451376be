import Verif.Proofs.Frustum

/-! Lemmas about the matrices of a frustum: view coordinates and clip coordinates of a point. -/

set_option linter.unusedSectionVars false
set_option linter.unusedSimpArgs false

namespace MGL
open V3

noncomputable section

theorem mulVec4_mulMat34 (a : Mat4 ℝ) (b : Mat34 ℝ) (p : V3 ℝ) :
    Mat4.mulVec4 (Mat4.mulMat34 a b) ![p.x, p.y, p.z, 1] =
      Mat4.mulVec4 a ![(Mat34.mulPos b p).x, (Mat34.mulPos b p).y, (Mat34.mulPos b p).z, 1] := by
  ext i
  fin_cases i <;> simp [Mat4.mulVec4, Mat4.mulMat34, Mat34.mulPos] <;> ring

namespace Frustum

theorem Valid.worldMatrix_eq {f : Frustum} (h : f.Valid) : f.computeWorldMatrix =
    !![f.worldRight.x, f.up.x, (if f.hand = .right then -f.front else f.front).x, f.pos.x;
       f.worldRight.y, f.up.y, (if f.hand = .right then -f.front else f.front).y, f.pos.y;
       f.worldRight.z, f.up.z, (if f.hand = .right then -f.front else f.front).z, f.pos.z] := by
  have hR : lenSq f.worldRight = 1 := h.frame.vv
  unfold computeWorldMatrix worldMatrixOf
  have : f3Normalized (worldRightOf f.hand f.front f.up) = f.worldRight := f3Normalized_unit hR
  simp only [this]

theorem Valid.view_coords {f : Frustum} (h : f.Valid) (p : V3 ℝ) :
    Mat34.mulPos f.computeViewMatrix p =
      ⟨dot (p - f.pos) f.worldRight, dot (p - f.pos) f.up,
       if f.hand = .right then -dot (p - f.pos) f.front else dot (p - f.pos) f.front⟩ := by
  unfold computeViewMatrix
  rw [h.worldMatrix_eq]
  by_cases e : f.hand = .right
  · simp only [if_pos e]
    ext <;> simp [Mat34.inverseOrthonormal, Mat34.transpose3, Mat34.setTranslatePart, Mat.setAt, Mat.swapAt, Mat34.mulDir, Mat34.mulPos, dot] <;> ring
  · simp only [if_neg e]
    ext <;> simp [Mat34.inverseOrthonormal, Mat34.transpose3, Mat34.setTranslatePart, Mat.setAt, Mat.swapAt, Mat34.mulDir, Mat34.mulPos, dot] <;> ring

/-- The clip space depth before the division by `w`. -/
def zClip (f : Frustum) (d : ℝ) : ℝ :=
  if f.type = .perspective then
    if f.space = .d3d then f.far * (d - f.near) / (f.far - f.near) else ((f.far + f.near) * d - 2 * f.near * f.far) / (f.far - f.near)
  else if f.space = .d3d then (d - f.near) / (f.far - f.near) else (2 * d - f.near - f.far) / (f.far - f.near)

/-- The clip space `w`. -/
def wClip (f : Frustum) (d : ℝ) : ℝ := if f.type = .perspective then d else 1

/-- The clip coordinates of a point. -/
theorem Valid.clip {f : Frustum} (h : f.Valid) (hs : f.space ≠ .invalid) (hh : f.hand ≠ .invalid) (p : V3 ℝ) :
    ∃ m, f.computeViewProjMatrix = some m ∧ Mat4.mulVec4 m ![p.x, p.y, p.z, 1] =
      ![dot (p - f.pos) f.worldRight / f.half f.h 1, dot (p - f.pos) f.up / f.half f.v 1,
        f.zClip (dot (p - f.pos) f.front), f.wClip (dot (p - f.pos) f.front)] := by
  have hd : f.far - f.near ≠ 0 := (sub_pos.2 h.depth).ne'
  have hd' : f.near - f.far ≠ 0 := (sub_neg.2 h.depth).ne
  have hv := h.view_coords p
  unfold computeViewProjMatrix computeProjectionMatrix
  generalize dot (p - f.pos) f.worldRight = X at hv ⊢
  generalize dot (p - f.pos) f.up = Y at hv ⊢
  generalize dot (p - f.pos) f.front = D at hv ⊢
  rcases h.kind with ⟨e, hn, h1, h2, h3, h4⟩ | ⟨e, h1, h2⟩
  · have t1 := tan_half_pos h1 h2
    have t2 := tan_half_pos h3 h4
    have hn' := hn.ne'
    have a1 : f.half f.h 1 = Real.tan (f.h / 2) := by unfold half; rw [if_pos e, mul_one]
    have a2 : f.half f.v 1 = Real.tan (f.v / 2) := by unfold half; rw [if_pos e, mul_one]
    have w1 : nearPlaneWidthOf .perspective f.near f.h = Real.tan (f.h / 2) * 2 * f.near := by
      unfold nearPlaneWidthOf; rw [if_pos rfl, show f.h * (1 / 2) = f.h / 2 by ring]
    have w2 : nearPlaneWidthOf .perspective f.near f.v = Real.tan (f.v / 2) * 2 * f.near := by
      unfold nearPlaneWidthOf; rw [if_pos rfl, show f.v * (1 / 2) = f.v / 2 by ring]
    rw [a1, a2, e]
    generalize Real.tan (f.h / 2) = s at *
    generalize Real.tan (f.v / 2) = t at *
    have s0 := t1.ne'
    have t0 := t2.ne'
    rcases hsp : f.space with _ | _ | _ <;> rcases hha : f.hand with _ | _ | _ <;>
      first | exact absurd hsp hs | exact absurd hha hh | skip
    all_goals
      refine ⟨_, rfl, ?_⟩
      rw [mulVec4_mulMat34, hv, w1, w2]
      ext i
      fin_cases i <;> simp [Mat4.mulVec4, Mat4.openGLPerspProjRH, Mat4.openGLPerspProjLH, Mat4.d3dPerspProjRH, Mat4.d3dPerspProjLH,
        zClip, wClip, e, hsp, hha] <;> field_simp <;> ring
  · have e' : f.type ≠ .perspective := by rw [e]; decide
    have a1 : f.half f.h 1 = f.h / 2 := by unfold half; rw [if_neg e']
    have a2 : f.half f.v 1 = f.v / 2 := by unfold half; rw [if_neg e']
    have h1' := h1.ne'
    have h2' := h2.ne'
    rw [a1, a2, e]
    rcases hsp : f.space with _ | _ | _ <;> rcases hha : f.hand with _ | _ | _ <;>
      first | exact absurd hsp hs | exact absurd hha hh | skip
    all_goals
      refine ⟨_, rfl, ?_⟩
      rw [mulVec4_mulMat34, hv]
      ext i
      fin_cases i <;> simp [Mat4.mulVec4, Mat4.openGLOrthoProjRH, Mat4.openGLOrthoProjLH, Mat4.d3dOrthoProjRH, Mat4.d3dOrthoProjLH,
        zClip, wClip, e, hsp, hha] <;> field_simp <;> ring

end Frustum
end
end MGL
