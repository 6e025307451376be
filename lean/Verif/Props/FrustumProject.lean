import Verif.Proofs.FrustumProj
import Verif.Props.Frustum

/-! C72: the matrices of a frustum, `Project`, `UnProject` and `Contains`. -/

set_option linter.unusedSectionVars false
set_option linter.unusedSimpArgs false

namespace MGL
open V3

noncomputable section

namespace Frustum

/-- The object `o` has the parameters `f`, and its cached matrix is the one that belongs to them (see C73). -/
structure Of (o : FrustumObj) (f : Frustum) : Prop where
  params : o.params = some f
  fresh : o.viewProjMatrix = o.computeViewProjMatrix

theorem Of.eqs {o : FrustumObj} {f : Frustum} (h : Of o f) : o.viewProjMatrix = f.computeViewProjMatrix ∧ o.space = f.space := by
  obtain ⟨hp, hc⟩ := h
  unfold FrustumObj.params at hp
  split at hp
  · next p fr u n r e1 e2 e3 e4 e5 =>
    cases hp
    refine ⟨?_, rfl⟩
    rw [hc]
    unfold FrustumObj.computeViewProjMatrix FrustumObj.computeProjectionMatrix FrustumObj.computeWorldMatrix FrustumObj.viewProjOf
      computeViewProjMatrix computeProjectionMatrix computeViewMatrix computeWorldMatrix
    rw [e1, e2, e3, e4, e5]
    dsimp only
    cases projectionMatrixOf o.type o.space o.hand n r o.h o.v <;> rfl
  · cases hp

/-- C72: `ViewMatrix` maps a world space point to its coordinates along the right, up and front vectors (the last one
negative in a right-handed frustum), and `WorldMatrix` maps these coordinates back. -/
theorem C72_viewMatrix (f : Frustum) (h : f.Valid) (p : V3 ℝ) :
    Mat34.mulPos f.computeViewMatrix p =
      ⟨dot (p - f.pos) f.worldRight, dot (p - f.pos) f.up,
       if f.hand = .right then -dot (p - f.pos) f.front else dot (p - f.pos) f.front⟩ ∧
    Mat34.mulPos f.computeWorldMatrix (Mat34.mulPos f.computeViewMatrix p) = p ∧
    Mat34.mulPos f.computeViewMatrix (Mat34.mulPos f.computeWorldMatrix p) = p := by
  refine ⟨h.view_coords p, ?_, ?_⟩
  · rw [h.view_coords, h.worldMatrix_eq]
    have e := h.frame.eq_add f.pos p
    have ex := congrArg V3.x e; have ey := congrArg V3.y e; have ez := congrArg V3.z e
    simp only [add_x, add_y, add_z, smul_x, smul_y, smul_z] at ex ey ez
    by_cases hh : f.hand = .right
    · simp only [if_pos hh]
      ext <;> simp [Mat34.mulPos] <;> linarith
    · simp only [if_neg hh]
      ext <;> simp [Mat34.mulPos] <;> linarith
  · rw [h.view_coords, h.worldMatrix_eq]
    have hF := h.frame
    have f1 := hF.uu; have f2 := hF.vv; have f3 := hF.ww; have f4 := hF.uv; have f5 := hF.uw; have f6 := hF.vw
    simp only [dot] at f1 f2 f3 f4 f5 f6
    by_cases hh : f.hand = .right
    · simp only [if_pos hh]
      ext <;> simp [Mat34.mulPos, dot]
      · linear_combination p.x * f2 + p.y * f6 - p.z * f4
      · linear_combination p.x * f6 + p.y * f3 - p.z * f5
      · linear_combination -p.x * f4 - p.y * f5 + p.z * f1
    · simp only [if_neg hh]
      ext <;> simp [Mat34.mulPos, dot]
      · linear_combination p.x * f2 + p.y * f6 + p.z * f4
      · linear_combination p.x * f6 + p.y * f3 + p.z * f5
      · linear_combination p.x * f4 + p.y * f5 + p.z * f1

example := C72_viewMatrix exPersp exPersp_valid ⟨4, 5, 6⟩

/-- C72: `SetWorldMatrix(m)` with an orthonormal, right-handed `m` yields a frustum with unit perpendicular front and up
vectors whose `WorldMatrix()` is `m` again. -/
theorem C72_setWorldMatrix (o : FrustumObj) (ho : o.hand = .right ∨ o.hand = .left) (c0 c1 c2 t : V3 ℝ) (h1 : lenSq c1 = 1)
    (h2 : lenSq c2 = 1) (h3 : dot c1 c2 = 0) (h4 : c0 = cross c1 c2) :
    let m : Mat34 ℝ := !![c0.x, c1.x, c2.x, t.x; c0.y, c1.y, c2.y, t.y; c0.z, c1.z, c2.z, t.z]
    (o.setWorldMatrix m).worldMatrix = some m ∧ (o.setWorldMatrix m).pos = some t ∧ (o.setWorldMatrix m).up = some c1 ∧
    (o.setWorldMatrix m).front = some (if o.hand = .right then -c2 else c2) := by
  intro m
  have hl : lenSq c0 = 1 := by
    rw [h4]
    simp only [lenSq, dot, cross] at h1 h2 h3 ⊢
    linear_combination (c2.x * c2.x + c2.y * c2.y + c2.z * c2.z) * h1 + h2 - (c1.x * c2.x + c1.y * c2.y + c1.z * c2.z) * h3
  have hr : f3Normalized (worldRightOf o.hand (if o.hand = .right then -c2 else c2) c1) = c0 := by
    have : worldRightOf o.hand (if o.hand = .right then -c2 else c2) c1 = c0 := by
      unfold worldRightOf
      rw [h4]
      rcases ho with e | e <;> rw [e]
      · ext <;> simp [cross] <;> ring
      · rfl
    rw [this, f3Normalized_unit hl]
  have p : (⟨m 0 3, m 1 3, m 2 3⟩ : V3 ℝ) = t := rfl
  have u : (⟨m 0 1, m 1 1, m 2 1⟩ : V3 ℝ) = c1 := rfl
  have fr : (⟨m 0 2, m 1 2, m 2 2⟩ : V3 ℝ) = c2 := rfl
  refine ⟨?_, ?_, ?_, ?_⟩
  · unfold FrustumObj.setWorldMatrix FrustumObj.worldMatrixChanged FrustumObj.computeWorldMatrix worldMatrixOf
    simp only [p, u, fr, hr]
    rcases ho with e | e <;> rw [e] <;> simp [m]
  · rfl
  · rfl
  · rfl

example := C72_setWorldMatrix (FrustumObj.run 0 0 none [.setKind .gl .right]) (Or.inl rfl) ⟨0, 1, 0⟩ ⟨0, 0, 1⟩ ⟨1, 0, 0⟩ ⟨1, 2, 3⟩
  (by norm_num [lenSq, dot]) (by norm_num [lenSq, dot]) (by norm_num [dot]) (by ext <;> norm_num [cross])

/-- C72: the screen of at least two pixels in each direction: the corners, and the two maps are inverse to each other. -/
theorem C72_screen (w h : ℤ) (hw : w ≠ 1) (hh : h ≠ 1) :
    viewportToScreenSpace (-1) 1 w h = (0, 0) ∧ viewportToScreenSpace 1 (-1) w h = ((w : ℝ) - 1, (h : ℝ) - 1) ∧
    (∀ x y : ℝ, screenToViewportSpace (viewportToScreenSpace x y w h).1 (viewportToScreenSpace x y w h).2 w h = (x, y)) ∧
    (∀ x y : ℝ, viewportToScreenSpace (screenToViewportSpace x y w h).1 (screenToViewportSpace x y w h).2 w h = (x, y)) := by
  have a : (w : ℝ) - 1 ≠ 0 := sub_ne_zero.2 (by exact_mod_cast hw)
  have b : (h : ℝ) - 1 ≠ 0 := sub_ne_zero.2 (by exact_mod_cast hh)
  refine ⟨?_, ?_, ?_, ?_⟩
  · simp [viewportToScreenSpace]
  · simp [viewportToScreenSpace]; constructor <;> ring
  · intro x y
    simp only [viewportToScreenSpace, screenToViewportSpace, Prod.mk.injEq]
    constructor <;> field_simp <;> ring
  · intro x y
    simp only [viewportToScreenSpace, screenToViewportSpace, Prod.mk.injEq]
    constructor <;> field_simp <;> ring

example := C72_screen 640 480 (by norm_num) (by norm_num)

theorem normalizeW_big (a b c w : ℝ) (h : 1 / 1000000 < |w|) : normalizeW ![a, b, c, w] = ⟨a * (1 / w), b * (1 / w), c * (1 / w)⟩ := by
  unfold normalizeW
  rw [if_pos (show |(![a, b, c, w] : F4 ℝ) 3| > 1 / 1000000 from h)]
  rfl

theorem normalizeW_small (a b c w : ℝ) (h : |w| ≤ 1 / 1000000) : normalizeW ![a, b, c, w] = ⟨a, b, c⟩ := by
  unfold normalizeW
  rw [if_neg (show ¬|(![a, b, c, w] : F4 ℝ) 3| > 1 / 1000000 from not_lt.2 h)]
  rfl

theorem project_eq {o : FrustumObj} {f : Frustum} (ho : Of o f) (h : f.Valid) (hs : f.space ≠ .invalid) (hh : f.hand ≠ .invalid)
    (p : V3 ℝ) : ∃ m, o.viewProjMatrix = some m ∧ projectWith m p =
      normalizeW ![dot (p - f.pos) f.worldRight / f.half f.h 1, dot (p - f.pos) f.up / f.half f.v 1,
        f.zClip (dot (p - f.pos) f.front), f.wClip (dot (p - f.pos) f.front)] := by
  obtain ⟨m, e, hm⟩ := h.clip hs hh p
  exact ⟨m, ho.eqs.1.trans e, by unfold projectWith; rw [hm]⟩

/-- C72: `Project` of a perspective frustum, for points not in the plane of the eye: `x` and `y` are the position in the
cross section at the depth of the point, as fractions of its half width and height; the depth is hyperbolic: 0 (Direct3D)
or -1 (OpenGL) at the near plane and 1 at the far plane. -/
theorem C72_project_perspective (o : FrustumObj) (f : Frustum) (ho : Of o f) (h : f.Valid) (hs : f.space ≠ .invalid)
    (hh : f.hand ≠ .invalid) (ht : f.type = .perspective) (p : V3 ℝ) (d : ℝ) (hd : d = dot (p - f.pos) f.front)
    (hw : 1 / 1000000 < |d|) :
    o.project p = some ⟨dot (p - f.pos) f.worldRight / Spec.perspHalf f.h d, dot (p - f.pos) f.up / Spec.perspHalf f.v d,
      if f.space = .d3d then f.far * (d - f.near) / ((f.far - f.near) * d)
      else ((f.far + f.near) * d - 2 * f.near * f.far) / ((f.far - f.near) * d)⟩ := by
  obtain ⟨m, e, hm⟩ := project_eq ho h hs hh p
  unfold FrustumObj.project
  rw [e, Option.map_some, hm, ← hd]
  have hw' : |f.wClip d| > 1 / 1000000 := by unfold wClip; rw [if_pos ht]; exact hw
  have hd0 : d ≠ 0 := by rintro rfl; rw [abs_zero] at hw; norm_num at hw
  rw [normalizeW_big _ _ _ _ hw']
  simp only [wClip, half, zClip, if_pos ht, Spec.perspHalf, mul_one]
  congr 2
  · rw [mul_one_div, div_div]
  · rw [mul_one_div, div_div]
  · split_ifs <;> rw [mul_one_div, div_div]

/-- C72: `Project` of an orthographic frustum: `x` and `y` as fractions of the half width and height, the depth is linear:
0 (Direct3D) or -1 (OpenGL) at the near plane and 1 at the far plane. -/
theorem C72_project_orthographic (o : FrustumObj) (f : Frustum) (ho : Of o f) (h : f.Valid) (hs : f.space ≠ .invalid)
    (hh : f.hand ≠ .invalid) (ht : f.type = .orthographic) (p : V3 ℝ) :
    o.project p = some ⟨dot (p - f.pos) f.worldRight / (f.h / 2), dot (p - f.pos) f.up / (f.v / 2),
      if f.space = .d3d then (dot (p - f.pos) f.front - f.near) / (f.far - f.near)
      else (2 * dot (p - f.pos) f.front - f.near - f.far) / (f.far - f.near)⟩ := by
  obtain ⟨m, e, hm⟩ := project_eq ho h hs hh p
  unfold FrustumObj.project
  rw [e, Option.map_some, hm]
  have ht' : f.type ≠ .perspective := by rw [ht]; decide
  have hw' : |f.wClip (dot (p - f.pos) f.front)| > 1 / 1000000 := by
    unfold wClip; rw [if_neg ht', abs_one]; norm_num
  rw [normalizeW_big _ _ _ _ hw']
  simp only [wClip, half, zClip, if_neg ht', div_one, mul_one]

/-- C72: `Project` undoes `UnProject` and `PointInside`: the point of the frustum at viewport position `(x, y)` and any
depth `z` of [0, 1], and every point of the ray of `UnProject(x, y)` beyond the plane of the eye, project to `(x, y)`. -/
theorem C72_unproject (o : FrustumObj) (f : Frustum) (ho : Of o f) (h : f.Valid) (hs : f.space ≠ .invalid)
    (hh : f.hand ≠ .invalid) (hn : f.type = .perspective → 1 / 1000000 < f.near)
    (hf : f.type = .orthographic → 1 / 1000000 < f.far - f.near) (x y : ℝ) :
    (∀ z : ℝ, 0 ≤ z → ∃ d, o.project (f.pointInside x y z) = some ⟨x, y, d⟩) ∧
    (∀ t : ℝ, 0 ≤ t → (f.type = .perspective → 1 / 1000000 < t * dot (f.unProject x y).dir f.front) →
      ∃ d, o.project ((f.unProject x y).pos + t • (f.unProject x y).dir) = some ⟨x, y, d⟩) := by
  have hd := sub_pos.2 h.depth
  obtain ⟨k1, k2⟩ := h.half_pos le_rfl
  -- a point in cross section coordinates
  have key : ∀ d : ℝ, (f.type = .perspective → 1 / 1000000 < d) →
      ∃ z, o.project (f.pos + d • f.front + (x * f.half f.h d) • f.worldRight + (y * f.half f.v d) • f.up) = some ⟨x, y, z⟩ := by
    intro d hdp
    obtain ⟨c1, c2, c3⟩ := h.frame.coords f.pos d (x * f.half f.h d) (y * f.half f.v d)
    rcases h.kind with ⟨e, -, h1, h2, h3, h4⟩ | ⟨e, h1, h2⟩
    · have hd0 : 0 < d := lt_trans (by norm_num) (hdp e)
      have := C72_project_perspective o f ho h hs hh e _ d c1.symm (by rw [abs_of_pos hd0]; exact hdp e)
      rw [c2, c3] at this
      have q1 : f.half f.h d = Spec.perspHalf f.h d := by unfold half Spec.perspHalf; rw [if_pos e]
      have q2 : f.half f.v d = Spec.perspHalf f.v d := by unfold half Spec.perspHalf; rw [if_pos e]
      have z1 : Spec.perspHalf f.h d ≠ 0 := (mul_pos (tan_half_pos h1 h2) hd0).ne'
      have z2 : Spec.perspHalf f.v d ≠ 0 := (mul_pos (tan_half_pos h3 h4) hd0).ne'
      rw [q1, q2, mul_div_cancel_right₀ _ z1, mul_div_cancel_right₀ _ z2] at this
      rw [q1, q2]
      exact ⟨_, this⟩
    · have := C72_project_orthographic o f ho h hs hh e (f.pos + d • f.front + (x * f.half f.h d) • f.worldRight + (y * f.half f.v d) • f.up)
      rw [c2, c3] at this
      have e' : f.type ≠ .perspective := by rw [e]; decide
      have q1 : f.half f.h d = f.h / 2 := by unfold half; rw [if_neg e']
      have q2 : f.half f.v d = f.v / 2 := by unfold half; rw [if_neg e']
      rw [q1, q2, mul_div_cancel_right₀ _ (half_pos h1).ne', mul_div_cancel_right₀ _ (half_pos h2).ne'] at this
      rw [q1, q2]
      exact ⟨_, this⟩
  constructor
  · intro z hz
    rw [pointInside_eq]
    apply key
    intro e
    have := hn e
    have : 0 ≤ z * (f.far - f.near) := mul_nonneg hz hd.le
    linarith
  · intro t ht hp
    rcases h.kind with ⟨e, hn0, -⟩ | ⟨e, h1, h2⟩
    · have eu : f.unProject x y = ⟨f.pos, f3Normalized (f.nearPlanePos x y - f.pos)⟩ := by unfold unProject; rw [if_pos e]
      rw [eu] at hp ⊢
      dsimp only at hp ⊢
      have en : f.nearPlanePos x y - f.pos = f.near • f.front + (x * f.half f.h f.near) • f.worldRight + (y * f.half f.v f.near) • f.up := by
        rw [nearPlanePos_eq]; ext <;> simp <;> ring
      obtain ⟨s, hs0, es⟩ : ∃ s : ℝ, 0 < s ∧ f3Normalized (f.nearPlanePos x y - f.pos) = s • (f.nearPlanePos x y - f.pos) := by
        have hlen : 1 / 1000000 < len (f.nearPlanePos x y - f.pos) := by
          refine lt_of_lt_of_le (hn e) ?_
          unfold len
          apply Real.le_sqrt_of_sq_le
          have := h.frame.dot_eq (f.nearPlanePos x y - f.pos) (f.nearPlanePos x y - f.pos)
          have c1 := (h.frame.coords f.pos f.near (x * f.half f.h f.near) (y * f.half f.v f.near)).1
          rw [← nearPlanePos_eq] at c1
          rw [show lenSq (f.nearPlanePos x y - f.pos) = dot (f.nearPlanePos x y - f.pos) (f.nearPlanePos x y - f.pos) from rfl, this, c1]
          nlinarith [mul_self_nonneg (dot (f.nearPlanePos x y - f.pos) f.worldRight), mul_self_nonneg (dot (f.nearPlanePos x y - f.pos) f.up)]
        exact ⟨_, one_div_pos.2 (lt_trans (by norm_num) hlen), f3Normalized_pos hlen⟩
      rw [es] at hp ⊢
      have c1 := (h.frame.coords f.pos f.near (x * f.half f.h f.near) (y * f.half f.v f.near)).1
      rw [← nearPlanePos_eq] at c1
      have hdir : dot (s • (f.nearPlanePos x y - f.pos)) f.front = s * f.near := by
        rw [show dot (s • (f.nearPlanePos x y - f.pos)) f.front = s * dot (f.nearPlanePos x y - f.pos) f.front by simp [dot]; ring, c1]
      rw [hdir] at hp
      obtain ⟨z, hz⟩ := key (t * (s * f.near)) hp
      refine ⟨z, ?_⟩
      rw [← hz]
      congr 1
      rw [en]
      simp only [half, if_pos e]
      ext <;> simp <;> ring
    · have e' : f.type ≠ .perspective := by rw [e]; decide
      have eu : f.unProject x y = ⟨f.nearPlanePos x y, (LineSeg.mk (f.nearPlanePos x y) (f.farPlanePos x y)).dir⟩ := by
        unfold unProject unProjectFromNearPlane unProjectLineSegment; rw [if_neg e']
      rw [eu]
      dsimp only
      have en : f.farPlanePos x y - f.nearPlanePos x y = (f.far - f.near) • f.front := by
        rw [nearPlanePos_eq, farPlanePos_eq]; simp only [half, if_neg e']; ext <;> simp <;> ring
      have hl : len ((f.far - f.near) • f.front) = f.far - f.near := by
        have : lenSq ((f.far - f.near) • f.front) = (f.far - f.near) * (f.far - f.near) := by
          rw [lenSq_smul, h.front, mul_one]
        unfold len; rw [this, Real.sqrt_mul_self hd.le]
      have ed : (LineSeg.mk (f.nearPlanePos x y) (f.farPlanePos x y)).dir = f.front := by
        unfold LineSeg.dir
        dsimp only
        rw [en, f3Normalized_pos (by rw [hl]; exact hf e), hl]
        have := hd.ne'
        ext <;> simp <;> field_simp
      rw [ed]
      obtain ⟨z, hz⟩ := key (f.near + t) (fun e'' => absurd e'' e')
      refine ⟨z, ?_⟩
      rw [← hz]
      congr 1
      rw [nearPlanePos_eq]
      simp only [half, if_neg e']
      ext <;> simp <;> ring

/-- The calls that build `exPersp`. -/
def exObjPersp : FrustumObj := FrustumObj.run 0 0 none [.setKind .gl .right, .setFrame ⟨1, 2, 3⟩ ⟨0, 0, -1⟩ ⟨0, 1, 0⟩,
  .setViewPlaneDistances 1 100, .setPerspective (Real.pi / 2) (Real.pi / 3)]
/-- The calls that build `exOrtho`. -/
def exObjOrtho : FrustumObj := FrustumObj.run 0 0 none [.setOrthographic 4 3, .setViewPlaneDistances 1 10, .setKind .d3d .left,
  .setFrame ⟨1, 2, 3⟩ ⟨3/5, 0, 4/5⟩ ⟨0, 1, 0⟩]
theorem exObjPersp_of : Of exObjPersp exPersp := ⟨rfl, rfl⟩
theorem exObjOrtho_of : Of exObjOrtho exOrtho := ⟨rfl, rfl⟩

example := C72_project_perspective exObjPersp exPersp exObjPersp_of exPersp_valid (by decide) (by decide) rfl ⟨2, 4, -7⟩ 10
  (by norm_num [exPersp, dot]) (by norm_num)
example := C72_project_orthographic exObjOrtho exOrtho exObjOrtho_of exOrtho_valid (by decide) (by decide) rfl ⟨2, 4, -7⟩
example := C72_unproject exObjPersp exPersp exObjPersp_of exPersp_valid (by decide) (by decide) (fun _ => by norm_num [exPersp])
  (fun h => by cases h) (1 / 2) (-1 / 3)

/-- `Contains` in terms of the clip coordinates. -/
theorem contains_iff {o : FrustumObj} {f : Frustum} (ho : Of o f) (h : f.Valid) (hs : f.space ≠ .invalid) (hh : f.hand ≠ .invalid)
    (p q : V3 ℝ) (hq : q = normalizeW ![dot (p - f.pos) f.worldRight / f.half f.h 1, dot (p - f.pos) f.up / f.half f.v 1,
        f.zClip (dot (p - f.pos) f.front), f.wClip (dot (p - f.pos) f.front)]) :
    o.contains p = true ↔ |q.x| ≤ 1001 / 1000 ∧ |q.y| ≤ 1001 / 1000 ∧
      (if f.space = .d3d then -(1 / 1000) ≤ q.z else -(1001 / 1000) ≤ q.z) ∧ q.z ≤ 1001 / 1000 := by
  obtain ⟨m, e, hm⟩ := project_eq ho h hs hh p
  unfold FrustumObj.contains containsWith
  rw [e, ho.eqs.2]
  dsimp only
  rw [hm, ← hq, abs_le, abs_le]
  have k : (1 : ℝ) + 1 / 1000 = 1001 / 1000 := by norm_num
  rcases hsp : f.space with _ | _ | _
  · exact absurd hsp hs
  · rw [if_neg (by decide)]
    simp only [decide_eq_true_eq, k]
    tauto
  · rw [if_pos rfl]
    simp only [decide_eq_true_eq, k]
    tauto

/-- C72: `Contains(point)` of an orthographic frustum is exact up to a tolerance of one thousandth of the extents. -/
theorem C72_contains_orthographic (o : FrustumObj) (f : Frustum) (ho : Of o f) (h : f.Valid) (hs : f.space ≠ .invalid)
    (hh : f.hand ≠ .invalid) (ht : f.type = .orthographic) (p : V3 ℝ) (tol : ℝ)
    (htol : tol = (f.far - f.near) * (if f.space = .d3d then 1 / 1000 else 1 / 2000)) :
    o.contains p = true ↔ |dot (p - f.pos) f.worldRight| ≤ 1001 / 1000 * (f.h / 2) ∧
      |dot (p - f.pos) f.up| ≤ 1001 / 1000 * (f.v / 2) ∧
      f.near - tol ≤ dot (p - f.pos) f.front ∧ dot (p - f.pos) f.front ≤ f.far + tol := by
  have hwh : 0 < f.h ∧ 0 < f.v := by
    rcases h.kind with ⟨e, -⟩ | ⟨-, e⟩
    · rw [e] at ht; cases ht
    · exact e
  have hd := sub_pos.2 h.depth
  have ht' : f.type ≠ .perspective := by rw [ht]; decide
  rw [contains_iff ho h hs hh p _ rfl, normalizeW_big _ _ _ _ (by unfold wClip; rw [if_neg ht', abs_one]; norm_num)]
  simp only [wClip, half, zClip, if_neg ht', div_one, mul_one]
  rw [abs_div _ (f.h / 2), abs_div _ (f.v / 2), abs_of_pos (half_pos hwh.1), abs_of_pos (half_pos hwh.2), div_le_iff₀ (half_pos hwh.1),
    div_le_iff₀ (half_pos hwh.2)]
  rcases hsp : f.space with _ | _ | _
  · exact absurd hsp hs
  · rw [hsp] at htol
    simp only [show (FrustumSpace.gl = FrustumSpace.d3d) = False by simp, if_false] at htol ⊢
    rw [div_le_iff₀ hd, le_div_iff₀ hd, htol]
    refine and_congr Iff.rfl (and_congr Iff.rfl (and_congr ?_ ?_)) <;> constructor <;> intro H <;> linarith
  · rw [hsp] at htol
    simp only [if_true] at htol ⊢
    rw [div_le_iff₀ hd, le_div_iff₀ hd, htol]
    refine and_congr Iff.rfl (and_congr Iff.rfl (and_congr ?_ ?_)) <;> constructor <;> intro H <;> linarith

example := C72_contains_orthographic exObjOrtho exOrtho exObjOrtho_of exOrtho_valid (by decide) (by decide) rfl ⟨2, 3, 4⟩ _ rfl

/-- C72: `Contains(point)` of a perspective frustum whose far plane is at most 1000 times as far away as the near plane. For
points off the plane of the eye it is exact up to a tolerance; the tolerance in depth is hyperbolic, so that it is small at
the near plane and grows without bound towards the far plane as `far / near` approaches 1000. With the near plane at depth 1
or more, no point in the plane of the eye is accepted. Missing: larger `far / near` and near planes closer than 1, see
`C72_contains_violation`. -/
theorem C72_contains_perspective_partial (o : FrustumObj) (f : Frustum) (ho : Of o f) (h : f.Valid) (hs : f.space ≠ .invalid)
    (hh : f.hand ≠ .invalid) (ht : f.type = .perspective) (p : V3 ℝ) (d : ℝ) (hd : d = dot (p - f.pos) f.front) :
    (1 / 1000000 < |d| → f.far ≤ 1000 * f.near →
      (o.contains p = true ↔ 0 < d ∧ |dot (p - f.pos) f.worldRight| ≤ 1001 / 1000 * Spec.perspHalf f.h d ∧
        |dot (p - f.pos) f.up| ≤ 1001 / 1000 * Spec.perspHalf f.v d ∧
        if f.space = .d3d then 1000 * f.near * f.far ≤ d * (1001 * f.far - f.near) ∧ d * (1001 * f.near - f.far) ≤ 1000 * f.near * f.far
        else 2000 * f.near * f.far ≤ d * (2001 * f.far - f.near) ∧ d * (2001 * f.near - f.far) ≤ 2000 * f.near * f.far)) ∧
    (|d| ≤ 1 / 1000000 → 1 ≤ f.near → o.contains p = false) := by
  obtain ⟨hn, h1, h2, h3, h4⟩ : 0 < f.near ∧ 0 < f.h ∧ f.h < Real.pi ∧ 0 < f.v ∧ f.v < Real.pi := by
    rcases h.kind with ⟨-, e⟩ | ⟨e, -⟩
    · exact e
    · rw [e] at ht; cases ht
  have t1 := tan_half_pos h1 h2
  have t2 := tan_half_pos h3 h4
  have hnf := h.depth
  have hdf := sub_pos.2 h.depth
  have hf : 0 < f.far := hn.trans hnf
  have hfn : 0 < f.near * f.far := mul_pos hn hf
  constructor
  · intro hw hfar
    rw [contains_iff ho h hs hh p _ rfl, ← hd, normalizeW_big _ _ _ _ (by unfold wClip; rw [if_pos ht]; exact hw)]
    simp only [wClip, half, zClip, if_pos ht, mul_one, Spec.perspHalf]
    have hd0 : d ≠ 0 := by rintro rfl; rw [abs_zero] at hw; norm_num at hw
    have hda : 0 < |d| := abs_pos.2 hd0
    have ax : ∀ x t : ℝ, 0 < t → (|x / t * (1 / d)| ≤ 1001 / 1000 ↔ |x| ≤ 1001 / 1000 * (t * |d|)) := by
      intro x t h0
      rw [mul_one_div, div_div, abs_div, abs_mul, abs_of_pos h0, div_le_iff₀ (mul_pos h0 hda)]
    rw [ax _ _ t1, ax _ _ t2]
    rcases lt_or_gt_of_ne hd0 with hneg | hpos
    · -- behind the eye
      have hz : ∀ a : ℝ, (a / (f.far - f.near) * (1 / d) ≤ 1001 / 1000) ↔ 1001 / 1000 * ((f.far - f.near) * d) ≤ a := by
        intro a
        rw [mul_one_div, div_div, div_le_iff_of_neg (mul_neg_of_pos_of_neg hdf hneg)]
      constructor
      · rintro ⟨-, -, -, H⟩
        exfalso
        split_ifs at H with hsp
        · rw [hz] at H
          nlinarith [mul_pos hn (neg_pos.2 hneg), mul_nonneg (sub_nonneg.2 hfar) (neg_pos.2 hneg).le]
        · rw [hz] at H
          nlinarith [mul_pos hn (neg_pos.2 hneg), mul_nonneg (sub_nonneg.2 hfar) (neg_pos.2 hneg).le]
      · rintro ⟨H, -⟩; exact absurd H (not_lt.2 hneg.le)
    · have hz : ∀ a : ℝ, (a / (f.far - f.near) * (1 / d) ≤ 1001 / 1000) ↔ a ≤ 1001 / 1000 * ((f.far - f.near) * d) := by
        intro a
        rw [mul_one_div, div_div, div_le_iff₀ (mul_pos hdf hpos)]
      have hz' : ∀ a b : ℝ, (b ≤ a / (f.far - f.near) * (1 / d)) ↔ b * ((f.far - f.near) * d) ≤ a := by
        intro a b
        rw [mul_one_div, div_div, le_div_iff₀ (mul_pos hdf hpos)]
      rw [abs_of_pos hpos]
      constructor
      · rintro ⟨a, b, c, e⟩
        refine ⟨hpos, a, b, ?_⟩
        split_ifs at c e ⊢ with hsp
        · rw [hz] at e; rw [hz'] at c; constructor <;> nlinarith
        · rw [hz] at e; rw [hz'] at c; constructor <;> nlinarith
      · rintro ⟨-, a, b, c⟩
        refine ⟨a, b, ?_⟩
        split_ifs at c ⊢ with hsp
        · rw [hz, hz']; constructor <;> nlinarith
        · rw [hz, hz']; constructor <;> nlinarith
  · intro hw hn1
    rw [← Bool.not_eq_true, contains_iff ho h hs hh p _ rfl, ← hd, normalizeW_small _ _ _ _ (by unfold wClip; rw [if_pos ht]; exact hw)]
    simp only [zClip, if_pos ht]
    rintro ⟨-, -, H, -⟩
    have hw' := (abs_le.1 hw).2
    split_ifs at H with hsp
    · rw [le_div_iff₀ hdf] at H
      nlinarith
    · rw [le_div_iff₀ hdf] at H
      nlinarith

example := (C72_contains_perspective_partial exObjPersp exPersp exObjPersp_of exPersp_valid (by decide) (by decide) rfl ⟨2, 4, -7⟩ 10
  (by norm_num [exPersp, dot])).1 (by norm_num) (by norm_num [exPersp])

/-- C72: every point of the frustum, and every segment and triangle with its vertices in the frustum, is reported as
contained. -/
theorem C72_contains_complete (o : FrustumObj) (f : Frustum) (ho : Of o f) (h : f.Valid) (hs : f.space ≠ .invalid)
    (hh : f.hand ≠ .invalid) :
    (∀ p ∈ f.points, o.contains p = true) ∧
    (∀ a b : V3 ℝ, Spec.seg a b ⊆ f.points → o.containsSeg ⟨a, b⟩ = true) ∧
    (∀ a b c : V3 ℝ, Spec.tri a b c ⊆ f.points → o.containsTri ⟨a, b, c⟩ = true) ∧
    (∀ vs : List (V3 ℝ), (∀ v ∈ vs, v ∈ f.points) → o.containsVertices vs = true) := by
  have hd := sub_pos.2 h.depth
  have key : ∀ p ∈ f.points, o.contains p = true := by
    intro p hp
    rw [h.mem] at hp
    obtain ⟨d1, d2, x1, y1⟩ := hp
    rcases h.kind with ⟨e, hn, h1, h2, h3, h4⟩ | ⟨e, h1, h2⟩
    · have t1 := tan_half_pos h1 h2
      have t2 := tan_half_pos h3 h4
      have hf : 0 < f.far := hn.trans h.depth
      have hnf := h.depth
      simp only [half, if_pos e] at x1 y1
      rw [contains_iff ho h hs hh p _ rfl]
      generalize hD : dot (p - f.pos) f.front = D at *
      have hD0 : 0 < D := lt_of_lt_of_le hn d1
      rcases lt_or_ge (1 / 1000000) |f.wClip D| with hw | hw
      · rw [normalizeW_big _ _ _ _ hw]
        simp only [wClip, half, zClip, if_pos e, mul_one]
        rw [mul_one_div, mul_one_div, mul_one_div, div_div, div_div, abs_div, abs_div, abs_of_pos (mul_pos t1 hD0), abs_of_pos (mul_pos t2 hD0),
          div_le_iff₀ (mul_pos t1 hD0), div_le_iff₀ (mul_pos t2 hD0)]
        refine ⟨by nlinarith [mul_pos t1 hD0], by nlinarith [mul_pos t2 hD0], ?_⟩
        split_ifs with hsp
        · rw [div_div, div_le_iff₀ (mul_pos hd hD0), le_div_iff₀ (mul_pos hd hD0)]
          have a1 : 0 ≤ f.far * (D - f.near) := mul_nonneg hf.le (by linarith)
          have a2 : 0 < (f.far - f.near) * D := mul_pos hd hD0
          constructor <;> nlinarith
        · rw [div_div, div_le_iff₀ (mul_pos hd hD0), le_div_iff₀ (mul_pos hd hD0)]
          have a1 : 0 ≤ f.far * (D - f.near) := mul_nonneg hf.le (by linarith)
          have a2 : 0 < (f.far - f.near) * D := mul_pos hd hD0
          constructor <;> nlinarith
      · rw [normalizeW_small _ _ _ _ hw]
        simp only [wClip, if_pos e] at hw
        simp only [half, zClip, if_pos e, mul_one]
        have hD1 : D ≤ 1 / 1000000 := (abs_le.1 hw).2
        rw [abs_div, abs_div, abs_of_pos t1, abs_of_pos t2, div_le_iff₀ t1, div_le_iff₀ t2]
        refine ⟨by nlinarith, by nlinarith, ?_⟩
        have q : 0 ≤ D - f.near := by linarith
        split_ifs with hsp
        · rw [div_le_iff₀ hd, le_div_iff₀ hd]
          constructor
          · nlinarith [mul_nonneg hf.le q]
          · rcases le_total f.far 1 with hf1 | hf1
            · nlinarith [mul_nonneg hf.le q]
            · nlinarith [mul_nonneg hf.le q]
        · rw [div_le_iff₀ hd, le_div_iff₀ hd]
          have q2 : (f.far + f.near) * D - 2 * f.near * f.far = (f.far + f.near) * (D - f.near) - f.near * (f.far - f.near) := by ring
          rw [q2]
          have q3 : 0 ≤ (f.far + f.near) * (D - f.near) := mul_nonneg (by linarith) q
          constructor
          · nlinarith
          · rcases le_total f.far (1 / 4) with hf1 | hf1
            · nlinarith
            · nlinarith
    · rw [C72_contains_orthographic o f ho h hs hh e p _ rfl]
      have e' : f.type ≠ .perspective := by rw [e]; decide
      simp only [half, if_neg e'] at x1 y1
      have : 0 ≤ (f.far - f.near) * (if f.space = .d3d then (1 / 1000 : ℝ) else 1 / 2000) :=
        mul_nonneg hd.le (by split_ifs <;> norm_num)
      exact ⟨by linarith, by linarith, by linarith, by linarith⟩
  refine ⟨key, ?_, ?_, ?_⟩
  · intro a b hab
    unfold FrustumObj.containsSeg
    rw [key a (hab ⟨0, le_rfl, zero_le_one, by ext <;> simp⟩), key b (hab ⟨1, zero_le_one, le_rfl, by ext <;> simp⟩)]
    rfl
  · intro a b c habc
    unfold FrustumObj.containsTri
    rw [key a (habc ⟨1, 0, 0, by norm_num, by norm_num, by norm_num, by norm_num, by ext <;> simp⟩),
      key b (habc ⟨0, 1, 0, by norm_num, by norm_num, by norm_num, by norm_num, by ext <;> simp⟩),
      key c (habc ⟨0, 0, 1, by norm_num, by norm_num, by norm_num, by norm_num, by ext <;> simp⟩)]
    rfl
  · intro vs hvs
    unfold FrustumObj.containsVertices
    rw [List.all_eq_true]
    exact fun v hv => key v (hvs v hv)

example := C72_contains_complete exObjPersp exPersp exObjPersp_of exPersp_valid (by decide) (by decide)

/-- A perspective frustum at the origin looking along -z with opening angles of 90 degrees. -/
def exObjAt (s : FrustumSpace) (n r : ℝ) : FrustumObj := FrustumObj.run 0 0 none [.setKind s .right, .setFrame 0 ⟨0, 0, -1⟩ ⟨0, 1, 0⟩,
  .setViewPlaneDistances n r, .setPerspective (Real.pi / 2) (Real.pi / 2)]
/-- The parameters of `exObjAt`. -/
def exAt (s : FrustumSpace) (n r : ℝ) : Frustum :=
  ⟨.perspective, s, .right, 0, ⟨0, 0, -1⟩, ⟨0, 1, 0⟩, n, r, Real.pi / 2, Real.pi / 2⟩

theorem exObjAt_of (s n r) : Of (exObjAt s n r) (exAt s n r) := ⟨rfl, rfl⟩
theorem exAt_valid (s : FrustumSpace) (n r : ℝ) (hn : 0 < n) (hnr : n < r) : (exAt s n r).Valid := by
  have := Real.pi_pos
  refine ⟨by norm_num [exAt, lenSq, dot], by norm_num [exAt, lenSq, dot], by norm_num [exAt, dot], hnr, Or.inl ⟨rfl, hn, ?_⟩⟩
  simp only [exAt]; refine ⟨?_, ?_, ?_, ?_⟩ <;> linarith
theorem exAt_tan (s n r) : (exAt s n r).half (exAt s n r).h 1 = 1 ∧ (exAt s n r).half (exAt s n r).v 1 = 1 := by
  simp only [half, exAt, if_true]
  rw [show Real.pi / 2 / 2 = Real.pi / 4 by ring, Real.tan_pi_div_four]; norm_num

/-- Points on the axis of the frustum. -/
theorem exAt_contains (s : FrustumSpace) (hs : s ≠ .invalid) (n r : ℝ) (hn : 0 < n) (hnr : n < r) (d : ℝ) :
    (exObjAt s n r).contains ⟨0, 0, -d⟩ = true ↔
      (if s = .d3d then -(1 / 1000) ≤ (if 1 / 1000000 < |d| then (exAt s n r).zClip d * (1 / d) else (exAt s n r).zClip d)
        else -(1001 / 1000) ≤ (if 1 / 1000000 < |d| then (exAt s n r).zClip d * (1 / d) else (exAt s n r).zClip d)) ∧
      (if 1 / 1000000 < |d| then (exAt s n r).zClip d * (1 / d) else (exAt s n r).zClip d) ≤ 1001 / 1000 := by
  rw [contains_iff (exObjAt_of s n r) (exAt_valid s n r hn hnr) hs (by simp [exAt]) _ _ rfl]
  have e1 : dot ((⟨0, 0, -d⟩ : V3 ℝ) - (exAt s n r).pos) (exAt s n r).worldRight = 0 := by
    simp [exAt, worldRight, worldRightOf, cross, dot]
  have e2 : dot ((⟨0, 0, -d⟩ : V3 ℝ) - (exAt s n r).pos) (exAt s n r).up = 0 := by simp [exAt, dot]
  have e3 : dot ((⟨0, 0, -d⟩ : V3 ℝ) - (exAt s n r).pos) (exAt s n r).front = d := by simp [exAt, dot]
  rw [e1, e2, e3, zero_div, zero_div]
  have w : (exAt s n r).wClip d = d := by simp [wClip, exAt]
  rw [w]
  have sp : (exAt s n r).space = s := rfl
  by_cases hd : 1 / 1000000 < |d|
  · rw [normalizeW_big _ _ _ _ hd]
    simp only [if_pos hd, zero_mul, abs_zero, sp]
    norm_num
  · rw [normalizeW_small _ _ _ _ (not_lt.1 hd)]
    simp only [if_neg hd, abs_zero, sp]
    norm_num

theorem exAt_mem (s : FrustumSpace) (n r : ℝ) (hn : 0 < n) (hnr : n < r) (d : ℝ) (hp : (⟨0, 0, -d⟩ : V3 ℝ) ∈ (exAt s n r).points) :
    n ≤ d ∧ d ≤ r := by
  rw [(exAt_valid s n r hn hnr).mem] at hp
  have e3 : dot ((⟨0, 0, -d⟩ : V3 ℝ) - (exAt s n r).pos) (exAt s n r).front = d := by simp [exAt, dot]
  rw [e3] at hp
  exact ⟨hp.1, hp.2.1⟩

/-- C72 fails: with the OpenGL convention and the near plane at 0.1 the eye is reported as contained. With the near plane at
0.1 and the far plane at 1000, a point twice as far away as the far plane and a point 10000 units behind the eye are reported
as contained, and so is a segment through the eye, although the eye itself is not. -/
theorem C72_contains_violation :
    ((exObjAt .gl (1 / 10) 10).contains 0 = true ∧ (0 : V3 ℝ) ∉ (exAt .gl (1 / 10) 10).points) ∧
    ((exObjAt .d3d (1 / 10) 1000).contains ⟨0, 0, -2000⟩ = true ∧ (⟨0, 0, -2000⟩ : V3 ℝ) ∉ (exAt .d3d (1 / 10) 1000).points) ∧
    ((exObjAt .d3d (1 / 10) 1000).contains ⟨0, 0, 10000⟩ = true ∧ (⟨0, 0, 10000⟩ : V3 ℝ) ∉ (exAt .d3d (1 / 10) 1000).points) ∧
    ((exObjAt .d3d (1 / 10) 1000).containsSeg ⟨⟨0, 0, -1⟩, ⟨0, 0, 10000⟩⟩ = true ∧
      (0 : V3 ℝ) ∈ Spec.seg ⟨0, 0, -1⟩ ⟨0, 0, 10000⟩ ∧ (exObjAt .d3d (1 / 10) 1000).contains 0 = false) := by
  have z0 : (0 : V3 ℝ) = ⟨0, 0, -0⟩ := by ext <;> simp
  have a1 := exAt_contains .gl (by decide) (1 / 10) 10 (by norm_num) (by norm_num) 0
  have a2 := exAt_contains .d3d (by decide) (1 / 10) 1000 (by norm_num) (by norm_num) 2000
  have a3 := exAt_contains .d3d (by decide) (1 / 10) 1000 (by norm_num) (by norm_num) (-10000)
  have a4 := exAt_contains .d3d (by decide) (1 / 10) 1000 (by norm_num) (by norm_num) 1
  have a5 := exAt_contains .d3d (by decide) (1 / 10) 1000 (by norm_num) (by norm_num) 0
  rw [neg_neg] at a3
  have b3 : (exObjAt .d3d (1 / 10) 1000).contains ⟨0, 0, 10000⟩ = true := by
    rw [a3]; norm_num [zClip, exAt]
  refine ⟨⟨?_, ?_⟩, ⟨?_, ?_⟩, ⟨b3, ?_⟩, ?_, ?_, ?_⟩
  · rw [z0, a1]; norm_num [zClip, exAt, show ¬FrustumSpace.gl = FrustumSpace.d3d by decide]
  · intro hp
    rw [z0] at hp
    have := exAt_mem .gl (1 / 10) 10 (by norm_num) (by norm_num) 0 hp
    norm_num at this
  · rw [a2]; norm_num [zClip, exAt]
  · intro hp
    have := exAt_mem .d3d (1 / 10) 1000 (by norm_num) (by norm_num) 2000 hp
    norm_num at this
  · intro hp
    have := exAt_mem .d3d (1 / 10) 1000 (by norm_num) (by norm_num) (-10000) (by rw [neg_neg]; exact hp)
    norm_num at this
  · unfold FrustumObj.containsSeg
    rw [b3, Bool.and_true, a4]; norm_num [zClip, exAt]
  · exact ⟨1 / 10001, by norm_num, by norm_num, by ext <;> norm_num⟩
  · rw [← Bool.not_eq_true, z0, a5]; norm_num [zClip, exAt]

/-- C72 fails: the documentation of `Project` says that `z` is linear, 0 on the near plane and negative before it. With the
OpenGL convention the near plane gets -1. With the Direct3D convention the middle of a perspective frustum does not get 1/2,
and a point behind the eye gets a value above 1. -/
theorem C72_project_depth_violation :
    (exObjAt .gl 1 3).project ⟨0, 0, -1⟩ = some ⟨0, 0, -1⟩ ∧
    (exObjAt .d3d 1 3).project ⟨0, 0, -2⟩ = some ⟨0, 0, 3 / 4⟩ ∧
    (exObjAt .d3d 1 3).project ⟨0, 0, 2⟩ = some ⟨0, 0, 9 / 4⟩ := by
  have key : ∀ (s : FrustumSpace) (hs : s ≠ .invalid) (d : ℝ), 1 / 1000000 < |d| → (exObjAt s 1 3).project ⟨0, 0, -d⟩ =
      some ⟨0, 0, if s = .d3d then 3 * (d - 1) / ((3 - 1) * d) else ((3 + 1) * d - 2 * 1 * 3) / ((3 - 1) * d)⟩ := by
    intro s hs d hd
    have e1 : dot ((⟨0, 0, -d⟩ : V3 ℝ) - (exAt s 1 3).pos) (exAt s 1 3).worldRight = 0 := by
      simp [exAt, worldRight, worldRightOf, cross, dot]
    have e2 : dot ((⟨0, 0, -d⟩ : V3 ℝ) - (exAt s 1 3).pos) (exAt s 1 3).up = 0 := by simp [exAt, dot]
    have e3 : dot ((⟨0, 0, -d⟩ : V3 ℝ) - (exAt s 1 3).pos) (exAt s 1 3).front = d := by simp [exAt, dot]
    have := C72_project_perspective _ _ (exObjAt_of s 1 3) (exAt_valid s 1 3 (by norm_num) (by norm_num)) hs (by simp [exAt]) rfl
      ⟨0, 0, -d⟩ d e3.symm hd
    rw [e1, e2, zero_div, zero_div] at this
    exact this
  refine ⟨?_, ?_, ?_⟩
  · rw [key .gl (by decide) 1 (by norm_num), if_neg (by decide)]; norm_num
  · rw [key .d3d (by decide) 2 (by norm_num)]; norm_num
  · have := key .d3d (by decide) (-2) (by norm_num)
    rw [neg_neg] at this
    rw [this]; norm_num

end Frustum
end
end MGL
