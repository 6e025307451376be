import Verif.Props.FrustumProject

/-! C73: which histories of calls on a frustum keep its cached matrices up to date. -/

set_option linter.unusedSectionVars false
set_option linter.unusedSimpArgs false

namespace MGL
open V3

noncomputable section

namespace FrustumObj

/-- The calls that set parameters; the others are `Translate` and `Transform`. -/
def Op.isSetter : Op → Bool
  | .translate _ | .transform3 _ | .transform34 _ | .transform4 _ | .transformQuat _ => false
  | _ => true

/-- The calls that recompute the world matrix: `SetKind`, `SetFrame`, `SetPos`, `SetFront`, `SetUp`, `SetWorldMatrix`. -/
def Op.setsFrame : Op → Bool
  | .setKind _ _ | .setFrame _ _ _ | .setPos _ | .setFront _ | .setUp _ | .setWorldMatrix _ => true
  | _ => false

/-- The calls that recompute the projection matrix: `SetKind`, `SetViewPlaneDistances`, `SetPerspective`, `SetOrthographic`
and the two with an aspect ratio. -/
def Op.setsProjection : Op → Bool
  | .setKind _ _ | .setViewPlaneDistances _ _ | .setPerspective _ _ | .setOrthographic _ _
  | .setHorizontalFovAndAspectRatio _ _ | .setVerticalFovAndAspectRatio _ _ => true
  | _ => false

/-- What holds after every history of calls. -/
structure Inv (o : FrustumObj) : Prop where
  vp : o.viewProjMatrix = if o.started then viewProjOf o.projectionMatrix o.worldMatrix else none
  idle : o.started = false → o.worldMatrix = none
  noUp : o.up = none → o.worldMatrix = none

theorem computeWorld_none {o : FrustumObj} (h : o.up = none) : o.computeWorldMatrix = none := by
  unfold computeWorldMatrix; rw [h]; cases o.pos <;> cases o.front <;> rfl

theorem Inv.worldMatrixChanged {o : FrustumObj} : o.worldMatrixChanged.Inv :=
  ⟨rfl, fun h => (by cases h), fun h => computeWorld_none (o := o) h⟩

theorem Inv.projectionMatrixChanged {o : FrustumObj} (h : o.Inv) : o.projectionMatrixChanged.Inv := by
  refine ⟨?_, h.idle, h.noUp⟩
  show (if o.started then viewProjOf o.computeProjectionMatrix o.worldMatrix else o.viewProjMatrix) =
    if o.started then viewProjOf o.computeProjectionMatrix o.worldMatrix else none
  cases hs : o.started
  · have := h.vp; rw [hs] at this; simpa using this
  · rfl

theorem Inv.apply {o : FrustumObj} (h : o.Inv) (op : Op) : (Op.apply o op).Inv := by
  cases op with
  | setKind p hd =>
    show (setKind o p hd).Inv
    unfold setKind
    dsimp only
    cases hu : o.up
    · rw [if_neg (by simp)]
      have : ({ o with space := p, hand := hd } : FrustumObj).Inv := ⟨h.vp, h.idle, h.noUp⟩
      rw [← hu]
      exact this.projectionMatrixChanged
    · rw [if_pos (by simp)]
      rw [← hu]
      exact Inv.worldMatrixChanged.projectionMatrixChanged
  | setViewPlaneDistances n f => exact Inv.projectionMatrixChanged (o := { o with near := some n, far := some f }) ⟨h.vp, h.idle, h.noUp⟩
  | setFrame p f u => exact Inv.worldMatrixChanged
  | setPos p => exact Inv.worldMatrixChanged
  | setFront f => exact Inv.worldMatrixChanged
  | setUp u => exact Inv.worldMatrixChanged
  | setPerspective a b => exact Inv.projectionMatrixChanged (o := { o with type := .perspective, h := a, v := b }) ⟨h.vp, h.idle, h.noUp⟩
  | setOrthographic a b => exact Inv.projectionMatrixChanged (o := { o with type := .orthographic, h := a, v := b }) ⟨h.vp, h.idle, h.noUp⟩
  | setHorizontalFovAndAspectRatio a b =>
    exact Inv.projectionMatrixChanged
      (o := { o with type := .perspective, h := a, v := 2 * Real.arctan (Real.tan (a * (1 / 2)) / b) }) ⟨h.vp, h.idle, h.noUp⟩
  | setVerticalFovAndAspectRatio a b =>
    exact Inv.projectionMatrixChanged
      (o := { o with type := .perspective, v := a, h := 2 * Real.arctan (Real.tan (a * (1 / 2)) * b) }) ⟨h.vp, h.idle, h.noUp⟩
  | setWorldMatrix m => exact Inv.worldMatrixChanged
  | translate t => exact ⟨h.vp, h.idle, h.noUp⟩
  | transform3 m => exact ⟨h.vp, h.idle, fun hu => by cases hu⟩
  | transform34 m => exact ⟨h.vp, h.idle, fun hu => by cases hu⟩
  | transform4 m => exact ⟨h.vp, h.idle, fun hu => by cases hu⟩
  | transformQuat q => exact ⟨h.vp, h.idle, fun hu => by cases hu⟩

theorem Inv.foldl (ops : List Op) : ∀ o : FrustumObj, o.Inv → (ops.foldl Op.apply o).Inv := by
  induction ops with
  | nil => intro o h; exact h
  | cons op ops ih => intro o h; exact ih _ (h.apply op)

theorem Inv.ctor (h v : ℝ) (junk : Option (Mat4 ℝ)) : (ctor h v junk).Inv := ⟨rfl, fun _ => rfl, fun _ => rfl⟩

theorem world_projectionMatrixChanged (o : FrustumObj) :
    o.projectionMatrixChanged.worldMatrix = o.worldMatrix ∧ o.projectionMatrixChanged.computeWorldMatrix = o.computeWorldMatrix :=
  ⟨rfl, rfl⟩

/-- A frame setter makes the world matrix fresh. -/
theorem world_fresh_of_setsFrame {o : FrustumObj} (h : o.Inv) {op : Op} (hop : op.setsFrame = true) :
    (Op.apply o op).worldMatrix = (Op.apply o op).computeWorldMatrix := by
  cases op with
  | setKind p hd =>
    show (setKind o p hd).worldMatrix = (setKind o p hd).computeWorldMatrix
    unfold setKind
    dsimp only
    cases hu : o.up
    · rw [if_neg (by simp)]
      have h1 := h.noUp hu
      rw [(world_projectionMatrixChanged _).1, (world_projectionMatrixChanged _).2, computeWorld_none rfl]
      exact h1
    · rw [if_pos (by simp), (world_projectionMatrixChanged _).1, (world_projectionMatrixChanged _).2]
      rfl
  | setFrame p f u => rfl
  | setPos p => rfl
  | setFront f => rfl
  | setUp u => rfl
  | setWorldMatrix m => rfl
  | _ => cases hop

/-- Setters keep the world matrix fresh. -/
theorem world_fresh_setter {o : FrustumObj} (h : o.Inv) (hw : o.worldMatrix = o.computeWorldMatrix) {op : Op} (hop : op.isSetter = true) :
    (Op.apply o op).worldMatrix = (Op.apply o op).computeWorldMatrix := by
  by_cases hf : op.setsFrame = true
  · exact world_fresh_of_setsFrame h hf
  · cases op <;> first | exact absurd rfl hf | exact hw | cases hop

/-- A projection setter makes the projection matrix fresh. -/
theorem proj_fresh_of_setsProjection (o : FrustumObj) {op : Op} (hop : op.setsProjection = true) :
    (Op.apply o op).projectionMatrix = (Op.apply o op).computeProjectionMatrix := by
  cases op with
  | setKind p hd =>
    show (setKind o p hd).projectionMatrix = (setKind o p hd).computeProjectionMatrix
    unfold setKind
    dsimp only
    cases hu : o.up
    · rw [if_neg (by simp)]; rfl
    · rw [if_pos (by simp)]; rfl
  | setViewPlaneDistances n f => rfl
  | setPerspective a b => rfl
  | setOrthographic a b => rfl
  | setHorizontalFovAndAspectRatio a b => rfl
  | setVerticalFovAndAspectRatio a b => rfl
  | _ => cases hop

theorem proj_fresh_setter {o : FrustumObj} (hp : o.projectionMatrix = o.computeProjectionMatrix) {op : Op} (hop : op.isSetter = true) :
    (Op.apply o op).projectionMatrix = (Op.apply o op).computeProjectionMatrix := by
  by_cases hf : op.setsProjection = true
  · exact proj_fresh_of_setsProjection o hf
  · cases op <;> first | exact absurd rfl hf | exact hp | cases hop

theorem world_fresh_foldl (post : List Op) (hpost : ∀ op ∈ post, op.isSetter = true) : ∀ o : FrustumObj, o.Inv →
    (o.worldMatrix = o.computeWorldMatrix ∨ ∃ op ∈ post, op.setsFrame = true) →
    (post.foldl Op.apply o).worldMatrix = (post.foldl Op.apply o).computeWorldMatrix := by
  induction post with
  | nil => rintro o - (h | ⟨op, hop, -⟩); · exact h
           · cases hop
  | cons x xs ih =>
    intro o h hw
    rw [List.foldl_cons]
    have hx := hpost x (List.mem_cons_self ..)
    refine ih (fun op hop => hpost op (List.mem_cons_of_mem _ hop)) _ (h.apply x) ?_
    rcases hw with hw | ⟨op, hop, hf⟩
    · exact Or.inl (world_fresh_setter h hw hx)
    · rcases List.mem_cons.1 hop with rfl | hop
      · exact Or.inl (world_fresh_of_setsFrame h hf)
      · exact Or.inr ⟨op, hop, hf⟩

theorem proj_fresh_foldl (post : List Op) (hpost : ∀ op ∈ post, op.isSetter = true) : ∀ o : FrustumObj,
    (o.projectionMatrix = o.computeProjectionMatrix ∨ ∃ op ∈ post, op.setsProjection = true) →
    (post.foldl Op.apply o).projectionMatrix = (post.foldl Op.apply o).computeProjectionMatrix := by
  induction post with
  | nil => rintro o (h | ⟨op, hop, -⟩); · exact h
           · cases hop
  | cons x xs ih =>
    intro o hw
    rw [List.foldl_cons]
    have hx := hpost x (List.mem_cons_self ..)
    refine ih (fun op hop => hpost op (List.mem_cons_of_mem _ hop)) _ ?_
    rcases hw with hw | ⟨op, hop, hf⟩
    · exact Or.inl (proj_fresh_setter hw hx)
    · rcases List.mem_cons.1 hop with rfl | hop
      · exact Or.inl (proj_fresh_of_setsProjection o hf)
      · exact Or.inr ⟨op, hop, hf⟩

theorem Inv.viewProj_fresh {o : FrustumObj} (h : o.Inv) (hw : o.worldMatrix = o.computeWorldMatrix)
    (hp : o.projectionMatrix = o.computeProjectionMatrix) : o.viewProjMatrix = o.computeViewProjMatrix := by
  rw [h.vp]
  unfold computeViewProjMatrix
  rw [← hw, ← hp]
  cases hs : o.started
  · rw [h.idle hs]
    show none = viewProjOf _ none
    unfold viewProjOf
    cases o.projectionMatrix <;> rfl
  · rfl

/-- C73: after any history of calls of the setters, in any order and any number, the cached world and view matrices are
those of the current parameters; once one of the calls was a setter of the projection, so are the cached projection and view
projection matrices, and with them `Project` and `Contains`. Missing: `Translate` and `Transform`, see
`C73_refresh` and `C73_stale_violation`. -/
theorem C73_setters_partial (h v : ℝ) (junk : Option (Mat4 ℝ)) (ops : List Op) (hops : ∀ op ∈ ops, op.isSetter = true) :
    (run h v junk ops).worldMatrix = (run h v junk ops).computeWorldMatrix ∧
    (run h v junk ops).viewMatrix = (run h v junk ops).computeViewMatrix ∧
    ((∃ op ∈ ops, op.setsProjection = true) →
      (run h v junk ops).projectionMatrix = (run h v junk ops).computeProjectionMatrix ∧
      (run h v junk ops).viewProjMatrix = (run h v junk ops).computeViewProjMatrix) := by
  have hI := Inv.foldl ops _ (Inv.ctor h v junk)
  have hw := world_fresh_foldl ops hops _ (Inv.ctor h v junk) (Or.inl rfl)
  refine ⟨hw, ?_, fun hp => ?_⟩
  · unfold viewMatrix computeViewMatrix run
    rw [hw]
  · have := proj_fresh_foldl ops hops (FrustumObj.ctor h v junk) (Or.inr hp)
    exact ⟨this, hI.viewProj_fresh hw this⟩

example := C73_setters_partial 0 0 none [.setKind .gl .right, .setFrame ⟨1, 2, 3⟩ ⟨0, 0, -1⟩ ⟨0, 1, 0⟩, .setPos 0,
  .setViewPlaneDistances 1 100, .setPerspective 1 1] (by decide)

/-- C73: whatever happened before, `Translate` and `Transform` included: after setter calls among which are a setter of the
frame and a setter of the projection (`SetKind` is both), all cached matrices are those of the current parameters. -/
theorem C73_refresh (h v : ℝ) (junk : Option (Mat4 ℝ)) (pre post : List Op) (hpost : ∀ op ∈ post, op.isSetter = true)
    (hf : ∃ op ∈ post, op.setsFrame = true) (hp : ∃ op ∈ post, op.setsProjection = true) :
    (run h v junk (pre ++ post)).worldMatrix = (run h v junk (pre ++ post)).computeWorldMatrix ∧
    (run h v junk (pre ++ post)).viewMatrix = (run h v junk (pre ++ post)).computeViewMatrix ∧
    (run h v junk (pre ++ post)).projectionMatrix = (run h v junk (pre ++ post)).computeProjectionMatrix ∧
    (run h v junk (pre ++ post)).viewProjMatrix = (run h v junk (pre ++ post)).computeViewProjMatrix := by
  have hI := Inv.foldl pre _ (Inv.ctor h v junk)
  have e : run h v junk (pre ++ post) = post.foldl Op.apply (pre.foldl Op.apply (FrustumObj.ctor h v junk)) := by
    unfold run; rw [List.foldl_append]
  rw [e]
  have hw := world_fresh_foldl post hpost _ hI (Or.inr hf)
  have hq := proj_fresh_foldl post hpost (pre.foldl Op.apply (FrustumObj.ctor h v junk)) (Or.inr hp)
  refine ⟨hw, ?_, hq, (Inv.foldl post _ hI).viewProj_fresh hw hq⟩
  unfold viewMatrix computeViewMatrix
  rw [hw]

example := C73_refresh 0 0 none [.setFrame ⟨1, 2, 3⟩ ⟨0, 0, -1⟩ ⟨0, 1, 0⟩, .setViewPlaneDistances 1 100, .setPerspective 1 1,
  .translate ⟨5, 0, 0⟩] [.setKind .gl .right] (by decide) (by decide) (by decide)

/-- C73: so that after such a history `Project` and `Contains` are those of the current parameters (C72). -/
theorem C73_fresh_params (h v : ℝ) (junk : Option (Mat4 ℝ)) (pre post : List Op) (hpost : ∀ op ∈ post, op.isSetter = true)
    (hf : ∃ op ∈ post, op.setsFrame = true) (hp : ∃ op ∈ post, op.setsProjection = true) (f : Frustum)
    (hpar : (run h v junk (pre ++ post)).params = some f) (hv : f.Valid) (hs : f.space ≠ .invalid) (hh : f.hand ≠ .invalid) :
    ∀ p ∈ f.points, (run h v junk (pre ++ post)).contains p = true :=
  (Frustum.C72_contains_complete _ f ⟨hpar, (C73_refresh h v junk pre post hpost hf hp).2.2.2⟩ hv hs hh).1

example := C73_fresh_params 0 0 none [] [.setKind .gl .right, .setFrame ⟨1, 2, 3⟩ ⟨0, 0, -1⟩ ⟨0, 1, 0⟩,
  .setViewPlaneDistances 1 100, .setPerspective (Real.pi / 2) (Real.pi / 3)] (by simp [Op.isSetter]) (by simp [Op.setsFrame])
  (by simp [Op.setsProjection]) exPersp rfl exPersp_valid (by decide) (by decide)

/-- C73: the effect of `Translate` and `Transform` on the parameters is the one of C71. -/
theorem C73_transform_params (o : FrustumObj) (f : Frustum) (ho : o.params = some f) :
    (∀ t, (Op.apply o (.translate t)).params = some (f.translate t)) ∧
    (∀ m, (Op.apply o (.transform3 m)).params = some (f.transform3 m)) ∧
    (∀ m, (Op.apply o (.transform34 m)).params = some (f.transform34 m)) ∧
    (∀ m, (Op.apply o (.transform4 m)).params = some (f.transform4 m)) ∧
    (∀ q, (Op.apply o (.transformQuat q)).params = some (f.transformQuat q)) := by
  have key : ∃ p fr u n r, o.pos = some p ∧ o.front = some fr ∧ o.up = some u ∧ o.near = some n ∧ o.far = some r ∧
      f = ⟨o.type, o.space, o.hand, p, fr, u, n, r, o.h, o.v⟩ := by
    unfold params at ho
    split at ho
    · next p fr u n r e1 e2 e3 e4 e5 => cases ho; exact ⟨p, fr, u, n, r, e1, e2, e3, e4, e5, rfl⟩
    · cases ho
  obtain ⟨p, fr, u, n, r, e1, e2, e3, e4, e5, rfl⟩ := key
  have tr : ∀ mp md : V3 ℝ → V3 ℝ, (o.transform mp md).params =
      some (Frustum.transformParams ⟨o.type, o.space, o.hand, p, fr, u, n, r, o.h, o.v⟩ (mp p) (md fr) (md u)) := by
    intro mp md
    unfold transform params
    simp only [e1, e2, e3, e4, e5, Option.map_some, normalizeNaN]
    rfl
  refine ⟨?_, fun m => tr _ _, fun m => tr _ _, fun m => tr _ _, fun q => tr _ _⟩
  intro t
  show (translate o t).params = _
  unfold translate params
  simp only [e1, e2, e3, e4, e5, Option.map_some]
  rfl

example := C73_transform_params Frustum.exObjPersp exPersp Frustum.exObjPersp_of.params

/-- C73: transforming a frustum whose directions are not numbers (a default constructed one) gives it the direction (1, 0, 0),
and the near and far distances, if they are numbers, become zero. -/
theorem C73_transform_undefined (o : FrustumObj) (mp md : V3 ℝ → V3 ℝ) (hf : o.front = none) (hu : o.up = none) :
    (o.transform mp md).front = some ⟨1, 0, 0⟩ ∧ (o.transform mp md).up = some ⟨1, 0, 0⟩ ∧
      (∀ n, (o.transform mp md).near = some n → n = 0) ∧ ∀ n, (o.transform mp md).far = some n → n = 0 := by
  unfold transform
  simp only [hf, hu, normalizeNaN]
  refine ⟨trivial, trivial, ?_, ?_⟩ <;> intro n hn <;> rw [Option.map_eq_some_iff] at hn <;> obtain ⟨a, -, rfl⟩ := hn <;> rw [mul_zero]

example : ∃ o : FrustumObj, o.front = none ∧ o.up = none := ⟨ctor 1 1 none, rfl, rfl⟩

/-- C73 fails: `Translate` and `Transform` change the parameters but none of the cached matrices, so that `Project` and
`Contains` go on answering for the old frustum. After every nonzero translation the cached world matrix differs from the
computed one. Concretely: a point of the moved frustum is reported as not contained, a point outside as contained. -/
theorem C73_stale_violation :
    (∀ (o : FrustumObj) (t : V3 ℝ) (p : V3 ℝ), (Op.apply o (.translate t)).contains p = o.contains p ∧
      (Op.apply o (.translate t)).project p = o.project p) ∧
    (∀ (o : FrustumObj) (m : Mat34 ℝ) (p : V3 ℝ), (Op.apply o (.transform34 m)).contains p = o.contains p ∧
      (Op.apply o (.transform34 m)).project p = o.project p) ∧
    (∀ (o : FrustumObj) (f : Frustum) (t : V3 ℝ), o.params = some f → o.worldMatrix = o.computeWorldMatrix → t ≠ 0 →
      (Op.apply o (.translate t)).worldMatrix ≠ (Op.apply o (.translate t)).computeWorldMatrix) ∧
    (∃ (o : FrustumObj) (f : Frustum) (p q : V3 ℝ), (Op.apply o (.translate ⟨0, 0, 100⟩)).params = some f ∧ f.Valid ∧
      p ∈ f.points ∧ (Op.apply o (.translate ⟨0, 0, 100⟩)).contains p = false ∧
      q ∉ f.points ∧ (Op.apply o (.translate ⟨0, 0, 100⟩)).contains q = true) := by
  refine ⟨fun o t p => ⟨rfl, rfl⟩, fun o m p => ⟨rfl, rfl⟩, ?_, ?_⟩
  · intro o f t ho hw ht H
    obtain ⟨p, fr, u, e1, e2, e3⟩ : ∃ p fr u, o.pos = some p ∧ o.front = some fr ∧ o.up = some u := by
      unfold params at ho
      split at ho
      · next p fr u n r e1 e2 e3 e4 e5 => exact ⟨p, fr, u, e1, e2, e3⟩
      · cases ho
    have a : o.worldMatrix = some (Frustum.worldMatrixOf o.hand p fr u) := by
      rw [hw]; unfold computeWorldMatrix; rw [e1, e2, e3]
    have b : (Op.apply o (.translate t)).computeWorldMatrix = some (Frustum.worldMatrixOf o.hand (p + t) fr u) := by
      show (translate o t).computeWorldMatrix = _
      unfold translate computeWorldMatrix
      simp only [e1, e2, e3, Option.map_some]
    rw [b, show (Op.apply o (.translate t)).worldMatrix = o.worldMatrix from rfl, a] at H
    have H' := Option.some.inj H
    have x := congrFun (congrFun H' 0) 3
    have y := congrFun (congrFun H' 1) 3
    have z := congrFun (congrFun H' 2) 3
    simp [Frustum.worldMatrixOf] at x y z
    exact ht (by ext <;> simp [x, y, z])
  · have hb : (1 : ℝ) < 3 := by norm_num
    have hV := Frustum.exAt_valid .d3d 1 3 (by norm_num) hb
    have hV' : ((Frustum.exAt .d3d 1 3).translate ⟨0, 0, 100⟩).Valid := ⟨hV.front, hV.up, hV.perp, hV.depth, hV.kind⟩
    have q1 := Frustum.exAt_contains .d3d (by decide) 1 3 (by norm_num) hb (-98)
    have q2 := Frustum.exAt_contains .d3d (by decide) 1 3 (by norm_num) hb 2
    rw [neg_neg] at q1
    refine ⟨Frustum.exObjAt .d3d 1 3, (Frustum.exAt .d3d 1 3).translate ⟨0, 0, 100⟩, ⟨0, 0, 98⟩, ⟨0, 0, -2⟩, rfl, hV', ?_, ?_, ?_, ?_⟩
    · rw [hV'.mem]
      have e1 : dot ((⟨0, 0, 98⟩ : V3 ℝ) - ((Frustum.exAt .d3d 1 3).translate ⟨0, 0, 100⟩).pos)
          ((Frustum.exAt .d3d 1 3).translate ⟨0, 0, 100⟩).front = 2 := by norm_num [Frustum.exAt, Frustum.translate, dot]
      have e2 : dot ((⟨0, 0, 98⟩ : V3 ℝ) - ((Frustum.exAt .d3d 1 3).translate ⟨0, 0, 100⟩).pos)
          ((Frustum.exAt .d3d 1 3).translate ⟨0, 0, 100⟩).up = 0 := by norm_num [Frustum.exAt, Frustum.translate, dot]
      have e3 : dot ((⟨0, 0, 98⟩ : V3 ℝ) - ((Frustum.exAt .d3d 1 3).translate ⟨0, 0, 100⟩).pos)
          ((Frustum.exAt .d3d 1 3).translate ⟨0, 0, 100⟩).worldRight = 0 := by
        norm_num [Frustum.exAt, Frustum.translate, dot, Frustum.worldRight, Frustum.worldRightOf, cross]
      rw [e1, e2, e3, abs_zero]
      obtain ⟨k1, k2⟩ := hV'.half_pos (d := 2) (by norm_num [Frustum.exAt, Frustum.translate])
      exact ⟨by norm_num [Frustum.exAt, Frustum.translate], by norm_num [Frustum.exAt, Frustum.translate], k1.le, k2.le⟩
    · show (Frustum.exObjAt .d3d 1 3).contains ⟨0, 0, 98⟩ = false
      rw [← Bool.not_eq_true, q1]; norm_num [Frustum.zClip, Frustum.exAt]
    · rw [hV'.mem]
      rintro ⟨-, H, -⟩
      norm_num [Frustum.exAt, Frustum.translate, dot] at H
    · show (Frustum.exObjAt .d3d 1 3).contains ⟨0, 0, -2⟩ = true
      rw [q2]; norm_num [Frustum.zClip, Frustum.exAt]

/-- C73 fails: the constructor leaves the cached projection matrix uninitialised. Before the first setter of the projection
`ProjectionMatrix()` returns whatever was in memory, and after `SetFrame` the result of `Project` depends on it. -/
theorem C73_uninitialised_violation :
    (∀ (h v : ℝ) (junk : Option (Mat4 ℝ)), (run h v junk []).projectionMatrix = junk ∧
      (run h v junk [.setFrame 0 ⟨0, 0, -1⟩ ⟨0, 1, 0⟩]).projectionMatrix = junk) ∧
    (∃ junk junk' p, (run 0 0 junk [.setFrame 0 ⟨0, 0, -1⟩ ⟨0, 1, 0⟩]).project p ≠
      (run 0 0 junk' [.setFrame 0 ⟨0, 0, -1⟩ ⟨0, 1, 0⟩]).project p) :=
  ⟨fun _ _ _ => ⟨rfl, rfl⟩, none, some 1, 0, by
    intro H
    exact absurd H (by show (none : Option (V3 ℝ)) ≠ some _; simp)⟩

end FrustumObj
end
end MGL
