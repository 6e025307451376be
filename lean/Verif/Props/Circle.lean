import Verif.Spec.Circle
import Verif.Proofs.Similarity
import Verif.Proofs.OBB
import Verif.Model.Circle
import Verif.Props.Sphere
import Verif.Props.PlaneIntersect
import Verif.Props.Quadratic
import Verif.Props.Float3
import Mathlib.Analysis.SpecialFunctions.Complex.Arg

/-! # C70: circles in space -/

set_option linter.unusedSectionVars false

namespace MGL
open V3

/-- The plane of the circle is not within 1e-6 of the horizontal plane, or it is exactly horizontal; otherwise the
library's `Perpendicular` does not return a perpendicular vector. -/
def Circle.WellDirected (c : Circle ℝ) : Prop :=
  lenSq c.normal = 1 ∧ (1 / 1000000 < len (cross c.normal ⟨0, 1, 0⟩) ∨ cross c.normal ⟨0, 1, 0⟩ = 0)

theorem Circle.basis (c : Circle ℝ) (h : c.WellDirected) :
    lenSq c.basisU = 1 ∧ lenSq c.basisV = 1 ∧ dot c.normal c.basisU = 0 ∧ dot c.normal c.basisV = 0 ∧
    dot c.basisU c.basisV = 0 := by
  obtain ⟨hn, hp⟩ := h
  obtain ⟨h1, h2⟩ := C54_perpendicular c.normal hp
  have hx : lenSq (cross c.normal c.basisU) = 1 := by
    have := lagrange c.normal c.basisU
    rw [show dot c.normal c.basisU = 0 from h2, hn, show lenSq c.basisU = 1 from h1] at this
    linarith
  have hV : c.basisV = cross c.normal c.basisU := f3Normalized_unit hx
  refine ⟨h1, hV ▸ hx, h2, ?_, ?_⟩
  · rw [hV]; simp only [dot, cross]; ring
  · rw [hV]; simp only [dot, cross]; ring

/-- Expansion of a vector of the plane in the circle's basis. -/
theorem Circle.expand (c : Circle ℝ) (h : c.WellDirected) (w : V3 ℝ) (hw : dot c.normal w = 0) :
    w = dot w c.basisU • c.basisU + dot w c.basisV • c.basisV := by
  obtain ⟨h1, h2, h3, h4, h5⟩ := c.basis h
  have hn := h.1
  have hF : Spec.Frame c.normal c.basisU c.basisV := ⟨hn, h1, h2, h3, h4, h5⟩
  have := hF.expand w
  rw [show dot w c.normal = 0 by rw [dot_comm]; exact hw] at this
  conv_lhs => rw [this]
  ext <;> simp

theorem comb_lenSq {u v : V3 ℝ} (hu : lenSq u = 1) (hv : lenSq v = 1) (huv : dot u v = 0) (s t : ℝ) :
    lenSq (s • u + t • v) = s * s + t * t := by
  have : lenSq (s • u + t • v) = s * s * lenSq u + 2 * (s * t) * dot u v + t * t * lenSq v := by
    simp only [lenSq, dot, add_x, add_y, add_z, smul_x, smul_y, smul_z]; ring
  rw [this, hu, hv, huv]; ring

theorem Circle.point_dist (c : Circle ℝ) (h : c.WellDirected) (s t k : ℝ) (hst : s * s + t * t = 1) :
    dot c.normal (c.pos + k • (s • c.basisU + t • c.basisV) - c.pos) = 0 ∧
    distSq (c.pos + k • (s • c.basisU + t • c.basisV)) c.pos = k * k := by
  obtain ⟨h1, h2, h3, h4, h5⟩ := c.basis h
  have e : c.pos + k • (s • c.basisU + t • c.basisV) - c.pos = k • (s • c.basisU + t • c.basisV) := by ext <;> simp
  constructor
  · rw [e, dot_smul, dot_add, dot_smul, dot_smul, h3, h4]; ring
  · show lenSq _ = _
    rw [e, lenSq_smul, comb_lenSq h1 h2 h5, hst, mul_one]

theorem exists_angle (x y r : ℝ) (h : x * x + y * y = r * r) (hr : 0 ≤ r) :
    ∃ a, x = r * Real.cos a ∧ y = r * Real.sin a := by
  refine ⟨Complex.arg ⟨x, y⟩, ?_, ?_⟩
  · have := Complex.norm_mul_cos_arg ⟨x, y⟩
    rw [Complex.norm_def, Complex.normSq_mk, h, Real.sqrt_mul_self hr] at this
    exact this.symm
  · have := Complex.norm_mul_sin_arg ⟨x, y⟩
    rw [Complex.norm_def, Complex.normSq_mk, h, Real.sqrt_mul_self hr] at this
    exact this.symm

/-- C70: the angles generate exactly the circle line, and angle and distance in `[0, 1]` exactly the disc. -/
theorem C70_getPoint_partial (c : Circle ℝ) (h : c.WellDirected) (hr : 0 ≤ c.r) :
    Set.range c.getPoint = Spec.circle c.pos c.normal c.r ∧
    (Set.range fun a => c.getPointD a 1) = Spec.circle c.pos c.normal c.r ∧
    {x | ∃ a d, 0 ≤ d ∧ d ≤ 1 ∧ x = c.getPointD a d} = Spec.disc c.pos c.normal c.r ∧
    ∀ a, c.getPointD a 0 = c.pos := by
  obtain ⟨h1, h2, h3, h4, h5⟩ := c.basis h
  have onto : ∀ x k, 0 ≤ k → dot c.normal (x - c.pos) = 0 → distSq x c.pos = k * k →
      ∃ a, x = c.pos + k • (Real.cos a • c.basisU + Real.sin a • c.basisV) := by
    intro x k hk hx hd
    have e := c.expand h _ hx
    have hl : dot (x - c.pos) c.basisU * dot (x - c.pos) c.basisU + dot (x - c.pos) c.basisV * dot (x - c.pos) c.basisV = k * k := by
      rw [← comb_lenSq h1 h2 h5, ← e]; exact hd
    obtain ⟨a, ha, hb⟩ := exists_angle _ _ k hl hk
    refine ⟨a, ?_⟩
    rw [ha, hb] at e
    have : x = c.pos + (x - c.pos) := by ext <;> simp
    rw [this, e]; ext <;> simp <;> ring
  refine ⟨?_, ?_, ?_, ?_⟩
  · ext x
    constructor
    · rintro ⟨a, rfl⟩
      exact c.point_dist h _ _ c.r (by have := Real.sin_sq_add_cos_sq a; nlinarith)
    · rintro ⟨hx, hd⟩
      obtain ⟨a, ha⟩ := onto x c.r hr hx hd
      refine ⟨Real.pi / 2 - a, ?_⟩
      show c.pos + c.r • _ = x
      rw [Real.sin_pi_div_two_sub, Real.cos_pi_div_two_sub]; exact ha.symm
  · ext x
    constructor
    · rintro ⟨a, rfl⟩
      have := c.point_dist h (Real.cos a) (Real.sin a) (c.r * 1) (by have := Real.sin_sq_add_cos_sq a; nlinarith)
      exact ⟨this.1, by have h' := this.2; rw [mul_one] at h'; simpa [Circle.getPointD] using h'⟩
    · rintro ⟨hx, hd⟩
      obtain ⟨a, ha⟩ := onto x c.r hr hx hd
      refine ⟨a, ?_⟩
      show c.pos + (c.r * 1) • _ = x
      rw [mul_one]; exact ha.symm
  · ext x
    constructor
    · rintro ⟨a, d, h0, h1', rfl⟩
      have := c.point_dist h (Real.cos a) (Real.sin a) (c.r * d) (by have := Real.sin_sq_add_cos_sq a; nlinarith)
      refine ⟨this.1, ?_⟩
      have h' : distSq (c.getPointD a d) c.pos = c.r * d * (c.r * d) := this.2
      rw [h']
      have : c.r * d ≤ c.r := mul_le_of_le_one_right hr h1'
      exact mul_self_le_mul_self (mul_nonneg hr h0) this
    · rintro ⟨hx, hd⟩
      obtain ⟨a, ha⟩ := onto x (V3.dist x c.pos) (dist_nonneg _ _) hx (dist_mul_self _ _).symm
      have hle : V3.dist x c.pos ≤ c.r := (dist_le_iff hr).2 hd
      rcases hr.eq_or_lt with e | hpos
      · refine ⟨0, 0, le_rfl, zero_le_one, ?_⟩
        have : V3.dist x c.pos = 0 := le_antisymm (by rw [← e] at hle; exact hle) (dist_nonneg _ _)
        rw [dist_eq_zero] at this
        rw [this]; unfold Circle.getPointD; ext <;> simp
      · refine ⟨a, V3.dist x c.pos / c.r, div_nonneg (dist_nonneg _ _) hr, (div_le_one hpos).2 hle, ?_⟩
        unfold Circle.getPointD
        rw [mul_div_cancel₀ _ hpos.ne']; exact ha
  · intro a; unfold Circle.getPointD; ext <;> simp

/-- The unit circle in the plane `z = 5`. -/
def exCircle : Circle ℝ := ⟨⟨1, 2, 5⟩, ⟨0, 0, 1⟩, 2⟩

theorem exCircle_wd : exCircle.WellDirected := by
  refine ⟨by norm_num [exCircle, lenSq, dot], Or.inl ?_⟩
  have : len (cross exCircle.normal ⟨0, 1, 0⟩) = 1 := by
    unfold len; rw [show lenSq (cross exCircle.normal ⟨0, 1, 0⟩) = 1 by norm_num [exCircle, lenSq, dot, cross]]
    exact Real.sqrt_one
  rw [this]; norm_num

example : exCircle.WellDirected ∧ 0 ≤ exCircle.r := ⟨exCircle_wd, by norm_num [exCircle]⟩

/-- C70 fails: the documentation says `GetPoint(angle)` is equivalent to `GetPoint(angle, 1)`, but sine and cosine are
exchanged between the two: at angle 0 they are a quarter turn apart, on every circle of positive radius. -/
theorem C70_getPoint_violation (c : Circle ℝ) (h : c.WellDirected) (hr : 0 < c.r) : c.getPoint 0 ≠ c.getPointD 0 1 := by
  obtain ⟨h1, h2, h3, h4, h5⟩ := c.basis h
  intro e
  have e' : c.basisV = c.basisU := by
    unfold Circle.getPoint Circle.getPointD at e
    have hx := congrArg V3.x e
    have hy := congrArg V3.y e
    have hz := congrArg V3.z e
    simp at hx hy hz
    ext
    · rcases hx with hx | hx; exact hx; exact absurd hx hr.ne'
    · rcases hy with hx | hx; exact hx; exact absurd hx hr.ne'
    · rcases hz with hx | hx; exact hx; exact absurd hx hr.ne'
  rw [e'] at h5
  have : lenSq c.basisU = 0 := h5
  rw [h1] at this; norm_num at this

/-- C70: the circle lies in its `ContainingPlane`, and the plane is the whole plane of the circle. -/
theorem C70_containingPlane (c : Circle ℝ) :
    Spec.plane c.containingPlane.normal c.containingPlane.d = {x | dot c.normal (x - c.pos) = 0} ∧
    Spec.circle c.pos c.normal c.r ⊆ Spec.disc c.pos c.normal c.r ∧
    Spec.disc c.pos c.normal c.r ⊆ Spec.plane c.containingPlane.normal c.containingPlane.d := by
  have e : Spec.plane c.containingPlane.normal c.containingPlane.d = {x | dot c.normal (x - c.pos) = 0} := by
    ext x
    show dot c.normal x = dot c.pos c.normal ↔ dot c.normal (x - c.pos) = 0
    rw [dot_sub, dot_comm c.pos, sub_eq_zero]
  refine ⟨e, fun x hx => ⟨hx.1, hx.2.le⟩, fun x hx => ?_⟩
  rw [e]; exact hx.1

theorem scaledToLength_pos {v : V3 ℝ} (h : 1 / 1000000 ≤ lenSq v) (k : ℝ) : Sphere.scaledToLength v k = (k / len v) • v :=
  if_neg (not_lt.2 h)

/-- The in-plane part of a direction. -/
theorem inplane (n d : V3 ℝ) (hn : lenSq n = 1) : dot n (d - f3ProjectToNorm d n) = 0 := by
  unfold f3ProjectToNorm
  rw [dot_sub, dot_smul, show dot n n = 1 from hn, dot_comm n d]; ring

theorem circle_extreme (c n d : V3 ℝ) (r : ℝ) (hr : 0 ≤ r) (hn : lenSq n = 1) (hd : 0 < len (d - f3ProjectToNorm d n)) :
    let w := d - f3ProjectToNorm d n
    (c + (r / len w) • w ∈ Spec.circle c n r) ∧ ∀ x ∈ Spec.disc c n r, dot d x ≤ dot d (c + (r / len w) • w) := by
  intro w
  have hw : dot n w = 0 := inplane n d hn
  have e : c + (r / len w) • w - c = (r / len w) • w := by ext <;> simp
  have hl : len w * len w = lenSq w := len_mul_self w
  have hw0 : len w ≠ 0 := hd.ne'
  refine ⟨⟨?_, ?_⟩, ?_⟩
  · rw [e, dot_smul, hw, mul_zero]
  · show lenSq _ = _
    rw [e, lenSq_smul, ← hl]; field_simp
  · rintro x ⟨hx, hxr⟩
    have hdec : ∀ y, dot n y = 0 → dot d y = dot w y := by
      intro y hy
      show dot d y = dot (d - f3ProjectToNorm d n) y
      unfold f3ProjectToNorm
      rw [sub_dot, smul_dot, hy]; ring
    have h1 : dot d x = dot d c + dot w (x - c) := by rw [← hdec _ hx, dot_sub]; ring
    have h2 : dot d (c + (r / len w) • w) = dot d c + r * len w := by
      rw [dot_add, hdec ((r / len w) • w) (by rw [dot_smul, hw, mul_zero]), dot_smul, show dot w w = len w * len w from hl.symm]
      field_simp
    rw [h1, h2]
    have h3 := dot_le_len w (x - c)
    have h4 : len (x - c) ≤ r := (dist_le_iff hr).2 hxr
    nlinarith

/-- C70: `ExtremePoint` for directions whose part in the plane of the circle has length at least 1/1000: a point of the
circle line that no point of the disc surpasses. -/
theorem C70_extremePoint_partial (c : Circle ℝ) (hn : lenSq c.normal = 1) (hr : 0 ≤ c.r) (d : V3 ℝ)
    (hd : 1 / 1000000 ≤ lenSq (d - dot d c.normal • c.normal)) :
    Spec.IsExtreme (Spec.disc c.pos c.normal c.r) d (c.extremePoint d) ∧ c.extremePoint d ∈ Spec.circle c.pos c.normal c.r := by
  have hd' : 1 / 1000000 ≤ lenSq (d - f3ProjectToNorm d c.normal) := hd
  have hz : ¬ f3IsZero (d - f3ProjectToNorm d c.normal) = true := by
    unfold f3IsZero; rw [decide_eq_true_iff]; intro h; norm_num at h hd'; linarith
  have e : c.extremePoint d = c.pos + (c.r / len (d - f3ProjectToNorm d c.normal)) • (d - f3ProjectToNorm d c.normal) := by
    unfold Circle.extremePoint
    dsimp only
    rw [if_neg hz, scaledToLength_pos hd']
  have hl : 0 < len (d - f3ProjectToNorm d c.normal) := Real.sqrt_pos.2 (by linarith)
  obtain ⟨h1, h2⟩ := circle_extreme c.pos c.normal d c.r hr hn hl
  rw [e]
  exact ⟨⟨⟨h1.1, h1.2.le⟩, h2⟩, h1⟩

example : lenSq exCircle.normal = 1 ∧ 0 ≤ exCircle.r ∧
    1 / 1000000 ≤ lenSq ((⟨1, 0, 1⟩ : V3 ℝ) - dot ⟨1, 0, 1⟩ exCircle.normal • exCircle.normal) := by
  norm_num [exCircle, lenSq, dot]

/-- C70 fails for `ExtremePoint`: the documentation says the returned point is always at the edge, but along the normal
the centre is returned; and a short direction gives the centre too although other points are farther. -/
theorem C70_extremePoint_violation : ∃ (c : Circle ℝ) (d e : V3 ℝ), lenSq c.normal = 1 ∧ 0 < c.r ∧ d ≠ 0 ∧ e ≠ 0 ∧
    c.extremePoint d ∉ Spec.circle c.pos c.normal c.r ∧
    ¬ Spec.IsExtreme (Spec.disc c.pos c.normal c.r) e (c.extremePoint e) := by
  have e1 : exCircle.extremePoint ⟨0, 0, 1⟩ = exCircle.pos := by
    unfold Circle.extremePoint; dsimp only; rw [if_pos]
    unfold f3IsZero f3ProjectToNorm; rw [decide_eq_true_iff]; norm_num [exCircle, lenSq, dot]
  have e2 : exCircle.extremePoint ⟨1 / 10000, 0, 0⟩ = exCircle.pos := by
    unfold Circle.extremePoint; dsimp only; rw [if_pos]
    unfold f3IsZero f3ProjectToNorm; rw [decide_eq_true_iff]; norm_num [exCircle, lenSq, dot]
  refine ⟨exCircle, ⟨0, 0, 1⟩, ⟨1 / 10000, 0, 0⟩, by norm_num [exCircle, lenSq, dot], by norm_num [exCircle],
    fun h => by simpa using congrArg V3.z h, fun h => by simpa using congrArg V3.x h, ?_, ?_⟩
  · rw [e1]; rintro ⟨-, h⟩; norm_num [exCircle, distSq, lenSq, dot] at h
  · rw [e2]; rintro ⟨-, h⟩
    have := h ⟨3, 2, 5⟩ ⟨by norm_num [exCircle, dot], by norm_num [exCircle, distSq, lenSq, dot]⟩
    norm_num [exCircle, dot] at this

/-- Distance of a point to a point of the plane, split in height and in-plane distance. -/
theorem plane_pyth (n p c x : V3 ℝ) (hn : lenSq n = 1) (hx : dot n (x - c) = 0) :
    distSq p x = dot n (p - c) * dot n (p - c) + distSq (p - dot n (p - c) • n) x := by
  have h1 : dot n x = dot n c := by rw [dot_sub] at hx; linarith
  have h2 : dot n (p - x) = dot n (p - c) := by rw [dot_sub, dot_sub, h1]
  have key : ∀ k : ℝ, distSq (p - k • n) x = distSq p x - 2 * k * dot n (p - x) + k * k * lenSq n := by
    intro k; simp only [distSq, lenSq, dot, sub_x, sub_y, sub_z, smul_x, smul_y, smul_z]; ring
  rw [key, hn, h2]; ring

theorem project_eq (c : Circle ℝ) (p : V3 ℝ) :
    c.containingPlane.project p = p - dot c.normal (p - c.pos) • c.normal := by
  show p - (dot c.normal p - dot c.pos c.normal) • c.normal = _
  rw [dot_sub, dot_comm c.pos]

theorem project_inplane (c : Circle ℝ) (hn : lenSq c.normal = 1) (p : V3 ℝ) :
    dot c.normal (c.containingPlane.project p - c.pos) = 0 := by
  rw [project_eq, dot_sub, dot_sub, dot_smul, show dot c.normal c.normal = 1 from hn, dot_sub]; ring

/-- C70: `ClosestPointToDisc` and `DistanceToDisc` are exact. -/
theorem C70_disc (c : Circle ℝ) (hn : lenSq c.normal = 1) (hr : 0 ≤ c.r) (p : V3 ℝ) :
    Spec.IsClosestPoint (Spec.disc c.pos c.normal c.r) p (c.closestPointToDisc p) ∧
    Spec.IsSetDist (Spec.disc c.pos c.normal c.r) {p} (c.distanceToDisc p) := by
  have main : Spec.IsClosestPoint (Spec.disc c.pos c.normal c.r) p (c.closestPointToDisc p) := by
    set q := c.containingPlane.project p with hq
    have hin : dot c.normal (q - c.pos) = 0 := project_inplane c hn p
    have hpq : ∀ x, dot c.normal (x - c.pos) = 0 →
        distSq p x = dot c.normal (p - c.pos) * dot c.normal (p - c.pos) + distSq q x := by
      intro x hx; rw [hq, project_eq]; exact plane_pyth _ _ _ _ hn hx
    by_cases h : lenSq (q - c.pos) > c.r * c.r
    · have e : c.closestPointToDisc p = c.pos + (c.r / len (q - c.pos)) • (q - c.pos) := if_pos h
      have hl : c.r < len (q - c.pos) := by
        by_contra hc
        have : V3.dist q c.pos ≤ c.r := not_lt.1 hc
        rw [dist_le_iff hr] at this
        exact absurd this (not_le.2 h)
      have hl0 : 0 < len (q - c.pos) := lt_of_le_of_lt hr hl
      have e1 : c.pos + (c.r / len (q - c.pos)) • (q - c.pos) - c.pos = (c.r / len (q - c.pos)) • (q - c.pos) := by ext <;> simp
      have hm : c.closestPointToDisc p ∈ Spec.disc c.pos c.normal c.r := by
        rw [e]
        refine ⟨by rw [e1, dot_smul, hin, mul_zero], le_of_eq ?_⟩
        show lenSq _ = _
        rw [e1, lenSq_smul, ← len_mul_self]; field_simp
      refine ⟨hm, fun x hx => ?_⟩
      rw [hpq _ hm.1, hpq _ hx.1, add_le_add_iff_left, ← dist_le_dist_iff, e]
      have e2 : q - (c.pos + (c.r / len (q - c.pos)) • (q - c.pos)) = (1 - c.r / len (q - c.pos)) • (q - c.pos) := by
        ext <;> simp <;> ring
      have h1 : V3.dist q (c.pos + (c.r / len (q - c.pos)) • (q - c.pos)) = len (q - c.pos) - c.r := by
        rw [dist_eq_len, e2, len_smul, abs_of_nonneg (sub_nonneg.2 ((div_le_one hl0).2 hl.le)), sub_mul, div_mul_cancel₀ _ hl0.ne', one_mul]
      rw [h1]
      have h2 := dist_triangle q x c.pos
      have h3 : V3.dist x c.pos ≤ c.r := (dist_le_iff hr).2 hx.2
      rw [← dist_eq_len]; linarith
    · have e : c.closestPointToDisc p = q := by
        have : c.closestPointToDisc p = c.pos + (q - c.pos) := if_neg h
        rw [this]; ext <;> simp
      rw [e]
      refine ⟨⟨hin, not_lt.1 h⟩, fun x hx => ?_⟩
      rw [hpq _ hin, hpq _ hx.1]
      have : distSq q q = 0 := distSq_eq_zero.2 rfl
      have := distSq_nonneg q x
      linarith
  exact ⟨main, setDist_of_point main⟩

example : lenSq exCircle.normal = 1 ∧ 0 ≤ exCircle.r := by norm_num [exCircle, lenSq, dot]

/-- C70: `ClosestPointToEdge`, `DistanceToEdge` and `EdgeContains`, for points whose projection on the plane of the circle
is at least 1/1000 away from the centre, or exactly in the centre. -/
theorem C70_edge_partial (c : Circle ℝ) (h : c.WellDirected) (hr : 0 ≤ c.r) (p : V3 ℝ)
    (hp : 1 / 1000000 ≤ lenSq (p - dot c.normal (p - c.pos) • c.normal - c.pos) ∨ p - dot c.normal (p - c.pos) • c.normal = c.pos) :
    Spec.IsClosestPoint (Spec.circle c.pos c.normal c.r) p (c.closestPointToEdge p) ∧
    Spec.IsSetDist (Spec.circle c.pos c.normal c.r) {p} (c.distanceToEdge p) ∧
    ∀ e, c.edgeContains p e = true ↔ ∃ x ∈ Spec.circle c.pos c.normal c.r, V3.dist x p ≤ e := by
  have hn := h.1
  rw [← project_eq] at hp
  have main : Spec.IsClosestPoint (Spec.circle c.pos c.normal c.r) p (c.closestPointToEdge p) := by
    set q := c.containingPlane.project p with hq
    have hin : dot c.normal (q - c.pos) = 0 := project_inplane c hn p
    have hpq : ∀ x, dot c.normal (x - c.pos) = 0 →
        distSq p x = dot c.normal (p - c.pos) * dot c.normal (p - c.pos) + distSq q x := by
      intro x hx; rw [hq, project_eq]; exact plane_pyth _ _ _ _ hn hx
    rcases hp with hp | hp
    · have hz : ¬ f3IsZero (q - c.pos) = true := by
        unfold f3IsZero; rw [decide_eq_true_iff]; intro h; norm_num at h hp; linarith
      have e : c.closestPointToEdge p = c.pos + (c.r / len (q - c.pos)) • (q - c.pos) := by
        unfold Circle.closestPointToEdge
        dsimp only
        rw [← hq, if_neg hz, scaledToLength_pos hp]
      have hl0 : 0 < len (q - c.pos) := Real.sqrt_pos.2 (by linarith)
      have e1 : c.pos + (c.r / len (q - c.pos)) • (q - c.pos) - c.pos = (c.r / len (q - c.pos)) • (q - c.pos) := by ext <;> simp
      have hm : c.closestPointToEdge p ∈ Spec.circle c.pos c.normal c.r := by
        rw [e]
        refine ⟨by rw [e1, dot_smul, hin, mul_zero], ?_⟩
        show lenSq _ = _
        rw [e1, lenSq_smul, ← len_mul_self]; field_simp
      refine ⟨hm, fun x hx => ?_⟩
      rw [hpq _ hm.1, hpq _ hx.1, add_le_add_iff_left, ← dist_le_dist_iff, e]
      have e2 : q - (c.pos + (c.r / len (q - c.pos)) • (q - c.pos)) = (1 - c.r / len (q - c.pos)) • (q - c.pos) := by
        ext <;> simp <;> ring
      have h1 : V3.dist q (c.pos + (c.r / len (q - c.pos)) • (q - c.pos)) = |len (q - c.pos) - c.r| := by
        rw [dist_eq_len, e2, len_smul]
        conv_lhs => rw [← abs_of_pos hl0]
        rw [← abs_mul, abs_of_pos hl0, sub_mul, div_mul_cancel₀ _ hl0.ne', one_mul]
      rw [h1]
      have h3 : V3.dist x c.pos = c.r := by
        have := dist_mul_self x c.pos
        rw [hx.2] at this
        nlinarith [dist_nonneg x c.pos, mul_self_eq_mul_self_iff.1 this]
      have h2 := dist_triangle q x c.pos
      have h4 := dist_triangle x q c.pos
      rw [V3.dist_comm x q] at h4
      rw [← dist_eq_len, abs_le]
      constructor <;> linarith
    · have hz : f3IsZero (q - c.pos) = true := by
        unfold f3IsZero; rw [decide_eq_true_iff, hp, sub_self]; norm_num [lenSq, dot]
      have e : c.closestPointToEdge p = c.getPoint 0 := if_pos hz
      have hm : c.closestPointToEdge p ∈ Spec.circle c.pos c.normal c.r := by
        rw [e, ← (C70_getPoint_partial c h hr).1]; exact ⟨0, rfl⟩
      refine ⟨hm, fun x hx => ?_⟩
      rw [hpq _ hm.1, hpq _ hx.1, hp, distSq_comm c.pos, distSq_comm c.pos, hm.2, hx.2]
  have hd : Spec.IsSetDist (Spec.circle c.pos c.normal c.r) {p} (c.distanceToEdge p) := setDist_of_point main
  refine ⟨main, hd, fun e => ?_⟩
  unfold Circle.edgeContains
  rw [decide_eq_true_iff]
  exact ⟨fun h => ⟨_, main.1, h⟩, fun ⟨x, hx, hxe⟩ => (hd.1 x hx p rfl).trans hxe⟩

example : 1 / 1000000 ≤ lenSq ((⟨7, 7, 7⟩ : V3 ℝ) - dot exCircle.normal (⟨7, 7, 7⟩ - exCircle.pos) • exCircle.normal - exCircle.pos) ∧
    (⟨1, 2, 9⟩ : V3 ℝ) - dot exCircle.normal (⟨1, 2, 9⟩ - exCircle.pos) • exCircle.normal = exCircle.pos := by
  constructor
  · norm_num [exCircle, lenSq, dot]
  · ext <;> norm_num [exCircle, dot]

/-- C70 fails for `ClosestPointToEdge` near the centre: the point 1/2000 beside the centre towards `+y` gets the edge
point towards `+x`. -/
theorem C70_edge_violation : ∃ (c : Circle ℝ) (p : V3 ℝ), c.WellDirected ∧ 0 < c.r ∧
    ¬ Spec.IsClosestPoint (Spec.circle c.pos c.normal c.r) p (c.closestPointToEdge p) := by
  refine ⟨exCircle, ⟨1, 2 + 1 / 2000, 5⟩, exCircle_wd, by norm_num [exCircle], fun h => ?_⟩
  have e : exCircle.containingPlane.project ⟨1, 2 + 1 / 2000, 5⟩ - exCircle.pos = ⟨0, 1 / 2000, 0⟩ := by
    rw [project_eq]; ext <;> norm_num [exCircle, dot]
  have e' : exCircle.closestPointToEdge ⟨1, 2 + 1 / 2000, 5⟩ = ⟨3, 2, 5⟩ := by
    unfold Circle.closestPointToEdge
    rw [e]
    dsimp only
    rw [if_neg (by unfold f3IsZero; rw [decide_eq_true_iff]; norm_num [lenSq, dot])]
    unfold Sphere.scaledToLength
    rw [if_pos (by norm_num [lenSq, dot])]
    ext <;> norm_num [exCircle]
  rw [e'] at h
  have := h.2 ⟨1, 4, 5⟩ ⟨by norm_num [exCircle, dot], by norm_num [exCircle, distSq, lenSq, dot]⟩
  norm_num [distSq, lenSq, dot] at this

/-- The image of a circle under a map that scales all distances by `k`, multiplies scalar products of directions by `k²`
and is onto. -/
theorem circle_image (f L g : V3 ℝ → V3 ℝ) (k : ℝ) (hk : 0 < k) (hL : ∀ x y, f x - f y = L (x - y))
    (hdot : ∀ x y, dot (L x) (L y) = k * k * dot x y) (hg : ∀ y, f (g y) = y) (c n : V3 ℝ) (r j : ℝ) (hj : j ≠ 0) :
    f '' Spec.circle c n r = Spec.circle (f c) (j • L n) (r * k) ∧ f '' Spec.disc c n r = Spec.disc (f c) (j • L n) (r * k) := by
  have hkk : 0 < k * k := mul_pos hk hk
  have h1 : ∀ x, dot (j • L n) (f x - f c) = j * (k * k * dot n (x - c)) := by
    intro x; rw [hL, smul_dot, hdot]
  have h2 : ∀ x, distSq (f x) (f c) = k * k * distSq x c := by
    intro x; show dot (f x - f c) (f x - f c) = _; rw [hL, hdot]; rfl
  have h3 : ∀ x, dot (j • L n) (f x - f c) = 0 ↔ dot n (x - c) = 0 := by
    intro x; rw [h1]; simp [hj, hk.ne']
  constructor
  · ext y
    constructor
    · rintro ⟨x, ⟨hx, hd⟩, rfl⟩
      exact ⟨(h3 x).2 hx, by rw [h2, hd]; ring⟩
    · rintro ⟨hx, hd⟩
      rw [← hg y] at hx hd
      refine ⟨g y, ⟨(h3 _).1 hx, ?_⟩, hg y⟩
      rw [h2] at hd
      exact mul_left_cancel₀ hkk.ne' (by rw [hd]; ring)
  · ext y
    constructor
    · rintro ⟨x, ⟨hx, hd⟩, rfl⟩
      refine ⟨(h3 x).2 hx, ?_⟩
      rw [h2]; nlinarith
    · rintro ⟨hx, hd⟩
      rw [← hg y] at hx hd
      refine ⟨g y, ⟨(h3 _).1 hx, ?_⟩, hg y⟩
      rw [h2] at hd
      exact le_of_mul_le_mul_left (by linarith) hkk

/-- C70: transforming a circle by a rotation, mirroring and uniform scale `k` (not below 1e-6) with a `float3x3`,
`float3x4`, `float4x4`: circle line and disc become their images. -/
theorem C70_transform (c : Circle ℝ) (hn : lenSq c.normal = 1) (a : Fin 3 → Fin 3 → ℝ) (t : V3 ℝ) (k : ℝ) (hk : 1 / 1000000 < k)
    (ho : ∀ i j, a 0 i * a 0 j + a 1 i * a 1 j + a 2 i * a 2 j = if i = j then k * k else 0) :
    (let c' := c.transform3 (Matrix.of a)
     Spec.affineMap a 0 '' Spec.circle c.pos c.normal c.r = Spec.circle c'.pos c'.normal c'.r ∧
     Spec.affineMap a 0 '' Spec.disc c.pos c.normal c.r = Spec.disc c'.pos c'.normal c'.r ∧ lenSq c'.normal = 1) ∧
    (let c' := c.transform34 !![a 0 0, a 0 1, a 0 2, t.x; a 1 0, a 1 1, a 1 2, t.y; a 2 0, a 2 1, a 2 2, t.z]
     Spec.affineMap a t '' Spec.circle c.pos c.normal c.r = Spec.circle c'.pos c'.normal c'.r ∧
     Spec.affineMap a t '' Spec.disc c.pos c.normal c.r = Spec.disc c'.pos c'.normal c'.r ∧ lenSq c'.normal = 1) ∧
    (let c' := c.transform4 !![a 0 0, a 0 1, a 0 2, t.x; a 1 0, a 1 1, a 1 2, t.y; a 2 0, a 2 1, a 2 2, t.z; 0, 0, 0, 1]
     Spec.affineMap a t '' Spec.circle c.pos c.normal c.r = Spec.circle c'.pos c'.normal c'.r ∧
     Spec.affineMap a t '' Spec.disc c.pos c.normal c.r = Spec.disc c'.pos c'.normal c'.r ∧ lenSq c'.normal = 1) := by
  have hk0 : 0 < k := by linarith
  have h00 := ho 0 0
  have h01 := ho 0 1
  have h02 := ho 0 2
  have h11 := ho 1 1
  have h12 := ho 1 2
  have h22 := ho 2 2
  simp at h00 h01 h02 h11 h12 h22
  have hlen : V3.len (⟨a 0 0, a 1 0, a 2 0⟩ : V3 ℝ) = k := by
    unfold V3.len
    rw [Real.sqrt_eq_iff_mul_self_eq_of_pos hk0]
    simp only [lenSq, dot]; linarith
  have hdot : ∀ x y, dot (Spec.affineMap a 0 x) (Spec.affineMap a 0 y) = k * k * dot x y := by
    intro x y
    simp only [Spec.affineMap, dot, V3.zero_x, V3.zero_y, V3.zero_z, add_zero]
    linear_combination x.x * y.x * h00 + (x.x * y.y + x.y * y.x) * h01 + (x.x * y.z + x.z * y.x) * h02 + x.y * y.y * h11 +
      (x.y * y.z + x.z * y.y) * h12 + x.z * y.z * h22
  have hL : len (Spec.affineMap a 0 c.normal) = k := by
    unfold len
    rw [Real.sqrt_eq_iff_mul_self_eq_of_pos hk0]
    rw [show lenSq (Spec.affineMap a 0 c.normal) = dot (Spec.affineMap a 0 c.normal) (Spec.affineMap a 0 c.normal) from rfl, hdot,
      show dot c.normal c.normal = 1 from hn, mul_one]
  have hN : f3Normalized (Spec.affineMap a 0 c.normal) = (1 / k) • Spec.affineMap a 0 c.normal := by
    rw [f3Normalized_pos (by rw [hL]; exact hk), hL]
  have onto := affine_onto a k hk0 ho
  have key : ∀ t, Spec.affineMap a t '' Spec.circle c.pos c.normal c.r =
        Spec.circle (Spec.affineMap a t c.pos) ((1 / k) • Spec.affineMap a 0 c.normal) (c.r * k) ∧
      Spec.affineMap a t '' Spec.disc c.pos c.normal c.r =
        Spec.disc (Spec.affineMap a t c.pos) ((1 / k) • Spec.affineMap a 0 c.normal) (c.r * k) := by
    intro t
    obtain ⟨g, hg⟩ := onto t
    exact circle_image _ (Spec.affineMap a 0) g k hk0 (by intro x y; unfold Spec.affineMap; ext <;> simp <;> ring) hdot hg _ _ _ _
      (one_div_ne_zero hk0.ne')
  have hu : lenSq (f3Normalized (Spec.affineMap a 0 c.normal)) = 1 := lenSq_normalized _
  have fin : ∀ (t : V3 ℝ) (c' : Circle ℝ), c' = ⟨Spec.affineMap a t c.pos, f3Normalized (Spec.affineMap a 0 c.normal), c.r * k⟩ →
      Spec.affineMap a t '' Spec.circle c.pos c.normal c.r = Spec.circle c'.pos c'.normal c'.r ∧
      Spec.affineMap a t '' Spec.disc c.pos c.normal c.r = Spec.disc c'.pos c'.normal c'.r ∧ lenSq c'.normal = 1 := by
    rintro t c' rfl
    refine ⟨?_, ?_, hu⟩
    · dsimp only; rw [hN]; exact (key t).1
    · dsimp only; rw [hN]; exact (key t).2
  refine ⟨fin 0 _ ?_, fin t _ ?_, fin t _ ?_⟩
  · have e : ∀ x, Mat3.mulVec (Matrix.of a) x = Spec.affineMap a 0 x := by
      intro x; unfold Mat3.mulVec Spec.affineMap; ext <;> simp
    have e2 : Mat3.col (Matrix.of a) 0 = ⟨a 0 0, a 1 0, a 2 0⟩ := rfl
    unfold Circle.transform3
    rw [e, e, e2, hlen]
  · unfold Circle.transform34 Mat34.mulPos Mat34.mulDir
    simp [Spec.affineMap, hlen]
  · unfold Circle.transform4 Mat4.mulPos Mat4.mulDir
    simp [Spec.affineMap, hlen]

/-- C70: `Translate`, and `Transform(Quat)` with a unit quaternion. -/
theorem C70_rigid (c : Circle ℝ) (o : V3 ℝ) (q : Quat ℝ) (h : Quat.normSq q = 1) :
    (fun x => x + o) '' Spec.circle c.pos c.normal c.r = Spec.circle (c.translate o).pos (c.translate o).normal (c.translate o).r ∧
    Quat.transform q '' Spec.circle c.pos c.normal c.r =
      Spec.circle (c.transformQuat q).pos (c.transformQuat q).normal (c.transformQuat q).r ∧
    lenSq (c.transformQuat q).normal = lenSq c.normal := by
  have hlin : ∀ x y, Quat.transform q x - Quat.transform q y = Quat.transform q (x - y) := by
    intro x y; unfold Quat.transform Mat3.mulVec; ext <;> simp <;> ring
  have h1 := circle_image (fun x => x + o) id (fun x => x - o) 1 one_pos (by intro x y; ext <;> simp) (by intro x y; simp)
    (by intro y; ext <;> simp) c.pos c.normal c.r 1 one_ne_zero
  have h2 := circle_image (Quat.transform q) (Quat.transform q) (Quat.transform (Quat.inverse q)) 1 one_pos hlin
    (by intro x y; rw [(Quat.C40_isometry q h x y).1]; ring) (fun y => (Quat.C40_inverse q q h h y).2.2.2.1) c.pos c.normal c.r 1 one_ne_zero
  have one : ∀ v : V3 ℝ, (1 : ℝ) • v = v := by intro v; ext <;> simp
  simp only [mul_one, one, id] at h1 h2
  exact ⟨h1.1, h2.1, (Quat.C40_isometry q h c.normal 0).2.1⟩

/-- C70 fails for `IntersectsDisc`: the test of the plane is inverted. A line, ray or segment that properly crosses the
plane of the disc is always reported as missing it, wherever it passes; in particular one through the centre. -/
theorem C70_intersectsDisc_violation :
    (∀ (c : Circle ℝ) (l : Line ℝ), 1 / 10000 < |dot c.normal l.dir| → c.intersectsDiscLine l = false) ∧
    (∀ (c : Circle ℝ) (l : Ray ℝ), (c.containingPlane.intersectsRay l).1 = true → c.intersectsDiscRay l = false) ∧
    (∀ (c : Circle ℝ) (l : LineSeg ℝ), (c.containingPlane.intersectsSeg l).1 = true → c.intersectsDiscSeg l = false) ∧
    ∃ (c : Circle ℝ) (l : Line ℝ) (m : Ray ℝ), lenSq c.normal = 1 ∧ 0 < c.r ∧ lenSq l.dir = 1 ∧ lenSq m.dir = 1 ∧
      c.pos ∈ Spec.line l.pos l.dir ∧ c.pos ∈ Spec.ray m.pos m.dir ∧ c.pos ∈ Spec.disc c.pos c.normal c.r ∧
      c.intersectsDiscLine l = false ∧ c.intersectsDiscRay m = false ∧
      ∃ l' : Line ℝ, lenSq l'.dir = 1 ∧ (∀ x ∈ Spec.line l'.pos l'.dir, x ∉ Spec.disc c.pos c.normal c.r) ∧ c.intersectsDiscLine l' = true := by
  have hline : ∀ (c : Circle ℝ) (l : Line ℝ), 1 / 10000 < |dot c.normal l.dir| → c.intersectsDiscLine l = false := by
    intro c l h
    have : (c.containingPlane.intersectsLine l).1 = true := by
      unfold Plane.intersectsLine Plane.intersectLinePlane
      dsimp only
      rw [if_pos (by rw [absF_eq]; exact h)]
    unfold Circle.intersectsDiscLine; dsimp only; rw [if_pos this]
  have hray : ∀ (c : Circle ℝ) (l : Ray ℝ), (c.containingPlane.intersectsRay l).1 = true → c.intersectsDiscRay l = false := by
    intro c l h; unfold Circle.intersectsDiscRay; dsimp only; rw [if_pos h]
  refine ⟨hline, hray, ?_, ?_⟩
  · intro c l h; unfold Circle.intersectsDiscSeg; dsimp only; rw [if_pos h]
  · refine ⟨⟨⟨0, 0, 5⟩, ⟨0, 0, 1⟩, 6⟩, ⟨⟨0, 0, 0⟩, ⟨0, 0, 1⟩⟩, ⟨⟨0, 0, 0⟩, ⟨0, 0, 1⟩⟩, by norm_num [lenSq, dot], by norm_num,
      by norm_num [lenSq, dot], by norm_num [lenSq, dot], ⟨5, by ext <;> simp⟩, ⟨5, by norm_num, by ext <;> simp⟩,
      ⟨by norm_num [dot], by norm_num [distSq, lenSq, dot]⟩, hline _ _ (by norm_num [dot]), hray _ _ ?_,
      ⟨⟨0, 0, 4⟩, ⟨1, 0, 0⟩⟩, by norm_num [lenSq, dot], ?_, ?_⟩
    · unfold Plane.intersectsRay Plane.intersectLinePlane
      dsimp only
      rw [if_pos (by rw [absF_eq]; norm_num [Circle.containingPlane, Plane.setPointNormal, dot])]
      norm_num [Circle.containingPlane, Plane.setPointNormal, dot]
    · rintro x ⟨t, rfl⟩ ⟨h, -⟩
      norm_num [dot] at h
    · have e : (Circle.containingPlane ⟨⟨0, 0, 5⟩, ⟨0, 0, 1⟩, 6⟩).intersectsLine ⟨⟨0, 0, 4⟩, ⟨1, 0, 0⟩⟩ = ((false, 0) : Bool × ℝ) := by
        unfold Plane.intersectsLine Plane.intersectLinePlane
        dsimp only
        rw [if_neg (by rw [absF_eq]; norm_num [Circle.containingPlane, Plane.setPointNormal, dot]),
          if_neg (by norm_num [Circle.containingPlane, Plane.setPointNormal, dot])]
        refine Prod.ext ?_ rfl
        unfold equalAbs
        rw [absF_eq]
        norm_num [Circle.containingPlane, Plane.setPointNormal, dot]
      unfold Circle.intersectsDiscLine
      rw [e]
      norm_num [Line.getPoint, distSq, lenSq, dot]

/-- C70: `Intersects(Plane)`. If the planes are not nearly parallel and the library's solver finds a common point of
them, the points returned are exactly the common points of the circle line and the plane, unless the circle almost
touches the plane's line: `h²`, the squared distance of the centre to the line of intersection, must differ from `r²` by
at least 1/4 000 000. -/
theorem C70_intersectsPlane_partial (p : Plane ℝ) (c : Circle ℝ) (hl : 1 / 1000000 < len (cross p.normal c.normal))
    (hn : lenSq c.normal = 1) (x : V3 ℝ)
    (hs : Mat3.solveAxb (Mat3.ofRows p.normal c.containingPlane.normal (f3Perpendicular p.normal c.containingPlane.normal))
      ⟨p.d, c.containingPlane.d, 0⟩ = some x)
    (hb : 1 / 4000000 < |(p.d - dot p.normal c.pos) ^ 2 / lenSq (cross p.normal c.normal) - c.r ^ 2|) :
    {y | y ∈ p.intersectsCircle c} = Spec.circle c.pos c.normal c.r ∩ Spec.plane p.normal p.d ∧ (p.intersectsCircle c).Nodup := by
  obtain ⟨l, h1, h2, h3⟩ := C64_intersects_plane_partial p c.containingPlane hl x hs
  have hdir : l.dir = (1 / len (cross p.normal c.normal)) • cross p.normal c.normal := by
    have hc0 : len (cross p.normal c.normal) ≠ 0 := by intro h0; rw [h0] at hl; norm_num at hl
    have hperp : f3Perpendicular p.normal c.containingPlane.normal = (1 / len (cross p.normal c.normal)) • cross p.normal c.normal := by
      unfold f3Perpendicular
      rw [show cross p.normal c.containingPlane.normal = cross p.normal c.normal from rfl, f3Normalize_pos hl]
      dsimp only
      rw [if_neg hc0]
    have : p.intersectsPlane c.containingPlane = some ⟨x, f3Normalized (f3Perpendicular p.normal c.containingPlane.normal)⟩ := by
      unfold Plane.intersectsPlane
      dsimp only
      rw [hs]
    rw [this] at h1
    have := Option.some.inj h1
    rw [← this]
    dsimp only
    rw [hperp]
    apply f3Normalized_unit
    rw [lenSq_smul, ← len_mul_self]; field_simp
  have hpos : l.pos ∈ Spec.line l.pos l.dir := ⟨0, by ext <;> simp⟩
  rw [h3] at hpos
  have hp1 : dot p.normal l.pos = p.d := hpos.1
  have hp2 : dot c.normal (l.pos - c.pos) = 0 := by
    have := hpos.2; rw [(C70_containingPlane c).1] at this; exact this
  set w := l.pos - c.pos with hw
  -- the squared distance of the centre to the line
  have hd : lenSq w - dot w l.dir * dot w l.dir = (p.d - dot p.normal c.pos) ^ 2 / lenSq (cross p.normal c.normal) := by
    have hc : 0 < lenSq (cross p.normal c.normal) := by
      have : 0 < len (cross p.normal c.normal) := by linarith
      rw [← len_mul_self]; positivity
    have hlag := lagrange w (cross p.normal c.normal)
    have hx : cross w (cross p.normal c.normal) = (-(p.d - dot p.normal c.pos)) • c.normal := by
      have e1 : dot p.normal w = p.d - dot p.normal c.pos := by rw [hw, dot_sub, hp1]
      have : cross w (cross p.normal c.normal) = dot c.normal w • p.normal - dot p.normal w • c.normal := by
        simp only [cross, dot]; ext <;> simp <;> ring
      rw [this, hp2, e1]; ext <;> simp <;> ring
    rw [hx, lenSq_smul, hn] at hlag
    have hdd : dot w l.dir * dot w l.dir = dot w (cross p.normal c.normal) * dot w (cross p.normal c.normal) / lenSq (cross p.normal c.normal) := by
      rw [hdir, dot_smul, ← len_mul_self]; field_simp
    rw [hdd, eq_div_iff hc.ne', sub_mul, div_mul_cancel₀ _ hc.ne']
    linarith
  rw [← hd] at hb
  have hband : (2 * dot w l.dir) ^ 2 - 4 * 1 * (lenSq w - c.r * c.r) < -(1 / 10 ^ 6) ∨
      1 / 10 ^ 6 ≤ (2 * dot w l.dir) ^ 2 - 4 * 1 * (lenSq w - c.r * c.r) := by
    rcases lt_abs.1 hb with h | h
    · left; norm_num; norm_num at h; nlinarith
    · right; norm_num; norm_num at h; nlinarith
  obtain ⟨hroots, hne⟩ := C42_outside_band 1 (2 * dot w l.dir) (lenSq w - c.r * c.r) one_ne_zero hband
  -- membership of a point of the line in the circle
  have hmem : ∀ t : ℝ, c.pos + (w + t • l.dir) ∈ Spec.circle c.pos c.normal c.r ∩ Spec.plane p.normal p.d ↔
      1 * t ^ 2 + 2 * dot w l.dir * t + (lenSq w - c.r * c.r) = 0 := by
    intro t
    have hin : l.pos + t • l.dir ∈ Spec.plane p.normal p.d ∩ Spec.plane c.containingPlane.normal c.containingPlane.d := by
      rw [← h3]; exact ⟨t, rfl⟩
    have e : c.pos + (w + t • l.dir) = l.pos + t • l.dir := by rw [hw]; ext <;> simp <;> ring
    rw [(C70_containingPlane c).1] at hin
    have hdist : distSq (l.pos + t • l.dir) c.pos = t ^ 2 + 2 * dot w l.dir * t + lenSq w := by
      have : l.pos + t • l.dir - c.pos = w + t • l.dir := by rw [hw]; ext <;> simp <;> ring
      show lenSq _ = _
      rw [this]
      have e3 : lenSq (w + t • l.dir) = lenSq w + 2 * t * dot w l.dir + t * t * lenSq l.dir := by
        simp only [lenSq, dot, add_x, add_y, add_z, smul_x, smul_y, smul_z]; ring
      rw [e3, h2]; ring
    rw [e]
    constructor
    · rintro ⟨⟨-, h⟩, -⟩; rw [hdist] at h; linarith
    · intro h; exact ⟨⟨hin.2, by rw [hdist]; linarith⟩, hin.1⟩
  have hcov : ∀ y ∈ Spec.circle c.pos c.normal c.r ∩ Spec.plane p.normal p.d, ∃ t : ℝ, y = c.pos + (w + t • l.dir) := by
    rintro y ⟨hy1, hy2⟩
    have : y ∈ Spec.line l.pos l.dir := by
      rw [h3, (C70_containingPlane c).1]; exact ⟨hy2, hy1.1⟩
    obtain ⟨t, rfl⟩ := this
    exact ⟨t, by rw [hw]; ext <;> simp <;> ring⟩
  have hset : {y | ∃ t ∈ (solveQuadratic 1 (2 * dot w l.dir) (lenSq w - c.r * c.r)).toSet, y = c.pos + (w + t • l.dir)} =
      Spec.circle c.pos c.normal c.r ∩ Spec.plane p.normal p.d := by
    ext y
    constructor
    · rintro ⟨t, ht, rfl⟩; rw [hmem]; exact (hroots t).1 ht
    · intro hy
      obtain ⟨t, rfl⟩ := hcov y hy
      exact ⟨t, (hroots t).2 ((hmem t).1 hy), rfl⟩
  have heq : p.intersectsCircle c = match solveQuadratic 1 (2 * dot w l.dir) (lenSq w - c.r * c.r) with
      | .zero => []
      | .one r1 => [c.pos + (w + r1 • l.dir)]
      | .two r1 r2 => [c.pos + (w + r1 • l.dir), c.pos + (w + r2 • l.dir)] := by
    unfold Plane.intersectsCircle
    rw [h1]
    dsimp only
    rw [← hw]
    cases solveQuadratic 1 (2 * dot w l.dir) (lenSq w - c.r * c.r) <;> rfl
  rw [← hset, heq]
  cases hq : solveQuadratic 1 (2 * dot w l.dir) (lenSq w - c.r * c.r) with
  | zero => simp [QuadRoots.toSet]
  | one r => constructor
             · ext y; simp [QuadRoots.toSet]
             · simp
  | two r s =>
    constructor
    · ext y; simp [QuadRoots.toSet]
    · have := hne r s hq
      simp only [List.nodup_cons, List.mem_singleton, List.not_mem_nil, not_false_eq_true, List.nodup_nil, and_true]
      intro e
      apply this
      have e2 : ∀ t : ℝ, dot (c.pos + (w + t • l.dir)) l.dir = dot c.pos l.dir + dot w l.dir + t := by
        intro t; rw [add_dot, add_dot, smul_dot, show dot l.dir l.dir = 1 from h2]; ring
      have := congrArg (fun v => dot v l.dir) e
      simp only [e2] at this
      linarith

/-- C70: `Intersects(Plane)` for unit normals that enclose an angle whose sine is at least 1/1000: the points returned are
exactly the common points of the circle line and the plane, and none comes twice, unless the circle almost touches the
plane: `h²`, the squared distance of the centre to the line of intersection, must differ from `r²` by more than
1/4 000 000. -/
theorem C70_intersectsPlane_angle_partial (p : Plane ℝ) (c : Circle ℝ) (hp : lenSq p.normal = 1) (hn : lenSq c.normal = 1)
    (hl : 1 / 1000 ≤ len (cross p.normal c.normal))
    (hb : 1 / 4000000 < |(p.d - dot p.normal c.pos) ^ 2 / lenSq (cross p.normal c.normal) - c.r ^ 2|) :
    {y | y ∈ p.intersectsCircle c} = Spec.circle c.pos c.normal c.r ∩ Spec.plane p.normal p.d ∧ (p.intersectsCircle c).Nodup := by
  obtain ⟨⟨x, hx⟩, _⟩ := C64_intersects_plane_angle_partial p c.containingPlane hp hn hl
  have : (1 : ℝ) / 1000000 < 1 / 1000 := by norm_num
  exact C70_intersectsPlane_partial p c (by linarith) hn x hx hb

/-- The plane `3x/5 + 4z/5 = 5` and the circle of radius 2 around `(1, 2, 5)`, parallel to the `xy` plane. -/
example : lenSq (⟨3/5, 0, 4/5⟩ : V3 ℝ) = 1 ∧ lenSq exCircle.normal = 1 ∧
    1 / 1000 ≤ len (cross (⟨3/5, 0, 4/5⟩ : V3 ℝ) exCircle.normal) ∧
    1 / 4000000 < |(5 - dot (⟨3/5, 0, 4/5⟩ : V3 ℝ) exCircle.pos) ^ 2 / lenSq (cross ⟨3/5, 0, 4/5⟩ exCircle.normal) - exCircle.r ^ 2| := by
  refine ⟨by norm_num [lenSq, dot], by norm_num [lenSq, dot, exCircle], ?_, ?_⟩
  · unfold len
    exact Real.le_sqrt_of_sq_le (by norm_num [lenSq, dot, cross, exCircle])
  · have : (5 - dot (⟨3/5, 0, 4/5⟩ : V3 ℝ) exCircle.pos) ^ 2 / lenSq (cross ⟨3/5, 0, 4/5⟩ exCircle.normal) - exCircle.r ^ 2 = -32 / 9 := by
      norm_num [lenSq, dot, cross, exCircle]
    rw [this]; norm_num

/-- A quarter turn about the `z` axis scaled by two. -/
example : ∀ i j : Fin 3, (!![0, -2, 0; 2, 0, 0; 0, 0, 2] : Matrix (Fin 3) (Fin 3) ℝ) 0 i * !![0, -2, 0; 2, 0, 0; 0, 0, 2] 0 j +
    (!![0, -2, 0; 2, 0, 0; 0, 0, 2] : Matrix (Fin 3) (Fin 3) ℝ) 1 i * !![0, -2, 0; 2, 0, 0; 0, 0, 2] 1 j +
    (!![0, -2, 0; 2, 0, 0; 0, 0, 2] : Matrix (Fin 3) (Fin 3) ℝ) 2 i * !![0, -2, 0; 2, 0, 0; 0, 0, 2] 2 j =
    if i = j then (2 : ℝ) * 2 else 0 := by
  intro i j; fin_cases i <;> fin_cases j <;> simp

/-- A rotation by the angle whose half has the cosine 3/5. -/
example : Quat.normSq (⟨0, 4/5, 0, 3/5⟩ : Quat ℝ) = 1 := by norm_num [Quat.normSq]

end MGL
