import Verif.Proofs.Sphere
import Verif.Proofs.Float3R
import Verif.Proofs.Line

/-! C30: lines, rays and segments against spheres. -/

namespace MGL
open V3

/-- The quadratic of the line and the sphere. -/
theorem line_ball_quadratic (o d c : V3 ℝ) (h : lenSq d = 1) (t : ℝ) :
    distSq (o + t • d) c = t * t + 2 * dot (o - c) d * t + dot (o - c) (o - c) := by
  have h : dot d d = 1 := h
  have : distSq (o + t • d) c = t * t * dot d d + 2 * dot (o - c) d * t + dot (o - c) (o - c) := by
    simp only [distSq_eq, dot]; simp; ring
  rw [this, h]; ring

/-- C30: `IntersectLine` returns 0 exactly when the line misses the ball. When it returns 2, both parameters give
points of the surface and the points of the line inside the ball are exactly those between them. When it returns 1
(less than 1e-4 / 4 of squared depth) the two parameters are equal and give the point of the line nearest to the centre. -/
theorem C30_intersectLine (o d c : V3 ℝ) (r : ℝ) (h : lenSq d = 1) :
    (Sphere.intersectLine o d c r = none ↔ Spec.line o d ∩ Spec.ball c r = ∅) ∧
    (∀ (n : ℕ) (t1 t2 : ℝ), Sphere.intersectLine o d c r = some (n, t1, t2) →
      n = 1 ∧ t1 = t2 ∧ Spec.IsClosestPoint (Spec.line o d) c (o + t1 • d) ∧ o + t1 • d ∈ Spec.ball c r ∧
        r * r - 1 / 40000 < distSq c (o + t1 • d) ∨
      n = 2 ∧ t1 < t2 ∧ o + t1 • d ∈ Spec.sphereSurface c r ∧ o + t2 • d ∈ Spec.sphereSurface c r ∧
        (∀ t : ℝ, o + t • d ∈ Spec.ball c r ↔ t1 ≤ t ∧ t ≤ t2) ∧
        (∀ t : ℝ, o + t • d ∈ Spec.sphereSurface c r ↔ t = t1 ∨ t = t2) ∧
        ∃ t : ℝ, distSq c (o + t • d) ≤ r * r - 1 / 40000) := by
  have q : ∀ t : ℝ, _ := line_ball_quadratic o d c h
  set b := dot (o - c) d with hb
  set e := dot (o - c) (o - c) with he
  have mem : ∀ t : ℝ, o + t • d ∈ Spec.ball c r ↔ t * t + 2 * b * t + e ≤ r * r := by
    intro t; rw [← q]; rfl
  have mem' : ∀ t : ℝ, o + t • d ∈ Spec.sphereSurface c r ↔ t * t + 2 * b * t + e = r * r := by
    intro t; rw [← q]; rfl
  have E : Sphere.intersectLine o d c r =
    if 2 * b * (2 * b) - 4 * (e - r * r) < 0 then none
    else if 2 * b * (2 * b) - 4 * (e - r * r) < 1 / 10000 then some (1, -(2 * b) * (1 / 2), -(2 * b) * (1 / 2))
    else some (2, (-(2 * b) - Real.sqrt (2 * b * (2 * b) - 4 * (e - r * r))) * (1 / 2),
      (-(2 * b) + Real.sqrt (2 * b * (2 * b) - 4 * (e - r * r))) * (1 / 2)) := rfl
  constructor
  · constructor
    · intro h0
      have hD : 2 * b * (2 * b) - 4 * (e - r * r) < 0 := by
        by_contra hc
        rw [E, if_neg hc] at h0
        split_ifs at h0
      rw [Set.eq_empty_iff_forall_notMem]
      rintro _ ⟨⟨t, rfl⟩, ht⟩
      rw [mem] at ht
      nlinarith [mul_self_nonneg (t + b)]
    · intro h0
      rw [E, if_pos]
      by_contra hc
      push Not at hc
      have : o + (-b) • d ∈ Spec.line o d ∩ Spec.ball c r := ⟨⟨_, rfl⟩, by rw [mem]; nlinarith⟩
      rw [h0] at this; exact this
  · intro n t1 t2 h0
    by_cases h1 : 2 * b * (2 * b) - 4 * (e - r * r) < 0
    · rw [E, if_pos h1] at h0; cases h0
    rw [E, if_neg h1] at h0
    push Not at h1
    by_cases h2 : 2 * b * (2 * b) - 4 * (e - r * r) < 1 / 10000
    · rw [if_pos h2] at h0
      obtain ⟨rfl, rfl, rfl⟩ : 1 = n ∧ -(2 * b) * (1 / 2) = t1 ∧ -(2 * b) * (1 / 2) = t2 := by
        have := Option.some.inj h0
        exact ⟨congrArg Prod.fst this, congrArg (fun x => x.2.1) this, congrArg (fun x => x.2.2) this⟩
      have e1 : -(2 * b) * (1 / 2) = -b := by ring
      refine Or.inl ⟨rfl, rfl, ⟨⟨_, rfl⟩, ?_⟩, ?_, ?_⟩
      · rintro _ ⟨t, rfl⟩
        rw [distSq_comm, q, distSq_comm, q, e1]
        nlinarith [mul_self_nonneg (t + b)]
      · rw [mem, e1]; nlinarith
      · rw [distSq_comm, q, e1]; nlinarith
    · rw [if_neg h2] at h0
      push Not at h2
      have hs := Real.mul_self_sqrt h1
      have hsp : 0 < Real.sqrt (2 * b * (2 * b) - 4 * (e - r * r)) := Real.sqrt_pos.2 (by linarith)
      set D := Real.sqrt (2 * b * (2 * b) - 4 * (e - r * r)) with hD
      obtain ⟨rfl, rfl, rfl⟩ : 2 = n ∧ (-(2 * b) - D) * (1 / 2) = t1 ∧ (-(2 * b) + D) * (1 / 2) = t2 := by
        have := Option.some.inj h0
        exact ⟨congrArg Prod.fst this, congrArg (fun x => x.2.1) this, congrArg (fun x => x.2.2) this⟩
      have fac : ∀ t, t * t + 2 * b * t + e - r * r = (t - (-(2 * b) - D) * (1 / 2)) * (t - (-(2 * b) + D) * (1 / 2)) := by
        intro t; linear_combination 1 / 4 * hs
      refine Or.inr ⟨rfl, by linarith, ?_, ?_, ?_, ?_, ?_⟩
      · rw [mem', ← sub_eq_zero, fac]; ring
      · rw [mem', ← sub_eq_zero, fac]; ring
      · intro t
        rw [mem, ← sub_nonpos, fac]
        constructor
        · intro ht
          constructor <;> by_contra hc <;> push Not at hc <;> nlinarith
        · rintro ⟨ht1, ht2⟩
          exact mul_nonpos_of_nonneg_of_nonpos (by linarith) (by linarith)
      · intro t
        rw [mem', ← sub_eq_zero, fac, mul_eq_zero, sub_eq_zero, sub_eq_zero]
      · refine ⟨-b, ?_⟩
        rw [distSq_comm, q]; nlinarith

example := C30_intersectLine ⟨5, 0, 0⟩ ⟨3/5, 0, 4/5⟩ ⟨1, 2, 3⟩ 4 (by norm_num [lenSq, dot])

/-- The hypothesis of the ray and segment theorems: the line misses the ball, or enters it by more than the tolerance
(1/40000 of squared depth), so that it does not only graze the surface. -/
def Spec.NotGrazing (o d c : V3 ℝ) (r : ℝ) : Prop :=
  Spec.line o d ∩ Spec.ball c r = ∅ ∨ ∃ p ∈ Spec.line o d, distSq c p ≤ r * r - 1 / 40000

theorem notGrazing_two {o d c : V3 ℝ} {r : ℝ} (h : lenSq d = 1) (hg : Spec.NotGrazing o d c r) {n : ℕ} {t1 t2 : ℝ}
    (h0 : Sphere.intersectLine o d c r = some (n, t1, t2)) : n = 2 := by
  obtain ⟨H1, H2⟩ := C30_intersectLine o d c r h
  rcases H2 n t1 t2 h0 with ⟨-, -, h3, -, h5⟩ | h3
  · rcases hg with hg | ⟨p, hp, hp'⟩
    · rw [← H1, h0] at hg; cases hg
    · have := h3.2 p hp; linarith
  · exact h3.1

/-- C30: `Intersects(Line)` hits exactly when the line meets the ball. -/
theorem C30_line (s : Sphere ℝ) (l : Line ℝ) (h : lenSq l.dir = 1) :
    s.intersectsLine l = none ↔ Spec.line l.pos l.dir ∩ Spec.ball s.pos s.r = ∅ := by
  rw [← (C30_intersectLine l.pos l.dir s.pos s.r h).1]
  unfold Sphere.intersectsLine
  rcases Sphere.intersectLine l.pos l.dir s.pos s.r with _ | ⟨n, t1, t2⟩ <;> simp

example := C30_line ⟨⟨1, 2, 3⟩, 4⟩ ⟨⟨5, 0, 0⟩, ⟨3/5, 0, 4/5⟩⟩ (by norm_num [lenSq, dot])

/-- The unit normal at a surface point. -/
theorem surface_normal (s : Sphere ℝ) (hr : 1 / 1000000 < s.r) (x : V3 ℝ) (hx : x ∈ Spec.sphereSurface s.pos s.r) :
    x = s.pos + s.r • f3Normalized (x - s.pos) ∧ lenSq (f3Normalized (x - s.pos)) = 1 := by
  have hx : distSq x s.pos = s.r * s.r := hx
  have hr0 : 0 < s.r := by linarith
  have hl : V3.len (x - s.pos) = s.r := by
    unfold V3.len; rw [Real.sqrt_eq_iff_mul_self_eq_of_pos hr0]; exact hx.symm
  unfold f3Normalized
  rw [f3Normalize_pos (by rw [hl]; exact hr), hl]
  constructor
  · ext <;> simp <;> field_simp <;> ring
  · show dot _ _ = _
    dsimp only
    rw [dot_smul, smul_dot, show dot (x - s.pos) (x - s.pos) = s.r * s.r from hx]; field_simp

/-- C30: `Intersects(Ray)` for rays that do not only graze the sphere: it hits exactly when the ray meets the ball; the
hit point is `d` along the ray, on the surface, no earlier point of the ray is on the surface, and the normal is the
outward unit normal. -/
theorem C30_ray_partial (s : Sphere ℝ) (hr : 1 / 1000000 < s.r) (l : Ray ℝ) (h : lenSq l.dir = 1)
    (hg : Spec.NotGrazing l.pos l.dir s.pos s.r) :
    (s.intersectsRay l = none ↔ Spec.ray l.pos l.dir ∩ Spec.ball s.pos s.r = ∅) ∧
    ∀ (n : ℕ) (hit normal : V3 ℝ) (d d2 : ℝ), s.intersectsRay l = some (n, hit, normal, d, d2) →
      0 ≤ d ∧ d ≤ d2 ∧ hit = l.pos + d • l.dir ∧ hit ∈ Spec.sphereSurface s.pos s.r ∧
      l.pos + d2 • l.dir ∈ Spec.sphereSurface s.pos s.r ∧
      (∀ t : ℝ, 0 ≤ t → l.pos + t • l.dir ∈ Spec.sphereSurface s.pos s.r → d ≤ t ∧ t ≤ d2) ∧
      lenSq normal = 1 ∧ hit = s.pos + s.r • normal := by
  obtain ⟨H1, H2⟩ := C30_intersectLine l.pos l.dir s.pos s.r h
  unfold Sphere.intersectsRay
  rcases hI : Sphere.intersectLine l.pos l.dir s.pos s.r with _ | ⟨n, t1, t2⟩
  · refine ⟨⟨fun _ => ?_, fun _ => rfl⟩, fun _ _ _ _ _ h0 => by cases h0⟩
    have := H1.1 hI
    rw [Set.eq_empty_iff_forall_notMem] at this ⊢
    rintro x ⟨⟨t, _, rfl⟩, hx⟩
    exact this _ ⟨⟨t, rfl⟩, hx⟩
  · obtain rfl := notGrazing_two h hg hI
    rcases H2 _ _ _ hI with ⟨h3, -⟩ | ⟨-, hlt, s1, s2, hb, hs, -⟩
    · norm_num at h3
    dsimp only
    by_cases hneg : t1 < 0
    · have et : (if t1 < 0 ∧ 2 = 2 then t2 else t1) = t2 := if_pos ⟨hneg, rfl⟩
      rw [et]
      by_cases hneg2 : t2 < 0
      · rw [if_pos hneg2]
        refine ⟨⟨fun _ => ?_, fun _ => rfl⟩, fun _ _ _ _ _ h0 => by cases h0⟩
        rw [Set.eq_empty_iff_forall_notMem]
        rintro x ⟨⟨t, ht, rfl⟩, hx⟩
        have := ((hb t).1 hx).2
        linarith
      · rw [if_neg hneg2]
        push Not at hneg2
        refine ⟨⟨fun h0 => (by cases h0), fun h0 => ?_⟩, ?_⟩
        · exfalso
          rw [Set.eq_empty_iff_forall_notMem] at h0
          exact h0 _ ⟨⟨t2, hneg2, rfl⟩, (hb t2).2 ⟨hlt.le, le_rfl⟩⟩
        · intro n hit normal d d2 h0
          have h0 := Option.some.inj h0
          have e2 : l.pos + t2 • l.dir = hit := congrArg (fun x => x.2.1) h0
          have e3 : f3Normalized (l.pos + t2 • l.dir - s.pos) = normal := congrArg (fun x => x.2.2.1) h0
          have e4 : t2 = d := congrArg (fun x => x.2.2.2.1) h0
          have e5 : t2 = d2 := congrArg (fun x => x.2.2.2.2) h0
          subst e2 e3 e5
          obtain rfl := e4
          obtain ⟨n1, n2⟩ := surface_normal s hr _ s2
          refine ⟨hneg2, le_rfl, rfl, s2, s2, fun t ht hx => ?_, n2, n1⟩
          rcases (hs t).1 hx with rfl | rfl
          · linarith
          · exact ⟨le_rfl, le_rfl⟩
    · have et : (if t1 < 0 ∧ 2 = 2 then t2 else t1) = t1 := if_neg (fun hc => hneg hc.1)
      rw [et]
      rw [if_neg hneg]
      push Not at hneg
      refine ⟨⟨fun h0 => (by cases h0), fun h0 => ?_⟩, ?_⟩
      · exfalso
        rw [Set.eq_empty_iff_forall_notMem] at h0
        exact h0 _ ⟨⟨t1, hneg, rfl⟩, (hb t1).2 ⟨le_rfl, hlt.le⟩⟩
      · intro n hit normal d d2 h0
        have h0 := Option.some.inj h0
        have e2 : l.pos + t1 • l.dir = hit := congrArg (fun x => x.2.1) h0
        have e3 : f3Normalized (l.pos + t1 • l.dir - s.pos) = normal := congrArg (fun x => x.2.2.1) h0
        have e4 : t1 = d := congrArg (fun x => x.2.2.2.1) h0
        have e5 : t2 = d2 := congrArg (fun x => x.2.2.2.2) h0
        subst e2 e3 e4 e5
        obtain ⟨n1, n2⟩ := surface_normal s hr _ s1
        refine ⟨hneg, hlt.le, rfl, s1, s2, fun t ht hx => ?_, n2, n1⟩
        rcases (hs t).1 hx with rfl | rfl
        · exact ⟨le_rfl, hlt.le⟩
        · exact ⟨hlt.le, le_rfl⟩

/-- The unit sphere and the x axis. -/
example : Spec.NotGrazing ⟨-5, 0, 0⟩ ⟨1, 0, 0⟩ ⟨0, 0, 0⟩ 1 :=
  Or.inr ⟨⟨0, 0, 0⟩, ⟨5, by ext <;> norm_num⟩, by norm_num [distSq, lenSq, dot]⟩

/-- C30 fails for grazing rays: a ray that starts inside the unit ball, close to the surface and beyond the middle of a
short chord, is reported as a miss. -/
theorem C30_ray_violation : ∃ (s : Sphere ℝ) (l : Ray ℝ), 0 < s.r ∧ lenSq l.dir = 1 ∧ l.pos ∈ Spec.ball s.pos s.r ∧
    s.intersectsRay l = none := by
  refine ⟨⟨⟨0, 0, 0⟩, 1⟩, ⟨⟨1 / 1000, 99999 / 100000, 0⟩, ⟨1, 0, 0⟩⟩, one_pos, by norm_num [lenSq, dot], ?_, ?_⟩
  · show distSq (⟨1 / 1000, 99999 / 100000, 0⟩ : V3 ℝ) ⟨0, 0, 0⟩ ≤ 1 * 1
    norm_num [distSq, lenSq, dot]
  · have e : Sphere.intersectLine ⟨1 / 1000, 99999 / 100000, 0⟩ ⟨1, 0, 0⟩ ⟨0, 0, 0⟩ 1 = some (1, -1 / 1000, -1 / 1000) := by
      unfold Sphere.intersectLine
      dsimp only
      rw [if_neg (by norm_num [dot]), if_pos (by norm_num [dot])]
      norm_num [dot]
    unfold Sphere.intersectsRay
    rw [e]
    norm_num

theorem segDir (l : LineSeg ℝ) (hL : 1 / 1000000 < V3.dist l.a l.b) :
    l.length = V3.dist l.a l.b ∧ lenSq l.dir = 1 ∧ (∀ t : ℝ, l.a + t • l.dir = l.a + (t / V3.dist l.a l.b) • (l.b - l.a)) ∧
    ∀ t : ℝ, l.getPoint (t / V3.dist l.a l.b) = l.a + t • l.dir := by
  have hLpos : 0 < V3.dist l.a l.b := by linarith
  have hf : V3.len (l.b - l.a) = V3.dist l.a l.b := by rw [V3.dist_comm]; rfl
  have hdir : l.dir = (1 / V3.dist l.a l.b) • (l.b - l.a) := by
    unfold LineSeg.dir f3Normalized
    rw [f3Normalize_pos (by rw [hf]; exact hL), hf]
  have hp : ∀ t : ℝ, l.a + t • l.dir = l.a + (t / V3.dist l.a l.b) • (l.b - l.a) := by
    intro t; rw [hdir]; ext <;> simp <;> ring
  refine ⟨?_, ?_, hp, ?_⟩
  · unfold LineSeg.length; rfl
  · rw [hdir]; show dot _ _ = _
    rw [dot_smul, smul_dot, show dot (l.b - l.a) (l.b - l.a) = V3.dist l.a l.b * V3.dist l.a l.b by
      rw [← hf]; exact (len_mul_self _).symm]
    field_simp
  · intro t; rw [hp]; unfold LineSeg.getPoint; ext <;> simp <;> ring

/-- C30: `Intersects(LineSegment)` for segments that do not only graze the sphere and are longer than 1e-6: it hits
exactly when the segment meets the ball; the hit point is on the surface and on the line of the segment, and on the segment
itself if the first end point is outside the ball. -/
theorem C30_segment_partial (s : Sphere ℝ) (l : LineSeg ℝ) (hL : 1 / 1000000 < V3.dist l.a l.b)
    (hg : Spec.NotGrazing l.a l.dir s.pos s.r) :
    (s.intersectsSeg l = none ↔ Spec.seg l.a l.b ∩ Spec.ball s.pos s.r = ∅) ∧
    ∀ (n : ℕ) (hit normal : V3 ℝ) (d d2 : ℝ), s.intersectsSeg l = some (n, hit, normal, d, d2) →
      hit = l.a + d • (l.b - l.a) ∧ hit ∈ Spec.sphereSurface s.pos s.r ∧
      l.a + d2 • (l.b - l.a) ∈ Spec.sphereSurface s.pos s.r ∧
      (l.a ∉ Spec.ball s.pos s.r → hit ∈ Spec.seg l.a l.b) := by
  have hLpos : 0 < V3.dist l.a l.b := by linarith
  obtain ⟨hlen, hd, hp, hgp⟩ := segDir l hL
  obtain ⟨H1, H2⟩ := C30_intersectLine l.a l.dir s.pos s.r hd
  unfold Sphere.intersectsSeg
  rcases hI : Sphere.intersectLine l.a l.dir s.pos s.r with _ | ⟨n, t1, t2⟩
  · refine ⟨⟨fun _ => ?_, fun _ => rfl⟩, fun _ _ _ _ _ h0 => by cases h0⟩
    have := H1.1 hI
    rw [Set.eq_empty_iff_forall_notMem] at this ⊢
    rintro x ⟨⟨t, _, _, rfl⟩, hx⟩
    refine this _ ⟨⟨t * V3.dist l.a l.b, ?_⟩, hx⟩
    rw [hp, mul_div_cancel_right₀ _ hLpos.ne']
  · obtain rfl := notGrazing_two hd hg hI
    rcases H2 _ _ _ hI with ⟨h3, -⟩ | ⟨-, hlt, s1, s2, hb, hs, -⟩
    · norm_num at h3
    dsimp only
    rw [hlen]
    by_cases hc : t2 < 0 ∨ t1 > V3.dist l.a l.b
    · rw [if_pos hc]
      refine ⟨⟨fun _ => ?_, fun _ => rfl⟩, fun _ _ _ _ _ h0 => by cases h0⟩
      rw [Set.eq_empty_iff_forall_notMem]
      rintro x ⟨⟨t, ht0, ht1, rfl⟩, hx⟩
      have e := hp (t * V3.dist l.a l.b)
      rw [mul_div_cancel_right₀ _ hLpos.ne'] at e
      rw [← e, hb] at hx
      rcases hc with hc | hc <;> nlinarith
    · rw [if_neg hc]
      push Not at hc
      obtain ⟨hc1, hc2⟩ := hc
      refine ⟨⟨fun h0 => (by cases h0), fun h0 => ?_⟩, ?_⟩
      · exfalso
        rw [Set.eq_empty_iff_forall_notMem] at h0
        rcases le_total 0 t1 with h5 | h5
        · refine h0 (l.a + t1 • l.dir) ⟨?_, (hb t1).2 ⟨le_rfl, hlt.le⟩⟩
          rw [hp]; exact ⟨_, div_nonneg h5 hLpos.le, (div_le_one hLpos).2 hc2, rfl⟩
        · refine h0 (l.a + (0 : ℝ) • l.dir) ⟨?_, (hb 0).2 ⟨h5, hc1⟩⟩
          rw [hp]; exact ⟨_, by simp, by simp, rfl⟩
      · intro n hit normal d d2 h0
        have h0 := Option.some.inj h0
        have e2 : l.getPoint (t1 / V3.dist l.a l.b) = hit := congrArg (fun x => x.2.1) h0
        have e4 : t1 / V3.dist l.a l.b = d := congrArg (fun x => x.2.2.2.1) h0
        have e5 : t2 / V3.dist l.a l.b = d2 := congrArg (fun x => x.2.2.2.2) h0
        rw [hgp] at e2
        subst e2 e4 e5
        rw [← hp, ← hp]
        refine ⟨rfl, s1, s2, fun ha => ?_⟩
        have h5 : 0 ≤ t1 := by
          by_contra h5
          push Not at h5
          apply ha
          have := (hb 0).2 ⟨h5.le, hc1⟩
          rwa [show l.a + (0 : ℝ) • l.dir = l.a by ext <;> simp] at this
        rw [hp]; exact ⟨_, div_nonneg h5 hLpos.le, (div_le_one hLpos).2 hc2, rfl⟩

/-- C30 fails for segments that start inside the ball: the segment from the centre of the unit ball to `(1/2, 0, 0)` is
reported with the hit point `(-1, 0, 0)`, which is not on the segment. -/
theorem C30_segment_violation : ∃ (s : Sphere ℝ) (l : LineSeg ℝ) (hit : V3 ℝ), 0 < s.r ∧
    (∃ n normal d d2, s.intersectsSeg l = some (n, hit, normal, d, d2)) ∧ hit ∉ Spec.seg l.a l.b := by
  have hL : V3.dist (⟨0, 0, 0⟩ : V3 ℝ) ⟨1 / 2, 0, 0⟩ = 1 / 2 := by
    unfold V3.dist; rw [Real.sqrt_eq_iff_mul_self_eq_of_pos (by norm_num)]; norm_num [distSq, lenSq, dot]
  have hd : LineSeg.dir ⟨(⟨0, 0, 0⟩ : V3 ℝ), ⟨1 / 2, 0, 0⟩⟩ = ⟨1, 0, 0⟩ := by
    unfold LineSeg.dir f3Normalized
    have : V3.len ((⟨1 / 2, 0, 0⟩ : V3 ℝ) - ⟨0, 0, 0⟩) = 1 / 2 := by rw [V3.dist_comm] at hL; exact hL
    dsimp only
    rw [f3Normalize_pos (by rw [this]; norm_num), this]
    ext <;> norm_num
  have hln : LineSeg.length ⟨(⟨0, 0, 0⟩ : V3 ℝ), ⟨1 / 2, 0, 0⟩⟩ = 1 / 2 := by
    refine Eq.trans ?_ hL; exact (segDir ⟨(⟨0, 0, 0⟩ : V3 ℝ), ⟨1 / 2, 0, 0⟩⟩ (by rw [hL]; norm_num)).1
  have e : Sphere.intersectLine (⟨0, 0, 0⟩ : V3 ℝ) ⟨1, 0, 0⟩ ⟨0, 0, 0⟩ 1 = some (2, -1, 1) := by
    unfold Sphere.intersectLine
    dsimp only
    rw [if_neg (by norm_num [dot]), if_neg (by norm_num [dot])]
    have : Real.sqrt 4 = 2 := by rw [Real.sqrt_eq_iff_mul_self_eq_of_pos (by norm_num)]; norm_num
    norm_num [dot, this]
  refine ⟨⟨⟨0, 0, 0⟩, 1⟩, ⟨⟨0, 0, 0⟩, ⟨1 / 2, 0, 0⟩⟩, ⟨-1, 0, 0⟩, one_pos, ⟨2, f3Normalized (⟨-1, 0, 0⟩ - ⟨0, 0, 0⟩), -2, 2, ?_⟩, ?_⟩
  · unfold Sphere.intersectsSeg
    rw [hd]
    dsimp only
    rw [e]
    dsimp only
    rw [hln, if_neg (by norm_num)]
    have : LineSeg.getPoint ⟨(⟨0, 0, 0⟩ : V3 ℝ), ⟨1 / 2, 0, 0⟩⟩ (-1 / (1 / 2)) = ⟨-1, 0, 0⟩ := by
      unfold LineSeg.getPoint; ext <;> norm_num
    rw [this]; norm_num
  · rintro ⟨t, h0, h1, h2⟩
    have := congrArg V3.x h2
    simp at this
    linarith

end MGL
