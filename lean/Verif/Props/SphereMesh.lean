import Verif.Model.SphereMesh
import Verif.Spec.SphereMesh
import Verif.Proofs.Float3R
import Verif.Proofs.Dist

/-! Property C116: triangulation of spheres. -/

set_option linter.unusedSectionVars false

namespace MGL
open V3
namespace Sphere

theorem triples_flatMap {β γ : Type*} (f g h : β → γ) : ∀ l : List β,
    Spec.triples (l.flatMap fun t => [f t, g t, h t]) = l.map fun t => (f t, g t, h t)
  | [] => rfl
  | t :: l => by
    rw [List.flatMap_cons, List.map_cons, ← triples_flatMap f g h l]
    rfl

theorem subdivide_length (r : ℝ) (t : Tri ℝ) : (subdivide r t).length = 4 := rfl

/-- What holds for the start and is kept by each step holds for the result. -/
theorem subdivideLoop_induct (r : ℝ) (n : ℤ) (P : List (Tri ℝ) → Prop)
    (step : ∀ t rest, P (t :: rest) → P (rest ++ subdivide r t)) : ∀ q, P q → P (subdivideLoop r n q) := by
  intro q
  induction q using subdivideLoop.induct r n with
  | case1 => intro h; rw [subdivideLoop]; exact h
  | case2 t rest hc ih => intro h; rw [subdivideLoop, dif_pos hc]; exact ih (step t rest h)
  | case3 t rest hc => intro h; rw [subdivideLoop, dif_neg hc]; exact h

theorem subdivideLoop_length (r : ℝ) (n : ℤ) : ∀ q : List (Tri ℝ), q ≠ [] → 3 * (q.length : ℤ) ≤ n →
    q.length ≤ (subdivideLoop r n q).length ∧ 3 * ((subdivideLoop r n q).length : ℤ) ≤ n ∧ n < 3 * ((subdivideLoop r n q).length : ℤ) + 9 := by
  intro q
  induction q using subdivideLoop.induct r n with
  | case1 => intro h; exact absurd rfl h
  | case2 t rest hc ih =>
    intro _ _
    rw [subdivideLoop, dif_pos hc]
    have hl : (rest ++ subdivide r t).length = rest.length + 4 := by rw [List.length_append, subdivide_length]
    rw [List.length_cons] at hc ⊢
    have := ih (by intro h; rw [h] at hl; simp at hl) (by rw [hl]; push_cast at *; omega)
    rw [hl] at this
    exact ⟨by omega, this.2⟩
  | case3 t rest hc =>
    intro _ h
    rw [subdivideLoop, dif_neg hc]
    exact ⟨le_rfl, h, by omega⟩

theorem diamond_length (r : ℝ) (ccw : Bool) : (diamond r ccw).length = 8 := by cases ccw <;> rfl

/-- C116: `Triangulate` writes nothing into arrays with fewer than 24 entries; otherwise it stays within the arrays, writes whole triangles,
at least eight, and leaves fewer than nine entries unused. It writes as many normals as positions. -/
theorem C116_count (s : Sphere ℝ) (n : ℤ) (ccw : Bool) :
    (n < 24 → s.triangulatePos n ccw = []) ∧
    (24 ≤ n → ((s.triangulatePos n ccw).length : ℤ) ≤ n ∧ n < (s.triangulatePos n ccw).length + 9 ∧
      24 ≤ (s.triangulatePos n ccw).length ∧ 3 ∣ (s.triangulatePos n ccw).length) ∧
    (s.triangulateNormal n ccw).length = (s.triangulatePos n ccw).length := by
  have hl : ∀ f g h : Tri ℝ → V3 ℝ, ∀ l : List (Tri ℝ), (l.flatMap fun t => [f t, g t, h t]).length = 3 * l.length := by
    intro f g h l
    rw [List.length_flatMap]
    simp [mul_comm]
  have hp : (s.triangulatePos n ccw).length = 3 * (s.triangles n ccw).length := hl _ _ _ _
  refine ⟨?_, ?_, ?_⟩
  · intro h
    unfold triangulatePos triangles
    rw [if_pos h]; rfl
  · intro h
    rw [hp]
    unfold triangles
    rw [if_neg (not_lt.2 h)]
    have := subdivideLoop_length s.r n (diamond s.r ccw) (by cases ccw <;> simp [diamond]) (by rw [diamond_length]; push_cast; omega)
    rw [diamond_length] at this
    push_cast
    exact ⟨by omega, by omega, by omega, ⟨_, rfl⟩⟩
  · rw [hp]; exact hl _ _ _ _

example := (C116_count ⟨⟨1, 2, 3⟩, 2⟩ 384 true).2.1 (by norm_num)

/-! ### The vertices -/

theorem scaled_on (v : V3 ℝ) (r : ℝ) : lenSq (scaledToLength v r) = r * r := by
  unfold scaledToLength
  split_ifs with h
  · simp [lenSq, dot]
  · have hv : 0 < lenSq v := by have : (0 : ℝ) < 1 / 1000000 := by norm_num
                                linarith [not_lt.1 h]
    have e : ∀ k : ℝ, lenSq (k • v) = k * k * lenSq v := by intro k; simp only [lenSq, dot, smul_x, smul_y, smul_z]; ring
    rw [e, div_mul_div_comm, Real.mul_self_sqrt hv.le, div_mul_cancel₀ _ hv.ne']

/-- All three corners have distance `r` from the origin. -/
def OnSphere (r : ℝ) (t : Tri ℝ) : Prop := lenSq t.a = r * r ∧ lenSq t.b = r * r ∧ lenSq t.c = r * r

theorem triangles_on (s : Sphere ℝ) (n : ℤ) (ccw : Bool) : ∀ t ∈ s.triangles n ccw, OnSphere s.r t := by
  unfold triangles
  split_ifs
  · simp
  · refine subdivideLoop_induct s.r n (fun q => ∀ t ∈ q, OnSphere s.r t) ?_ _ ?_
    · intro t rest h u hu
      rcases List.mem_append.1 hu with hu | hu
      · exact h u (by simp [hu])
      · obtain ⟨h1, h2, h3⟩ := h t (by simp)
        simp only [subdivide, List.mem_cons, List.not_mem_nil, or_false] at hu
        rcases hu with rfl | rfl | rfl | rfl
        exacts [⟨h1, scaled_on _ _, scaled_on _ _⟩, ⟨h2, scaled_on _ _, scaled_on _ _⟩, ⟨h3, scaled_on _ _, scaled_on _ _⟩,
          ⟨scaled_on _ _, scaled_on _ _, scaled_on _ _⟩]
    · intro t ht
      cases ccw <;> simp only [diamond, if_true, Bool.false_eq_true, if_false, List.mem_cons, List.not_mem_nil, or_false] at ht <;>
        rcases ht with rfl | rfl | rfl | rfl | rfl | rfl | rfl | rfl <;> simp [OnSphere, lenSq, dot]

/-- C116: every vertex lies on the sphere. -/
theorem C116_onSphere (s : Sphere ℝ) (n : ℤ) (ccw : Bool) : ∀ p ∈ s.triangulatePos n ccw, distSq p s.pos = s.r * s.r := by
  intro p hp
  have e : ∀ v : V3 ℝ, distSq (s.pos + v) s.pos = lenSq v := by intro v; simp [distSq, lenSq, dot]
  obtain ⟨t, ht, h⟩ := List.mem_flatMap.1 hp
  obtain ⟨h1, h2, h3⟩ := triangles_on s n ccw t ht
  simp only [List.mem_cons, List.not_mem_nil, or_false] at h
  rcases h with rfl | rfl | rfl
  exacts [(e _).trans h1, (e _).trans h2, (e _).trans h3]

example := C116_onSphere ⟨⟨1, 2, 3⟩, 2⟩ 384 true

/-- C116: the normals are the unit vectors from the centre to the vertices. -/
theorem C116_normals (s : Sphere ℝ) (hr : 1 / 1000000 < s.r) (n : ℤ) (ccw : Bool) :
    (∀ v ∈ s.triangulateNormal n ccw, lenSq v = 1) ∧ (s.triangulateNormal n ccw).map (fun v => s.pos + s.r • v) = s.triangulatePos n ccw := by
  have hr0 : 0 < s.r := lt_trans (by norm_num) hr
  have key : ∀ v : V3 ℝ, lenSq v = s.r * s.r → lenSq (f3Normalized v) = 1 ∧ s.r • f3Normalized v = v := by
    intro v hv
    have hl : len v = s.r := by unfold len; rw [hv]; exact Real.sqrt_mul_self hr0.le
    have e : f3Normalized v = (1 / s.r) • v := by unfold f3Normalized; rw [f3Normalize_pos (by rw [hl]; exact hr), hl]
    rw [e]
    constructor
    · have e2 : ∀ k : ℝ, lenSq (k • v) = k * k * lenSq v := by intro k; simp only [lenSq, dot, smul_x, smul_y, smul_z]; ring
      rw [e2, hv]; field_simp
    · ext <;> simp only [smul_x, smul_y, smul_z] <;> field_simp
  have hon := triangles_on s n ccw
  unfold triangulateNormal triangulatePos
  constructor
  · intro v hv
    obtain ⟨t, ht, h⟩ := List.mem_flatMap.1 hv
    obtain ⟨h1, h2, h3⟩ := hon t ht
    simp only [List.mem_cons, List.not_mem_nil, or_false] at h
    rcases h with rfl | rfl | rfl
    exacts [(key _ h1).1, (key _ h2).1, (key _ h3).1]
  · rw [List.map_flatMap]
    refine List.flatMap_congr fun t ht => ?_
    obtain ⟨h1, h2, h3⟩ := hon t ht
    simp only [List.map_cons, List.map_nil, (key _ h1).2, (key _ h2).2, (key _ h3).2]

example := C116_normals ⟨⟨1, 2, 3⟩, 2⟩ (by norm_num) 384 true

/-! ### Winding and coverage -/

/-- The corners lie on the sphere and in one octant, and their triple product has the sign of `k`. -/
structure Good (r k : ℝ) (t : Tri ℝ) : Prop where
  on : OnSphere r t
  octant : ∃ e : V3 ℝ, e.x * e.x = 1 ∧ e.y * e.y = 1 ∧ e.z * e.z = 1 ∧ ∀ v ∈ [t.a, t.b, t.c], 0 ≤ e.x * v.x ∧ 0 ≤ e.y * v.y ∧ 0 ≤ e.z * v.z
  det : 0 < k * dot t.a (cross t.b t.c)

theorem octant_dot {e a b : V3 ℝ} (e1 : e.x * e.x = 1) (e2 : e.y * e.y = 1) (e3 : e.z * e.z = 1)
    (ha : 0 ≤ e.x * a.x ∧ 0 ≤ e.y * a.y ∧ 0 ≤ e.z * a.z) (hb : 0 ≤ e.x * b.x ∧ 0 ≤ e.y * b.y ∧ 0 ≤ e.z * b.z) : 0 ≤ dot a b := by
  have h1 := mul_nonneg ha.1 hb.1
  have h2 := mul_nonneg ha.2.1 hb.2.1
  have h3 := mul_nonneg ha.2.2 hb.2.2
  have : dot a b = e.x * a.x * (e.x * b.x) + e.y * a.y * (e.y * b.y) + e.z * a.z * (e.z * b.z) := by
    simp only [dot]
    linear_combination -(a.x * b.x * e1) - a.y * b.y * e2 - a.z * b.z * e3
  rw [this]; positivity

/-- The midpoint of an edge, moved out to the sphere, is a positive multiple of the sum of the ends. -/
theorem mid_eq {r : ℝ} (hr : 0 < r) (hbig : 1 / 500000 ≤ r * r) {a b : V3 ℝ} (ha : lenSq a = r * r) (hb : lenSq b = r * r) (hab : 0 ≤ dot a b) :
    ∃ k : ℝ, 0 < k ∧ scaledToLength ((1 / 2 : ℝ) • (a + b)) r = k • (a + b) := by
  have e : lenSq ((1 / 2 : ℝ) • (a + b)) = (lenSq a + lenSq b + 2 * dot a b) / 4 := by
    simp only [lenSq, dot, smul_x, smul_y, smul_z, add_x, add_y, add_z]; ring
  have h : 1 / 1000000 ≤ lenSq ((1 / 2 : ℝ) • (a + b)) := by rw [e, ha, hb]; linarith
  have h0 : 0 < lenSq ((1 / 2 : ℝ) • (a + b)) := lt_of_lt_of_le (by norm_num) h
  refine ⟨r / Real.sqrt (lenSq ((1 / 2 : ℝ) • (a + b))) * (1 / 2), by positivity, ?_⟩
  unfold scaledToLength
  rw [if_neg (not_lt.2 h)]
  ext <;> simp only [smul_x, smul_y, smul_z] <;> ring

/-- The cone of a triangle over the origin. -/
def cone (t : Tri ℝ) : Set (V3 ℝ) := {d | ∃ u v w : ℝ, 0 ≤ u ∧ 0 ≤ v ∧ 0 ≤ w ∧ d = u • t.a + v • t.b + w • t.c}

theorem subdivide_good {r : ℝ} (hr : 0 < r) (hbig : 1 / 500000 ≤ r * r) {k : ℝ} {t : Tri ℝ} (h : Good r k t) :
    (∀ u ∈ subdivide r t, Good r k u) ∧ ∀ d ∈ cone t, ∃ u ∈ subdivide r t, d ∈ cone u := by
  obtain ⟨⟨h1, h2, h3⟩, ⟨e, e1, e2, e3, ho⟩, hd⟩ := h
  have oa := ho t.a (by simp)
  have ob := ho t.b (by simp)
  have oc := ho t.c (by simp)
  obtain ⟨x, hx, ex⟩ := mid_eq hr hbig h1 h2 (octant_dot e1 e2 e3 oa ob)
  obtain ⟨y, hy, ey⟩ := mid_eq hr hbig h1 h3 (octant_dot e1 e2 e3 oa oc)
  obtain ⟨z, hz, ez⟩ := mid_eq hr hbig h2 h3 (octant_dot e1 e2 e3 ob oc)
  have sx := scaled_on ((1 / 2 : ℝ) • (t.a + t.b)) r
  have sy := scaled_on ((1 / 2 : ℝ) • (t.a + t.c)) r
  have sz := scaled_on ((1 / 2 : ℝ) • (t.b + t.c)) r
  have om : ∀ (q : ℝ), 0 < q → ∀ a b : V3 ℝ, (0 ≤ e.x * a.x ∧ 0 ≤ e.y * a.y ∧ 0 ≤ e.z * a.z) →
      (0 ≤ e.x * b.x ∧ 0 ≤ e.y * b.y ∧ 0 ≤ e.z * b.z) →
      0 ≤ e.x * (q • (a + b)).x ∧ 0 ≤ e.y * (q • (a + b)).y ∧ 0 ≤ e.z * (q • (a + b)).z := by
    intro q hq a b ⟨a1, a2, a3⟩ ⟨b1, b2, b3⟩
    simp only [smul_x, smul_y, smul_z, add_x, add_y, add_z]
    exact ⟨by have := mul_nonneg hq.le (add_nonneg a1 b1); linarith, by have := mul_nonneg hq.le (add_nonneg a2 b2); linarith,
      by have := mul_nonneg hq.le (add_nonneg a3 b3); linarith⟩
  have ox := om x hx _ _ oa ob
  have oy := om y hy _ _ oa oc
  have oz := om z hz _ _ ob oc
  rw [ex] at sx
  rw [ey] at sy
  rw [ez] at sz
  have hsub : subdivide r t = [⟨t.a, x • (t.a + t.b), y • (t.a + t.c)⟩, ⟨t.b, z • (t.b + t.c), x • (t.a + t.b)⟩,
      ⟨t.c, y • (t.a + t.c), z • (t.b + t.c)⟩, ⟨x • (t.a + t.b), z • (t.b + t.c), y • (t.a + t.c)⟩] := by
    unfold subdivide; rw [ex, ey, ez]
  rw [hsub]
  constructor
  · intro u hu
    simp only [List.mem_cons, List.not_mem_nil, or_false] at hu
    have d1 : ∀ q : ℝ, 0 < q → ∀ D : ℝ, D = q * dot t.a (cross t.b t.c) → 0 < k * D := by
      rintro q hq D rfl
      have := mul_pos hq hd
      linarith
    rcases hu with rfl | rfl | rfl | rfl
    · refine ⟨⟨h1, sx, sy⟩, ⟨e, e1, e2, e3, ?_⟩, d1 (x * y) (by positivity) _ ?_⟩
      · intro v hv
        simp only [List.mem_cons, List.not_mem_nil, or_false] at hv
        rcases hv with rfl | rfl | rfl
        exacts [oa, ox, oy]
      · simp only [dot, cross, smul_x, smul_y, smul_z, add_x, add_y, add_z]; ring
    · refine ⟨⟨h2, sz, sx⟩, ⟨e, e1, e2, e3, ?_⟩, d1 (z * x) (by positivity) _ ?_⟩
      · intro v hv
        simp only [List.mem_cons, List.not_mem_nil, or_false] at hv
        rcases hv with rfl | rfl | rfl
        exacts [ob, oz, ox]
      · simp only [dot, cross, smul_x, smul_y, smul_z, add_x, add_y, add_z]; ring
    · refine ⟨⟨h3, sy, sz⟩, ⟨e, e1, e2, e3, ?_⟩, d1 (y * z) (by positivity) _ ?_⟩
      · intro v hv
        simp only [List.mem_cons, List.not_mem_nil, or_false] at hv
        rcases hv with rfl | rfl | rfl
        exacts [oc, oy, oz]
      · simp only [dot, cross, smul_x, smul_y, smul_z, add_x, add_y, add_z]; ring
    · refine ⟨⟨sx, sz, sy⟩, ⟨e, e1, e2, e3, ?_⟩, d1 (2 * (x * y * z)) (by positivity) _ ?_⟩
      · intro v hv
        simp only [List.mem_cons, List.not_mem_nil, or_false] at hv
        rcases hv with rfl | rfl | rfl
        exacts [ox, oz, oy]
      · simp only [dot, cross, smul_x, smul_y, smul_z, add_x, add_y, add_z]; ring
  · rintro d ⟨u, v, w, hu, hv, hw, rfl⟩
    by_cases c1 : v + w ≤ u
    · refine ⟨⟨t.a, x • (t.a + t.b), y • (t.a + t.c)⟩, by simp, u - v - w, v / x, w / y, by linarith, by positivity, by positivity, ?_⟩
      ext <;> simp only [smul_x, smul_y, smul_z, add_x, add_y, add_z] <;> field_simp <;> ring
    by_cases c2 : u + w ≤ v
    · refine ⟨⟨t.b, z • (t.b + t.c), x • (t.a + t.b)⟩, by simp, v - u - w, w / z, u / x, by linarith, by positivity, by positivity, ?_⟩
      ext <;> simp only [smul_x, smul_y, smul_z, add_x, add_y, add_z] <;> field_simp <;> ring
    by_cases c3 : u + v ≤ w
    · refine ⟨⟨t.c, y • (t.a + t.c), z • (t.b + t.c)⟩, by simp, w - u - v, u / y, v / z, by linarith, by positivity, by positivity, ?_⟩
      ext <;> simp only [smul_x, smul_y, smul_z, add_x, add_y, add_z] <;> field_simp <;> ring
    · refine ⟨⟨x • (t.a + t.b), z • (t.b + t.c), y • (t.a + t.c)⟩, by simp, (u + v - w) / 2 / x, (v + w - u) / 2 / z, (u + w - v) / 2 / y,
        div_nonneg (by linarith) hx.le, div_nonneg (by linarith) hz.le, div_nonneg (by linarith) hy.le, ?_⟩
      ext <;> simp only [smul_x, smul_y, smul_z, add_x, add_y, add_z] <;> field_simp <;> ring

theorem diamond_good {r : ℝ} (hr : 0 < r) (ccw : Bool) : ∀ t ∈ diamond r ccw, Good r (if ccw then -1 else 1) t := by
  have h3 : 0 < r * (r * r) := by positivity
  intro t ht
  have key : ∀ a b c e : V3 ℝ, ∀ k : ℝ, lenSq a = r * r → lenSq b = r * r → lenSq c = r * r → e.x * e.x = 1 → e.y * e.y = 1 → e.z * e.z = 1 →
      (∀ v ∈ [a, b, c], 0 ≤ e.x * v.x ∧ 0 ≤ e.y * v.y ∧ 0 ≤ e.z * v.z) → k * dot a (cross b c) = r * (r * r) → Good r k ⟨a, b, c⟩ :=
    fun a b c e k h1 h2 h3' h4 h5 h6 h7 h8 => ⟨⟨h1, h2, h3'⟩, ⟨e, h4, h5, h6, h7⟩, by rw [h8]; exact h3⟩
  cases ccw <;> simp only [diamond, if_true, Bool.false_eq_true, if_false, List.mem_cons, List.not_mem_nil, or_false] at ht ⊢ <;>
    rcases ht with rfl | rfl | rfl | rfl | rfl | rfl | rfl | rfl
  all_goals
    first
      | (refine key _ _ _ ⟨1, 1, 1⟩ _ ?_ ?_ ?_ (by norm_num) (by norm_num) (by norm_num) ?_ ?_ <;> simp [lenSq, dot, cross, hr.le, mul_assoc] <;> done)
      | (refine key _ _ _ ⟨1, 1, -1⟩ _ ?_ ?_ ?_ (by norm_num) (by norm_num) (by norm_num) ?_ ?_ <;> simp [lenSq, dot, cross, hr.le, mul_assoc] <;> done)
      | (refine key _ _ _ ⟨1, -1, 1⟩ _ ?_ ?_ ?_ (by norm_num) (by norm_num) (by norm_num) ?_ ?_ <;> simp [lenSq, dot, cross, hr.le, mul_assoc] <;> done)
      | (refine key _ _ _ ⟨1, -1, -1⟩ _ ?_ ?_ ?_ (by norm_num) (by norm_num) (by norm_num) ?_ ?_ <;> simp [lenSq, dot, cross, hr.le, mul_assoc] <;> done)
      | (refine key _ _ _ ⟨-1, 1, 1⟩ _ ?_ ?_ ?_ (by norm_num) (by norm_num) (by norm_num) ?_ ?_ <;> simp [lenSq, dot, cross, hr.le, mul_assoc] <;> done)
      | (refine key _ _ _ ⟨-1, 1, -1⟩ _ ?_ ?_ ?_ (by norm_num) (by norm_num) (by norm_num) ?_ ?_ <;> simp [lenSq, dot, cross, hr.le, mul_assoc] <;> done)
      | (refine key _ _ _ ⟨-1, -1, 1⟩ _ ?_ ?_ ?_ (by norm_num) (by norm_num) (by norm_num) ?_ ?_ <;> simp [lenSq, dot, cross, hr.le, mul_assoc] <;> done)
      | (refine key _ _ _ ⟨-1, -1, -1⟩ _ ?_ ?_ ?_ (by norm_num) (by norm_num) (by norm_num) ?_ ?_ <;> simp [lenSq, dot, cross, hr.le, mul_assoc] <;> done)

theorem cone_perm {a b c : V3 ℝ} {d : V3 ℝ} (h : d ∈ cone ⟨a, b, c⟩) : d ∈ cone ⟨a, c, b⟩ ∧ d ∈ cone ⟨b, a, c⟩ := by
  obtain ⟨u, v, w, hu, hv, hw, rfl⟩ := h
  constructor
  · exact ⟨u, w, v, hu, hw, hv, by ext <;> simp <;> ring⟩
  · exact ⟨v, u, w, hv, hu, hw, by ext <;> simp <;> ring⟩

theorem diamond_cover {r : ℝ} (hr : 0 < r) (ccw : Bool) (d : V3 ℝ) : ∃ t ∈ diamond r ccw, d ∈ cone t := by
  have key : ∀ x y z : ℝ, x * x = r * r → y * y = r * r → z * z = r * r → 0 ≤ d.x * x → 0 ≤ d.y * y → 0 ≤ d.z * z →
      d ∈ cone ⟨⟨x, 0, 0⟩, ⟨0, y, 0⟩, ⟨0, 0, z⟩⟩ := by
    intro x y z h1 h2 h3 h4 h5 h6
    have hrr : 0 < r * r := by positivity
    refine ⟨d.x * x / (r * r), d.y * y / (r * r), d.z * z / (r * r), by positivity, by positivity, by positivity, ?_⟩
    ext <;> simp
    · rw [div_mul_eq_mul_div, mul_assoc, h1, mul_div_cancel_right₀ _ hrr.ne']
    · rw [div_mul_eq_mul_div, mul_assoc, h2, mul_div_cancel_right₀ _ hrr.ne']
    · rw [div_mul_eq_mul_div, mul_assoc, h3, mul_div_cancel_right₀ _ hrr.ne']
  have P : ∀ q : ℝ, 0 ≤ q → 0 ≤ q * r := fun q h => mul_nonneg h hr.le
  have N : ∀ q : ℝ, q ≤ 0 → 0 ≤ q * -r := fun q h => by nlinarith
  have hn : -r * -r = r * r := by ring
  have all : ∀ a b c : V3 ℝ, d ∈ cone ⟨a, b, c⟩ → d ∈ cone ⟨a, c, b⟩ ∧ d ∈ cone ⟨b, a, c⟩ ∧ d ∈ cone ⟨b, c, a⟩ ∧ d ∈ cone ⟨c, a, b⟩ ∧ d ∈ cone ⟨c, b, a⟩ := by
    intro a b c h
    have h1 := (cone_perm h).1
    have h2 := (cone_perm h).2
    exact ⟨h1, h2, (cone_perm h2).1, (cone_perm h1).2, (cone_perm (cone_perm h1).2).1⟩
  rcases le_total 0 d.x with hx | hx <;> rcases le_total 0 d.y with hy | hy <;> rcases le_total 0 d.z with hz | hz
  · have h := all _ _ _ (key r r r rfl rfl rfl (P _ hx) (P _ hy) (P _ hz))
    cases ccw <;> simp [diamond, h]
  · have h := all _ _ _ (key r r (-r) rfl rfl hn (P _ hx) (P _ hy) (N _ hz))
    have h' := key r r (-r) rfl rfl hn (P _ hx) (P _ hy) (N _ hz)
    cases ccw <;> simp [diamond, h, h']
  · have h := all _ _ _ (key r (-r) r rfl hn rfl (P _ hx) (N _ hy) (P _ hz))
    cases ccw <;> simp [diamond, h]
  · have h := all _ _ _ (key r (-r) (-r) rfl hn hn (P _ hx) (N _ hy) (N _ hz))
    cases ccw <;> simp [diamond, h]
  · have h := all _ _ _ (key (-r) r r hn rfl rfl (N _ hx) (P _ hy) (P _ hz))
    cases ccw <;> simp [diamond, h]
  · have h := all _ _ _ (key (-r) r (-r) hn rfl hn (N _ hx) (P _ hy) (N _ hz))
    cases ccw <;> simp [diamond, h]
  · have h := all _ _ _ (key (-r) (-r) r hn hn rfl (N _ hx) (N _ hy) (P _ hz))
    cases ccw <;> simp [diamond, h]
  · have h := all _ _ _ (key (-r) (-r) (-r) hn hn hn (N _ hx) (N _ hy) (N _ hz))
    have h' := key (-r) (-r) (-r) hn hn hn (N _ hx) (N _ hy) (N _ hz)
    cases ccw <;> simp [diamond, h, h']

theorem triangles_good (s : Sphere ℝ) (hr : 0 < s.r) (hbig : 1 / 500000 ≤ s.r * s.r) (n : ℤ) (hn : 24 ≤ n) (ccw : Bool) :
    (∀ t ∈ s.triangles n ccw, Good s.r (if ccw then -1 else 1) t) ∧ ∀ d, ∃ t ∈ s.triangles n ccw, d ∈ cone t := by
  unfold triangles
  rw [if_neg (not_lt.2 hn)]
  refine subdivideLoop_induct s.r n (fun q => (∀ t ∈ q, Good s.r (if ccw then -1 else 1) t) ∧ ∀ d, ∃ t ∈ q, d ∈ cone t) ?_ _
    ⟨diamond_good hr ccw, diamond_cover hr ccw⟩
  rintro t rest ⟨h1, h2⟩
  obtain ⟨g1, g2⟩ := subdivide_good hr hbig (h1 t (by simp))
  constructor
  · intro u hu
    rcases List.mem_append.1 hu with hu | hu
    · exact h1 u (by simp [hu])
    · exact g1 u hu
  · intro d
    obtain ⟨u, hu, hd⟩ := h2 d
    rcases List.mem_cons.1 hu with rfl | hu
    · obtain ⟨w, hw, hw'⟩ := g2 d hd
      exact ⟨w, List.mem_append_right _ hw, hw'⟩
    · exact ⟨u, List.mem_append_left _ hu, hd⟩

/-- C116: for spheres with a radius of at least 0.0015 the triangles have the centre strictly on one side of their plane: seen from outside,
they are clockwise with `ccwIsFrontFacing` and counterclockwise without. Missing: smaller spheres (see `C116_small_violation`); the documented
order is the opposite (see `C116_winding_violation`). -/
theorem C116_winding_partial (s : Sphere ℝ) (hr : 15 / 10000 ≤ s.r) (n : ℤ) (ccw : Bool) :
    ∀ t ∈ Spec.triples (s.triangulatePos n ccw),
      0 < (if ccw then -1 else 1) * dot (cross (t.2.1 - t.1) (t.2.2 - t.1)) (t.1 - s.pos) := by
  intro t ht
  have hr0 : 0 < s.r := lt_of_lt_of_le (by norm_num) hr
  unfold triangulatePos at ht
  rw [triples_flatMap] at ht
  obtain ⟨u, hu, rfl⟩ := List.mem_map.1 ht
  by_cases hn : 24 ≤ n
  · have := ((triangles_good s hr0 (by nlinarith) n hn ccw).1 u hu).det
    have e : dot (cross (s.pos + u.b - (s.pos + u.a)) (s.pos + u.c - (s.pos + u.a))) (s.pos + u.a - s.pos) = dot u.a (cross u.b u.c) := by
      simp only [dot, cross, sub_x, sub_y, sub_z, add_x, add_y, add_z]; ring
    dsimp only
    rw [e]; exact this
  · unfold triangles at hu
    rw [if_pos (not_le.1 hn)] at hu
    simp at hu

example := C116_winding_partial ⟨⟨1, 2, 3⟩, 2⟩ (by norm_num) 384 true

/-- With `ccwIsFrontFacing` no triangle is counterclockwise seen from outside. -/
theorem C116_winding_violation (s : Sphere ℝ) (hr : 15 / 10000 ≤ s.r) (n : ℤ) :
    ∀ t ∈ Spec.triples (s.triangulatePos n true), dot (cross (t.2.1 - t.1) (t.2.2 - t.1)) (t.1 - s.pos) < 0 := by
  intro t ht
  have := C116_winding_partial s hr n true t ht
  simp only [if_true] at this
  linarith

example := C116_winding_violation ⟨⟨1, 2, 3⟩, 2⟩ (by norm_num) 384

/-- C116: for such spheres the triangles leave no hole seen from the centre: in every direction from the centre lies a triangle. Missing:
smaller spheres. -/
theorem C116_cover_partial (s : Sphere ℝ) (hr : 15 / 10000 ≤ s.r) (n : ℤ) (hn : 24 ≤ n) (ccw : Bool) (d : V3 ℝ) :
    ∃ t ∈ Spec.triples (s.triangulatePos n ccw), ∃ u v w : ℝ, 0 ≤ u ∧ 0 ≤ v ∧ 0 ≤ w ∧
      d = u • (t.1 - s.pos) + v • (t.2.1 - s.pos) + w • (t.2.2 - s.pos) := by
  have hr0 : 0 < s.r := lt_of_lt_of_le (by norm_num) hr
  obtain ⟨t, ht, u, v, w, hu, hv, hw, e⟩ := (triangles_good s hr0 (by nlinarith) n hn ccw).2 d
  unfold triangulatePos
  rw [triples_flatMap]
  refine ⟨_, List.mem_map_of_mem ht, u, v, w, hu, hv, hw, ?_⟩
  rw [e]
  ext <;> simp

example := C116_cover_partial ⟨⟨1, 2, 3⟩, 2⟩ (by norm_num) 384 (by norm_num) true ⟨1, -2, 5⟩

/-! ### One round of the subdivision -/

theorem triangles_33 (s : Sphere ℝ) : s.triangles 33 true = (diamond s.r true).tail ++ subdivide s.r ⟨⟨0, s.r, 0⟩, ⟨s.r, 0, 0⟩, ⟨0, 0, s.r⟩⟩ := by
  unfold triangles
  rw [if_neg (by norm_num)]
  simp only [diamond, if_true, List.tail_cons]
  rw [subdivideLoop, dif_pos (by norm_num)]
  simp only [List.cons_append, List.nil_append, subdivide]
  rw [subdivideLoop, dif_neg (by norm_num)]

/-- The mesh of a small sphere has triangles without area: its edge midpoints all become the same point. -/
theorem C116_small_violation : ∃ s : Sphere ℝ, 0 < s.r ∧ ∃ t ∈ Spec.triples (s.triangulatePos 33 true), cross (t.2.1 - t.1) (t.2.2 - t.1) = 0 := by
  refine ⟨⟨⟨0, 0, 0⟩, 1 / 1000⟩, by norm_num, ?_⟩
  unfold triangulatePos
  rw [triples_flatMap, triangles_33]
  have e1 : scaledToLength ((1 / 2 : ℝ) • ((⟨0, 1 / 1000, 0⟩ : V3 ℝ) + ⟨1 / 1000, 0, 0⟩)) (1 / 1000) = ⟨1 / 1000, 0, 0⟩ := by
    unfold scaledToLength; rw [if_pos (by norm_num [lenSq, dot])]
  have e2 : scaledToLength ((1 / 2 : ℝ) • ((⟨0, 1 / 1000, 0⟩ : V3 ℝ) + ⟨0, 0, 1 / 1000⟩)) (1 / 1000) = ⟨1 / 1000, 0, 0⟩ := by
    unfold scaledToLength; rw [if_pos (by norm_num [lenSq, dot])]
  refine ⟨_, List.mem_map_of_mem (List.mem_append_right _ (by unfold subdivide; exact List.mem_cons_self)), ?_⟩
  dsimp only
  rw [e1, e2]
  ext <;> simp [cross]

/-- For numbers of vertices between the documented ones the mesh is not closed: with 33 only one of the eight triangles is subdivided, and
the edges of its neighbours have no partner. -/
theorem C116_closed_violation : ∃ s : Sphere ℝ, ∃ t ∈ Spec.triples (s.triangulatePos 33 true), ∃ e ∈ Spec.directedEdges t,
    ∀ t' ∈ Spec.triples (s.triangulatePos 33 true), (e.2, e.1) ∉ Spec.directedEdges t' := by
  refine ⟨⟨⟨0, 0, 0⟩, 2⟩, (⟨2, 0, 0⟩, ⟨0, 2, 0⟩, ⟨0, 0, -2⟩), ?_, (⟨2, 0, 0⟩, ⟨0, 2, 0⟩), by simp [Spec.directedEdges], ?_⟩
  · unfold triangulatePos
    rw [triples_flatMap, triangles_33]
    simp only [List.map_append, List.mem_append]
    left
    simp [diamond, V3.ext_iff]
  · unfold triangulatePos
    rw [triples_flatMap, triangles_33]
    have m : ∀ v : V3 ℝ, lenSq v = 2 → scaledToLength v 2 = (2 / Real.sqrt 2) • v := by
      intro v hv
      unfold scaledToLength
      rw [hv, if_neg (by norm_num)]
    have h0 : (2 / Real.sqrt 2 : ℝ) ≠ 0 := by positivity
    have e1 := m ((1 / 2 : ℝ) • ((⟨0, 2, 0⟩ : V3 ℝ) + ⟨2, 0, 0⟩)) (by norm_num [lenSq, dot])
    have e2 := m ((1 / 2 : ℝ) • ((⟨0, 2, 0⟩ : V3 ℝ) + ⟨0, 0, 2⟩)) (by norm_num [lenSq, dot])
    have e3 := m ((1 / 2 : ℝ) • ((⟨2, 0, 0⟩ : V3 ℝ) + ⟨0, 0, 2⟩)) (by norm_num [lenSq, dot])
    clear m
    generalize (2 / Real.sqrt 2 : ℝ) = k at e1 e2 e3 h0
    intro t ht
    obtain ⟨u, hu, rfl⟩ := List.mem_map.1 ht
    clear ht
    dsimp only at hu ⊢
    simp only [diamond, subdivide, if_true, List.tail_cons, List.mem_append, List.mem_cons, List.not_mem_nil, or_false, e1, e2, e3] at hu
    rcases hu with (rfl | rfl | rfl | rfl | rfl | rfl | rfl) | rfl | rfl | rfl | rfl <;>
      norm_num [Spec.directedEdges, V3.ext_iff, h0, h0.symm]

/-! ### Whole rounds of the subdivision -/

/-- The loop replaces all triangles of a list if the array has room for their children. -/
theorem subdivideLoop_level (r : ℝ) (n : ℤ) : ∀ L D : List (Tri ℝ), 3 * (4 * (L.length : ℤ) + D.length) ≤ n →
    subdivideLoop r n (L ++ D) = subdivideLoop r n (D ++ L.flatMap (subdivide r))
  | [], D, _ => by simp
  | t :: L, D, h => by
    have hl : (((t :: (L ++ D)).length : ℤ) + 3) * 3 ≤ n := by
      simp only [List.length_cons, List.length_append] at *
      push_cast at *
      omega
    rw [List.cons_append, subdivideLoop, dif_pos hl, List.append_assoc, subdivideLoop_level r n L (D ++ subdivide r t), List.append_assoc,
      List.flatMap_cons]
    rw [List.length_append, subdivide_length]
    rw [List.length_cons] at h
    push_cast at *
    omega

/-- The eight triangles after `k` whole rounds. -/
noncomputable def level (r : ℝ) (ccw : Bool) : ℕ → List (Tri ℝ)
  | 0 => diamond r ccw
  | k + 1 => (level r ccw k).flatMap (subdivide r)

theorem level_length (r : ℝ) (ccw : Bool) : ∀ k, (level r ccw k).length = 8 * 4 ^ k
  | 0 => by rw [level, diamond_length]; rfl
  | k + 1 => by
    rw [level, List.length_flatMap]
    simp only [subdivide_length, List.map_const', List.sum_replicate, smul_eq_mul, level_length r ccw k]
    ring

theorem subdivideLoop_levels (r : ℝ) (ccw : Bool) (n : ℤ) : ∀ k : ℕ, 24 * 4 ^ k ≤ n → subdivideLoop r n (diamond r ccw) = subdivideLoop r n (level r ccw k)
  | 0, _ => rfl
  | k + 1, h => by
    rw [pow_succ] at h
    have h0 : (0 : ℤ) < 4 ^ k := by positivity
    rw [subdivideLoop_levels r ccw n k (by omega), level]
    have := subdivideLoop_level r n (level r ccw k) [] (by rw [level_length]; push_cast; simp only [List.length_nil]; push_cast; omega)
    rw [List.append_nil, List.nil_append] at this
    exact this

theorem triangles_level (s : Sphere ℝ) (ccw : Bool) (k : ℕ) : s.triangles (24 * 4 ^ k) ccw = level s.r ccw k := by
  have h1 : (1 : ℤ) ≤ 4 ^ k := one_le_pow₀ (by norm_num)
  unfold triangles
  rw [if_neg (by omega), subdivideLoop_levels s.r ccw _ k le_rfl]
  have hl := level_length s.r ccw k
  generalize level s.r ccw k = L at *
  cases L with
  | nil => rw [subdivideLoop]
  | cons t L =>
    rw [subdivideLoop, dif_neg]
    rw [hl]; push_cast; omega

/-- The directed edges of a triangle. -/
def edgesOf (t : Tri ℝ) : List (V3 ℝ × V3 ℝ) := [(t.a, t.b), (t.b, t.c), (t.c, t.a)]

/-- Every edge has a partner in the opposite direction. -/
def ClosedMesh (L : List (Tri ℝ)) : Prop := ∀ t ∈ L, ∀ e ∈ edgesOf t, ∃ t' ∈ L, (e.2, e.1) ∈ edgesOf t'

theorem diamond_closed (r : ℝ) (ccw : Bool) : ClosedMesh (diamond r ccw) := by
  intro t ht e he
  cases ccw <;> simp only [diamond, if_true, Bool.false_eq_true, if_false, List.mem_cons, List.not_mem_nil, or_false] at ht <;>
    rcases ht with rfl | rfl | rfl | rfl | rfl | rfl | rfl | rfl <;>
    simp only [edgesOf, List.mem_cons, List.not_mem_nil, or_false] at he <;>
    rcases he with rfl | rfl | rfl <;>
    simp [diamond, edgesOf]

/-- The midpoint of an edge, moved out to the sphere. -/
noncomputable def mid (r : ℝ) (a b : V3 ℝ) : V3 ℝ := scaledToLength ((1 / 2 : ℝ) • (a + b)) r

theorem mid_comm (r : ℝ) (a b : V3 ℝ) : mid r a b = mid r b a := by
  have : a + b = b + a := by ext <;> simp [add_comm]
  unfold mid; rw [this]

theorem subdivide_eq (r : ℝ) (t : Tri ℝ) : subdivide r t = [⟨t.a, mid r t.a t.b, mid r t.a t.c⟩, ⟨t.b, mid r t.b t.c, mid r t.a t.b⟩,
    ⟨t.c, mid r t.a t.c, mid r t.b t.c⟩, ⟨mid r t.a t.b, mid r t.b t.c, mid r t.a t.c⟩] := rfl

/-- The halves of the edges of a triangle are edges of its children. -/
theorem half_edges (r : ℝ) (t : Tri ℝ) {p q : V3 ℝ} (h : (p, q) ∈ edgesOf t) :
    (∃ u ∈ subdivide r t, (p, mid r p q) ∈ edgesOf u) ∧ ∃ u ∈ subdivide r t, (mid r p q, q) ∈ edgesOf u := by
  rw [subdivide_eq]
  simp only [edgesOf, List.mem_cons, List.not_mem_nil, or_false, Prod.mk.injEq] at h
  rcases h with ⟨rfl, rfl⟩ | ⟨rfl, rfl⟩ | ⟨rfl, rfl⟩
  · simp [edgesOf]
  · simp [edgesOf]
  · rw [mid_comm r t.c t.a]; simp [edgesOf]

theorem subdivide_closed (r : ℝ) (L : List (Tri ℝ)) (h : ClosedMesh L) : ClosedMesh (L.flatMap (subdivide r)) := by
  intro u hu e he
  obtain ⟨t, ht, hu⟩ := List.mem_flatMap.1 hu
  -- the two halves of an edge of `t`
  have outer : ∀ p q : V3 ℝ, (p, q) ∈ edgesOf t → (e = (p, mid r p q) ∨ e = (mid r p q, q)) →
      ∃ t' ∈ L.flatMap (subdivide r), (e.2, e.1) ∈ edgesOf t' := by
    intro p q hpq hh
    obtain ⟨t', ht', h'⟩ := h t ht _ hpq
    obtain ⟨⟨u1, k1, k2⟩, u2, k3, k4⟩ := half_edges r t' h'
    rw [mid_comm r q p] at k2 k4
    rcases hh with rfl | rfl
    · exact ⟨u2, List.mem_flatMap.2 ⟨t', ht', k3⟩, k4⟩
    · exact ⟨u1, List.mem_flatMap.2 ⟨t', ht', k1⟩, k2⟩
  have inner : (∃ w ∈ subdivide r t, (e.2, e.1) ∈ edgesOf w) → ∃ t' ∈ L.flatMap (subdivide r), (e.2, e.1) ∈ edgesOf t' := by
    rintro ⟨w, hw, h'⟩
    exact ⟨w, List.mem_flatMap.2 ⟨t, ht, hw⟩, h'⟩
  have o1 := outer t.a t.b (by simp [edgesOf])
  have o2 := outer t.b t.c (by simp [edgesOf])
  have o3 := outer t.c t.a (by simp [edgesOf])
  rw [mid_comm r t.c t.a] at o3
  rw [subdivide_eq] at hu inner
  simp only [List.mem_cons, List.not_mem_nil, or_false] at hu
  rcases hu with rfl | rfl | rfl | rfl <;> simp only [edgesOf, List.mem_cons, List.not_mem_nil, or_false] at he <;>
    rcases he with rfl | rfl | rfl <;>
    first
      | exact o1 (Or.inl rfl)
      | exact o1 (Or.inr rfl)
      | exact o2 (Or.inl rfl)
      | exact o2 (Or.inr rfl)
      | exact o3 (Or.inl rfl)
      | exact o3 (Or.inr rfl)
      | (apply inner; simp [edgesOf])

theorem level_closed (r : ℝ) (ccw : Bool) : ∀ k, ClosedMesh (level r ccw k)
  | 0 => diamond_closed r ccw
  | k + 1 => subdivide_closed r _ (level_closed r ccw k)

/-- C116: with the documented numbers of vertices, `24 * 4^k`, the arrays are filled completely and the mesh is closed: every edge of a
triangle is the edge of a triangle in the opposite direction. -/
theorem C116_closed (s : Sphere ℝ) (ccw : Bool) (k : ℕ) :
    (s.triangulatePos (24 * 4 ^ k) ccw).length = 24 * 4 ^ k ∧
    ∀ t ∈ Spec.triples (s.triangulatePos (24 * 4 ^ k) ccw), ∀ e ∈ Spec.directedEdges t,
      ∃ t' ∈ Spec.triples (s.triangulatePos (24 * 4 ^ k) ccw), (e.2, e.1) ∈ Spec.directedEdges t' := by
  unfold triangulatePos
  rw [triples_flatMap, triangles_level]
  constructor
  · rw [List.length_flatMap]
    simp [level_length]
    ring
  · intro t ht e he
    obtain ⟨u, hu, rfl⟩ := List.mem_map.1 ht
    have hm : ∀ u : Tri ℝ, Spec.directedEdges (s.pos + u.a, s.pos + u.b, s.pos + u.c) = (edgesOf u).map fun e => (s.pos + e.1, s.pos + e.2) :=
      fun _ => rfl
    rw [hm] at he
    obtain ⟨e', he', rfl⟩ := List.mem_map.1 he
    obtain ⟨w, hw, h⟩ := level_closed s.r ccw k u hu e' he'
    refine ⟨_, List.mem_map_of_mem hw, ?_⟩
    rw [hm]
    exact List.mem_map.2 ⟨_, h, rfl⟩

example := C116_closed ⟨⟨1, 2, 3⟩, 2⟩ true 5

end Sphere
end MGL
