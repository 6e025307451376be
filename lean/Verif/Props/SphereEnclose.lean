import Verif.Props.SphereFit
import Verif.Props.Plane
import Verif.Proofs.ExtremeIndex
import Verif.Proofs.AABBEnclose
import Mathlib.Data.List.Sort

/-! C28: enclosing spheres. -/

namespace MGL
open V3

/-! ### Optimal enclosing spheres of two, three and four points -/

theorem mem_of_dist_le {c p : V3 ℝ} {r : ℝ} (h : V3.dist p c ≤ r) : p ∈ Spec.ball c r :=
  (mem_ball_iff ((dist_nonneg _ _).trans h)).2 h

theorem mid_dist (a b : V3 ℝ) : V3.dist a ((1 / 2 : ℝ) • (a + b)) = V3.dist a b * (1 / 2) ∧
    V3.dist b ((1 / 2 : ℝ) • (a + b)) = V3.dist a b * (1 / 2) := by
  have e1 : a - (1 / 2 : ℝ) • (a + b) = (1 / 2 : ℝ) • (a - b) := by ext <;> simp <;> ring
  have e2 : b - (1 / 2 : ℝ) • (a + b) = (-(1 / 2) : ℝ) • (a - b) := by ext <;> simp <;> ring
  constructor
  · rw [dist_eq_len, e1, len_smul, ← dist_eq_len, abs_of_pos (by norm_num)]; ring
  · rw [dist_eq_len, e2, len_smul, ← dist_eq_len, abs_neg, abs_of_pos (by norm_num)]; ring

/-- C28: the sphere of two points contains both. -/
theorem C28_optimal_two (a b : V3 ℝ) :
    a ∈ Spec.ball (Sphere.optimal2 a b).pos (Sphere.optimal2 a b).r ∧
    b ∈ Spec.ball (Sphere.optimal2 a b).pos (Sphere.optimal2 a b).r := by
  obtain ⟨h1, h2⟩ := mid_dist a b
  have e : V3.len (b - (1 / 2 : ℝ) • (a + b)) = V3.dist a b * (1 / 2) := h2
  unfold Sphere.optimal2
  dsimp only
  rw [e]
  exact ⟨mem_of_dist_le (by rw [h1]; linarith), mem_of_dist_le (by rw [h2]; linarith)⟩

/-- The box fallback contains its points. -/
theorem boxSphere (a b c x : V3 ℝ) (hx : x = a ∨ x = b ∨ x = c) :
    V3.dist x ((1 / 2 : ℝ) • (f3Min3 a b c + f3Max3 a b c)) ≤ V3.dist ((1 / 2 : ℝ) • (f3Min3 a b c + f3Max3 a b c)) (f3Min3 a b c) := by
  have hmem : x ∈ Spec.tri a b c := by
    rcases hx with rfl | rfl | rfl
    · exact ⟨1, 0, 0, by simp, by simp, by simp, by simp, by ext <;> simp⟩
    · exact ⟨0, 1, 0, by simp, by simp, by simp, by simp, by ext <;> simp⟩
    · exact ⟨0, 0, 1, by simp, by simp, by simp, by simp, by ext <;> simp⟩
  have hb := (tight_tri a b c).1 x hmem
  rw [dist_le_dist_iff]
  obtain ⟨h1, h2, h3, h4, h5, h6⟩ := hb
  dsimp only at h1 h2 h3 h4 h5 h6
  generalize f3Min3 a b c = lo at *
  generalize f3Max3 a b c = hi at *
  have key : ∀ x lo hi : ℝ, lo ≤ x → x ≤ hi → (x - 2⁻¹ * (lo + hi)) * (x - 2⁻¹ * (lo + hi)) ≤
      (2⁻¹ * (lo + hi) - lo) * (2⁻¹ * (lo + hi) - lo) := by
    intro x lo hi g1 g2; nlinarith
  have := key _ _ _ h1 h2
  have := key _ _ _ h3 h4
  have := key _ _ _ h5 h6
  simp only [distSq_eq]
  simp
  linarith

/-- C28: the sphere of three points contains all three, and the radius exceeds the distance to each of them by 2e-4. -/
theorem optimal3_contains (a b c x : V3 ℝ) (hx : x = a ∨ x = b ∨ x = c) :
    V3.dist x (Sphere.optimal3 a b c).pos + 2 * (1 / 10000) ≤ (Sphere.optimal3 a b c).r := by
  unfold Sphere.optimal3
  dsimp only
  refine add_le_add ?_ le_rfl
  have hbox := boxSphere a b c x hx
  split_ifs with h1
  · exact hbox
  · rcases Sphere.fit3 (b - a) (c - a) with _ | ⟨s, t⟩
    · exact hbox
    · dsimp only
      split_ifs with h2 h3 h4 h5
      · exact hbox
      · dsimp only
        rw [max2_eq]
        obtain ⟨g1, g2⟩ := mid_dist a c
        rcases hx with rfl | rfl | rfl
        · rw [g1]; exact le_max_left _ _
        · exact le_max_right _ _
        · rw [g2]; exact le_max_left _ _
      · dsimp only
        rw [max2_eq]
        obtain ⟨g1, g2⟩ := mid_dist a b
        rcases hx with rfl | rfl | rfl
        · rw [g1]; exact le_max_left _ _
        · rw [g2]; exact le_max_left _ _
        · exact le_max_right _ _
      · dsimp only
        rw [max2_eq]
        obtain ⟨g1, g2⟩ := mid_dist b c
        rcases hx with rfl | rfl | rfl
        · exact le_max_right _ _
        · rw [g1]; exact le_max_left _ _
        · rw [g2]; exact le_max_left _ _
      · dsimp only
        rw [V3.dist_comm]
        unfold V3.dist
        apply Real.sqrt_le_sqrt
        unfold max3
        rw [max2_eq, max2_eq]
        rcases hx with rfl | rfl | rfl
        · exact (le_max_left _ _).trans (le_max_left _ _)
        · exact (le_max_right _ _).trans (le_max_left _ _)
        · exact le_max_right _ _

/-- C28: the sphere of three points contains all three. -/
theorem C28_optimal_three (a b c : V3 ℝ) :
    a ∈ Spec.ball (Sphere.optimal3 a b c).pos (Sphere.optimal3 a b c).r ∧
    b ∈ Spec.ball (Sphere.optimal3 a b c).pos (Sphere.optimal3 a b c).r ∧
    c ∈ Spec.ball (Sphere.optimal3 a b c).pos (Sphere.optimal3 a b c).r :=
  ⟨mem_of_dist_le (by linarith [optimal3_contains a b c a (Or.inl rfl)]),
   mem_of_dist_le (by linarith [optimal3_contains a b c b (Or.inr (Or.inl rfl))]),
   mem_of_dist_le (by linarith [optimal3_contains a b c c (Or.inr (Or.inr rfl))])⟩

theorem optimal3_r_nonneg (a b c : V3 ℝ) : 0 ≤ (Sphere.optimal3 a b c).r := by
  have := optimal3_contains a b c a (Or.inl rfl)
  linarith [dist_nonneg a (Sphere.optimal3 a b c).pos]

/-- Two points of a ball are at most the diameter apart. -/
theorem half_le_radius {a b c : V3 ℝ} {R : ℝ} (hR : 0 ≤ R) (ha : a ∈ Spec.ball c R) (hb : b ∈ Spec.ball c R) :
    V3.dist a b * (1 / 2) ≤ R := by
  rw [mem_ball_iff hR] at ha hb
  have := dist_triangle a c b
  rw [V3.dist_comm c b] at this
  linarith

/-- C28: the sphere of three points that are not nearly collinear is the smallest enclosing ball, up to the enlargement
of the radius by 2e-4: no ball of smaller radius contains the three points. (Nearly collinear points, and points for
which the centre is more than 10000 side lengths away, get the ball around the bounding box instead.) -/
theorem C28_optimal_three_minimal_partial (a b c : V3 ℝ) (h : 5 / 1000 ≤ lenSq (cross (b - a) (c - a)))
    (hfar : ∀ s t, Sphere.fit3 (b - a) (c - a) = some (s, t) → |s| ≤ 10000 ∧ |t| ≤ 10000)
    (x : V3 ℝ) (R : ℝ) (hR : 0 ≤ R) (ha : a ∈ Spec.ball x R) (hb : b ∈ Spec.ball x R) (hc : c ∈ Spec.ball x R) :
    (Sphere.optimal3 a b c).r - 2 / 10000 ≤ R := by
  obtain ⟨f1, f2⟩ := fit3_spec (b - a) (c - a)
  have hk0 : 0 < lenSq (cross (b - a) (c - a)) := by linarith
  rcases hfit : Sphere.fit3 (b - a) (c - a) with _ | ⟨s, t⟩
  · rw [f1] at hfit; linarith
  obtain ⟨e1, e2, es, et⟩ := f2 s t hfit
  obtain ⟨b1, b2⟩ := hfar s t hfit
  have hk : 0 < 1 / 2 / lenSq (cross (b - a) (c - a)) := by positivity
  set k := 1 / 2 / lenSq (cross (b - a) (c - a)) with hkd
  have hkl : k * (2 * lenSq (cross (b - a) (c - a))) = 1 := by rw [hkd]; field_simp
  have hlag := lagrange (b - a) (c - a)
  have hBB : 0 ≤ dot (b - a) (b - a) := lenSq_nonneg _
  have hCC : 0 ≤ dot (c - a) (c - a) := lenSq_nonneg _
  -- the third point is in the ball over the longest side when the angle there is obtuse
  have obtuse : ∀ p q m : V3 ℝ, dot (p - m) (q - m) ≤ 0 → V3.dist m ((1 / 2 : ℝ) • (p + q)) ≤ V3.dist p q * (1 / 2) := by
    intro p q m hpq
    have e : V3.dist p q * (1 / 2) = V3.dist p ((1 / 2 : ℝ) • (p + q)) := (mid_dist p q).1.symm
    rw [e, dist_le_dist_iff]
    have : distSq m ((1 / 2 : ℝ) • (p + q)) = distSq p ((1 / 2 : ℝ) • (p + q)) + dot (p - m) (q - m) := by
      simp only [distSq_eq, dot]; simp; ring
    linarith
  unfold Sphere.optimal3
  dsimp only
  rw [if_neg (by linarith), hfit]
  dsimp only
  rw [if_neg (by rw [absF_eq, absF_eq]; push Not; exact ⟨b1, b2⟩)]
  split_ifs with h3 h4 h5
  · dsimp only
    have : dot (a - b) (c - b) ≤ 0 := by
      have e : dot (a - b) (c - b) = dot (b - a) (b - a) - dot (b - a) (c - a) := by simp only [dot]; simp; ring
      rw [e]
      by_contra hcon
      push Not at hcon
      have : 0 ≤ s := by rw [es]; exact mul_nonneg (mul_nonneg hCC hcon.le) hk.le
      linarith
    rw [max2_eq, max_eq_left (obtuse a c b this)]
    linarith [half_le_radius hR ha hc]
  · dsimp only
    have : dot (a - c) (b - c) ≤ 0 := by
      have e : dot (a - c) (b - c) = dot (c - a) (c - a) - dot (b - a) (c - a) := by simp only [dot]; simp; ring
      rw [e]
      by_contra hcon
      push Not at hcon
      have : 0 ≤ t := by rw [et]; exact mul_nonneg (mul_nonneg hBB hcon.le) hk.le
      linarith
    rw [max2_eq, max_eq_left (obtuse a b c this)]
    linarith [half_le_radius hR ha hb]
  · dsimp only
    have : dot (b - a) (c - a) ≤ 0 := by
      by_contra hcon
      push Not at hcon
      have hbc : 0 ≤ lenSq ((b - a) - (c - a)) := lenSq_nonneg _
      have e : lenSq ((b - a) - (c - a)) = dot (b - a) (b - a) + dot (c - a) (c - a) - 2 * dot (b - a) (c - a) := by
        simp only [lenSq, dot]; simp; ring
      have hden : dot (b - a) (b - a) * dot (c - a) (c - a) - dot (b - a) (c - a) * dot (b - a) (c - a) = lenSq (cross (b - a) (c - a)) := by
        have : lenSq (b - a) * lenSq (c - a) = dot (b - a) (b - a) * dot (c - a) (c - a) := rfl
        linarith
      have : s + t - 1 = -(k * (dot (b - a) (c - a) * lenSq ((b - a) - (c - a)))) := by
        rw [es, et, e, ← hkl, ← hden]; ring
      have h0 : 0 ≤ k * (dot (b - a) (c - a) * lenSq ((b - a) - (c - a))) := mul_nonneg hk.le (mul_nonneg hcon.le hbc)
      linarith
    rw [max2_eq, max_eq_left (obtuse b c a this)]
    linarith [half_le_radius hR hb hc]
  · dsimp only
    push Not at h3 h4 h5
    have d1 : distSq (a + (s • (b - a) + t • (c - a))) a = lenSq (s • (b - a) + t • (c - a)) := surface_of_center _ _
    have d2 : distSq (a + (s • (b - a) + t • (c - a))) b = lenSq (s • (b - a) + t • (c - a)) := equidistant a b _ e1
    have d3 : distSq (a + (s • (b - a) + t • (c - a))) c = lenSq (s • (b - a) + t • (c - a)) := equidistant a c _ e2
    unfold max3
    rw [max2_eq, max2_eq, d1, d2, d3, max_self, max_self]
    have key : (1 - s - t) * distSq a x + s * distSq b x + t * distSq c x =
        (1 - s - t) * lenSq (s • (b - a) + t • (c - a)) + s * distSq (a + (s • (b - a) + t • (c - a))) b +
        t * distSq (a + (s • (b - a) + t • (c - a))) c + distSq (a + (s • (b - a) + t • (c - a))) x := by
      simp only [distSq_eq, lenSq, dot]; simp; ring
    rw [d2, d3] at key
    have ha : distSq a x ≤ R * R := ha
    have hb : distSq b x ≤ R * R := hb
    have hc : distSq c x ≤ R * R := hc
    have h6 : lenSq (s • (b - a) + t • (c - a)) ≤ R * R := by
      have := distSq_nonneg (a + (s • (b - a) + t • (c - a))) x
      nlinarith [mul_le_mul_of_nonneg_left ha (by linarith : 0 ≤ 1 - s - t), mul_le_mul_of_nonneg_left hb h3, mul_le_mul_of_nonneg_left hc h4]
    have : Real.sqrt (lenSq (s • (b - a) + t • (c - a))) ≤ R := Real.sqrt_le_iff.2 ⟨hR, by rw [sq]; exact h6⟩
    linarith

/-- The hypotheses hold for the right triangle `0`, `x`, `y`. -/
example : 5 / 1000 ≤ lenSq (cross ((⟨1, 0, 0⟩ : V3 ℝ) - 0) (⟨0, 1, 0⟩ - 0)) ∧
    ∀ s t, Sphere.fit3 ((⟨1, 0, 0⟩ : V3 ℝ) - 0) (⟨0, 1, 0⟩ - 0) = some (s, t) → |s| ≤ 10000 ∧ |t| ≤ 10000 := by
  constructor
  · norm_num [lenSq, dot, cross]
  · intro s t h
    obtain ⟨-, -, rfl, rfl⟩ := (fit3_spec _ _).2 s t h
    norm_num [lenSq, dot, cross, abs_of_nonneg]

/-- C28: the sphere of four points contains all four. -/
theorem optimal4_contains (a b c d x : V3 ℝ) (hx : x = a ∨ x = b ∨ x = c ∨ x = d) :
    V3.dist x (Sphere.optimal4 a b c d).pos + 2 * (1 / 10000) ≤ (Sphere.optimal4 a b c d).r := by
  have fit : ∀ p q r y : V3 ℝ, (Sphere.optimal3 p q r).contains y = true → V3.dist y (Sphere.optimal3 p q r).pos ≤ (Sphere.optimal3 p q r).r := by
    intro p q r y h
    unfold Sphere.contains at h
    rw [decide_eq_true_iff, distSq_comm] at h
    exact (dist_le_iff (optimal3_r_nonneg p q r)).2 h
  have own : ∀ p q r y : V3 ℝ, (y = p ∨ y = q ∨ y = r) → V3.dist y (Sphere.optimal3 p q r).pos ≤ (Sphere.optimal3 p q r).r := by
    intro p q r y h
    linarith [optimal3_contains p q r y h]
  have nested : ∀ s : Sphere ℝ, s = (if (Sphere.optimal3 a b c).contains d then Sphere.optimal3 a b c
      else if (Sphere.optimal3 a b d).contains c then Sphere.optimal3 a b d
      else if (Sphere.optimal3 a c d).contains b then Sphere.optimal3 a c d
      else ⟨(Sphere.optimal3 b c d).pos, max2 (Sphere.optimal3 b c d).r (V3.dist a (Sphere.optimal3 b c d).pos + 1 / 1000)⟩) →
      V3.dist x s.pos ≤ s.r := by
    rintro s rfl
    split_ifs with h1 h2 h3
    · rcases hx with rfl | rfl | rfl | rfl
      · exact own _ _ _ _ (Or.inl rfl)
      · exact own _ _ _ _ (Or.inr (Or.inl rfl))
      · exact own _ _ _ _ (Or.inr (Or.inr rfl))
      · exact fit _ _ _ _ h1
    · rcases hx with rfl | rfl | rfl | rfl
      · exact own _ _ _ _ (Or.inl rfl)
      · exact own _ _ _ _ (Or.inr (Or.inl rfl))
      · exact fit _ _ _ _ h2
      · exact own _ _ _ _ (Or.inr (Or.inr rfl))
    · rcases hx with rfl | rfl | rfl | rfl
      · exact own _ _ _ _ (Or.inl rfl)
      · exact fit _ _ _ _ h3
      · exact own _ _ _ _ (Or.inr (Or.inl rfl))
      · exact own _ _ _ _ (Or.inr (Or.inr rfl))
    · dsimp only
      rw [max2_eq]
      rcases hx with rfl | rfl | rfl | rfl
      · exact (by linarith : _ ≤ _ + (1 / 1000 : ℝ)).trans (le_max_right _ _)
      · exact (own _ _ _ _ (Or.inl rfl)).trans (le_max_left _ _)
      · exact (own _ _ _ _ (Or.inr (Or.inl rfl))).trans (le_max_left _ _)
      · exact (own _ _ _ _ (Or.inr (Or.inr rfl))).trans (le_max_left _ _)
  unfold Sphere.optimal4
  dsimp only
  refine add_le_add ?_ le_rfl
  rcases Sphere.fit4 (b - a) (c - a) (d - a) with _ | ⟨s, t, u⟩
  · exact nested _ rfl
  · dsimp only
    by_cases h : s < 0 ∨ t < 0 ∨ u < 0 ∨ s + t + u > 1
    · rw [if_pos h]; exact nested _ rfl
    · rw [if_neg h]
      dsimp only
      rw [V3.dist_comm]
      unfold V3.dist
      apply Real.sqrt_le_sqrt
      unfold max4
      rw [max2_eq, max2_eq, max2_eq]
      rcases hx with rfl | rfl | rfl | rfl
      · exact (le_max_left _ _).trans (le_max_left _ _)
      · exact (le_max_right _ _).trans (le_max_left _ _)
      · exact (le_max_left _ _).trans (le_max_right _ _)
      · exact (le_max_right _ _).trans (le_max_right _ _)

/-- C28: the sphere of four points contains all four. -/
theorem C28_optimal_four (a b c d : V3 ℝ) : ∀ x ∈ [a, b, c, d],
    x ∈ Spec.ball (Sphere.optimal4 a b c d).pos (Sphere.optimal4 a b c d).r := by
  intro x hx
  have hx : x = a ∨ x = b ∨ x = c ∨ x = d := by simpa using hx
  exact mem_of_dist_le (by linarith [optimal4_contains a b c d x hx])

/-- C28: the sphere of five points: if it names a redundant point other than the last one, it contains the four others and the
redundant one with a squared slack of 1e-4. -/
theorem C28_optimal_five_partial (a b c d e : V3 ℝ) (h : (Sphere.optimal5 a b c d e).2 ≠ 4) : ∀ x ∈ [a, b, c, d, e],
    distSq x (Sphere.optimal5 a b c d e).1.pos ≤ (Sphere.optimal5 a b c d e).1.r * (Sphere.optimal5 a b c d e).1.r + 1 / 10000 := by
  have own : ∀ p q r s y : V3 ℝ, y ∈ [p, q, r, s] → distSq y (Sphere.optimal4 p q r s).pos ≤
      (Sphere.optimal4 p q r s).r * (Sphere.optimal4 p q r s).r + 1 / 10000 := by
    intro p q r s y hy
    have h1 : distSq y (Sphere.optimal4 p q r s).pos ≤ (Sphere.optimal4 p q r s).r * (Sphere.optimal4 p q r s).r :=
      C28_optimal_four p q r s y hy
    linarith
  have fit : ∀ (s : Sphere ℝ) (y : V3 ℝ), s.containsEps y (1 / 10000) = true → distSq y s.pos ≤ s.r * s.r + 1 / 10000 := by
    intro s y h
    unfold Sphere.containsEps at h
    rw [decide_eq_true_iff, distSq_comm] at h
    exact h
  intro x hx
  have hx : x = a ∨ x = b ∨ x = c ∨ x = d ∨ x = e := by simpa using hx
  unfold Sphere.optimal5 at h ⊢
  split_ifs at h ⊢ with h1 h2 h3 h4
  · rcases hx with rfl | rfl | rfl | rfl | rfl
    · exact fit _ _ h1
    all_goals exact own _ _ _ _ _ (by simp)
  · rcases hx with rfl | rfl | rfl | rfl | rfl
    on_goal 2 => exact fit _ _ h2
    all_goals exact own _ _ _ _ _ (by simp)
  · rcases hx with rfl | rfl | rfl | rfl | rfl
    on_goal 3 => exact fit _ _ h3
    all_goals exact own _ _ _ _ _ (by simp)
  · rcases hx with rfl | rfl | rfl | rfl | rfl
    on_goal 4 => exact fit _ _ h4
    all_goals exact own _ _ _ _ _ (by simp)
  · exact absurd rfl h

/-! ### Enclose -/

/-- One `Enclose` step. -/
theorem enclose_cases (s : Sphere ℝ) (p : V3 ℝ) :
    (¬ lenSq (p - s.pos) + 1 / 10000 > s.r * s.r ∧ s.enclose p = some s) ∨
    (lenSq (p - s.pos) + 1 / 10000 > s.r * s.r ∧ p = s.pos ∧ s.enclose p = none) ∨
    (lenSq (p - s.pos) + 1 / 10000 > s.r * s.r ∧ ∃ u : V3 ℝ, lenSq u = 1 ∧ p - s.pos = V3.dist p s.pos • u ∧ 0 < V3.dist p s.pos ∧
      s.enclose p = some ⟨s.pos + ((V3.dist p s.pos - s.r) / 2) • u, (V3.dist p s.pos + s.r) / 2 + 1 / 10000⟩) := by
  unfold Sphere.enclose
  dsimp only
  by_cases h : lenSq (p - s.pos) + 1 / 10000 > s.r * s.r
  · by_cases h0 : p = s.pos
    · refine Or.inr (Or.inl ⟨h, h0, ?_⟩)
      rw [if_pos h, if_pos]
      rw [h0]; simp [lenSq, dot]
    · refine Or.inr (Or.inr ⟨h, ?_⟩)
      have hd : V3.dist p s.pos ≠ 0 := fun e => h0 (dist_eq_zero.1 e)
      have hd0 : 0 < V3.dist p s.pos := lt_of_le_of_ne (dist_nonneg _ _) (Ne.symm hd)
      obtain ⟨u, hu, e⟩ := unit_toward s.pos p
      refine ⟨u, hu, e, hd0, ?_⟩
      rw [if_pos h, if_neg (show ¬ Real.sqrt (lenSq (p - s.pos)) = 0 from hd)]
      have e1 : Real.sqrt (lenSq (p - s.pos)) = V3.dist p s.pos := rfl
      rw [e1, e]
      congr 2
      · ext <;> simp <;> field_simp
      · ring
  · exact Or.inl ⟨h, if_neg h⟩

/-- C28: whenever `Enclose(point)` yields a sphere of non-negative radius, it contains the point. -/
theorem C28_enclose_contains (s : Sphere ℝ) (hs : 0 ≤ s.r) (p : V3 ℝ) (t : Sphere ℝ) (h : s.enclose p = some t) :
    0 ≤ t.r ∧ p ∈ Spec.ball t.pos t.r := by
  rcases enclose_cases s p with ⟨h1, h2⟩ | ⟨-, -, h2⟩ | ⟨h1, u, hu, e, hd, h2⟩
  · rw [h2] at h; obtain rfl := Option.some.inj h
    refine ⟨hs, ?_⟩
    show lenSq (p - s.pos) ≤ _
    linarith
  · rw [h2] at h; cases h
  · rw [h2] at h; obtain rfl := Option.some.inj h
    have h0 : 0 ≤ (V3.dist p s.pos + s.r) / 2 + 1 / 10000 := by linarith
    refine ⟨h0, mem_of_dist_le ?_⟩
    dsimp only
    rw [dist_eq_len, show p - (s.pos + ((V3.dist p s.pos - s.r) / 2) • u) = ((V3.dist p s.pos + s.r) / 2) • u by
      rw [show p - (s.pos + ((V3.dist p s.pos - s.r) / 2) • u) = (p - s.pos) - ((V3.dist p s.pos - s.r) / 2) • u by ext <;> simp <;> ring, e]
      ext <;> simp <;> ring, len_smul, len_unit hu, abs_of_nonneg (by linarith)]
    linarith

/-- C28: `Enclose(point)` on a sphere of radius at least one: it always yields a sphere, of no smaller radius, that contains the
point and every point that was inside before. -/
theorem enclose_step (s : Sphere ℝ) (hs : 1 ≤ s.r) (p : V3 ℝ) : ∃ t, s.enclose p = some t ∧ s.r ≤ t.r ∧
    p ∈ Spec.ball t.pos t.r ∧ Spec.ball s.pos s.r ⊆ Spec.ball t.pos t.r ∧
    ∃ k : ℝ, t.pos = s.pos + k • (p - s.pos) := by
  rcases enclose_cases s p with ⟨h1, h2⟩ | ⟨h1, h2, -⟩ | ⟨h1, u, hu, e, hd, h2⟩
  · exact ⟨s, h2, le_rfl, (C28_enclose_contains s (by linarith) p s h2).2, fun x hx => hx, 0, by ext <;> simp⟩
  · exfalso
    rw [h2] at h1
    have : lenSq (s.pos - s.pos) = 0 := by simp [lenSq, dot]
    rw [this] at h1
    nlinarith
  · have hsq : lenSq (p - s.pos) = V3.dist p s.pos * V3.dist p s.pos := (dist_mul_self p s.pos).symm
    rw [hsq] at h1
    have hclose : s.r - V3.dist p s.pos ≤ 1 / 10000 := by
      by_contra hc
      push Not at hc
      nlinarith
    refine ⟨_, h2, by dsimp only; linarith, (C28_enclose_contains s (by linarith) p _ h2).2, ?_, (V3.dist p s.pos - s.r) / 2 / V3.dist p s.pos, ?_⟩
    · dsimp only
      rw [ball_subset_ball (by linarith) (by linarith), dist_move _ _ _ hu]
      rcases abs_cases ((V3.dist p s.pos - s.r) / 2) with ⟨ha, -⟩ | ⟨ha, -⟩ <;> rw [ha] <;> linarith
    · dsimp only
      rw [e]; ext <;> simp <;> field_simp

/-- C28: every history of `Enclose(point)` calls starting from a sphere of radius at least one: the result contains all the
points of the history and everything that was inside the first sphere. -/
theorem C28_enclose_history_partial (ps : List (V3 ℝ)) : ∀ (s : Sphere ℝ), 1 ≤ s.r → ∃ t, s.encloseList ps = some t ∧ s.r ≤ t.r ∧
    (∀ p ∈ ps, p ∈ Spec.ball t.pos t.r) ∧ Spec.ball s.pos s.r ⊆ Spec.ball t.pos t.r := by
  induction ps with
  | nil => intro s hs; exact ⟨s, rfl, le_rfl, by simp, fun x hx => hx⟩
  | cons p ps ih =>
    intro s hs
    obtain ⟨t, h1, h2, h3, h4, -⟩ := enclose_step s hs p
    obtain ⟨w, g1, g2, g3, g4⟩ := ih t (hs.trans h2)
    refine ⟨w, ?_, h2.trans g2, ?_, fun x hx => g4 (h4 hx)⟩
    · show (s.enclose p).bind _ = _
      rw [h1]; exact g1
    · intro q hq
      rcases List.mem_cons.1 hq with rfl | hq
      · exact g4 h3
      · exact g3 q hq

example := C28_enclose_history_partial [⟨5, 0, 0⟩, ⟨0, 7, 0⟩] ⟨⟨1, 2, 3⟩, 1⟩ (by norm_num)

/-- C28: the `Enclose` overloads for boxes, triangles and vertex arrays, in any order in which the points may be sorted. -/
theorem C28_enclose_points_partial (s : Sphere ℝ) (hs : 1 ≤ s.r) (ps order : List (V3 ℝ)) (h : order.Perm ps) :
    ∃ t, s.encloseList order = some t ∧ (∀ p ∈ ps, p ∈ Spec.ball t.pos t.r) ∧ Spec.ball s.pos s.r ⊆ Spec.ball t.pos t.r := by
  obtain ⟨t, h1, -, h3, h4⟩ := C28_enclose_history_partial order s hs
  exact ⟨t, h1, fun p hp => h3 p (h.mem_iff.2 hp), h4⟩

example := C28_enclose_points_partial ⟨⟨1, 2, 3⟩, 1⟩ (by norm_num) [⟨5, 0, 0⟩, ⟨0, 7, 0⟩] [⟨0, 7, 0⟩, ⟨5, 0, 0⟩] (List.Perm.swap _ _ _)

/-- C28: `Enclose(points)` as modelled, and `Enclose(LineSegment)`, which then contains the whole segment. -/
theorem C28_enclose_objects_partial (s : Sphere ℝ) (hs : 1 ≤ s.r) :
    (∀ ps : List (V3 ℝ), ∃ t, s.enclosePoints ps = some t ∧ (∀ p ∈ ps, p ∈ Spec.ball t.pos t.r) ∧
      Spec.ball s.pos s.r ⊆ Spec.ball t.pos t.r) ∧
    (∀ l : LineSeg ℝ, ∃ t, s.encloseSeg l = some t ∧ Spec.seg l.a l.b ⊆ Spec.ball t.pos t.r ∧
      Spec.ball s.pos s.r ⊆ Spec.ball t.pos t.r) := by
  constructor
  · intro ps
    exact C28_enclose_points_partial s hs ps _ (List.mergeSort_perm _ _)
  · intro l
    unfold Sphere.encloseSeg
    split_ifs with h
    · obtain ⟨t, h1, h2, h3, h4⟩ := C28_enclose_history_partial [l.a, l.b] s hs
      exact ⟨t, h1, ball_convex _ _ (by linarith) _ (h3 l.a (by simp)) _ (h3 l.b (by simp)), h4⟩
    · obtain ⟨t, h1, h2, h3, h4⟩ := C28_enclose_history_partial [l.b, l.a] s hs
      exact ⟨t, h1, ball_convex _ _ (by linarith) _ (h3 l.a (by simp)) _ (h3 l.b (by simp)), h4⟩

example := C28_enclose_objects_partial ⟨⟨1, 2, 3⟩, 1⟩ (by norm_num)

/-- C28: `Enclose(Sphere)` for spheres whose centres are not closer than 1e-3: the result contains both balls. -/
theorem C28_enclose_sphere_partial (s o : Sphere ℝ) (hs : 1 ≤ s.r) (ho : 0 ≤ o.r) (h : 1 / 1000000 ≤ distSq o.pos s.pos) :
    ∃ t, s.encloseSphere o = some t ∧ s.r ≤ t.r ∧ Spec.ball o.pos o.r ⊆ Spec.ball t.pos t.r ∧ Spec.ball s.pos s.r ⊆ Spec.ball t.pos t.r := by
  obtain ⟨u, hu, e⟩ := unit_toward s.pos o.pos
  have hd0 : V3.dist o.pos s.pos ≠ 0 := by
    intro h0
    rw [← dist_mul_self, h0] at h; norm_num at h
  have hv : Sphere.scaledToLength (o.pos - s.pos) o.r = o.r • u := by
    unfold Sphere.scaledToLength
    rw [if_neg (show ¬ lenSq (o.pos - s.pos) < 1 / 1000000 from not_lt.2 h)]
    have e1 : Real.sqrt (lenSq (o.pos - s.pos)) = V3.dist o.pos s.pos := rfl
    rw [e1, e]; ext <;> simp <;> field_simp
  have hE : s.encloseSphere o = s.encloseList [o.pos + o.r • u, o.pos - o.r • u] := by
    unfold Sphere.encloseSphere; dsimp only; rw [hv]
  obtain ⟨t, h1, h2, h3, h4, k, hk⟩ := enclose_step s hs (o.pos + o.r • u)
  obtain ⟨w, g1, g2, g3, g4, m, hm⟩ := enclose_step t (hs.trans h2) (o.pos - o.r • u)
  refine ⟨w, ?_, h2.trans g2, ?_, fun x hx => g4 (h4 hx)⟩
  · rw [hE]
    show (s.enclose _).bind (fun t => (t.enclose _).bind _) = _
    rw [h1]; show (t.enclose _).bind _ = _
    rw [g1]; rfl
  · have hw : 0 ≤ w.r := by linarith
    have hF := (mem_ball_iff hw).1 (g4 h3)
    have hN := (mem_ball_iff hw).1 g3
    -- all centres are on the line through the two centres
    have hs' : s.pos = o.pos + (-(V3.dist o.pos s.pos)) • u := by
      have h0 : s.pos = o.pos - (o.pos - s.pos) := by ext <;> simp
      refine h0.trans ?_
      rw [e]; ext <;> simp <;> ring
    obtain ⟨c, hc⟩ : ∃ c : ℝ, w.pos = o.pos + c • u := by
      have ht : t.pos = o.pos + (-(V3.dist o.pos s.pos) + k * (o.r + V3.dist o.pos s.pos)) • u := by
        rw [hk, show o.pos + o.r • u - s.pos = (o.r + V3.dist o.pos s.pos) • u by
          rw [show o.pos + o.r • u - s.pos = (o.pos - s.pos) + o.r • u by ext <;> simp <;> ring, e]; ext <;> simp <;> ring]
        generalize V3.dist o.pos s.pos = D at *
        rw [hs']; ext <;> simp <;> ring
      generalize -(V3.dist o.pos s.pos) + k * (o.r + V3.dist o.pos s.pos) = q at ht
      refine ⟨q + m * (-o.r - q), ?_⟩
      rw [hm, ht]; ext <;> simp <;> ring
    have d1 : V3.dist (o.pos + o.r • u) w.pos = |o.r - c| := by
      rw [hc, dist_eq_len, show o.pos + o.r • u - (o.pos + c • u) = (o.r - c) • u by ext <;> simp <;> ring, len_smul, len_unit hu, mul_one]
    have d2 : V3.dist (o.pos - o.r • u) w.pos = |-o.r - c| := by
      rw [hc, dist_eq_len, show o.pos - o.r • u - (o.pos + c • u) = (-o.r - c) • u by ext <;> simp <;> ring, len_smul, len_unit hu, mul_one]
    rw [d1] at hF
    rw [d2] at hN
    rw [ball_subset_ball ho hw, hc, dist_move _ _ _ hu]
    have := abs_le.1 hF
    have := abs_le.1 hN
    rcases abs_cases c with ⟨ha, -⟩ | ⟨ha, -⟩ <;> rw [ha] <;> linarith

/-- The hypotheses of the history theorem hold, and the history grows the sphere. -/
example : ∃ t, (⟨⟨0, 0, 0⟩, 1⟩ : Sphere ℝ).encloseList [⟨3, 0, 0⟩, ⟨0, 4, 0⟩] = some t ∧ (⟨3, 0, 0⟩ : V3 ℝ) ∈ Spec.ball t.pos t.r := by
  obtain ⟨t, h1, -, h3, -⟩ := C28_enclose_history_partial [⟨3, 0, 0⟩, ⟨0, 4, 0⟩] ⟨⟨0, 0, 0⟩, 1⟩ le_rfl
  exact ⟨t, h1, h3 _ (by simp)⟩

/-- C28 fails for small spheres: enclosing `(0.0996, 0, 0)`, which is already inside the sphere of radius 0.1 around the
origin, moves and shrinks the sphere, and `(0, 0.1, 0)` is lost. -/
theorem C28_enclose_violation : ∃ (s t : Sphere ℝ) (p x : V3 ℝ), 0 < s.r ∧ s.enclose p = some t ∧
    x ∈ Spec.ball s.pos s.r ∧ p ∈ Spec.ball s.pos s.r ∧ x ∉ Spec.ball t.pos t.r := by
  refine ⟨⟨⟨0, 0, 0⟩, 1 / 10⟩, ⟨⟨-1 / 5000, 0, 0⟩, 999 / 10000⟩, ⟨249 / 2500, 0, 0⟩, ⟨0, 1 / 10, 0⟩, by norm_num, ?_, ?_, ?_, ?_⟩
  · have e : lenSq ((⟨249 / 2500, 0, 0⟩ : V3 ℝ) - ⟨0, 0, 0⟩) = 249 / 2500 * (249 / 2500) := by norm_num [lenSq, dot]
    unfold Sphere.enclose
    dsimp only
    rw [e, if_pos (by norm_num), Real.sqrt_mul_self (by norm_num), if_neg (by norm_num)]
    congr 2
    · ext <;> norm_num
    · norm_num
  · show distSq (⟨0, 1 / 10, 0⟩ : V3 ℝ) ⟨0, 0, 0⟩ ≤ 1 / 10 * (1 / 10)
    norm_num [distSq, lenSq, dot]
  · show distSq (⟨249 / 2500, 0, 0⟩ : V3 ℝ) ⟨0, 0, 0⟩ ≤ 1 / 10 * (1 / 10)
    norm_num [distSq, lenSq, dot]
  · show ¬ distSq (⟨0, 1 / 10, 0⟩ : V3 ℝ) ⟨-1 / 5000, 0, 0⟩ ≤ 999 / 10000 * (999 / 10000)
    norm_num [distSq, lenSq, dot]

/-- C28: `ExtendRadiusToContain` contains the point, or the sphere, and everything that was inside. -/
theorem C28_extendRadius (s : Sphere ℝ) (hs : 0 ≤ s.r) (eps : ℝ) (he : 0 ≤ eps) :
    (∀ p : V3 ℝ, p ∈ Spec.ball (s.extendRadius p eps).pos (s.extendRadius p eps).r ∧
      Spec.ball s.pos s.r ⊆ Spec.ball (s.extendRadius p eps).pos (s.extendRadius p eps).r) ∧
    (∀ o : Sphere ℝ, 0 ≤ o.r → Spec.ball o.pos o.r ⊆ Spec.ball (s.extendRadiusSphere o eps).pos (s.extendRadiusSphere o eps).r ∧
      Spec.ball s.pos s.r ⊆ Spec.ball (s.extendRadiusSphere o eps).pos (s.extendRadiusSphere o eps).r) := by
  constructor
  · intro p
    unfold Sphere.extendRadius
    dsimp only
    rw [max2_eq]
    constructor
    · apply mem_of_dist_le
      rw [V3.dist_comm]
      exact (by linarith : _ ≤ V3.dist s.pos p + eps).trans (le_max_right _ _)
    · rw [ball_subset_ball hs (hs.trans (le_max_left _ _)), dist_self, zero_add]
      exact le_max_left _ _
  · intro o ho
    unfold Sphere.extendRadiusSphere
    dsimp only
    rw [max2_eq]
    constructor
    · rw [ball_subset_ball ho (hs.trans (le_max_left _ _))]
      exact (by linarith : _ ≤ V3.dist s.pos o.pos + o.r + eps).trans (le_max_right _ _)
    · rw [ball_subset_ball hs (hs.trans (le_max_left _ _)), dist_self, zero_add]
      exact le_max_left _ _

example := C28_extendRadius ⟨⟨1, 2, 3⟩, 1⟩ (by norm_num) (1/1000) (by norm_num)

/-! ### FastEnclosingSphere -/

/-- C28: `FastEnclosingSphere` of points that extend at least 2 along the x axis contains all the points. -/
theorem C28_fastEnclosing_partial (ps : List (V3 ℝ)) (h : ∃ p ∈ ps, ∃ q ∈ ps, p.x + 2 ≤ q.x) :
    ∃ t, Sphere.fastEnclosingSphere ps = some t ∧ ∀ p ∈ ps, p ∈ Spec.ball t.pos t.r := by
  obtain ⟨p, hp, q, hq, hpq⟩ := h
  have hne : ps ≠ [] := fun h => by rw [h] at hp; simp at hp
  have hr : 1 ≤ (Sphere.fastInitial ps ⟨0, 0, 0⟩).r := by
    obtain ⟨a, ha, ha'⟩ := extremeIndex_spec (fun p : V3 ℝ => p.x) ps hne
    obtain ⟨b, hb, hb'⟩ := extremeIndex_spec (fun p : V3 ℝ => -p.x) ps hne
    have hx : 4 ≤ distSq a b := by
      have h1 := ha' p hp
      have h2 := hb' q hq
      rw [distSq_eq]
      have h1 : a.x ≤ p.x := h1
      have h2 : -b.x ≤ -q.x := h2
      nlinarith [mul_self_nonneg (a.y - b.y), mul_self_nonneg (a.z - b.z)]
    have key : ∀ c d : V3 ℝ, 4 ≤ distSq c d → 1 ≤ V3.dist c ((1 / 2 : ℝ) • (c + d)) := by
      intro c d hcd
      rw [(mid_dist c d).1]
      have := dist_mul_self c d
      have := dist_nonneg c d
      nlinarith
    unfold Sphere.fastInitial
    simp only [List.getD_eq_getElem?_getD, ha, hb, Option.getD_some]
    split_ifs with h1 h2
    · exact key _ _ (by linarith [h1.1])
    · exact key _ _ (by linarith [h2.1])
    · exact key _ _ hx
  obtain ⟨t, h1, -, h3, -⟩ := C28_enclose_history_partial ps _ hr
  exact ⟨t, h1, h3⟩

example := C28_fastEnclosing_partial [⟨5, 0, 0⟩, ⟨0, 7, 0⟩, ⟨1, 1, 1⟩] ⟨⟨0, 7, 0⟩, by simp, ⟨5, 0, 0⟩, by simp, by norm_num⟩

/-- C28 fails for a single point: `FastEnclosingSphere` divides zero by zero. -/
theorem C28_fastEnclosing_violation (p : V3 ℝ) : Sphere.fastEnclosingSphere [p] = none := by
  have e : Sphere.fastInitial [p] ⟨0, 0, 0⟩ = ⟨p, 0⟩ := by
    have hp : (1 / 2 : ℝ) • (p + p) = p := by ext <;> simp <;> ring
    unfold Sphere.fastInitial
    simp only [AABB.extremeIndex, List.foldl_nil, List.getD_cons_zero, distSq_self, gt_iff_lt, lt_self_iff_false, and_self, if_false, hp, dist_self]
  unfold Sphere.fastEnclosingSphere
  rw [e]
  show (Sphere.enclose ⟨p, 0⟩ p).bind _ = none
  have : Sphere.enclose ⟨p, 0⟩ p = none := by
    have h0 : lenSq (p - p) = 0 := by simp [lenSq, dot]
    unfold Sphere.enclose
    dsimp only
    rw [h0, if_pos (by norm_num), if_pos Real.sqrt_zero]
  rw [this]; rfl

end MGL
