import Verif.Model.MinAreaRect
import Verif.Spec.Rect2
import Verif.Spec.Hull2D
import Mathlib.Tactic.Linarith
import Mathlib.Tactic.FinCases
import Mathlib.Tactic.LinearCombination

/-! Lemmas for the rotating calipers. -/

namespace MGL.MinAreaRect
open V2 Spec
noncomputable section

/-- Quarter turns counter-clockwise. -/
def turn : Fin 4 → V2 ℝ → V2 ℝ
  | 0, w => w
  | 1, w => ⟨-w.y, w.x⟩
  | 2, w => ⟨-w.x, -w.y⟩
  | 3, w => ⟨w.y, -w.x⟩

/-- Quarter turns clockwise. -/
def unturn : Fin 4 → V2 ℝ → V2 ℝ
  | 0, w => w
  | 1, w => ⟨w.y, -w.x⟩
  | 2, w => ⟨-w.x, -w.y⟩
  | 3, w => ⟨-w.y, w.x⟩

theorem turn_unturn (k : Fin 4) (w : V2 ℝ) : turn k (unturn k w) = w := by
  fin_cases k <;> ext <;> simp [turn, unturn]

theorem dot_unturn (k : Fin 4) (w : V2 ℝ) : dot (unturn k w) (unturn k w) = dot w w := by
  fin_cases k <;> simp [unturn, dot] <;> ring

theorem dot_turn (k : Fin 4) (w : V2 ℝ) : dot (turn k w) (turn k w) = dot w w := by
  fin_cases k <;> simp [turn, dot] <;> ring

theorem cosA_eq (s : Cal) (k : Fin 4) : cosA s k = dot (turn k s.ed) (s.d k) := by
  fin_cases k <;> simp [cosA, turn, dot, perpDot] <;> ring

theorem pick_spec (s : Cal) : ∃ k, pick s = (unturn k (s.d k), k) ∧ ∀ j, cosA s j ≤ cosA s k := by
  have hm : ∀ j, cosA s j ≤ maxCos s := by
    intro j
    fin_cases j <;> simp [maxCos]
  by_cases h0 : cosA s 0 ≥ maxCos s
  · exact ⟨0, by rw [pick, if_pos h0]; rfl, fun j => (hm j).trans h0⟩
  by_cases h1 : cosA s 1 ≥ maxCos s
  · exact ⟨1, by rw [pick, if_neg h0, if_pos h1]; rfl, fun j => (hm j).trans h1⟩
  by_cases h2 : cosA s 2 ≥ maxCos s
  · exact ⟨2, by rw [pick, if_neg h0, if_neg h1, if_pos h2]; rfl, fun j => (hm j).trans h2⟩
  · refine ⟨3, by rw [pick, if_neg h0, if_neg h1, if_neg h2]; rfl, fun j => (hm j).trans ?_⟩
    push Not at h0 h1 h2
    by_contra h3
    push Not at h3
    exact lt_irrefl _ (max_lt (max_lt h0 h1) (max_lt h2 h3))

/-- The facts about the corners of the hull that the calipers rely on. -/
structure Ring (p : ℕ → V2 ℝ) (n : ℕ) : Prop where
  two : 2 ≤ n
  left : ∀ i < n, ∀ j < n, 0 ≤ area2 (p i) (p (next n i)) (p j)
  strict : ∀ i < n, ∀ j < n, j ≠ i → j ≠ next n i → 0 < area2 (p i) (p (next n i)) (p j)
  far : ∀ i < n, (1 / 1000 : ℝ) ^ 2 < distSq2 (p i) (p (next n i))
  inj : ∀ i < n, ∀ j < n, p i = p j → i = j

variable {p : ℕ → V2 ℝ} {n : ℕ}

theorem next_lt (h : 2 ≤ n) (i : ℕ) : next n i < n := by unfold next; split <;> omega

theorem next_ne (h : 2 ≤ n) (i : ℕ) : next n i ≠ i := by unfold next; split <;> omega

theorem Ring.dir (R : Ring p n) {i : ℕ} (hi : i < n) : ∃ r : ℝ, 0 < r ∧ dirAt p n i = r • (p (next n i) - p i) ∧ dot (dirAt p n i) (dirAt p n i) = 1 := by
  have hf := R.far i hi
  set v := p (next n i) - p i with hv
  have hl : v.x * v.x + v.y * v.y > 1 / 1000000 := by
    rw [hv]
    simp only [distSq2, sub_x, sub_y] at hf ⊢
    nlinarith
  have h0 : 0 < v.x * v.x + v.y * v.y := by linarith
  have hs := Real.sqrt_pos.2 h0
  have hss := Real.mul_self_sqrt h0.le
  refine ⟨1 / √(v.x * v.x + v.y * v.y), by positivity, by rw [dirAt, ← hv, normalized, if_pos hl], ?_⟩
  rw [dirAt, ← hv, normalized, if_pos hl]
  simp only [dot, smul_x, smul_y]
  have : 1 / √(v.x * v.x + v.y * v.y) * v.x * (1 / √(v.x * v.x + v.y * v.y) * v.x) + 1 / √(v.x * v.x + v.y * v.y) * v.y * (1 / √(v.x * v.x + v.y * v.y) * v.y)
      = (v.x * v.x + v.y * v.y) / (√(v.x * v.x + v.y * v.y) * √(v.x * v.x + v.y * v.y)) := by
    field_simp
  rw [this, hss, div_self h0.ne']

theorem Ring.dir_left (R : Ring p n) {i j : ℕ} (hi : i < n) (hj : j < n) : 0 ≤ perpDot (dirAt p n i) (p j - p i) := by
  obtain ⟨r, hr, hd, -⟩ := R.dir hi
  have := R.left i hi j hj
  rw [hd]
  simp only [perpDot, smul_x, smul_y, sub_x, sub_y, area2] at *
  nlinarith [mul_nonneg hr.le this]

theorem Ring.dir_next (R : Ring p n) {i : ℕ} (hi : i < n) : perpDot (dirAt p n i) (p (next n i) - p i) = 0 := by
  obtain ⟨r, hr, hd, -⟩ := R.dir hi
  rw [hd]
  simp only [perpDot, smul_x, smul_y, sub_x, sub_y]
  ring

theorem Ring.sup_dir (R : Ring p n) {i : ℕ} (hi : i < n) {u : V2 ℝ} (hu : ∀ j < n, 0 ≤ perpDot u (p j - p i)) : 0 ≤ perpDot u (dirAt p n i) := by
  obtain ⟨r, hr, hd, -⟩ := R.dir hi
  have := hu _ (next_lt R.two i)
  rw [hd]
  simp only [perpDot, smul_x, smul_y, sub_x, sub_y] at *
  nlinarith [mul_nonneg hr.le this]

theorem Ring.dir_back (R : Ring p n) {i j : ℕ} (hi : i < n) (hj : j < n) {u : V2 ℝ} (hu : ∀ j < n, 0 ≤ perpDot u (p j - p i))
    (h : dirAt p n i = -u) : 0 ≤ dot (dirAt p n i) (p j - p i) := by
  obtain ⟨r, hr, hd, -⟩ := R.dir hi
  by_cases h1 : j = i
  · subst h1; simp [dot]
  by_cases h2 : j = next n i
  · rw [h2, hd]
    simp only [dot, smul_x, smul_y, sub_x, sub_y]
    nlinarith [mul_nonneg hr.le (mul_self_nonneg ((p (next n i)).x - (p i).x)), mul_nonneg hr.le (mul_self_nonneg ((p (next n i)).y - (p i).y))]
  · exfalso
    have h3 := mul_pos hr (R.strict i hi j hj h1 h2)
    have h4 := hu j hj
    have hx := congrArg V2.x (hd.symm.trans h)
    have hy := congrArg V2.y (hd.symm.trans h)
    simp only [smul_x, smul_y, sub_x, sub_y, neg_x, neg_y, perpDot, area2] at *
    have : u.x = -(r * ((p (next n i)).x - (p i).x)) := by linarith
    have h6 : u.y = -(r * ((p (next n i)).y - (p i).y)) := by linarith
    rw [this, h6] at h4
    nlinarith

theorem Ring.dir_ne (R : Ring p n) {i : ℕ} (hi : i < n) : dirAt p n (next n i) ≠ dirAt p n i := by
  obtain ⟨r, hr, hd, hu⟩ := R.dir hi
  have hn := next_lt R.two i
  obtain ⟨r', hr', hd', -⟩ := R.dir hn
  intro h
  by_cases hb : next n (next n i) = i
  · rw [hd', hb, hd] at h
    have hf := R.far i hi
    have hx := congrArg V2.x h
    have hy := congrArg V2.y h
    simp only [smul_x, smul_y, sub_x, sub_y, distSq2] at *
    have h1 : (r + r') * ((p (next n i)).x - (p i).x) = 0 := by linarith
    have h2 : (r + r') * ((p (next n i)).y - (p i).y) = 0 := by linarith
    rcases mul_eq_zero.1 h1 with h3 | h3
    · linarith
    rcases mul_eq_zero.1 h2 with h4 | h4
    · linarith
    nlinarith
  · have h1 := R.strict i hi _ (next_lt R.two (next n i)) hb (next_ne R.two _)
    have h2 := mul_pos (mul_pos hr hr') h1
    rw [hd', hd] at h
    have hx := congrArg V2.x h
    have hy := congrArg V2.y h
    simp only [smul_x, smul_y, sub_x, sub_y, area2] at *
    refine h2.ne' ?_
    linear_combination r * ((p (next n i)).x - (p i).x) * hy - r * ((p (next n i)).y - (p i).y) * hx

/-- Rotation by the smallest angle keeps a point of support. -/
theorem rot_ge {u d q : V2 ℝ} {c s : ℝ} (hu : dot u u = 1) (hd : dot d d = 1) (hcs : c * c + s * s = 1) (hc : 0 ≤ c) (hs : 0 ≤ s) (hs' : 0 ≤ perpDot u d)
    (hle : dot u d ≤ c) (h1 : 0 ≤ perpDot u q) (h2 : 0 ≤ perpDot d q) (h3 : d = -u → 0 ≤ dot d q) :
    0 ≤ c * perpDot u q - s * dot u q := by
  set X := perpDot u q
  set Y := dot u q
  set c' := dot u d
  set s' := perpDot u d
  have e1 : c' * c' + s' * s' = 1 := by
    have : c' * c' + s' * s' = dot u u * dot d d := by simp only [c', s', dot, perpDot]; ring
    rw [this, hu, hd, one_mul]
  have e2 : perpDot d q = c' * X - s' * Y := by
    have : c' * X - s' * Y = dot u u * perpDot d q := by simp only [c', s', X, Y, dot, perpDot]; ring
    rw [this, hu, one_mul]
  rw [e2] at h2
  rcases le_or_gt Y 0 with hY | hY
  · nlinarith [mul_nonneg hc h1, mul_nonneg hs (neg_nonneg.2 hY)]
  rcases hs'.eq_or_lt with hz | hz
  · have : c' = 1 ∨ c' = -1 := by
      rw [← hz] at e1
      have : (c' - 1) * (c' + 1) = 0 := by linarith
      rcases mul_eq_zero.1 this with h | h
      · left; linarith
      · right; linarith
    rcases this with h | h
    · have hc1 : c = 1 := by nlinarith
      have hs0 : s = 0 := by
        have : s * s = 0 := by rw [hc1] at hcs; linarith
        exact mul_self_eq_zero.1 this
      rw [hc1, hs0]; linarith
    · exfalso
      have hdu : d = -u := by
        have hx : d.x = c' * u.x - s' * u.y := by
          have : c' * u.x - s' * u.y = dot u u * d.x := by simp only [c', s', dot, perpDot]; ring
          rw [this, hu, one_mul]
        have hy : d.y = c' * u.y + s' * u.x := by
          have : c' * u.y + s' * u.x = dot u u * d.y := by simp only [c', s', dot, perpDot]; ring
          rw [this, hu, one_mul]
        ext
        · rw [hx, h, ← hz]; simp
        · rw [hy, h, ← hz]; simp
      have := h3 hdu
      rw [hdu] at this
      simp only [dot, neg_x, neg_y, Y] at *
      linarith
  · have h4 : 0 < s' * Y := mul_pos hz hY
    have hX : 0 < X := by
      rcases h1.eq_or_lt with h | h
      · rw [← h] at h2; linarith
      · exact h
    have hc' : 0 < c' := by
      by_contra hn
      push Not at hn
      nlinarith [mul_nonneg hX.le (neg_nonneg.2 hn)]
    have hss : s ≤ s' := by
      by_contra hn
      push Not at hn
      nlinarith
    nlinarith [mul_le_mul_of_nonneg_right hle h1, mul_le_mul_of_nonneg_right hss hY.le]

/-- Of two directions of the right half plane, the higher one is to the left of the lower one. -/
theorem cross_mono {a w : V2 ℝ} (ha : dot a a = 1) (hw : dot w w = 1) (hax : 0 ≤ a.x) (hwx : 0 ≤ w.x) (h : a.y ≤ w.y) : 0 ≤ perpDot a w := by
  simp only [dot, perpDot] at *
  rcases le_total a.y 0 with h1 | h1
  · rcases le_total w.y 0 with h2 | h2
    · have : a.x ≤ w.x := by
        by_contra hn
        push Not at hn
        nlinarith
      nlinarith [mul_le_mul this (neg_le_neg h) (neg_nonneg.2 h2) hwx]
    · nlinarith [mul_nonneg hax h2, mul_nonneg (neg_nonneg.2 h1) hwx]
  · have : w.x ≤ a.x := by
      by_contra hn
      push Not at hn
      nlinarith
    nlinarith [mul_le_mul this h h1 hax]

/-- Two unit vectors of the right half plane at the same height are equal. -/
theorem eq_of_y {a w : V2 ℝ} (ha : dot a a = 1) (hw : dot w w = 1) (hax : 0 ≤ a.x) (hwx : 0 ≤ w.x) (h : a.y = w.y) : a = w := by
  simp only [dot] at *
  ext
  · exact (mul_self_inj hax hwx).1 (by rw [h] at ha; linarith)
  · exact h

theorem between {a b w : V2 ℝ} (ha : dot a a = 1) (hb : dot b b = 1) (hw : dot w w = 1) (hax : 0 ≤ a.x) (hbx : 0 ≤ b.x) (hwx : 0 ≤ w.x)
    (h1 : a.y ≤ w.y) (h2 : w.y ≤ b.y) (hc : 0 ≤ dot a b) : ∃ s t : ℝ, 0 ≤ s ∧ 0 ≤ t ∧ w = s • a + t • b := by
  rcases (cross_mono ha hb hax hbx (h1.trans h2)).eq_or_lt with h | h
  · have e1 : dot a b * dot a b + perpDot a b * perpDot a b = 1 := by
      have : dot a b * dot a b + perpDot a b * perpDot a b = dot a a * dot b b := by simp only [dot, perpDot]; ring
      rw [this, ha, hb, one_mul]
    have e2 : dot a b = 1 := by
      rw [← h] at e1
      have : (dot a b - 1) * (dot a b + 1) = 0 := by linarith
      rcases mul_eq_zero.1 this with h | h <;> linarith
    have hy : b.y = a.y := by
      have : dot a b * a.y + perpDot a b * a.x = dot a a * b.y := by simp only [dot, perpDot]; ring
      rw [ha, e2, ← h] at this
      linarith
    refine ⟨1, 0, zero_le_one, le_rfl, ?_⟩
    rw [eq_of_y hw ha hwx hax (by linarith)]
    ext <;> simp
  · refine ⟨perpDot w b / perpDot a b, perpDot a w / perpDot a b, div_nonneg (cross_mono hw hb hwx hbx h2) h.le, div_nonneg (cross_mono ha hw hax hwx h1) h.le, ?_⟩
    have h' := h.ne'
    ext
    · simp only [add_x, smul_x]
      field_simp
      simp only [perpDot]; ring
    · simp only [add_y, smul_y]
      field_simp
      simp only [perpDot]; ring

/-- Between two directions with the same points of support, the area is at least the smaller of the two. -/
theorem area_between {a b : V2 ℝ} {s t a1 b1 a2 b2 m : ℝ} (ha : dot a a = 1) (hb : dot b b = 1) (hw : dot (s • a + t • b) (s • a + t • b) = 1)
    (hs : 0 ≤ s) (ht : 0 ≤ t) (h1 : 0 ≤ a1) (h2 : 0 ≤ b1) (h3 : 0 ≤ a2) (h4 : 0 ≤ b2) (hm1 : m ≤ a1 * b1) (hm2 : m ≤ a2 * b2) :
    m ≤ (s * a1 + t * a2) * (s * b1 + t * b2) := by
  rcases le_or_gt m 0 with hm | hm
  · exact hm.trans (mul_nonneg (add_nonneg (mul_nonneg hs h1) (mul_nonneg ht h3)) (add_nonneg (mul_nonneg hs h2) (mul_nonneg ht h4)))
  have e : s * s + t * t + 2 * (s * t) * dot a b = 1 := by
    have : dot (s • a + t • b) (s • a + t • b) = s * s * dot a a + t * t * dot b b + 2 * (s * t) * dot a b := by
      simp only [dot, add_x, add_y, smul_x, smul_y]; ring
    rw [ha, hb, hw] at this
    linarith
  have hd : dot a b ≤ 1 := by
    simp only [dot] at *
    nlinarith [mul_self_nonneg (a.x - b.x), mul_self_nonneg (a.y - b.y)]
  have hst := mul_nonneg hs ht
  have e1 : 1 ≤ s * s + t * t + 2 * (s * t) := by nlinarith [mul_le_mul_of_nonneg_left hd hst]
  have e2 : 2 * m ≤ a1 * b2 + a2 * b1 := by
    have h5 : m * m ≤ (a1 * b1) * (a2 * b2) := mul_le_mul hm1 hm2 hm.le (hm.le.trans hm1)
    have h6 : 0 ≤ a1 * b2 + a2 * b1 := add_nonneg (mul_nonneg h1 h4) (mul_nonneg h3 h2)
    by_contra hn
    push Not at hn
    nlinarith [mul_self_nonneg (a1 * b2 - a2 * b1)]
  nlinarith [mul_le_mul_of_nonneg_left hm1 (mul_nonneg hs hs), mul_le_mul_of_nonneg_left hm2 (mul_nonneg ht ht), mul_le_mul_of_nonneg_left e2 hst,
    mul_le_mul_of_nonneg_left e1 hm.le]

/-- Each of the four corners supports the hull in its direction. -/
def Sup (p : ℕ → V2 ℝ) (n : ℕ) (w : V2 ℝ) (e : Fin 4 → ℕ) : Prop := ∀ k, ∀ j < n, 0 ≤ perpDot (turn k w) (p j - p (e k))

/-- The area of the rectangle that touches the four corners. -/
def ar (p : ℕ → V2 ℝ) (w : V2 ℝ) (e : Fin 4 → ℕ) : ℝ := perpDot w (p (e 2) - p (e 0)) * dot w (p (e 1) - p (e 3))

theorem sup_iff {w : V2 ℝ} {e : Fin 4 → ℕ} : Sup p n w e ↔ ∀ j < n, 0 ≤ perpDot w (p j - p (e 0)) ∧ 0 ≤ dot w (p (e 1) - p j) ∧ 0 ≤ perpDot w (p (e 2) - p j)
    ∧ 0 ≤ dot w (p j - p (e 3)) := by
  simp only [Sup, Fin.forall_fin_succ, perpDot, dot, turn, sub_x, sub_y]
  constructor
  · intro h j hj
    refine ⟨h.1 j hj, ?_, ?_, ?_⟩
    · have := h.2.1 j hj; simp [turn] at this; linarith
    · have := h.2.2.1 j hj; simp [turn] at this; linarith
    · have := h.2.2.2.1 j hj; simp [turn] at this; linarith
  · intro h
    refine ⟨fun j hj => (h j hj).1, fun j hj => ?_, fun j hj => ?_, fun j hj => ?_, fun k => k.elim0⟩
    · have := (h j hj).2.1; simp [turn]; linarith
    · have := (h j hj).2.2.1; simp [turn]; linarith
    · have := (h j hj).2.2.2; simp [turn]; linarith

theorem Sup.nonneg {w : V2 ℝ} {e : Fin 4 → ℕ} (h : Sup p n w e) (he : ∀ k, e k < n) : 0 ≤ perpDot w (p (e 2) - p (e 0)) ∧ 0 ≤ dot w (p (e 1) - p (e 3)) :=
  ⟨(sup_iff.1 h _ (he 2)).1, (sup_iff.1 h _ (he 1)).2.2.2⟩

theorem Sup.ar_nonneg {w : V2 ℝ} {e : Fin 4 → ℕ} (h : Sup p n w e) (he : ∀ k, e k < n) : 0 ≤ ar p w e :=
  mul_nonneg (h.nonneg he).1 (h.nonneg he).2

theorem Sup.ar_eq {w : V2 ℝ} {e e' : Fin 4 → ℕ} (h : Sup p n w e) (he : ∀ k, e k < n) (h' : Sup p n w e') (he' : ∀ k, e' k < n) : ar p w e = ar p w e' := by
  rw [sup_iff] at h h'
  have a0 := (h _ (he' 0)).1
  have b0 := (h' _ (he 0)).1
  have a1 := (h _ (he' 1)).2.1
  have b1 := (h' _ (he 1)).2.1
  have a2 := (h _ (he' 2)).2.2.1
  have b2 := (h' _ (he 2)).2.2.1
  have a3 := (h _ (he' 3)).2.2.2
  have b3 := (h' _ (he 3)).2.2.2
  unfold ar
  simp only [perpDot, dot, sub_x, sub_y] at *
  congr 1 <;> linarith

/-- The same four corners, seen from the direction a quarter turn before. -/
def shift (e : Fin 4 → ℕ) : Fin 4 → ℕ := ![e 3, e 0, e 1, e 2]

theorem Sup.shift {w : V2 ℝ} {e : Fin 4 → ℕ} (h : Sup p n ⟨-w.y, w.x⟩ e) : Sup p n w (shift e) := by
  rw [sup_iff] at *
  intro j hj
  have := h j hj
  simp only [MinAreaRect.shift, perpDot, dot, sub_x, sub_y] at *
  simp
  refine ⟨by linarith [this.2.2.2], by linarith [this.1], by linarith [this.2.1], by linarith [this.2.2.1]⟩

theorem ar_shift {w : V2 ℝ} {e : Fin 4 → ℕ} : ar p ⟨-w.y, w.x⟩ e = ar p w (shift e) := by
  simp only [ar, shift, perpDot, dot, sub_x, sub_y]
  simp
  ring

/-- Not all directions point backwards. -/
theorem Ring.cos_nonneg (R : Ring p n) {w : V2 ℝ} {e : Fin 4 → ℕ} (hw : dot w w = 1) (he : ∀ k, e k < n) (h : Sup p n w e) :
    0 ≤ dot w (dirAt p n (e 0)) ∨ 0 ≤ perpDot w (dirAt p n (e 1)) := by
  by_contra hn
  push Not at hn
  obtain ⟨h0, h1⟩ := hn
  have hs := sup_iff.1 h
  have s0 := R.sup_dir (he 0) (u := w) fun j hj => (hs j hj).1
  have key : ∀ j < n, 0 ≤ dot w (dirAt p n (e 0)) * perpDot w (p j - p (e 0)) - perpDot w (dirAt p n (e 0)) * dot w (p j - p (e 0)) := by
    intro j hj
    have := R.dir_left (he 0) hj
    have e2 : dot w (dirAt p n (e 0)) * perpDot w (p j - p (e 0)) - perpDot w (dirAt p n (e 0)) * dot w (p j - p (e 0))
        = dot w w * perpDot (dirAt p n (e 0)) (p j - p (e 0)) := by simp only [dot, perpDot]; ring
    rw [e2, hw, one_mul]; exact this
  have kb := key _ (he 1)
  have hA := (hs _ (he 1)).1
  have hB := (hs _ (he 0)).2.1
  rcases s0.eq_or_lt with hz | hz
  · have hx : ∀ j < n, perpDot w (p j - p (e 0)) = 0 := by
      intro j hj
      have := key j hj
      rw [← hz] at this
      have h2 := (hs j hj).1
      nlinarith
    obtain ⟨r, hr, hd, -⟩ := R.dir (he 1)
    have e1 := hx _ (he 1)
    have e2 := hx _ (next_lt R.two (e 1))
    rw [hd] at h1
    simp only [perpDot, smul_x, smul_y, sub_x, sub_y] at *
    have : w.x * (r * ((p (next n (e 1))).y - (p (e 1)).y)) - w.y * (r * ((p (next n (e 1))).x - (p (e 1)).x)) = 0 := by
      linear_combination r * e2 - r * e1
    linarith
  · have hB0 : dot w (p (e 1) - p (e 0)) = 0 := by nlinarith [mul_nonneg hz.le hB]
    have hA0 : perpDot w (p (e 1) - p (e 0)) = 0 := by
      rw [hB0] at kb
      nlinarith
    have : p (e 1) = p (e 0) := by
      have hx : (p (e 1) - p (e 0)).x = 0 := by
        have : w.x * dot w (p (e 1) - p (e 0)) - w.y * perpDot w (p (e 1) - p (e 0)) = dot w w * (p (e 1) - p (e 0)).x := by simp only [dot, perpDot]; ring
        rw [hw, hA0, hB0] at this; linarith
      have hy : (p (e 1) - p (e 0)).y = 0 := by
        have : w.y * dot w (p (e 1) - p (e 0)) + w.x * perpDot w (p (e 1) - p (e 0)) = dot w w * (p (e 1) - p (e 0)).y := by simp only [dot, perpDot]; ring
        rw [hw, hA0, hB0] at this; linarith
      simp only [sub_x, sub_y] at hx hy
      ext <;> linarith
    rw [R.inj _ (he 1) _ (he 0) this] at h1
    linarith

end
end MGL.MinAreaRect
