import Verif.Model.Triangle
import Verif.Proofs.Vec3
import Verif.Proofs.Scalar
import Verif.Proofs.Farkas

/-! C34: triangle against axis aligned box. -/

namespace MGL
open V3
variable {α : Type*} [Field α] [LinearOrder α] [IsStrictOrderedRing α]

set_option linter.unusedSectionVars false

/-- A vector orthogonal to two independent vectors is a multiple of their cross product. -/
theorem parallel_of_perp {a b q : V3 α} (hn : cross a b ≠ 0) (ha : dot q a = 0) (hb : dot q b = 0) : ∃ k : α, q = k • cross a b := by
  have hpos := lenSq_pos hn
  refine ⟨dot q (cross a b) / lenSq (cross a b), ?_⟩
  have e : lenSq (cross a b) • q = dot q (cross a b) • cross a b := by
    ext
    · simp only [smul_x]
      simp only [lenSq, dot, cross] at *
      linear_combination (b.x * (a.x*b.x + a.y*b.y + a.z*b.z) - a.x * (b.x*b.x+b.y*b.y+b.z*b.z)) * (-1) * ha +
        (b.x * (a.x*a.x + a.y*a.y + a.z*a.z) - a.x * (a.x*b.x+a.y*b.y+a.z*b.z)) * hb
    · simp only [smul_y]
      simp only [lenSq, dot, cross] at *
      linear_combination (b.y * (a.x*b.x + a.y*b.y + a.z*b.z) - a.y * (b.x*b.x+b.y*b.y+b.z*b.z)) * (-1) * ha +
        (b.y * (a.x*a.x + a.y*a.y + a.z*a.z) - a.y * (a.x*b.x+a.y*b.y+a.z*b.z)) * hb
    · simp only [smul_z]
      simp only [lenSq, dot, cross] at *
      linear_combination (b.z * (a.x*b.x + a.y*b.y + a.z*b.z) - a.z * (b.x*b.x+b.y*b.y+b.z*b.z)) * (-1) * ha +
        (b.z * (a.x*a.x + a.y*a.y + a.z*a.z) - a.z * (a.x*b.x+a.y*b.y+a.z*b.z)) * hb
  have h := hpos.ne'
  ext
  · have := congrArg V3.x e; simp at this ⊢; field_simp; linear_combination this
  · have := congrArg V3.y e; simp at this ⊢; field_simp; linear_combination this
  · have := congrArg V3.z e; simp at this ⊢; field_simp; linear_combination this

/-- If the axis test separates, no value between the two projections is within the half extent. -/
theorem axisSeparates_sound {d1 d2 r p s : α} (h : Tri.axisSeparates d1 d2 r = true) (hs0 : 0 ≤ s) (hs1 : s ≤ 1) (hp : p = (1 - s) * d1 + s * d2)
    (hr : |p| ≤ r) : False := by
  unfold Tri.axisSeparates at h
  simp only [decide_eq_true_eq, absF_eq] at h
  have h1 : |r| = r := abs_of_nonneg ((abs_nonneg p).trans hr)
  rw [h1] at h
  have h2 : |p - (d1 + d2) * (1 / 2)| ≤ |(d1 + d2) * (1 / 2) - d1| := by
    have e1 : p - (d1 + d2) * (1 / 2) = (2 * s - 1) * ((d1 + d2) * (1 / 2) - d1) := by rw [hp]; ring
    rw [e1, abs_mul]
    have : |2 * s - 1| ≤ 1 := abs_le.2 ⟨by linarith, by linarith⟩
    exact mul_le_of_le_one_left (abs_nonneg _) this
  have h3 : |(d1 + d2) * (1 / 2)| ≤ |p| + |p - (d1 + d2) * (1 / 2)| := by
    have := abs_sub_abs_le_abs_sub ((d1 + d2) * (1 / 2)) p
    rw [abs_sub_comm] at this
    linarith
  linarith

/-- Conversely the test detects that both projections are beyond the half extent on the same side. -/
theorem axisSeparates_complete {d1 d2 r k : α} (hr : 0 ≤ r) (h1 : |k| * r < k * d1) (h2 : |k| * r < k * d2) : Tri.axisSeparates d1 d2 r = true := by
  unfold Tri.axisSeparates
  simp only [decide_eq_true_eq, absF_eq]
  rw [abs_of_nonneg hr]
  rcases lt_trichotomy k 0 with hk | hk | hk
  · rw [abs_of_neg hk] at h1 h2
    have g1 : d1 < -r := by nlinarith
    have g2 : d2 < -r := by nlinarith
    rw [abs_of_neg (show (d1 + d2) * (1 / 2) < 0 by linarith)]
    rcases abs_cases ((d1 + d2) * (1 / 2) - d1) with ⟨e, -⟩ | ⟨e, -⟩ <;> rw [e] <;> linarith
  · rw [hk] at h1; simp at h1
  · rw [abs_of_pos hk] at h1 h2
    have g1 : r < d1 := by nlinarith
    have g2 : r < d2 := by nlinarith
    rw [abs_of_pos (show 0 < (d1 + d2) * (1 / 2) by linarith)]
    rcases abs_cases ((d1 + d2) * (1 / 2) - d1) with ⟨e, -⟩ | ⟨e, -⟩ <;> rw [e] <;> linarith

/-- The bound of a two-term projection over the box. -/
theorem proj_bound {p q y z hy hz : α} (h1 : |y| ≤ hy) (h2 : |z| ≤ hz) : |p * z - q * y| ≤ hy * |q| + hz * |p| := by
  calc |p * z - q * y| ≤ |p * z| + |q * y| := abs_sub _ _
    _ = |z| * |p| + |y| * |q| := by rw [abs_mul, abs_mul]; ring
    _ ≤ hy * |q| + hz * |p| := by nlinarith [abs_nonneg p, abs_nonneg q]

set_option maxHeartbeats 1000000 in
/-- C34: if `Intersects(AABB)` returns false for a triangle with nonzero area, the triangle has no point inside the box. -/
theorem C34_false_partial (t : Tri α) (hn : cross (t.b - t.a) (t.c - t.a) ≠ 0) (b : AABB α) (h : t.intersectsAABB b = false) :
    ∀ x ∈ Spec.tri t.a t.b t.c, x ∉ Spec.openBox b.minPoint b.maxPoint := by
  rintro x ⟨u, v, w, hu, hv, hw, h1, rfl⟩ ⟨x0, x1, y0, y1, z0, z1⟩
  obtain ⟨A, B, C⟩ := t
  obtain ⟨mn, mx⟩ := b
  dsimp only at *
  obtain rfl : u = 1 - v - w := by linarith
  simp only [add_x, add_y, add_z, smul_x, smul_y, smul_z] at x0 x1 y0 y1 z0 z1
  unfold Tri.intersectsAABB at h
  dsimp only at h
  rw [if_neg] at h
  swap
  · simp only [f3Min, f3Max, min2_eq, max2_eq]
    push Not
    have low : ∀ p q r : α, min p (min q r) ≤ (1 - v - w) * p + v * q + w * r := by
      intro p q r
      have h1 : min p (min q r) ≤ p := min_le_left _ _
      have h2 : min p (min q r) ≤ q := (min_le_right _ _).trans (min_le_left _ _)
      have h3 : min p (min q r) ≤ r := (min_le_right _ _).trans (min_le_right _ _)
      nlinarith
    have high : ∀ p q r : α, (1 - v - w) * p + v * q + w * r ≤ max p (max q r) := by
      intro p q r
      have h1 : p ≤ max p (max q r) := le_max_left _ _
      have h2 : q ≤ max p (max q r) := (le_max_left _ _).trans (le_max_right _ _)
      have h3 : r ≤ max p (max q r) := (le_max_right _ _).trans (le_max_right _ _)
      nlinarith
    exact ⟨(low _ _ _).trans_lt x1, x0.trans_le (high _ _ _), (low _ _ _).trans_lt y1, y0.trans_le (high _ _ _),
      (low _ _ _).trans_lt z1, z0.trans_le (high _ _ _)⟩
  -- the offset of the common point from the centre
  obtain ⟨X, hX⟩ : ∃ X : V3 α, X = ((1 - v - w) • A + v • B + w • C) - (1 / 2 : α) • (mn + mx) := ⟨_, rfl⟩
  have bx : |X.x| < (mx - (1 / 2 : α) • (mn + mx)).x := by
    rw [hX, abs_lt]; simp; constructor <;> linarith
  have bY : |X.y| < (mx - (1 / 2 : α) • (mn + mx)).y := by
    rw [hX, abs_lt]; simp; constructor <;> linarith
  have bz : |X.z| < (mx - (1 / 2 : α) • (mn + mx)).z := by
    rw [hX, abs_lt]; simp; constructor <;> linarith
  generalize hH : mx - (1 / 2 : α) • (mn + mx) = H at *
  generalize (1 / 2 : α) • (mn + mx) = Q at *
  rw [if_neg] at h
  swap
  · rw [absF_eq, absF_eq, not_le]
    generalize hN : cross (B - A) (C - A) = N at *
    have es : dot N (A - Q) = dot N X := by
      rw [hX, ← hN]; simp only [dot, cross]; simp; ring
    rw [es]
    have : |dot N X| < dot H (f3Abs N) := by
      have hb : |dot N X| ≤ |N.x| * |X.x| + |N.y| * |X.y| + |N.z| * |X.z| := by
        unfold dot
        refine (abs_add_le _ _).trans ?_
        rw [abs_mul N.z]
        have := abs_add_le (N.x * X.x) (N.y * X.y)
        rw [abs_mul, abs_mul] at this
        linarith
      refine hb.trans_lt ?_
      simp only [dot, f3Abs, absF_eq]
      have hne : N.x ≠ 0 ∨ N.y ≠ 0 ∨ N.z ≠ 0 := by
        by_contra hc; push Not at hc; exact hn (V3.ext hc.1 hc.2.1 hc.2.2)
      have k1 := mul_le_mul_of_nonneg_left bx.le (abs_nonneg N.x)
      have k2 := mul_le_mul_of_nonneg_left bY.le (abs_nonneg N.y)
      have k3 := mul_le_mul_of_nonneg_left bz.le (abs_nonneg N.z)
      rcases hne with hne | hne | hne
      · have := mul_lt_mul_of_pos_left bx (abs_pos.2 hne); linarith
      · have := mul_lt_mul_of_pos_left bY (abs_pos.2 hne); linarith
      · have := mul_lt_mul_of_pos_left bz (abs_pos.2 hne); linarith
    exact this.trans_le (le_abs_self _)
  simp only [f3Abs, absF_eq] at h
  have key0 : (1 - v - w) + v = 1 - w := by ring
  split_ifs at h with g1 g2 g3 g4 g5 g6 g7 g8 g9
  · exact axisSeparates_sound (s := w) g1 hw (by linarith) (by rw [hX]; simp; ring) (proj_bound (p := (B - A).y) (q := (B - A).z) bY.le bz.le)
  · exact axisSeparates_sound (s := v) g2 hv (by linarith) (by rw [hX]; simp; ring) (proj_bound (p := (C - A).y) (q := (C - A).z) bY.le bz.le)
  · exact axisSeparates_sound (s := v + w) g3 (by linarith) (by linarith) (by rw [hX]; simp; ring) (proj_bound (p := (C - B).y) (q := (C - B).z) bY.le bz.le)
  · exact axisSeparates_sound (s := w) g4 hw (by linarith) (by rw [hX]; simp; ring) ((proj_bound (p := (B - A).z) (q := (B - A).x) bz.le bx.le).trans_eq (add_comm _ _))
  · exact axisSeparates_sound (s := v) g5 hv (by linarith) (by rw [hX]; simp; ring) ((proj_bound (p := (C - A).z) (q := (C - A).x) bz.le bx.le).trans_eq (add_comm _ _))
  · exact axisSeparates_sound (s := v + w) g6 (by linarith) (by linarith) (by rw [hX]; simp; ring) ((proj_bound (p := (C - B).z) (q := (C - B).x) bz.le bx.le).trans_eq (add_comm _ _))
  · exact axisSeparates_sound (s := w) g7 hw (by linarith) (by rw [hX]; simp; ring) ((proj_bound (p := (B - A).x) (q := (B - A).y) bx.le bY.le).trans_eq (add_comm _ _))
  · exact axisSeparates_sound (s := v) g8 hv (by linarith) (by rw [hX]; simp; ring) ((proj_bound (p := (C - A).x) (q := (C - A).y) bx.le bY.le).trans_eq (add_comm _ _))
  · exact axisSeparates_sound (s := v + w) g9 (by linarith) (by linarith) (by rw [hX]; simp; ring) ((proj_bound (p := (C - B).x) (q := (C - B).y) bx.le bY.le).trans_eq (add_comm _ _))

example := C34_false_partial (⟨⟨0, 0, 0⟩, ⟨1, 0, 0⟩, ⟨0, 1, 0⟩⟩ : Tri ℚ) (by simp [cross, V3.ext_iff]) ⟨⟨2/3, 2/3, -1⟩, ⟨2, 2, 1⟩⟩ (by decide +kernel)

/-! ### Completeness -/

theorem ite_false_true {c : Prop} [Decidable c] {x : Bool} (h : (if c then false else x) = true) : ¬ c ∧ x = true := by
  by_cases hc : c
  · rw [if_pos hc] at h; cases h
  · rw [if_neg hc] at h; exact ⟨hc, h⟩


set_option maxHeartbeats 1000000 in
/-- What the code's thirteen tests say about an axis `q`: the projections of the three vertices, measured from the centre
of the box, do not all lie beyond the half extent of the box. -/
theorem box_tri_axes (t : Tri α) (mn mx Q H : V3 α) (hQ : Q = (1 / 2 : α) • (mn + mx)) (hH : H = mx - Q) (h0 : 0 ≤ H.x) (h1 : 0 ≤ H.y) (h2 : 0 ≤ H.z)
    (h : t.intersectsAABB ⟨mn, mx⟩ = true) (q : V3 α)
    (hax : (q.y = 0 ∧ q.z = 0) ∨ (q.x = 0 ∧ q.z = 0) ∨ (q.x = 0 ∧ q.y = 0) ∨ (∃ k : α, q = k • cross (t.b - t.a) (t.c - t.a)) ∨
      ∃ e ∈ ([t.b - t.a, t.c - t.a, t.c - t.b] : List (V3 α)), ∃ k : α, q = k • ⟨0, -e.z, e.y⟩ ∨ q = k • ⟨e.z, 0, -e.x⟩ ∨ q = k • ⟨-e.y, e.x, 0⟩)
    (ha : H.x * |q.x| + H.y * |q.y| + H.z * |q.z| < dot q (t.a - Q)) (hb : H.x * |q.x| + H.y * |q.y| + H.z * |q.z| < dot q (t.b - Q))
    (hc : H.x * |q.x| + H.y * |q.y| + H.z * |q.z| < dot q (t.c - Q)) : False := by
  unfold Tri.intersectsAABB at h
  dsimp only at h
  rw [← hQ, ← hH] at h
  obtain ⟨g0, h⟩ := ite_false_true h
  obtain ⟨gp, h⟩ := ite_false_true h
  obtain ⟨g1, h⟩ := ite_false_true h
  obtain ⟨g2, h⟩ := ite_false_true h
  obtain ⟨g3, h⟩ := ite_false_true h
  obtain ⟨g4, h⟩ := ite_false_true h
  obtain ⟨g5, h⟩ := ite_false_true h
  obtain ⟨g6, h⟩ := ite_false_true h
  obtain ⟨g7, h⟩ := ite_false_true h
  obtain ⟨g8, h⟩ := ite_false_true h
  obtain ⟨g9, -⟩ := ite_false_true h
  have mxx : ∀ k, mx.x = Q.x + H.x ∧ mn.x = Q.x - H.x ∧ mx.y = Q.y + H.y ∧ mn.y = Q.y - H.y ∧ mx.z = Q.z + H.z ∧ mn.z = k * 0 + Q.z - H.z := by
    intro k
    rw [hH, hQ]; simp; refine ⟨?_, ?_, ?_⟩ <;> ring
  obtain ⟨ex, ex', ey, ey', ez, ez'⟩ := mxx 0
  rw [zero_mul, zero_add] at ez'
  simp only [f3Min, f3Max, min2_eq, max2_eq] at g0
  push Not at g0
  obtain ⟨f1, f2, f3, f4, f5, f6⟩ := g0
  obtain ⟨A, B, C⟩ := t
  obtain ⟨qx, qy, qz⟩ := q
  dsimp only at *
  -- one coordinate axis
  have coord : ∀ (k hh c p1 p2 p3 lo hi : α), 0 ≤ hh → hi = c + hh → lo = c - hh → min p1 (min p2 p3) < hi → lo < max p1 (max p2 p3) →
      hh * |k| < k * (p1 - c) → hh * |k| < k * (p2 - c) → hh * |k| < k * (p3 - c) → False := by
    intro k hh c p1 p2 p3 lo hi hh0 e1 e2 l1 l2 s1 s2 s3
    rcases lt_trichotomy k 0 with hk | hk | hk
    · rw [abs_of_neg hk] at s1 s2 s3
      have t1 : p1 - c < -hh := by nlinarith
      have t2 : p2 - c < -hh := by nlinarith
      have t3 : p3 - c < -hh := by nlinarith
      rw [lt_max_iff, lt_max_iff] at l2
      rcases l2 with l | l | l <;> linarith
    · rw [hk] at s1; simp at s1
    · rw [abs_of_pos hk] at s1 s2 s3
      have t1 : hh < p1 - c := by nlinarith
      have t2 : hh < p2 - c := by nlinarith
      have t3 : hh < p3 - c := by nlinarith
      rw [min_lt_iff, min_lt_iff] at l1
      rcases l1 with l | l | l <;> linarith
  have sep : ∀ (k r' d1 d2 : α), 0 ≤ r' → ¬ Tri.axisSeparates d1 d2 r' = true → |k| * r' < k * d1 → |k| * r' < k * d2 → False :=
    fun k r' d1 d2 hr hn s1 s2 => hn (axisSeparates_complete hr s1 s2)
  simp only [f3Abs, absF_eq] at g1 g2 g3 g4 g5 g6 g7 g8 g9
  simp only [dot] at ha hb hc
  have nn : ∀ e : α, 0 ≤ |e| := abs_nonneg
  rcases hax with ⟨rfl, rfl⟩ | ⟨rfl, rfl⟩ | ⟨rfl, rfl⟩ | ⟨k, hk⟩ | ⟨e, he, k, hk⟩
  · simp only [abs_zero, mul_zero, zero_mul, add_zero] at ha hb hc
    exact coord qx H.x Q.x A.x B.x C.x _ _ h0 ex ex' f1 f2 ha hb hc
  · simp only [abs_zero, mul_zero, zero_mul, add_zero, zero_add] at ha hb hc
    exact coord qy H.y Q.y A.y B.y C.y _ _ h1 ey ey' f3 f4 ha hb hc
  · simp only [abs_zero, mul_zero, zero_mul, add_zero, zero_add] at ha hb hc
    exact coord qz H.z Q.z A.z B.z C.z _ _ h2 ez ez' f5 f6 ha hb hc
  · simp only [V3.ext_iff, smul_x, smul_y, smul_z] at hk
    obtain ⟨rfl, rfl, rfl⟩ := hk
    apply gp
    rw [absF_eq, absF_eq]
    generalize cross (B - A) (C - A) = N at *
    simp only [dot, f3Abs, absF_eq]
    rw [abs_mul, abs_mul, abs_mul] at ha
    have p0 : 0 ≤ H.x * |N.x| + H.y * |N.y| + H.z * |N.z| := by
      have := mul_nonneg h0 (nn N.x); have := mul_nonneg h1 (nn N.y); have := mul_nonneg h2 (nn N.z); linarith
    rw [abs_of_nonneg p0]
    have hl : |k| * (H.x * |N.x| + H.y * |N.y| + H.z * |N.z|) < |k| * |N.x * (A - Q).x + N.y * (A - Q).y + N.z * (A - Q).z| := by
      rw [← abs_mul]
      refine lt_of_eq_of_lt (by ring) (ha.trans_le (le_trans (le_of_eq ?_) (le_abs_self _)))
      ring
    have hk0 : 0 < |k| := by
      rcases (nn k).eq_or_lt with h | h
      · rw [← h] at hl; simp at hl
      · exact h
    exact (lt_of_mul_lt_mul_left hl hk0.le).le
  · have r0 : ∀ (a b c d : α), 0 ≤ a → 0 ≤ c → 0 ≤ a * |b| + c * |d| := fun a b c d h h' =>
      add_nonneg (mul_nonneg h (nn b)) (mul_nonneg h' (nn d))
    rcases hk with hk | hk | hk <;> simp only [V3.ext_iff, smul_x, smul_y, smul_z] at hk <;> obtain ⟨rfl, rfl, rfl⟩ := hk <;>
      simp only [List.mem_cons, List.not_mem_nil, or_false] at he <;> rcases he with rfl | rfl | rfl <;>
      simp only [mul_zero, abs_zero, zero_mul, add_zero, zero_add, abs_mul, abs_neg] at ha hb hc
    · exact sep k _ _ _ (r0 _ _ _ _ h1 h2) g1 (by linarith) (by linarith)
    · exact sep k _ _ _ (r0 _ _ _ _ h1 h2) g2 (by linarith) (by linarith)
    · exact sep k _ _ _ (r0 _ _ _ _ h1 h2) g3 (by linarith) (by linarith)
    · exact sep k _ _ _ (r0 _ _ _ _ h0 h2) g4 (by linarith) (by linarith)
    · exact sep k _ _ _ (r0 _ _ _ _ h0 h2) g5 (by linarith) (by linarith)
    · exact sep k _ _ _ (r0 _ _ _ _ h0 h2) g6 (by linarith) (by linarith)
    · exact sep k _ _ _ (r0 _ _ _ _ h1 h0) g7 (by linarith) (by linarith)
    · exact sep k _ _ _ (r0 _ _ _ _ h1 h0) g8 (by linarith) (by linarith)
    · exact sep k _ _ _ (r0 _ _ _ _ h1 h0) g9 (by linarith) (by linarith)


theorem perp2 {y z p q : α} (h : y * p + z * q = 0) (hne : ¬ (p = 0 ∧ q = 0)) : ∃ k : α, y = k * -q ∧ z = k * p := by
  by_cases hp : p = 0
  · have hq : q ≠ 0 := fun h => hne ⟨hp, h⟩
    refine ⟨-y / q, by field_simp, ?_⟩
    rw [hp, mul_zero, zero_add] at h
    rw [hp, mul_zero]; exact (mul_eq_zero.1 h).resolve_right hq
  · refine ⟨z / p, ?_, by field_simp⟩
    field_simp; linarith

/-- The possible directions of a separating axis, from the inequalities that are used. -/
theorem box_tri_class {t0 t1 t2 q : V3 α} (ht2 : t2 = t1 - t0) (hn : cross t0 t1 ≠ 0) {p0 p1 p2 : α} {u0 u1 u2 k0 k1 k2 : ℕ}
    (h0 : dot q t0 = p0 - p2) (h1 : dot q t1 = p1 - p2) (U0 : u0 = 0 → p0 = 0) (U1 : u1 = 0 → p1 = 0) (U2 : u2 = 0 → p2 = 0)
    (K0 : k0 = 0 → q.x = 0) (K1 : k1 = 0 → q.y = 0) (K2 : k2 = 0 → q.z = 0) (hc : u0 + u1 + u2 + (k0 + k1 + k2) ≤ 3)
    (dir : ∀ d0 d1 : α, (d0 ≠ 0 ∨ d1 ≠ 0) → (u0 ≠ 0 → d0 = 0) → (u1 ≠ 0 → d1 = 0) → (u2 ≠ 0 → d0 + d1 = 0) →
      (k0 ≠ 0 → t0.x * d0 + t1.x * d1 = 0) → (k1 ≠ 0 → t0.y * d0 + t1.y * d1 = 0) → (k2 ≠ 0 → t0.z * d0 + t1.z * d1 = 0) →
      u0 + u1 + u2 + (k0 + k1 + k2) ≤ 2) :
    (q.y = 0 ∧ q.z = 0) ∨ (q.x = 0 ∧ q.z = 0) ∨ (q.x = 0 ∧ q.y = 0) ∨ (∃ k : α, q = k • cross t0 t1) ∨
      ∃ e ∈ ([t0, t1, t2] : List (V3 α)), ∃ k : α, q = k • ⟨0, -e.z, e.y⟩ ∨ q = k • ⟨e.z, 0, -e.x⟩ ∨ q = k • ⟨-e.y, e.x, 0⟩ := by
  by_cases hT : u0 = 0 ∧ u1 = 0 ∧ u2 = 0
  · right; right; right; left
    rw [U0 hT.1, U2 hT.2.2, sub_zero] at h0
    rw [U1 hT.2.1, U2 hT.2.2, sub_zero] at h1
    exact parallel_of_perp hn h0 h1
  by_cases b0 : k1 = 0 ∧ k2 = 0
  · exact Or.inl ⟨K1 b0.1, K2 b0.2⟩
  by_cases b1 : k0 = 0 ∧ k2 = 0
  · exact Or.inr (Or.inl ⟨K0 b1.1, K2 b1.2⟩)
  by_cases b2 : k0 = 0 ∧ k1 = 0
  · exact Or.inr (Or.inr (Or.inl ⟨K0 b2.1, K1 b2.2⟩))
  right; right; right; right
  -- one edge of the triangle, and the direction in which nothing is bounded if it is parallel to an edge of the box
  obtain ⟨e, he, hq, d0, d1, hdne, hed, D0, D1, D2⟩ : ∃ e ∈ ([t0, t1, t2] : List (V3 α)), dot q e = 0 ∧ ∃ d0 d1 : α, (d0 ≠ 0 ∨ d1 ≠ 0) ∧
      e = d0 • t0 + d1 • t1 ∧ (u0 ≠ 0 → d0 = 0) ∧ (u1 ≠ 0 → d1 = 0) ∧ (u2 ≠ 0 → d0 + d1 = 0) := by
    by_cases c0 : u0 = 0
    · by_cases c1 : u1 = 0
      · refine ⟨t2, by simp, ?_, -1, 1, by simp, by rw [ht2]; ext <;> simp <;> ring, by omega, by omega, by intro; ring⟩
        rw [U0 c0] at h0; rw [U1 c1] at h1
        rw [ht2, dot_sub, h0, h1]; ring
      · refine ⟨t0, by simp, ?_, 1, 0, by simp, by ext <;> simp, by omega, by intro; rfl, by omega⟩
        rw [h0, U0 c0, U2 (by omega)]; ring
    · refine ⟨t1, by simp, ?_, 0, 1, by simp, by ext <;> simp, by intro; rfl, by omega, by omega⟩
      rw [h1, U1 (by omega), U2 (by omega)]; ring
  have ex : t0.x * d0 + t1.x * d1 = e.x := by rw [hed]; simp; ring
  have ey : t0.y * d0 + t1.y * d1 = e.y := by rw [hed]; simp; ring
  have ez : t0.z * d0 + t1.z * d1 = e.z := by rw [hed]; simp; ring
  have dir := dir d0 d1 hdne D0 D1 D2
  rw [ex, ey, ez] at dir
  refine ⟨e, he, ?_⟩
  unfold dot at hq
  by_cases c0 : k0 = 0
  · have hx := K0 c0
    have hne : ¬ (e.y = 0 ∧ e.z = 0) := fun hh => by
      have := dir (by omega) (fun _ => hh.1) (fun _ => hh.2); omega
    rw [hx, zero_mul, zero_add] at hq
    obtain ⟨k, e1, e2⟩ := perp2 hq hne
    exact ⟨k, Or.inl (by ext <;> simp [hx, e1, e2])⟩
  · by_cases c1 : k1 = 0
    · have hx := K1 c1
      have hne : ¬ (e.z = 0 ∧ e.x = 0) := fun hh => by
        have := dir (fun _ => hh.2) (by omega) (fun _ => hh.1); omega
      rw [hx, zero_mul, add_zero] at hq
      obtain ⟨k, e1, e2⟩ := perp2 (y := q.z) (z := q.x) (p := e.z) (q := e.x) (by linarith) hne
      exact ⟨k, Or.inr (Or.inl (by ext <;> simp [hx, e1, e2]))⟩
    · have c2 : k2 = 0 := by omega
      have hx := K2 c2
      have hne : ¬ (e.x = 0 ∧ e.y = 0) := fun hh => by
        have := dir (fun _ => hh.1) (fun _ => hh.2) (by omega); omega
      rw [hx, zero_mul, add_zero] at hq
      obtain ⟨k, e1, e2⟩ := perp2 hq hne
      exact ⟨k, Or.inr (Or.inr (by ext <;> simp [hx, e1, e2]))⟩

/-- The inequalities for the plane coordinates of a common point of a triangle and a box. -/
def boxTriSystem (A t0 t1 mn mx : V3 α) : Fin 3 ⊕ (Fin 3 ⊕ Fin 3) → (Fin 2 → α) × α :=
  Sum.elim ![(![-1, 0], 0), (![0, -1], 0), (![1, 1], 1)]
    (Sum.elim ![(![t0.x, t1.x], mx.x - A.x), (![t0.y, t1.y], mx.y - A.y), (![t0.z, t1.z], mx.z - A.z)]
      ![(![-t0.x, -t1.x], A.x - mn.x), (![-t0.y, -t1.y], A.y - mn.y), (![-t0.z, -t1.z], A.z - mn.z)])

theorem abs_sub_le_add {P Q : α} (hP : 0 ≤ P) (hQ : 0 ≤ Q) : |P - Q| ≤ P + Q := abs_le.2 ⟨by linarith, by linarith⟩

/-- The possible directions of a separating axis of a box and a triangle. -/
def BoxTriAxis (t : Tri α) (q : V3 α) : Prop :=
  (q.y = 0 ∧ q.z = 0) ∨ (q.x = 0 ∧ q.z = 0) ∨ (q.x = 0 ∧ q.y = 0) ∨ (∃ k : α, q = k • cross (t.b - t.a) (t.c - t.a)) ∨
    ∃ e ∈ ([t.b - t.a, t.c - t.a, t.c - t.b] : List (V3 α)), ∃ k : α, q = k • ⟨0, -e.z, e.y⟩ ∨ q = k • ⟨e.z, 0, -e.x⟩ ∨ q = k • ⟨-e.y, e.x, 0⟩

set_option maxHeartbeats 1000000 in
/-- The separating axis theorem for a box and a triangle. -/
theorem box_tri_separating (t : Tri α) (hn : cross (t.b - t.a) (t.c - t.a) ≠ 0) (mn mx : V3 α) (hbx : mn.x ≤ mx.x) (hby : mn.y ≤ mx.y) (hbz : mn.z ≤ mx.z)
    (hno : ¬ ∃ x ∈ Spec.tri t.a t.b t.c, x ∈ Spec.box mn mx) (Q H : V3 α) (hQ : Q = (1 / 2 : α) • (mn + mx)) (hH : H = mx - Q) :
    ∃ q : V3 α, BoxTriAxis t q ∧ H.x * |q.x| + H.y * |q.y| + H.z * |q.z| < dot q (t.a - Q) ∧
      H.x * |q.x| + H.y * |q.y| + H.z * |q.z| < dot q (t.b - Q) ∧ H.x * |q.x| + H.y * |q.y| + H.z * |q.z| < dot q (t.c - Q) := by
  have hns : ¬ ∃ x, ∀ i, Farkas.Sat (boxTriSystem t.a (t.b - t.a) (t.c - t.a) mn mx i) x := by
    rintro ⟨x, hx⟩
    have c0 := hx (Sum.inl 0)
    have c1 := hx (Sum.inl 1)
    have c2 := hx (Sum.inl 2)
    have k0 := hx (Sum.inr (Sum.inl 0))
    have k1 := hx (Sum.inr (Sum.inl 1))
    have k2 := hx (Sum.inr (Sum.inl 2))
    have l0 := hx (Sum.inr (Sum.inr 0))
    have l1 := hx (Sum.inr (Sum.inr 1))
    have l2 := hx (Sum.inr (Sum.inr 2))
    simp [Farkas.Sat, boxTriSystem, Fin.sum_univ_two] at c0 c1 c2 k0 k1 k2 l0 l1 l2
    refine hno ⟨(1 - x 0 - x 1) • t.a + x 0 • t.b + x 1 • t.c, ⟨1 - x 0 - x 1, x 0, x 1, by linarith, c0, c1, by ring, rfl⟩, ?_⟩
    simp only [Spec.box, Set.mem_ofPred_eq, add_x, add_y, add_z, smul_x, smul_y, smul_z]
    refine ⟨?_, ?_, ?_, ?_, ?_, ?_⟩ <;> linarith
  obtain ⟨m, u, hu, hm, hum, hv, hs, hd⟩ := Farkas.certificate' _ hns
  have v0 := congrFun hv 0
  have v1 := congrFun hv 1
  have hd' : ∀ d0 d1 : α, (d0 ≠ 0 ∨ d1 ≠ 0) → _ := fun d0 d1 hne => hd ![d0, d1] (by
    intro h0
    rcases hne with h | h
    · exact h (by simpa using congrFun h0 0)
    · exact h (by simpa using congrFun h0 1))
  simp only [Fintype.sum_sum_type, Fin.sum_univ_three, boxTriSystem, Sum.elim_inl, Sum.elim_inr] at hu v0 v1 hs
  simp at v0 v1 hs
  have e0 := hm (Sum.inl 0)
  have e1 := hm (Sum.inl 1)
  have e2 := hm (Sum.inl 2)
  have P0 := hm (Sum.inr (Sum.inl 0))
  have P1 := hm (Sum.inr (Sum.inl 1))
  have P2 := hm (Sum.inr (Sum.inl 2))
  have Q0 := hm (Sum.inr (Sum.inr 0))
  have Q1 := hm (Sum.inr (Sum.inr 1))
  have Q2 := hm (Sum.inr (Sum.inr 2))
  generalize hp0 : m (Sum.inl 0) = p0 at *
  generalize hp1 : m (Sum.inl 1) = p1 at *
  generalize hp2 : m (Sum.inl 2) = p2 at *
  generalize hP0 : m (Sum.inr (Sum.inl 0)) = a0 at *
  generalize hP1 : m (Sum.inr (Sum.inl 1)) = a1 at *
  generalize hP2 : m (Sum.inr (Sum.inl 2)) = a2 at *
  generalize hQ0 : m (Sum.inr (Sum.inr 0)) = b0 at *
  generalize hQ1 : m (Sum.inr (Sum.inr 1)) = b1 at *
  generalize hQ2 : m (Sum.inr (Sum.inr 2)) = b2 at *
  have ex : mx.x = Q.x + H.x ∧ mn.x = Q.x - H.x := by rw [hH, hQ]; simp; ring
  have ey : mx.y = Q.y + H.y ∧ mn.y = Q.y - H.y := by rw [hH, hQ]; simp; ring
  have ez : mx.z = Q.z + H.z ∧ mn.z = Q.z - H.z := by rw [hH, hQ]; simp; ring
  have h0 : 0 ≤ H.x := by linarith
  have h1 : 0 ≤ H.y := by linarith
  have h2 : 0 ≤ H.z := by linarith
  rw [ex.1, ex.2, ey.1, ey.2, ez.1, ez.2] at hs
  have ax := mul_le_mul_of_nonneg_left (abs_sub_le_add P0 Q0) h0
  have ay := mul_le_mul_of_nonneg_left (abs_sub_le_add P1 Q1) h1
  have az := mul_le_mul_of_nonneg_left (abs_sub_le_add P2 Q2) h2
  have sa : H.x * |a0 - b0| + H.y * |a1 - b1| + H.z * |a2 - b2| < dot ⟨a0 - b0, a1 - b1, a2 - b2⟩ (t.a - Q) - p2 := by
    simp only [dot, sub_x, sub_y, sub_z]; linarith
  have eb : dot ⟨a0 - b0, a1 - b1, a2 - b2⟩ (t.b - Q) = dot ⟨a0 - b0, a1 - b1, a2 - b2⟩ (t.a - Q) + p0 - p2 := by
    simp only [dot, sub_x, sub_y, sub_z]; linarith
  have ec : dot ⟨a0 - b0, a1 - b1, a2 - b2⟩ (t.c - Q) = dot ⟨a0 - b0, a1 - b1, a2 - b2⟩ (t.a - Q) + p1 - p2 := by
    simp only [dot, sub_x, sub_y, sub_z]; linarith
  refine ⟨⟨a0 - b0, a1 - b1, a2 - b2⟩, ?_, by dsimp only; linarith, by dsimp only; linarith, by dsimp only; linarith⟩
  unfold BoxTriAxis
  -- which of the inequalities are used
  have U0 := hum (Sum.inl 0)
  have U1 := hum (Sum.inl 1)
  have U2 := hum (Sum.inl 2)
  have V0 := hum (Sum.inr (Sum.inl 0))
  have V1 := hum (Sum.inr (Sum.inl 1))
  have V2 := hum (Sum.inr (Sum.inl 2))
  have W0 := hum (Sum.inr (Sum.inr 0))
  have W1 := hum (Sum.inr (Sum.inr 1))
  have W2 := hum (Sum.inr (Sum.inr 2))
  rw [hp0] at U0; rw [hp1] at U1; rw [hp2] at U2
  rw [hP0] at V0; rw [hP1] at V1; rw [hP2] at V2
  rw [hQ0] at W0; rw [hQ1] at W1; rw [hQ2] at W2
  have dir : ∀ d0 d1 : α, (d0 ≠ 0 ∨ d1 ≠ 0) →
      (u (Sum.inl 0) ≠ 0 → d0 = 0) → (u (Sum.inl 1) ≠ 0 → d1 = 0) → (u (Sum.inl 2) ≠ 0 → d0 + d1 = 0) →
      (u (Sum.inr (Sum.inl 0)) + u (Sum.inr (Sum.inr 0)) ≠ 0 → (t.b - t.a).x * d0 + (t.c - t.a).x * d1 = 0) →
      (u (Sum.inr (Sum.inl 1)) + u (Sum.inr (Sum.inr 1)) ≠ 0 → (t.b - t.a).y * d0 + (t.c - t.a).y * d1 = 0) →
      (u (Sum.inr (Sum.inl 2)) + u (Sum.inr (Sum.inr 2)) ≠ 0 → (t.b - t.a).z * d0 + (t.c - t.a).z * d1 = 0) →
      u (Sum.inl 0) + u (Sum.inl 1) + u (Sum.inl 2) + (u (Sum.inr (Sum.inl 0)) + u (Sum.inr (Sum.inl 1)) + u (Sum.inr (Sum.inl 2)) +
        (u (Sum.inr (Sum.inr 0)) + u (Sum.inr (Sum.inr 1)) + u (Sum.inr (Sum.inr 2)))) ≤ 2 := by
    intro d0 d1 hne r0 r1 r2 r3 r4 r5
    have := hd' d0 d1 hne (by
      rintro (i | i | i) hi <;> fin_cases i <;> simp [boxTriSystem, Fin.sum_univ_two]
      · exact r0 hi
      · exact r1 hi
      · exact r2 hi
      · have := r3 (by simp at hi; omega); simpa using this
      · have := r4 (by simp at hi; omega); simpa using this
      · have := r5 (by simp at hi; omega); simpa using this
      · have := r3 (by simp at hi; omega); simp at this; linarith
      · have := r4 (by simp at hi; omega); simp at this; linarith
      · have := r5 (by simp at hi; omega); simp at this; linarith)
    simpa only [Fintype.sum_sum_type, Fin.sum_univ_three] using this
  generalize u (Sum.inl 0) = u0 at *
  generalize u (Sum.inl 1) = u1 at *
  generalize u (Sum.inl 2) = u2 at *
  generalize u (Sum.inr (Sum.inl 0)) = u3 at *
  generalize u (Sum.inr (Sum.inl 1)) = u4 at *
  generalize u (Sum.inr (Sum.inl 2)) = u5 at *
  generalize u (Sum.inr (Sum.inr 0)) = u6 at *
  generalize u (Sum.inr (Sum.inr 1)) = u7 at *
  generalize u (Sum.inr (Sum.inr 2)) = u8 at *
  have hz : ∀ {i j : ℕ} {a b : α}, (i = 0 → a = 0) → (j = 0 → b = 0) → i + j = 0 → a - b = 0 := by
    intro i j a b hi hj hij
    rw [hi (by omega), hj (by omega), sub_zero]
  refine box_tri_class (q := ⟨a0 - b0, a1 - b1, a2 - b2⟩) (t0 := t.b - t.a) (t1 := t.c - t.a) (t2 := t.c - t.b) (u0 := u0) (u1 := u1) (u2 := u2) (k0 := u3 + u6) (k1 := u4 + u7) (k2 := u5 + u8) (p0 := p0) (p1 := p1) (p2 := p2)
    (by ext <;> simp) hn ?_ ?_ U0 U1 U2 (hz V0 W0) (hz V1 W1) (hz V2 W2) (by omega) ?_
  · simp only [dot, sub_x, sub_y, sub_z]; linarith
  · simp only [dot, sub_x, sub_y, sub_z]; linarith
  · intro d0 d1 hne r0 r1 r2 r3 r4 r5
    have := dir d0 d1 hne r0 r1 r2 r3 r4 r5
    omega

/-- C34: if `Intersects(AABB)` returns true, the triangle and the box have a common point (so no axis at all separates them). -/
theorem C34_true (t : Tri α) (b : AABB α) (hbx : b.minPoint.x ≤ b.maxPoint.x) (hby : b.minPoint.y ≤ b.maxPoint.y) (hbz : b.minPoint.z ≤ b.maxPoint.z)
    (h : t.intersectsAABB b = true) : ∃ x ∈ Spec.tri t.a t.b t.c, x ∈ Spec.box b.minPoint b.maxPoint := by
  by_contra hno
  have hn : cross (t.b - t.a) (t.c - t.a) ≠ 0 := by
    intro h0
    unfold Tri.intersectsAABB at h
    dsimp only at h
    obtain ⟨-, h⟩ := ite_false_true h
    obtain ⟨gp, -⟩ := ite_false_true h
    apply gp
    rw [h0]
    simp [dot, f3Abs, absF_eq]
  obtain ⟨q, hq, s1, s2, s3⟩ := box_tri_separating t hn b.minPoint b.maxPoint hbx hby hbz hno _ _ rfl rfl
  have hd : ∀ l u : α, l ≤ u → 0 ≤ u - 1 / 2 * (l + u) := fun l u h => by linarith
  exact box_tri_axes t b.minPoint b.maxPoint _ _ rfl rfl (by simpa using hd _ _ hbx) (by simpa using hd _ _ hby) (by simpa using hd _ _ hbz) h q hq s1 s2 s3

example := C34_true (⟨⟨0, 0, 0⟩, ⟨1, 0, 0⟩, ⟨0, 1, 0⟩⟩ : Tri ℚ) ⟨⟨1/4, 1/4, -1⟩, ⟨2, 2, 1⟩⟩ (by norm_num) (by norm_num) (by norm_num) (by decide +kernel)

/-- C34: on triangles with nonzero area that do not merely touch the box the test is exact. -/
theorem C34_exact (t : Tri α) (hn : cross (t.b - t.a) (t.c - t.a) ≠ 0) (b : AABB α) (hbx : b.minPoint.x ≤ b.maxPoint.x)
    (hby : b.minPoint.y ≤ b.maxPoint.y) (hbz : b.minPoint.z ≤ b.maxPoint.z)
    (htouch : (∃ x ∈ Spec.tri t.a t.b t.c, x ∈ Spec.box b.minPoint b.maxPoint) → ∃ x ∈ Spec.tri t.a t.b t.c, x ∈ Spec.openBox b.minPoint b.maxPoint) :
    t.intersectsAABB b = true ↔ ∃ x ∈ Spec.tri t.a t.b t.c, x ∈ Spec.box b.minPoint b.maxPoint := by
  refine ⟨C34_true t b hbx hby hbz, fun h => ?_⟩
  obtain ⟨x, hx, hb⟩ := htouch h
  by_contra hf
  exact C34_false_partial t hn b (by simpa using hf) x hx hb

/-- A triangle whose three vertices are outside a box that it cuts, and one that passes by a corner of the box. -/
example : (⟨⟨-2, 0, 0⟩, ⟨2, 1, 0⟩, ⟨0, 3, 1⟩⟩ : Tri ℚ).intersectsAABB ⟨⟨-1, -1, -1⟩, ⟨1, 1, 1⟩⟩ = true ∧
    (⟨⟨3, 0, 0⟩, ⟨0, 3, 0⟩, ⟨3, 3, 3⟩⟩ : Tri ℚ).intersectsAABB ⟨⟨-1, -1, -1⟩, ⟨1, 1, 1⟩⟩ = false ∧
    cross ((⟨0, 3, 0⟩ : V3 ℚ) - ⟨3, 0, 0⟩) (⟨3, 3, 3⟩ - ⟨3, 0, 0⟩) ≠ 0 := by decide +kernel

/-- C34: a triangle of zero area that passes through the middle of the box is not reported. -/
theorem C34_degenerate_violation : ∃ (t : Tri ℚ) (b : AABB ℚ), t.a ≠ t.b ∧ t.b ≠ t.c ∧ t.a ≠ t.c ∧
    (∃ x ∈ Spec.tri t.a t.b t.c, x ∈ Spec.openBox b.minPoint b.maxPoint) ∧ t.intersectsAABB b = false := by
  refine ⟨⟨⟨-2, 0, 0⟩, ⟨2, 0, 0⟩, ⟨4, 0, 0⟩⟩, ⟨⟨-1, -1, -1⟩, ⟨1, 1, 1⟩⟩, by decide +kernel, by decide +kernel, by decide +kernel,
    ⟨⟨0, 0, 0⟩, ⟨1/2, 1/2, 0, by norm_num, by norm_num, by norm_num, by norm_num, by ext <;> norm_num⟩, ?_⟩, by decide +kernel⟩
  norm_num [Spec.openBox]

end MGL
