import Verif.Proofs.Circle2DLoop
import Mathlib.Data.List.GetD

/-! C90: the queries of a 2D circle and the smallest enclosing circle of points of the plane. -/

namespace MGL.Circle2D
open Spec

/-- C90: `Contains` tests exactly for the points of the disc, `Distance` is 0 exactly there and otherwise the distance to the nearest point of
the disc, and `SignedDistance` is the distance to the circle, negative inside. -/
theorem C90_queries (k : Circle2D) (hr : 0 ≤ k.r) (p : V2 ℝ) :
    (contains k p = true ↔ p ∈ disc2 k.pos k.r) ∧ (distance k p = 0 ↔ p ∈ disc2 k.pos k.r) ∧
    (∀ q ∈ disc2 k.pos k.r, distance k p ≤ √(distSq2 p q)) ∧ (∃ q ∈ disc2 k.pos k.r, distance k p = √(distSq2 p q)) ∧
    (signedDistance k p ≤ 0 ↔ p ∈ disc2 k.pos k.r) ∧ (signedDistance k p = 0 ↔ distSq2 k.pos p = k.r ^ 2) := by
  have hin : p ∈ disc2 k.pos k.r ↔ √(distSq2 k.pos p) ≤ k.r := by
    rw [Real.sqrt_le_iff]; rfl
  have tri : ∀ q ∈ disc2 k.pos k.r, √(distSq2 k.pos p) - k.r ≤ √(distSq2 p q) := by
    intro q hq
    have h1 : √(distSq2 k.pos q) ≤ k.r := Real.sqrt_le_iff.2 hq
    have e1 := Real.sq_sqrt (distSq2_nonneg p q)
    have e2 := Real.sq_sqrt (distSq2_nonneg k.pos q)
    have n1 := Real.sqrt_nonneg (distSq2 p q)
    have n2 := Real.sqrt_nonneg (distSq2 k.pos q)
    have : √(distSq2 k.pos p) ≤ √(distSq2 p q) + √(distSq2 k.pos q) := by
      refine Real.sqrt_le_iff.2 ⟨add_nonneg n1 n2, ?_⟩
      set u := √(distSq2 p q)
      set v := √(distSq2 k.pos q)
      have cs : (p.x - q.x) * (q.x - k.pos.x) + (p.y - q.y) * (q.y - k.pos.y) ≤ u * v := by
        refine abs_le_of_sq_le_sq' ?_ (mul_nonneg n1 n2) |>.2
        rw [mul_pow, e1, e2]
        simp only [distSq2]
        nlinarith [sq_nonneg ((p.x - q.x) * (q.y - k.pos.y) - (p.y - q.y) * (q.x - k.pos.x))]
      have : distSq2 k.pos p = u ^ 2 + v ^ 2 + 2 * ((p.x - q.x) * (q.x - k.pos.x) + (p.y - q.y) * (q.y - k.pos.y)) := by
        rw [e1, e2]; simp only [distSq2]; ring
      rw [this]
      nlinarith
    linarith
  have hd : distance k p = max 0 (√(distSq2 k.pos p) - k.r) := by unfold distance; rw [distanceSq_eq]
  refine ⟨?_, ?_, ?_, ?_, ?_, ?_⟩
  · unfold contains
    rw [decide_eq_true_iff, distanceSq_eq, ← pow_two]
    exact ⟨fun h => ⟨hr, h⟩, fun h => h.2⟩
  · rw [hd, hin, max_eq_left_iff]
    constructor <;> intro h <;> linarith
  · intro q hq
    rw [hd]
    exact max_le (Real.sqrt_nonneg _) (tri q hq)
  · rw [hd]
    by_cases h : √(distSq2 k.pos p) ≤ k.r
    · refine ⟨p, hin.2 h, ?_⟩
      rw [max_eq_left (by linarith), Hull2D.distSq2_self, Real.sqrt_zero]
    · have h := (not_le.1 h).le
      set D := √(distSq2 k.pos p) with hD
      have hD2 : D ^ 2 = distSq2 k.pos p := Real.sq_sqrt (distSq2_nonneg _ _)
      by_cases h0 : D = 0
      · refine ⟨p, hin.2 (by rw [h0]; exact hr), ?_⟩
        rw [Hull2D.distSq2_self, Real.sqrt_zero, max_eq_left]
        rw [h0]; linarith
      have Dp : 0 < D := lt_of_le_of_ne (Real.sqrt_nonneg _) (Ne.symm h0)
      have hk : 0 ≤ k.r / D := div_nonneg hr Dp.le
      have hkD : k.r / D * D = k.r := div_mul_cancel₀ _ h0
      refine ⟨⟨k.pos.x + k.r / D * (p.x - k.pos.x), k.pos.y + k.r / D * (p.y - k.pos.y)⟩, ⟨hr, ?_⟩, ?_⟩
      · have : distSq2 k.pos ⟨k.pos.x + k.r / D * (p.x - k.pos.x), k.pos.y + k.r / D * (p.y - k.pos.y)⟩ = (k.r / D) ^ 2 * distSq2 k.pos p := by
          simp only [distSq2]; ring
        rw [this, ← hD2, ← mul_pow, hkD]
      · have : distSq2 p ⟨k.pos.x + k.r / D * (p.x - k.pos.x), k.pos.y + k.r / D * (p.y - k.pos.y)⟩ = (D - k.r) ^ 2 := by
          have e : distSq2 p ⟨k.pos.x + k.r / D * (p.x - k.pos.x), k.pos.y + k.r / D * (p.y - k.pos.y)⟩ = (1 - k.r / D) ^ 2 * distSq2 k.pos p := by
            simp only [distSq2]; ring
          rw [e, ← hD2, ← mul_pow]
          congr 1
          linear_combination -hkD
        rw [this, Real.sqrt_sq (by linarith), max_eq_right (by linarith)]
  · rw [hin]
    unfold signedDistance
    rw [distanceSq_eq]
    constructor <;> intro h <;> linarith
  · unfold signedDistance
    rw [distanceSq_eq, sub_eq_zero, Real.sqrt_eq_iff_mul_self_eq (distSq2_nonneg _ _) hr]
    constructor <;> intro h <;> nlinarith

example := C90_queries ⟨⟨1, 2⟩, 3⟩ (by norm_num) ⟨5, 5⟩

/-- The loss for three points that are nearly on a line: at most 57/1000. -/
theorem flat3 {a b c : V2 ℝ} (h : area2 a b c ^ 2 < 1 / 100000) : ∀ c' r', 0 ≤ r' → distSq2 c' a ≤ r' ^ 2 → distSq2 c' b ≤ r' ^ 2 → distSq2 c' c ≤ r' ^ 2 →
    √(max (max (distSq2 (optimal3 a b c).pos a) (distSq2 (optimal3 a b c).pos b)) (distSq2 (optimal3 a b c).pos c)) ≤ r' + 57 / 1000 := by
  intro c' r' hr ha hb hc
  have e := denom_eq a b c
  -- a diameter `u v` and the third point `w`
  have key : ∀ u v w m : V2 ℝ, m.x = (u.x + v.x) / 2 → m.y = (u.y + v.y) / 2 → distSq2 c' u ≤ r' ^ 2 → distSq2 c' v ≤ r' ^ 2 →
      (∃ hh, 0 ≤ hh ∧ hh ≤ 57 / 1000 ∧ distSq2 m w ≤ distSq2 u v / 4 + hh ^ 2) →
      distSq2 m u ≤ (r' + 57 / 1000) ^ 2 ∧ distSq2 m v ≤ (r' + 57 / 1000) ^ 2 ∧ distSq2 m w ≤ (r' + 57 / 1000) ^ 2 := by
    rintro u v w m mx my hu hv ⟨hh, h0, h1, h2⟩
    have hL : distSq2 u v / 4 ≤ r' ^ 2 := by
      simp only [distSq2] at hu hv ⊢
      nlinarith [sq_nonneg (2 * c'.x - u.x - v.x), sq_nonneg (2 * c'.y - u.y - v.y)]
    have hmu : distSq2 m u = distSq2 u v / 4 := by simp only [distSq2, mx, my]; ring
    have hmv : distSq2 m v = distSq2 u v / 4 := by simp only [distSq2, mx, my]; ring
    have big : r' ^ 2 + hh ^ 2 ≤ (r' + 57 / 1000) ^ 2 := by nlinarith
    exact ⟨by nlinarith, by nlinarith, by nlinarith⟩
  have small : ∀ (A B : ℝ), 0 ≤ B → B ≤ A → A * B < 1 / 100000 → √B ≤ 57 / 1000 := by
    intro A B h0 h1 h2
    rw [Real.sqrt_le_left (by norm_num)]
    nlinarith
  rw [Real.sqrt_le_left (by linarith)]
  generalize hAB : dot2 (sub2 b a) (sub2 b a) = AB at *
  generalize hAC : dot2 (sub2 c a) (sub2 c a) = AC at *
  generalize hX : dot2 (sub2 b a) (sub2 c a) = X at *
  have hpos : (optimal3 a b c).pos = smul2 (1 / 2) (if X > 0 then add2 a (if AB > AC then b else c) else add2 b c) := by
    unfold optimal3
    simp only []
    rw [hAB, hAC, hX, e, abs_of_nonneg (sq_nonneg _), if_pos h]
  have AB0 : 0 ≤ AB := by rw [← hAB]; simp only [dot2]; nlinarith
  have AC0 : 0 ≤ AC := by rw [← hAC]; simp only [dot2]; nlinarith
  have hD : 0 ≤ AB * AC - X * X := by rw [e]; positivity
  -- the distance of the third point to the diameter from the first one, `P` the longer side
  have part : ∀ P Q : ℝ, 0 ≤ P → 0 ≤ Q → Q ≤ P → 0 < X → 0 ≤ P * Q - X * X → P * Q - X * X < 1 / 100000 →
      ∃ hh, 0 ≤ hh ∧ hh ≤ 57 / 1000 ∧ Q - X ≤ hh ^ 2 := by
    intro P Q hP hQ hPQ hX0 d0 d1
    have P0 : 0 < P := by
      rcases lt_or_eq_of_le hP with h | h
      · exact h
      · exfalso; rw [← h] at d0; nlinarith
    have XP : X ≤ P := by nlinarith
    have hB : 0 ≤ (P * Q - X * X) / P := div_nonneg d0 hP
    have hBP : P * ((P * Q - X * X) / P) = P * Q - X * X := by field_simp
    refine ⟨√((P * Q - X * X) / P), Real.sqrt_nonneg _, small P _ hB ?_ ?_, ?_⟩
    · rw [div_le_iff₀ P0]; nlinarith
    · rw [hBP]; exact d1
    · rw [Real.sq_sqrt hB, le_div_iff₀ P0]; nlinarith
  rw [hpos]
  simp only [dot2, sub2] at hAB hAC hX
  split
  · next hX0 =>
    split
    · next hlt =>
      obtain ⟨hh, h0, h1, h2⟩ := part AB AC AB0 AC0 hlt.le hX0 hD (by rw [e]; exact h)
      obtain ⟨k1, k2, k3⟩ := key a b c (smul2 (1 / 2) (add2 a b)) (by simp only [smul2, add2]; ring) (by simp only [smul2, add2]; ring) ha hb
        ⟨hh, h0, h1, by simp only [distSq2, smul2, add2]; nlinarith⟩
      exact max_le (max_le k1 k2) k3
    · next hlt =>
      obtain ⟨hh, h0, h1, h2⟩ := part AC AB AC0 AB0 (not_lt.1 hlt) hX0 (by linarith) (by linarith)
      obtain ⟨k1, k2, k3⟩ := key a c b (smul2 (1 / 2) (add2 a c)) (by simp only [smul2, add2]; ring) (by simp only [smul2, add2]; ring) ha hc
        ⟨hh, h0, h1, by simp only [distSq2, smul2, add2]; nlinarith⟩
      exact max_le (max_le k1 k3) k2
  · next hX0 =>
    obtain ⟨k1, k2, k3⟩ := key b c a (smul2 (1 / 2) (add2 b c)) (by simp only [smul2, add2]; ring) (by simp only [smul2, add2]; ring) hb hc
      ⟨0, le_refl _, by norm_num, by simp only [distSq2, smul2, add2]; nlinarith⟩
    exact max_le (max_le k3 k1) k2

/-- C90: `OptimalEnclosingCircle(a, b, c)` has the three points, whatever they are. Its radius exceeds that of the smallest such circle by at most
1/100000, or 58/1000 when the points are nearly on a line. -/
theorem C90_three (a b c : V2 ℝ) : Encloses (optimal3 a b c).pos (optimal3 a b c).r [a, b, c] ∧ SmallestUpTo (58 / 1000) (optimal3 a b c).r [a, b, c] ∧
    (1 / 100000 ≤ area2 a b c ^ 2 → SmallestUpTo (1 / 100000) (optimal3 a b c).r [a, b, c]) := by
  have hin : ∀ D, D ≤ max (max (distSq2 (optimal3 a b c).pos a) (distSq2 (optimal3 a b c).pos b)) (distSq2 (optimal3 a b c).pos c) → D ≤ (optimal3 a b c).r ^ 2 := by
    intro D hD
    rw [optimal3_r]
    set M := max (max (distSq2 (optimal3 a b c).pos a) (distSq2 (optimal3 a b c).pos b)) (distSq2 (optimal3 a b c).pos c)
    have hM : 0 ≤ M := le_trans (distSq2_nonneg _ _) (le_max_right _ _)
    nlinarith [Real.sq_sqrt hM, Real.sqrt_nonneg M]
  have hr : 0 ≤ (optimal3 a b c).r := by rw [optimal3_r]; positivity
  have exact3 : 1 / 100000 ≤ area2 a b c ^ 2 → SmallestUpTo (1 / 100000) (optimal3 a b c).r [a, b, c] := by
    intro h c' r' h'
    obtain ⟨hm, er⟩ := optimal3_general h
    have h0 : 0 ≤ r' := (h' a (by simp)).1
    have h1 := hm.2 c' (r' ^ 2) fun p hp => (h' p hp).2
    have h2 : √(circ a b c).r ≤ r' := Real.sqrt_le_iff.2 ⟨h0, by linarith [distSq2_nonneg (optimal3 a b c).pos c']⟩
    rw [er]; linarith
  refine ⟨?_, ?_, exact3⟩
  · unfold Encloses
    simp only [List.forall_mem_cons, List.not_mem_nil, false_imp_iff, implies_true, and_true]
    exact ⟨⟨hr, hin _ (le_trans (le_max_left _ _) (le_max_left _ _))⟩, ⟨hr, hin _ (le_trans (le_max_right _ _) (le_max_left _ _))⟩,
      ⟨hr, hin _ (le_max_right _ _)⟩⟩
  · by_cases h : 1 / 100000 ≤ area2 a b c ^ 2
    · intro c' r' h'
      linarith [exact3 h c' r' h']
    · intro c' r' h'
      have := flat3 (not_le.1 h) c' r' (h' a (by simp)).1 (h' a (by simp)).2 (h' b (by simp)).2 (h' c (by simp)).2
      rw [optimal3_r]; linarith

/-- An acute triangle. -/
example := (C90_three ⟨0, 0⟩ ⟨4, 0⟩ ⟨2, 3⟩).2.2 (by norm_num [area2])

/-- C90: for one and two points, and for three (see `C90_three`). -/
theorem C90_few (fuel : ℕ) (a b c : V2 ℝ) : (∃ k, optimalEnclosing fuel [a] = some k ∧ Encloses k.pos k.r [a] ∧ SmallestUpTo 0 k.r [a]) ∧
    (∃ k, optimalEnclosing fuel [a, b] = some k ∧ Encloses k.pos k.r [a, b] ∧ SmallestUpTo (1 / 100000) k.r [a, b]) ∧
    optimalEnclosing fuel [a, b, c] = some (optimal3 a b c) := by
  refine ⟨⟨_, rfl, ?_, ?_⟩, ⟨_, rfl, ?_, ?_⟩, rfl⟩
  · intro p hp
    rw [List.mem_singleton.1 hp]
    exact ⟨le_refl _, by rw [Hull2D.distSq2_self]; norm_num⟩
  · intro c' r' h
    show (0 : ℝ) ≤ r' + 0
    rw [add_zero]
    exact (h a (by simp)).1
  all_goals
    simp only [distanceSq_eq]
    have e1 : distSq2 (smul2 (1 / 2) (add2 a b)) a = distSq2 a b / 4 := by simp only [distSq2, smul2, add2]; ring
    have e2 : distSq2 (smul2 (1 / 2) (add2 a b)) b = distSq2 a b / 4 := by simp only [distSq2, smul2, add2]; ring
    have h4 : 0 ≤ distSq2 a b / 4 := by have := distSq2_nonneg a b; positivity
  · have hn := Real.sqrt_nonneg (distSq2 a b / 4)
    have hs := Real.sq_sqrt h4
    unfold Encloses
    simp only [List.forall_mem_cons, List.not_mem_nil, false_imp_iff, implies_true, and_true]
    rw [e1, e2, max_self]
    refine ⟨⟨by positivity, ?_⟩, ⟨by positivity, ?_⟩⟩
    · rw [e1]; nlinarith
    · rw [e2]; nlinarith
  · intro c' r' h
    rw [e1, e2, max_self]
    have ha := (h a (by simp)).2
    have hb := (h b (by simp)).2
    have : √(distSq2 a b / 4) ≤ r' := by
      refine Real.sqrt_le_iff.2 ⟨(h a (by simp)).1, ?_⟩
      simp only [distSq2] at ha hb ⊢
      nlinarith [sq_nonneg (2 * c'.x - a.x - b.x), sq_nonneg (2 * c'.y - a.y - b.y)]
    linarith

theorem disc_convex (c : V2 ℝ) (R : ℝ) : Convex2 {x : V2 ℝ | distSq2 c x ≤ R} := by
  intro a ha b hb s t hs ht hst
  obtain rfl : t = 1 - s := by linarith
  simp only [Set.mem_ofPred_eq, distSq2] at *
  have : (c.x - (s * a.x + (1 - s) * b.x)) ^ 2 + (c.y - (s * a.y + (1 - s) * b.y)) ^ 2 =
      s * ((c.x - a.x) ^ 2 + (c.y - a.y) ^ 2) + (1 - s) * ((c.x - b.x) ^ 2 + (c.y - b.y) ^ 2) - s * (1 - s) * ((a.x - b.x) ^ 2 + (a.y - b.y) ^ 2) := by ring
  nlinarith [mul_le_mul_of_nonneg_left ha hs, mul_le_mul_of_nonneg_left hb ht,
    mul_nonneg (mul_nonneg hs ht) (add_nonneg (sq_nonneg (a.x - b.x)) (sq_nonneg (a.y - b.y)))]

/-- C90: `OptimalEnclosingCircle(pointArray, numPoints)` ends, returns a circle that has all the points, and its radius exceeds that of the
smallest such circle by at most 1/1000, if at least four of the points are corners of their convex hull, different points are more than
1/1000 apart and no three different points are nearly on a line (twice their area is more than 1/316). Missing: points whose convex hull
has two or three corners, for which the claim is false (`C90_triangle_violation`), and points nearly on a line. -/
theorem C90_enclosing_partial (points : List (V2 ℝ)) (corners : List (V2 ℝ)) (hc : corners.Nodup) (hc4 : 4 ≤ corners.length)
    (hcor : ∀ v ∈ corners, IsCorner points v) (hsep : ∀ a ∈ points, ∀ b ∈ points, a ≠ b → (1 / 1000) ^ 2 < distSq2 a b)
    (hgen : ∀ a ∈ points, ∀ b ∈ points, ∀ c ∈ points, a ≠ b → a ≠ c → b ≠ c → 1 / 100000 ≤ area2 a b c ^ 2) :
    ∃ N k, (∀ fuel ≥ N, optimalEnclosing fuel points = some k) ∧ Encloses k.pos k.r points ∧ SmallestUpTo (1 / 1000) k.r points := by
  obtain ⟨out, h1, h2, h3, h4⟩ := Hull2D.C74_exact points hsep
  obtain ⟨out', h1', h5⟩ := Hull2D.C74_extreme points hsep
  obtain rfl : out = out' := Option.some.inj (h1.symm.trans h1')
  have hlen : 4 ≤ out.length := hc4.trans (hc.subperm fun v hv => (h5 v (hcor v hv).1).2 (by simpa using (hcor v hv).2)).length_le
  obtain ⟨rest, hA⟩ := hullArray_spec (p := points) (by
    have : out.length ≤ points.length := (h2.1.subperm h3).length_le
    omega) h1
  set n := out.length with hn
  set q0 : ℕ → V2 ℝ := fun i => (out ++ rest).getD i ⟨0, 0⟩ with hq0
  have hq : ∀ i (hi : i < n), q0 i = out[i] := by
    intro i hi
    show (out ++ rest).getD i ⟨0, 0⟩ = out[i]
    rw [List.getD_append _ _ _ _ hi, List.getD_eq_getElem _ _ hi]
  have hG : General n q0 := by
    intro i j k hi hj hk hij hik hjk
    rw [hq i hi, hq j hj, hq k hk]
    refine hgen _ (h3 _ (List.getElem_mem hi)) _ (h3 _ (List.getElem_mem hj)) _ (h3 _ (List.getElem_mem hk)) ?_ ?_ ?_
    · exact fun e => hij ((h2.1.getElem_inj_iff).1 e)
    · exact fun e => hik ((h2.1.getElem_inj_iff).1 e)
    · exact fun e => hjk ((h2.1.getElem_inj_iff).1 e)
  set p := extents n q0 with hp
  have hS : Same n q0 p := same_extents hlen q0
  obtain ⟨hm, er⟩ := optimal3_general (hS.general hG 0 1 2 (by omega) (by omega) (by omega) (by omega) (by omega) (by omega))
  have hR : Round n q0 p (optimal3 (p 0) (p 1) (p 2)) (circ (p 0) (p 1) (p 2)).r (1 / 100000) :=
    ⟨hS, hm, er, by norm_num, by norm_num, mem_radii hS (by omega) (by omega) (by omega)⟩
  obtain ⟨N, k, g1, g2, g3, g4⟩ := loop_spec (by omega) hG _ _ p _ _ _ 3 hR rfl (le_refl 3) rfl (fun l hl hl' _ => by omega)
  refine ⟨N, k, fun fuel hf => ?_, fun v hv => ⟨g2, ?_⟩, fun c' r' h' => ?_⟩
  · have hpl : 4 ≤ points.length := by
      have : out.length ≤ points.length := (h2.1.subperm h3).length_le
      omega
    match points, hpl with
    | a :: b :: c :: d :: l, _ =>
      unfold optimalEnclosing
      simp only []
      rw [hA]
      exact g1 fuel hf
  · have hv' : v ∈ hull2 out := by rw [h4]; exact Hull2D.mem_hull2 hv
    refine hv' _ (disc_convex k.pos (k.r ^ 2)) fun w hw => ?_
    obtain ⟨i, hi, rfl⟩ := List.getElem_of_mem hw
    rw [← hq i hi]
    have := g3 i hi
    rw [← pow_two] at this
    exact this
  · have hne : out ≠ [] := by
      intro e
      have : n = 0 := by rw [hn, e]; rfl
      omega
    obtain ⟨w, hw⟩ := List.exists_mem_of_ne_nil _ hne
    refine g4 c' r' (h' w (h3 w hw)).1 fun l hl => ?_
    rw [hq l hl]
    exact (h' _ (h3 _ (List.getElem_mem hl))).2

theorem corner_of {S : List (V2 ℝ)} {v : V2 ℝ} (u w t : ℝ) (hv : v ∈ S) (h : ∀ x ∈ S, x = v ∨ u * x.x + w * x.y ≤ t) (hlt : t < u * v.x + w * v.y) : IsCorner S v := by
  refine ⟨hv, fun hh => ?_⟩
  refine absurd (hh {x | u * x.x + w * x.y ≤ t} ?_ fun x hx => ?_) (not_le.2 hlt)
  · intro a ha b hb s r hs hr hsr
    obtain rfl : r = 1 - s := by linarith
    simp only [Set.mem_ofPred_eq] at *
    nlinarith [mul_le_mul_of_nonneg_left ha hs, mul_le_mul_of_nonneg_left hb hr]
  · have hx := List.mem_filter.1 hx
    rcases h x hx.1 with e | e
    · exact absurd e (by simpa using hx.2)
    · exact e

/-- The corners of a square and a point inside. -/
example := C90_enclosing_partial [⟨1, 2⟩, ⟨0, 0⟩, ⟨4, 0⟩, ⟨4, 4⟩, ⟨0, 4⟩] [⟨0, 0⟩, ⟨4, 0⟩, ⟨4, 4⟩, ⟨0, 4⟩]
  (by simp [V2.ext_iff]) (by simp)
  (by
    simp only [List.forall_mem_cons, List.not_mem_nil, false_imp_iff, implies_true, and_true]
    refine ⟨corner_of (-1) (-1) (-1) (by simp) ?_ (by norm_num), corner_of 1 (-1) 3 (by simp) ?_ (by norm_num),
      corner_of 1 1 7 (by simp) ?_ (by norm_num), corner_of (-1) 1 3 (by simp) ?_ (by norm_num)⟩ <;>
    · simp only [List.forall_mem_cons, List.not_mem_nil, false_imp_iff, implies_true, and_true, V2.ext_iff]; norm_num)
  (by simp only [List.forall_mem_cons, List.not_mem_nil, false_imp_iff, implies_true, and_true, V2.ext_iff, distSq2]; norm_num)
  (by simp only [List.forall_mem_cons, List.not_mem_nil, false_imp_iff, implies_true, and_true, V2.ext_iff, area2]; norm_num)

theorem exTriangle_hull : hullArray [⟨0, 0⟩, ⟨10, 5⟩, ⟨5, 8⟩, ⟨5, 5⟩] = some (3, [⟨0, 0⟩, ⟨10, 5⟩, ⟨5, 8⟩, ⟨10, 5⟩]) := by
  have hs : List.insertionSort Hull2D.lexLe [(⟨0, 0⟩ : V2 ℝ), ⟨10, 5⟩, ⟨5, 8⟩, ⟨5, 5⟩] = [⟨0, 0⟩, ⟨5, 5⟩, ⟨5, 8⟩, ⟨10, 5⟩] := by
    norm_num [List.insertionSort, List.orderedInsert, Hull2D.lexLe, Hull2D.lexLt]
  have hc : Hull2D.chains [(⟨0, 0⟩ : V2 ℝ), ⟨5, 5⟩, ⟨5, 8⟩, ⟨10, 5⟩] = some [⟨0, 0⟩, ⟨10, 5⟩, ⟨5, 8⟩] := by
    norm_num [Hull2D.chains, Hull2D.scan, Hull2D.popWhile, Hull2D.perpDot2D]
  unfold hullArray
  simp only [hs, hc]
  norm_num [Hull2D.dedup, Hull2D.distSq2D, Hull2D.eps, Hull2D.trim]

/-- C90: with four points one of which is inside the triangle of the other three, the circle misses a corner of the triangle. The convex hull
leaves three points, but the loop over the extents still exchanges entries with the fourth, so that a corner ends up there and is
not looked at again. Here the corner `(0, 0)` is more than 9 away from the centre of a circle of radius less than 3. -/
theorem C90_triangle_violation : ∃ points : List (V2 ℝ), points.length = 4 ∧ ∃ k, (∀ fuel, optimalEnclosing (fuel + 1) points = some k) ∧
    k.r < 3 ∧ ∃ v ∈ points, 9 ^ 2 < distSq2 k.pos v := by
  refine ⟨[⟨0, 0⟩, ⟨10, 5⟩, ⟨5, 8⟩, ⟨5, 5⟩], rfl, optimal3 ⟨10, 5⟩ ⟨5, 8⟩ ⟨10, 5⟩, fun fuel => ?_, ?_⟩
  · unfold optimalEnclosing
    simp only []
    rw [exTriangle_hull]
    simp only []
    set F : V2 ℝ → V2 ℝ → V2 ℝ → V2 ℝ → ℕ → V2 ℝ := fun a b c d i => [a, b, c, d].getD i ⟨0, 0⟩ with hF
    have e0 : ∀ a b c d, F a b c d 0 = a := fun _ _ _ _ => rfl
    have e1 : ∀ a b c d, F a b c d 1 = b := fun _ _ _ _ => rfl
    have e2 : ∀ a b c d, F a b c d 2 = c := fun _ _ _ _ => rfl
    have e3 : ∀ a b c d, F a b c d 3 = d := fun _ _ _ _ => rfl
    have s10 : ∀ a b c d, swap (F a b c d) 1 0 = F b a c d := fun a b c d => by
      funext i
      rcases i with _ | _ | _ | _ | i <;> simp [swap, hF, Equiv.swap_apply_def]
    have s31 : ∀ a b c d, swap (F a b c d) 3 1 = F a d c b := fun a b c d => by
      funext i
      rcases i with _ | _ | _ | _ | i <;> simp [swap, hF, Equiv.swap_apply_def]
    have s12 : ∀ a b c d, swap (F a b c d) 1 2 = F a c b d := fun a b c d => by
      funext i
      rcases i with _ | _ | _ | _ | i <;> simp [swap, hF, Equiv.swap_apply_def]
    have x : extents 3 (F ⟨0, 0⟩ ⟨10, 5⟩ ⟨5, 8⟩ ⟨10, 5⟩) = F ⟨10, 5⟩ ⟨5, 8⟩ ⟨10, 5⟩ ⟨0, 0⟩ := by
      have step0 : extentStep (F ⟨0, 0⟩ ⟨10, 5⟩ ⟨5, 8⟩ ⟨10, 5⟩) 0 = F ⟨10, 5⟩ ⟨0, 0⟩ ⟨5, 8⟩ ⟨10, 5⟩ := by
        unfold extentStep
        simp only [e0, e1, e2, e3, s10]
        norm_num [e0, e1, e2, e3, s10]
      have step1 : extentStep (F ⟨10, 5⟩ ⟨0, 0⟩ ⟨5, 8⟩ ⟨10, 5⟩) 1 = F ⟨10, 5⟩ ⟨10, 5⟩ ⟨5, 8⟩ ⟨0, 0⟩ := by
        unfold extentStep
        norm_num [e0, e1, e2, e3, s31]
      have step2 : extentStep (F ⟨10, 5⟩ ⟨10, 5⟩ ⟨5, 8⟩ ⟨0, 0⟩) 2 = F ⟨10, 5⟩ ⟨5, 8⟩ ⟨10, 5⟩ ⟨0, 0⟩ := by
        unfold extentStep
        norm_num [e0, e1, e2, e3, s12]
      show extentStep (extentStep (extentStep _ 0) 1) 2 = _
      rw [step0, step1, step2]
    show encloseLoop 3 (fuel + 1) 3 (optimal3 (extents 3 (F ⟨0, 0⟩ ⟨10, 5⟩ ⟨5, 8⟩ ⟨10, 5⟩) 0) (extents 3 (F ⟨0, 0⟩ ⟨10, 5⟩ ⟨5, 8⟩ ⟨10, 5⟩) 1)
      (extents 3 (F ⟨0, 0⟩ ⟨10, 5⟩ ⟨5, 8⟩ ⟨10, 5⟩) 2)) _ _ = _
    rw [encloseLoop, if_neg (by norm_num), x, e0, e1, e2]
  · have hpos : (optimal3 ⟨10, 5⟩ ⟨5, 8⟩ ⟨10, 5⟩).pos = ⟨15 / 2, 13 / 2⟩ := by
      unfold optimal3
      norm_num [sub2, dot2, add2, smul2]
    rw [optimal3_r, hpos]
    refine ⟨?_, ⟨0, 0⟩, by simp, ?_⟩
    · have : √(max (max (distSq2 (⟨15 / 2, 13 / 2⟩ : V2 ℝ) ⟨10, 5⟩) (distSq2 (⟨15 / 2, 13 / 2⟩ : V2 ℝ) ⟨5, 8⟩)) (distSq2 (⟨15 / 2, 13 / 2⟩ : V2 ℝ) ⟨10, 5⟩)) ≤
          29999 / 10000 - 1 / 1000 := by
        rw [Real.sqrt_le_left (by norm_num)]
        norm_num [distSq2]
      linarith
    · norm_num [distSq2]

/-- C90: `RandomPointInside` returns a point of the disc, whatever numbers it draws. -/
theorem C90_random (k : Circle2D) (hr : 0 ≤ k.r) (draws : List (ℝ × ℝ)) : randomPointInside k draws ∈ disc2 k.pos k.r := by
  unfold randomPointInside
  split
  · next v hv =>
    have := List.find?_some hv
    rw [decide_eq_true_iff] at this
    refine ⟨hr, ?_⟩
    simp only [distSq2, add2]
    nlinarith
  · exact ⟨hr, by rw [Hull2D.distSq2_self]; positivity⟩

example := C90_random ⟨⟨1, 2⟩, 3⟩ (by norm_num) [(3, 3), (1, 2)]

end MGL.Circle2D
