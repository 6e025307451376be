import Verif.Spec.Disc
import Verif.Model.Circle2D
import Verif.Props.Hull2D
import Mathlib.Analysis.Convex.Radon
import Mathlib.LinearAlgebra.FiniteDimensional.Basic
import Mathlib.LinearAlgebra.Dimension.Constructions
import Mathlib.Tactic.LinearCombination
import Mathlib.Tactic.FinCases

/-! Helper lemmas for Props/Circle2D. -/

set_option linter.unusedSectionVars false

namespace MGL.Circle2D
open Spec

theorem distanceSq_eq (a b : V2 ℝ) : distanceSq a b = distSq2 a b := by simp only [distanceSq, dot2, sub2, distSq2]; ring

theorem distSq2_nonneg (a b : V2 ℝ) : 0 ≤ distSq2 a b := by unfold distSq2; positivity

theorem distSq2_comm (a b : V2 ℝ) : distSq2 a b = distSq2 b a := by unfold distSq2; ring

theorem eq_of_distSq2 {a b : V2 ℝ} (h : distSq2 a b ≤ 0) : a = b := by
  unfold distSq2 at h
  have h1 : a.x - b.x = 0 := by nlinarith [sq_nonneg (a.x - b.x), sq_nonneg (a.y - b.y)]
  have h2 : a.y - b.y = 0 := by nlinarith [sq_nonneg (a.x - b.x), sq_nonneg (a.y - b.y)]
  ext <;> linarith

/-- The disc with centre `c` and squared radius `ρ` has the points, and any other disc that has them is larger by the distance
of the centres. -/
def IsMin (S : List (V2 ℝ)) (c : V2 ℝ) (ρ : ℝ) : Prop :=
  (∀ p ∈ S, distSq2 c p ≤ ρ) ∧ ∀ c' ρ', (∀ p ∈ S, distSq2 c' p ≤ ρ') → ρ + distSq2 c c' ≤ ρ'

theorem IsMin.congr {S T : List (V2 ℝ)} {c : V2 ℝ} {ρ : ℝ} (h : IsMin S c ρ) (e : ∀ p, p ∈ S ↔ p ∈ T) : IsMin T c ρ :=
  ⟨fun p hp => h.1 p ((e p).2 hp), fun c' ρ' h' => h.2 c' ρ' fun p hp => h' p ((e p).1 hp)⟩

/-- The circle of three points in absolute coordinates. -/
noncomputable def circ (a b c : V2 ℝ) : Circle2D :=
  let ab := sub2 b a
  let ac := sub2 c a
  makeCircleSq (dot2 ab ab) (dot2 ac ac) ab ac

theorem denom_eq (a b c : V2 ℝ) : dot2 (sub2 b a) (sub2 b a) * dot2 (sub2 c a) (sub2 c a) - dot2 (sub2 b a) (sub2 c a) * dot2 (sub2 b a) (sub2 c a) =
    area2 a b c ^ 2 := by simp only [dot2, sub2, area2]; ring

/-- A point of the segment between two points of the list is the centre of the smallest disc if it is equally far from both. -/
theorem isMin_diameter {S : List (V2 ℝ)} {c u v : V2 ℝ} {ρ : ℝ} (hS : ∀ p ∈ S, distSq2 c p ≤ ρ) (hu : u ∈ S) (hv : v ∈ S)
    (cx : c.x = (u.x + v.x) / 2) (cy : c.y = (u.y + v.y) / 2) (h : distSq2 u v = 4 * ρ) : IsMin S c ρ := by
  refine ⟨hS, fun c' ρ' h' => ?_⟩
  have h1 := h' u hu
  have h2 := h' v hv
  unfold distSq2 at *
  rw [cx, cy]
  nlinarith

set_option maxHeartbeats 1000000 in
theorem circ_isMin {a b c : V2 ℝ} (h : 1 / 100000 ≤ area2 a b c ^ 2) : IsMin [a, b, c] (add2 (circ a b c).pos a) (circ a b c).r := by
  have e := denom_eq a b c
  unfold circ
  simp only []
  unfold makeCircleSq
  simp only []
  rw [e, abs_of_nonneg (sq_nonneg _), if_neg (not_lt.2 h)]
  have hd : 0 < area2 a b c ^ 2 := lt_of_lt_of_le (by norm_num) h
  generalize hAB : dot2 (sub2 b a) (sub2 b a) = AB at *
  generalize hAC : dot2 (sub2 c a) (sub2 c a) = AC at *
  generalize hX : dot2 (sub2 b a) (sub2 c a) = X at *
  generalize hD : area2 a b c ^ 2 = D at *
  have AB0 : 0 ≤ AB := by rw [← hAB]; simp only [dot2]; nlinarith
  have AC0 : 0 ≤ AC := by rw [← hAC]; simp only [dot2]; nlinarith
  have hk : 0 < 1 / 2 / D := by positivity
  have kD : 1 / 2 / D * D = 1 / 2 := by field_simp
  generalize 1 / 2 / D = k at *
  simp only [dot2, sub2] at hAB hAC hX
  split
  · next hs =>
    have h1 : AC * AB - X * AC < 0 := by
      by_contra hc
      exact absurd hs (not_lt.2 (mul_nonneg (not_lt.1 hc) hk.le))
    have h2 : AB < X := by
      by_contra hc
      nlinarith [mul_nonneg AC0 (sub_nonneg.2 (not_lt.1 hc))]
    refine isMin_diameter (u := a) (v := c) ?_ (by simp) (by simp) ?_ ?_ ?_
    · simp only [List.forall_mem_cons, List.not_mem_nil, false_imp_iff, implies_true, and_true]
      simp only [distSq2, add2, smul2, sub2]
      refine ⟨?_, ?_, ?_⟩ <;> linarith
    · simp only [add2, smul2, sub2]; ring
    · simp only [add2, smul2, sub2]; ring
    · simp only [distSq2]; linear_combination -hAC * (-1)
  · next hs =>
    have hs := not_lt.1 hs
    split
    · next ht =>
      have h1 : AC * AB - X * AB < 0 := by
        by_contra hc
        exact absurd ht (not_lt.2 (mul_nonneg (not_lt.1 hc) hk.le))
      have h2 : AC < X := by
        by_contra hc
        nlinarith [mul_nonneg AB0 (sub_nonneg.2 (not_lt.1 hc))]
      refine isMin_diameter (u := a) (v := b) ?_ (by simp) (by simp) ?_ ?_ ?_
      · simp only [List.forall_mem_cons, List.not_mem_nil, false_imp_iff, implies_true, and_true]
        simp only [distSq2, add2, smul2, sub2]
        refine ⟨?_, ?_, ?_⟩ <;> linarith
      · simp only [add2, smul2, sub2]; ring
      · simp only [add2, smul2, sub2]; ring
      · simp only [distSq2]; linear_combination hAB
    · next ht =>
      have ht := not_lt.1 ht
      split
      · next hst =>
        have h1 : 0 < X * (2 * X - AC - AB) := by
          by_contra hc
          have hc := not_lt.1 hc
          nlinarith
        have h2 : X < 0 := by
          by_contra hc
          have hc := not_lt.1 hc
          have : 0 ≤ AC + AB - 2 * X := by
            rw [← hAB, ← hAC, ← hX]
            nlinarith [sq_nonneg (b.x - c.x), sq_nonneg (b.y - c.y)]
          nlinarith [mul_nonneg hc this]
        refine isMin_diameter (u := b) (v := c) ?_ (by simp) (by simp) ?_ ?_ ?_
        · simp only [List.forall_mem_cons, List.not_mem_nil, false_imp_iff, implies_true, and_true]
          simp only [distSq2, add2, smul2, sub2]
          refine ⟨?_, ?_, ?_⟩ <;> linarith
        · simp only [add2, smul2, sub2]; ring
        · simp only [add2, smul2, sub2]; ring
        · simp only [distSq2]; linear_combination hAB + hAC - 2 * hX
      · next hst =>
        have hst := not_lt.1 hst
        generalize es : (AC * AB - X * AC) * k = s at *
        generalize et : (AC * AB - X * AB) * k = t at *
        have k1 : 2 * (s * AB + t * X) = AB := by
          rw [← es, ← et]; linear_combination (2 * k * AB) * e + 2 * AB * kD
        have k2 : 2 * (s * X + t * AC) = AC := by
          rw [← es, ← et]; linear_combination (2 * k * AC) * e + 2 * AC * kD
        set m : V2 ℝ := ⟨s * (b.x - a.x) + t * (c.x - a.x), s * (b.y - a.y) + t * (c.y - a.y)⟩ with hm
        have m1 : 2 * (m.x * (b.x - a.x) + m.y * (b.y - a.y)) = AB := by
          rw [hm]; show 2 * ((s * (b.x - a.x) + t * (c.x - a.x)) * (b.x - a.x) + (s * (b.y - a.y) + t * (c.y - a.y)) * (b.y - a.y)) = AB
          linear_combination k1 + 2 * s * hAB + 2 * t * hX
        have m2 : 2 * (m.x * (c.x - a.x) + m.y * (c.y - a.y)) = AC := by
          rw [hm]; show 2 * ((s * (b.x - a.x) + t * (c.x - a.x)) * (c.x - a.x) + (s * (b.y - a.y) + t * (c.y - a.y)) * (c.y - a.y)) = AC
          linear_combination k2 + 2 * s * hX + 2 * t * hAC
        have em : add2 (smul2 s (sub2 b a)) (smul2 t (sub2 c a)) = m := by
          ext <;> simp only [hm, add2, smul2, sub2] <;> ring
        rw [em]
        have da : distSq2 (add2 m a) a = dot2 m m := by simp only [distSq2, add2, dot2]; ring
        have db : distSq2 (add2 m a) b = dot2 m m := by simp only [distSq2, add2, dot2]; linear_combination hAB - m1
        have dc : distSq2 (add2 m a) c = dot2 m m := by simp only [distSq2, add2, dot2]; linear_combination hAC - m2
        refine ⟨?_, fun c' ρ' h' => ?_⟩
        · simp only [List.forall_mem_cons, List.not_mem_nil, false_imp_iff, implies_true, and_true]
          exact ⟨da.le, db.le, dc.le⟩
        · have ha := h' a (by simp)
          have hb := h' b (by simp)
          have hc := h' c (by simp)
          have key : (1 - s - t) * distSq2 c' a + s * distSq2 c' b + t * distSq2 c' c =
              (1 - s - t) * distSq2 (add2 m a) a + s * distSq2 (add2 m a) b + t * distSq2 (add2 m a) c + distSq2 (add2 m a) c' := by
            rw [← em]; simp only [distSq2, add2, smul2, sub2]; ring
          rw [da, db, dc] at key
          nlinarith [mul_le_mul_of_nonneg_left ha (show 0 ≤ 1 - s - t by linarith), mul_le_mul_of_nonneg_left hb hs, mul_le_mul_of_nonneg_left hc ht]

/-! ### Four points -/

theorem ball_convex (p : V2 ℝ) (R : ℝ) : Convex ℝ {q : ℝ × ℝ | distSq2 ⟨q.1, q.2⟩ p ≤ R} := by
  intro u hu v hv s t hs ht hst
  simp only [Set.mem_setOf_eq, distSq2] at *
  have e : t = 1 - s := by linarith
  subst e
  show (s * u.1 + (1 - s) * v.1 - p.x) ^ 2 + (s * u.2 + (1 - s) * v.2 - p.y) ^ 2 ≤ R
  have : (s * u.1 + (1 - s) * v.1 - p.x) ^ 2 + (s * u.2 + (1 - s) * v.2 - p.y) ^ 2 =
      s * ((u.1 - p.x) ^ 2 + (u.2 - p.y) ^ 2) + (1 - s) * ((v.1 - p.x) ^ 2 + (v.2 - p.y) ^ 2) - s * (1 - s) * ((u.1 - v.1) ^ 2 + (u.2 - v.2) ^ 2) := by ring
  rw [this]
  nlinarith [mul_le_mul_of_nonneg_left hu hs, mul_le_mul_of_nonneg_left hv ht, mul_nonneg (mul_nonneg hs ht) (add_nonneg (sq_nonneg (u.1 - v.1)) (sq_nonneg (u.2 - v.2)))]

/-- If every three of four discs of the same size meet, all four do. -/
theorem helly4 {a b c d c0 c1 c2 c3 : V2 ℝ} {R : ℝ} (h0 : ∀ p ∈ [a, b, c], distSq2 c0 p ≤ R) (h1 : ∀ p ∈ [a, b, d], distSq2 c1 p ≤ R)
    (h2 : ∀ p ∈ [a, c, d], distSq2 c2 p ≤ R) (h3 : ∀ p ∈ [b, c, d], distSq2 c3 p ≤ R) : ∃ q, ∀ p ∈ [a, b, c, d], distSq2 q p ≤ R := by
  let f : Fin 4 → V2 ℝ := ![a, b, c, d]
  have H := Convex.helly_theorem' (𝕜 := ℝ) (E := ℝ × ℝ) (F := fun i : Fin 4 => {q : ℝ × ℝ | distSq2 ⟨q.1, q.2⟩ (f i) ≤ R}) (s := Finset.univ)
    (fun i _ => ball_convex (f i) R) (by
      intro I _ hI
      have hf : Module.finrank ℝ (ℝ × ℝ) = 2 := by simp
      rw [hf] at hI
      obtain ⟨i, hi⟩ : ∃ i, i ∉ I := by
        by_contra hc
        push Not at hc
        have : I = Finset.univ := Finset.eq_univ_iff_forall.2 hc
        rw [this] at hI
        simp at hI
      have wit : ∀ w : V2 ℝ, (∀ j, j ≠ i → distSq2 w (f j) ≤ R) → (⋂ j ∈ I, {q : ℝ × ℝ | distSq2 ⟨q.1, q.2⟩ (f j) ≤ R}).Nonempty := by
        intro w hw
        refine ⟨(w.x, w.y), ?_⟩
        simp only [Set.mem_iInter]
        intro j hj
        exact hw j fun e => hi (e ▸ hj)
      fin_cases i
      · exact wit c3 fun j hj => by fin_cases j <;> first | exact absurd rfl hj | exact h3 _ (by simp [f])
      · exact wit c2 fun j hj => by fin_cases j <;> first | exact absurd rfl hj | exact h2 _ (by simp [f])
      · exact wit c1 fun j hj => by fin_cases j <;> first | exact absurd rfl hj | exact h1 _ (by simp [f])
      · exact wit c0 fun j hj => by fin_cases j <;> first | exact absurd rfl hj | exact h0 _ (by simp [f]))
  obtain ⟨q, hq⟩ := H
  simp only [Set.mem_iInter, Finset.mem_univ, true_imp_iff] at hq
  refine ⟨⟨q.1, q.2⟩, ?_⟩
  simp only [List.forall_mem_cons, List.not_mem_nil, false_imp_iff, implies_true, and_true]
  exact ⟨hq 0, hq 1, hq 2, hq 3⟩

theorem center_of_le {S : List (V2 ℝ)} {c q : V2 ℝ} {ρ : ℝ} (h : IsMin S c ρ) (hq : ∀ p ∈ S, distSq2 q p ≤ ρ) : c = q := by
  have := h.2 q ρ hq
  exact eq_of_distSq2 (by linarith)

/-- One of the circles through the new point has the fourth point too. -/
theorem four {a b c d c0 c1 c2 c3 : V2 ℝ} {ρ0 ρ1 ρ2 ρ3 : ℝ} (h0 : IsMin [a, b, c] c0 ρ0) (h1 : IsMin [a, b, d] c1 ρ1) (h2 : IsMin [a, c, d] c2 ρ2)
    (h3 : IsMin [b, c, d] c3 ρ3) (ho : ρ3 < distSq2 c3 a) : distSq2 c0 d ≤ ρ0 ∨ distSq2 c1 c ≤ ρ1 ∨ distSq2 c2 b ≤ ρ2 := by
  set R := max (max ρ0 ρ1) (max ρ2 ρ3) with hR
  have r0 : ρ0 ≤ R := le_trans (le_max_left _ _) (le_max_left _ _)
  have r1 : ρ1 ≤ R := le_trans (le_max_right _ _) (le_max_left _ _)
  have r2 : ρ2 ≤ R := le_trans (le_max_left _ _) (le_max_right _ _)
  have r3 : ρ3 ≤ R := le_trans (le_max_right _ _) (le_max_right _ _)
  obtain ⟨q, hq⟩ := helly4 (fun p hp => (h0.1 p hp).trans r0) (fun p hp => (h1.1 p hp).trans r1) (fun p hp => (h2.1 p hp).trans r2)
    (fun p hp => (h3.1 p hp).trans r3)
  simp only [List.forall_mem_cons, List.not_mem_nil, false_imp_iff, implies_true, and_true] at hq
  obtain ⟨qa, qb, qc, qd⟩ := hq
  have cases : R = ρ0 ∨ R = ρ1 ∨ R = ρ2 ∨ R = ρ3 := by
    rcases max_choice (max ρ0 ρ1) (max ρ2 ρ3) with h | h
    · rcases max_choice ρ0 ρ1 with h' | h'
      · exact Or.inl (by rw [hR, h, h'])
      · exact Or.inr (Or.inl (by rw [hR, h, h']))
    · rcases max_choice ρ2 ρ3 with h' | h'
      · exact Or.inr (Or.inr (Or.inl (by rw [hR, h, h'])))
      · exact Or.inr (Or.inr (Or.inr (by rw [hR, h, h'])))
  rcases cases with h | h | h | h <;> rw [h] at qa qb qc qd
  · have := center_of_le h0 (q := q) (by simp [qa, qb, qc])
    exact Or.inl (this ▸ qd)
  · have := center_of_le h1 (q := q) (by simp [qa, qb, qd])
    exact Or.inr (Or.inl (this ▸ qc))
  · have := center_of_le h2 (q := q) (by simp [qa, qc, qd])
    exact Or.inr (Or.inr (this ▸ qb))
  · have := center_of_le h3 (q := q) (by simp [qb, qc, qd])
    rw [this] at ho
    exact absurd qa (not_le.2 ho)

/-- What `smallest4` returns for points no three of which are nearly on a line. -/
theorem smallest4_spec {a b c d c3 : V2 ℝ} {ρ3 : ℝ} (t0 : 1 / 100000 ≤ area2 a b c ^ 2) (t1 : 1 / 100000 ≤ area2 a b d ^ 2)
    (t2 : 1 / 100000 ≤ area2 a c d ^ 2) (h3 : IsMin [b, c, d] c3 ρ3) (ho : ρ3 < distSq2 c3 a) :
    (smallest4 a b c d = (circ a b c, 2) ∧ IsMin [a, b, c] (add2 (circ a b c).pos a) (circ a b c).r ∧ distSq2 (add2 (circ a b c).pos a) d ≤ (circ a b c).r) ∨
    (smallest4 a b c d = (circ a b d, 1) ∧ IsMin [a, b, d] (add2 (circ a b d).pos a) (circ a b d).r ∧ distSq2 (add2 (circ a b d).pos a) c ≤ (circ a b d).r) ∨
    (smallest4 a b c d = (circ a c d, 0) ∧ IsMin [a, c, d] (add2 (circ a c d).pos a) (circ a c d).r ∧ distSq2 (add2 (circ a c d).pos a) b ≤ (circ a c d).r) := by
  have i0 := circ_isMin t0
  have i1 := circ_isMin t1
  have i2 := circ_isMin t2
  have rel : ∀ (k u : V2 ℝ), distanceSq k (sub2 u a) = distSq2 (add2 k a) u := fun k u => by
    simp only [distanceSq, dot2, sub2, distSq2, add2]; ring
  have step : smallest4 a b c d = if distSq2 (add2 (circ a b c).pos a) d ≤ (circ a b c).r then (circ a b c, 2)
      else if distSq2 (add2 (circ a b d).pos a) c ≤ (circ a b d).r then (circ a b d, 1)
      else if distSq2 (add2 (circ a c d).pos a) b ≤ (circ a c d).r then (circ a c d, 0) else smallest4 a b c d := by
    rw [← rel, ← rel, ← rel]
    split
    · next h => unfold smallest4; simp only []; exact if_pos h
    · next h =>
      split
      · next h' => unfold smallest4; simp only []; exact (if_neg h).trans (if_pos h')
      · next h' =>
        split
        · next h'' => unfold smallest4; simp only []; exact (if_neg h).trans ((if_neg h').trans (if_pos h''))
        · rfl
  by_cases k0 : distSq2 (add2 (circ a b c).pos a) d ≤ (circ a b c).r
  · exact Or.inl ⟨by rw [step, if_pos k0], i0, k0⟩
  · by_cases k1 : distSq2 (add2 (circ a b d).pos a) c ≤ (circ a b d).r
    · exact Or.inr (Or.inl ⟨by rw [step, if_neg k0, if_pos k1], i1, k1⟩)
    · rcases four i0 i1 i2 h3 ho with h | h | h
      · exact absurd h k0
      · exact absurd h k1
      · exact Or.inr (Or.inr ⟨by rw [step, if_neg k0, if_neg k1, if_pos h], i2, h⟩)

end MGL.Circle2D
