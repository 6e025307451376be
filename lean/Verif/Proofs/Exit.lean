import Verif.Proofs.Vec3
import Mathlib.LinearAlgebra.Matrix.ToLinearEquiv
import Mathlib.LinearAlgebra.Matrix.NonsingularInverse
import Mathlib.LinearAlgebra.Matrix.Notation
import Mathlib.LinearAlgebra.Matrix.Determinant.Basic
import Mathlib.Data.Fin.VecNotation
import Mathlib.Tactic.LinearCombination
import Mathlib.Tactic.FieldSimp
import Mathlib.Tactic.Linarith
import Mathlib.Tactic.FinCases

/-! Moving a pair of points of two convex sets towards each other until one of them reaches a boundary. -/

namespace MGL
open V3
variable {α : Type*} [Field α] [LinearOrder α] [IsStrictOrderedRing α]

/-- Affine constraints that hold at the start of a move but not all at its end: there is a first moment where one of them
becomes zero while all others still hold. -/
theorem exit_lemma : ∀ L : List (α × α), (∀ p ∈ L, 0 ≤ p.1) → (∀ p ∈ L, 0 ≤ p.2) ∨
    ∃ s : α, 0 ≤ s ∧ s ≤ 1 ∧ (∀ p ∈ L, 0 ≤ (1 - s) * p.1 + s * p.2) ∧ ∃ p ∈ L, (1 - s) * p.1 + s * p.2 = 0 := by
  intro L
  induction L with
  | nil => intro _; left; simp
  | cons q L ih =>
    intro h
    have hq := h q (by simp)
    rcases ih (fun p hp => h p (by simp [hp])) with h1 | ⟨s, h0, h1, h2, p, hp, h3⟩
    · by_cases hg : 0 ≤ q.2
      · left; intro p hp; rcases List.mem_cons.1 hp with rfl | hp
        · exact hg
        · exact h1 p hp
      · right
        push Not at hg
        have hd : 0 < q.1 - q.2 := by linarith
        have h0 : 0 ≤ q.1 / (q.1 - q.2) := div_nonneg hq hd.le
        have h1' : q.1 / (q.1 - q.2) ≤ 1 := (div_le_one hd).2 (by linarith)
        have hz : (1 - q.1 / (q.1 - q.2)) * q.1 + q.1 / (q.1 - q.2) * q.2 = 0 := by
          have := div_mul_cancel₀ q.1 hd.ne'
          linear_combination -this
        refine ⟨q.1 / (q.1 - q.2), h0, h1', ?_, q, by simp, hz⟩
        intro p hp; rcases List.mem_cons.1 hp with rfl | hp
        · exact hz.ge
        · exact add_nonneg (mul_nonneg (by linarith) (h p (by simp [hp]))) (mul_nonneg h0 (h1 p hp))
    · right
      by_cases hg : 0 ≤ (1 - s) * q.1 + s * q.2
      · refine ⟨s, h0, h1, ?_, p, by simp [hp], h3⟩
        intro p hp; rcases List.mem_cons.1 hp with rfl | hp
        · exact hg
        · exact h2 p hp
      · push Not at hg
        set g := (1 - s) * q.1 + s * q.2 with hgd
        have hd : 0 < q.1 - g := by linarith
        set k := q.1 / (q.1 - g) with hk
        have hk0 : 0 ≤ k := div_nonneg hq hd.le
        have hk1 : k ≤ 1 := (div_le_one hd).2 (by linarith)
        have hz : (1 - s * k) * q.1 + s * k * q.2 = 0 := by
          have := div_mul_cancel₀ q.1 hd.ne'
          rw [← hk] at this
          have e : (1 - s * k) * q.1 + s * k * q.2 = q.1 - k * (q.1 - g) := by rw [hgd]; ring
          rw [e, this, sub_self]
        refine ⟨s * k, mul_nonneg h0 hk0, mul_le_one₀ h1 hk0 hk1, ?_, q, by simp, hz⟩
        intro p hp; rcases List.mem_cons.1 hp with rfl | hp
        · exact hz.ge
        · have e : (1 - s * k) * p.1 + s * k * p.2 = (1 - k) * p.1 + k * ((1 - s) * p.1 + s * p.2) := by ring
          rw [e]
          exact add_nonneg (mul_nonneg (by linarith) (h p (by simp [hp]))) (mul_nonneg hk0 (h2 p hp))

/-- The same for constraints with a rate of change, one of which is negative. -/
theorem exit_ray (L : List (α × α)) (h : ∀ p ∈ L, 0 ≤ p.1) (q : α × α) (hq : q ∈ L) (hneg : q.2 < 0) :
    ∃ s : α, (∀ p ∈ L, 0 ≤ p.1 + s * p.2) ∧ ∃ p ∈ L, p.1 + s * p.2 = 0 := by
  have hK : ∃ K : α, q.1 + K * q.2 < 0 := by
    refine ⟨(q.1 + 1) / (-q.2), ?_⟩
    have h0 : q.2 ≠ 0 := hneg.ne
    have : (q.1 + 1) / (-q.2) * q.2 = -(q.1 + 1) := by field_simp
    rw [this]; linarith
  obtain ⟨K, hK⟩ := hK
  rcases exit_lemma (L.map fun p => (p.1, p.1 + K * p.2)) (by
    intro p hp; obtain ⟨r, hr, rfl⟩ := List.mem_map.1 hp; exact h r hr) with h1 | ⟨s, -, -, h2, p, hp, h3⟩
  · exact absurd (h1 _ (List.mem_map.2 ⟨q, hq, rfl⟩)) (by simpa using hK)
  · refine ⟨s * K, ?_, ?_⟩
    · intro r hr
      have := h2 _ (List.mem_map.2 ⟨r, hr, rfl⟩)
      dsimp only at this
      linarith
    · obtain ⟨r, hr, rfl⟩ := List.mem_map.1 hp
      refine ⟨r, hr, ?_⟩
      dsimp only at h3
      linarith

/-- Three vectors either span the space or are dependent. -/
theorem span_or_dependent (e1 e2 d : V3 α) : (∀ w : V3 α, ∃ x y z : α, x • e1 + y • e2 + z • d = w) ∨
    ∃ x y z : α, (x ≠ 0 ∨ y ≠ 0 ∨ z ≠ 0) ∧ x • e1 + y • e2 + z • d = 0 := by
  by_cases hdet : dot (cross e1 e2) d = 0
  · right
    have hM : Matrix.det !![e1.x, e2.x, d.x; e1.y, e2.y, d.y; e1.z, e2.z, d.z] = 0 := by
      rw [Matrix.det_fin_three]; simp; rw [← hdet]; simp only [dot, cross]; ring
    obtain ⟨v, hv, h0⟩ := Matrix.exists_mulVec_eq_zero_iff.2 hM
    refine ⟨v 0, v 1, v 2, ?_, ?_⟩
    · by_contra hc
      push Not at hc
      apply hv
      ext i; fin_cases i
      · exact hc.1
      · exact hc.2.1
      · exact hc.2.2
    · have h0' := congrFun h0 0
      have h1' := congrFun h0 1
      have h2' := congrFun h0 2
      simp [Matrix.mulVec, dotProduct, Fin.sum_univ_three] at h0' h1' h2'
      ext
      · simp; linarith
      · simp; linarith
      · simp; linarith
  · left
    intro w
    refine ⟨dot (cross w e2) d / dot (cross e1 e2) d, dot (cross e1 w) d / dot (cross e1 e2) d, dot (cross e1 e2) w / dot (cross e1 e2) d, ?_⟩
    have e : dot (cross w e2) d • e1 + dot (cross e1 w) d • e2 + dot (cross e1 e2) w • d = dot (cross e1 e2) d • w := by
      ext <;> simp only [dot, cross] <;> simp <;> ring
    have ex := congrArg V3.x e
    have ey := congrArg V3.y e
    have ez := congrArg V3.z e
    simp only [V3.smul_x, V3.smul_y, V3.smul_z, V3.add_x, V3.add_y, V3.add_z] at ex ey ez
    ext
    · simp only [V3.smul_x, V3.add_x]; field_simp; linear_combination ex
    · simp only [V3.smul_y, V3.add_y]; field_simp; linear_combination ey
    · simp only [V3.smul_z, V3.add_z]; field_simp; linear_combination ez

/-- Four vectors are dependent. -/
theorem four_dependent (e1 e2 e3 e4 : V3 α) : ∃ x y z w : α, (x ≠ 0 ∨ y ≠ 0 ∨ z ≠ 0 ∨ w ≠ 0) ∧ x • e1 + y • e2 + z • e3 + w • e4 = 0 := by
  rcases span_or_dependent e1 e2 e3 with h | ⟨x, y, z, hne, h0⟩
  · obtain ⟨x, y, z, h⟩ := h (-e4)
    refine ⟨x, y, z, 1, by simp, ?_⟩
    rw [h]; ext <;> simp
  · exact ⟨x, y, z, 0, by tauto, by rw [h0]; ext <;> simp⟩

/-- A triangle point with one zero coordinate is on an edge. -/
def OnEdge (a b c x : V3 α) : Prop := x ∈ Spec.seg a b ∨ x ∈ Spec.seg b c ∨ x ∈ Spec.seg c a

theorem onEdge_of_zero {a b c : V3 α} {u v w : α} (hu : 0 ≤ u) (hv : 0 ≤ v) (hw : 0 ≤ w) (h1 : u + v + w = 1) (h : u = 0 ∨ v = 0 ∨ w = 0) :
    OnEdge a b c (u • a + v • b + w • c) := by
  rcases h with rfl | rfl | rfl
  · obtain rfl : v = 1 - w := by linarith
    exact Or.inr (Or.inl ⟨w, hw, by linarith, by ext <;> simp <;> ring⟩)
  · obtain rfl : w = 1 - u := by linarith
    exact Or.inr (Or.inr ⟨u, hu, by linarith, by ext <;> simp <;> ring⟩)
  · obtain rfl : u = 1 - v := by linarith
    exact Or.inl ⟨v, hv, by linarith, by ext <;> simp <;> ring⟩

/-- `x - y` shrinks when both move proportionally towards a common point. -/
theorem distSq_shrink {x y x' y' : V3 α} {s : α} (h0 : 0 ≤ s) (h1 : s ≤ 1) (h : x' - y' = (1 - s) • (x - y)) : distSq x' y' ≤ distSq x y := by
  have : distSq x' y' = (1 - s) * (1 - s) * distSq x y := by
    unfold distSq; rw [h]; simp only [lenSq, dot]; simp; ring
  rw [this]
  have h2 : (1 - s) * (1 - s) ≤ 1 := by nlinarith
  nlinarith [distSq_nonneg x y]

/-- Any point pair of a triangle and a segment that do not meet can be moved, without increasing the distance, until the
triangle point is on an edge or the segment point is an end point. -/
theorem tri_seg_boundary (a b c p q : V3 α) (hdis : ∀ x ∈ Spec.tri a b c, x ∉ Spec.seg p q) (x y : V3 α) (hx : x ∈ Spec.tri a b c)
    (hy : y ∈ Spec.seg p q) : ∃ x' ∈ Spec.tri a b c, ∃ y' ∈ Spec.seg p q, distSq x' y' ≤ distSq x y ∧ (OnEdge a b c x' ∨ y' = p ∨ y' = q) := by
  obtain ⟨u, v, w, hu, hv, hw, h1, rfl⟩ := hx
  obtain ⟨t, ht0, ht1, rfl⟩ := hy
  obtain rfl : u = 1 - v - w := by linarith
  have finish : ∀ v' w' t' : α, 0 ≤ 1 - v' - w' → 0 ≤ v' → 0 ≤ w' → 0 ≤ t' → 0 ≤ 1 - t' →
      (1 - v' - w' = 0 ∨ v' = 0 ∨ w' = 0 ∨ t' = 0 ∨ 1 - t' = 0) →
      distSq ((1 - v' - w') • a + v' • b + w' • c) (p + t' • (q - p)) ≤ distSq ((1 - v - w) • a + v • b + w • c) (p + t • (q - p)) →
      ∃ x' ∈ Spec.tri a b c, ∃ y' ∈ Spec.seg p q, distSq x' y' ≤ distSq ((1 - v - w) • a + v • b + w • c) (p + t • (q - p)) ∧
        (OnEdge a b c x' ∨ y' = p ∨ y' = q) := by
    intro v' w' t' g1 g2 g3 g4 g5 g6 g7
    refine ⟨_, ⟨1 - v' - w', v', w', g1, g2, g3, by ring, rfl⟩, _, ⟨t', g4, by linarith, rfl⟩, g7, ?_⟩
    rcases g6 with g | g | g | g | g
    · exact Or.inl (onEdge_of_zero g1 g2 g3 (by ring) (Or.inl g))
    · exact Or.inl (onEdge_of_zero g1 g2 g3 (by ring) (Or.inr (Or.inl g)))
    · exact Or.inl (onEdge_of_zero g1 g2 g3 (by ring) (Or.inr (Or.inr g)))
    · right; left; rw [g]; ext <;> simp
    · right; right; obtain rfl : t' = 1 := by linarith
      ext <;> simp
  rcases span_or_dependent (b - a) (c - a) (p - q) with hspan | ⟨dv, dw, dt, hne, h0⟩
  · -- move towards the common point of plane and line
    obtain ⟨dv, dw, dt, h0⟩ := hspan ((p + t • (q - p)) - ((1 - v - w) • a + v • b + w • c))
    have ex := congrArg V3.x h0
    have ey := congrArg V3.y h0
    have ez := congrArg V3.z h0
    simp at ex ey ez
    rcases exit_lemma [(1 - v - w, 1 - (v + dv) - (w + dw)), (v, v + dv), (w, w + dw), (t, t + dt), (1 - t, 1 - (t + dt))]
      (by simp; exact ⟨by linarith, hv, hw, ht0, ht1⟩) with g | ⟨s, s0, s1, g1, g2⟩
    · exfalso
      simp at g
      refine hdis (p + (t + dt) • (q - p)) ⟨1 - (v + dv) - (w + dw), v + dv, w + dw, by linarith, g.2.1, g.2.2.1, by ring, ?_⟩
        ⟨t + dt, g.2.2.2.1, by linarith, rfl⟩
      ext
      · simp; linear_combination -ex
      · simp; linear_combination -ey
      · simp; linear_combination -ez
    · simp only [List.mem_cons, List.mem_nil_iff, or_false, forall_eq_or_imp, forall_eq, exists_eq_or_imp, exists_eq_left] at g1 g2
      obtain ⟨k1, k2, k3, k4, k5⟩ := g1
      refine finish (v + s * dv) (w + s * dw) (t + s * dt) (by linarith) (by linarith) (by linarith) (by linarith) (by linarith) ?_ ?_
      · rcases g2 with g | g | g | g | g
        · left; linarith
        · right; left; linarith
        · right; right; left; linarith
        · right; right; right; left; linarith
        · right; right; right; right; linarith
      · apply distSq_shrink s0 s1
        ext
        · simp; linear_combination s * ex
        · simp; linear_combination s * ey
        · simp; linear_combination s * ez
  · -- move along a common direction
    have ex := congrArg V3.x h0
    have ey := congrArg V3.y h0
    have ez := congrArg V3.z h0
    simp at ex ey ez
    have hneg : ∃ r ∈ [(1 - v - w, -dv - dw), (v, dv), (w, dw), (t, dt), (1 - t, -dt)], r.2 < 0 := by
      by_contra hc
      push Not at hc
      simp at hc
      obtain ⟨k1, k2, k3, k4, k5⟩ := hc
      rcases hne with h | h | h
      · exact h (le_antisymm (by linarith) k2)
      · exact h (le_antisymm (by linarith) k3)
      · exact h (le_antisymm k5 k4)
    obtain ⟨r, hr, hneg⟩ := hneg
    obtain ⟨s, g1, g2⟩ := exit_ray _ (by simp; exact ⟨by linarith, hv, hw, ht0, ht1⟩) r hr hneg
    simp only [List.mem_cons, List.mem_nil_iff, or_false, forall_eq_or_imp, forall_eq, exists_eq_or_imp, exists_eq_left] at g1 g2
    obtain ⟨k1, k2, k3, k4, k5⟩ := g1
    refine finish (v + s * dv) (w + s * dw) (t + s * dt) (by linarith) (by linarith) (by linarith) (by linarith) (by linarith) ?_ ?_
    · rcases g2 with g | g | g | g | g
      · left; linarith
      · right; left; linarith
      · right; right; left; linarith
      · right; right; right; left; linarith
      · right; right; right; right; linarith
    · apply le_of_eq
      unfold distSq
      congr 1
      ext
      · simp; linear_combination s * ex
      · simp; linear_combination s * ey
      · simp; linear_combination s * ez

/-- The same for a triangle and a line that do not meet. -/
theorem tri_line_boundary (a b c p d : V3 α) (hd : d ≠ 0) (hdis : ∀ x ∈ Spec.tri a b c, x ∉ Spec.line p d) (x y : V3 α) (hx : x ∈ Spec.tri a b c)
    (hy : y ∈ Spec.line p d) : ∃ x' ∈ Spec.tri a b c, ∃ y' ∈ Spec.line p d, distSq x' y' ≤ distSq x y ∧ OnEdge a b c x' := by
  obtain ⟨u, v, w, hu, hv, hw, h1, rfl⟩ := hx
  obtain ⟨t, rfl⟩ := hy
  obtain rfl : u = 1 - v - w := by linarith
  have finish : ∀ v' w' t' : α, 0 ≤ 1 - v' - w' → 0 ≤ v' → 0 ≤ w' →
      (1 - v' - w' = 0 ∨ v' = 0 ∨ w' = 0) →
      distSq ((1 - v' - w') • a + v' • b + w' • c) (p + t' • d) ≤ distSq ((1 - v - w) • a + v • b + w • c) (p + t • d) →
      ∃ x' ∈ Spec.tri a b c, ∃ y' ∈ Spec.line p d, distSq x' y' ≤ distSq ((1 - v - w) • a + v • b + w • c) (p + t • d) ∧
        OnEdge a b c x' := by
    intro v' w' t' g1 g2 g3 g6 g7
    exact ⟨_, ⟨1 - v' - w', v', w', g1, g2, g3, by ring, rfl⟩, _, ⟨t', rfl⟩, g7, onEdge_of_zero g1 g2 g3 (by ring) g6⟩
  rcases span_or_dependent (b - a) (c - a) (-d) with hspan | ⟨dv, dw, dt, hne, h0⟩
  · obtain ⟨dv, dw, dt, h0⟩ := hspan ((p + t • d) - ((1 - v - w) • a + v • b + w • c))
    have ex := congrArg V3.x h0
    have ey := congrArg V3.y h0
    have ez := congrArg V3.z h0
    simp at ex ey ez
    rcases exit_lemma [(1 - v - w, 1 - (v + dv) - (w + dw)), (v, v + dv), (w, w + dw)]
      (by simp; exact ⟨by linarith, hv, hw⟩) with g | ⟨s, s0, s1, g1, g2⟩
    · exfalso
      simp at g
      refine hdis (p + (t + dt) • d) ⟨1 - (v + dv) - (w + dw), v + dv, w + dw, by linarith, g.2.1, g.2.2, by ring, ?_⟩
        ⟨t + dt, rfl⟩
      ext
      · simp; linear_combination -ex
      · simp; linear_combination -ey
      · simp; linear_combination -ez
    · simp only [List.mem_cons, List.mem_nil_iff, or_false, forall_eq_or_imp, forall_eq, exists_eq_or_imp, exists_eq_left] at g1 g2
      obtain ⟨k1, k2, k3⟩ := g1
      refine finish (v + s * dv) (w + s * dw) (t + s * dt) (by linarith) (by linarith) (by linarith) ?_ ?_
      · rcases g2 with g | g | g
        · left; linarith
        · right; left; linarith
        · right; right; linarith
      · apply distSq_shrink s0 s1
        ext
        · simp; linear_combination s * ex
        · simp; linear_combination s * ey
        · simp; linear_combination s * ez
  · have ex := congrArg V3.x h0
    have ey := congrArg V3.y h0
    have ez := congrArg V3.z h0
    simp at ex ey ez
    have hneg : ∃ r ∈ [(1 - v - w, -dv - dw), (v, dv), (w, dw)], r.2 < 0 := by
      by_contra hc
      push Not at hc
      simp at hc
      obtain ⟨k1, k2, k3⟩ := hc
      have dv0 : dv = 0 := le_antisymm (by linarith) k2
      have dw0 : dw = 0 := le_antisymm (by linarith) k3
      have dt0 : dt ≠ 0 := by rcases hne with h | h | h
                              · exact absurd dv0 h
                              · exact absurd dw0 h
                              · exact h
      apply hd
      rw [dv0, dw0] at ex ey ez
      ext
      · have : dt * d.x = 0 := by linarith
        simpa [dt0] using this
      · have : dt * d.y = 0 := by linarith
        simpa [dt0] using this
      · have : dt * d.z = 0 := by linarith
        simpa [dt0] using this
    obtain ⟨r, hr, hneg⟩ := hneg
    obtain ⟨s, g1, g2⟩ := exit_ray _ (by simp; exact ⟨by linarith, hv, hw⟩) r hr hneg
    simp only [List.mem_cons, List.mem_nil_iff, or_false, forall_eq_or_imp, forall_eq, exists_eq_or_imp, exists_eq_left] at g1 g2
    obtain ⟨k1, k2, k3⟩ := g1
    refine finish (v + s * dv) (w + s * dw) (t + s * dt) (by linarith) (by linarith) (by linarith) ?_ ?_
    · rcases g2 with g | g | g
      · left; linarith
      · right; left; linarith
      · right; right; linarith
    · apply le_of_eq
      unfold distSq
      congr 1
      ext
      · simp; linear_combination s * ex
      · simp; linear_combination s * ey
      · simp; linear_combination s * ez

/-- The same for two triangles (meeting or not): one of the points gets to an edge, at the same distance. -/
theorem tri_tri_boundary (a b c a' b' c' x y : V3 α) (hx : x ∈ Spec.tri a b c) (hy : y ∈ Spec.tri a' b' c') :
    ∃ x' ∈ Spec.tri a b c, ∃ y' ∈ Spec.tri a' b' c', distSq x' y' = distSq x y ∧ (OnEdge a b c x' ∨ OnEdge a' b' c' y') := by
  obtain ⟨u, v, w, hu, hv, hw, h1, rfl⟩ := hx
  obtain ⟨u', v', w', hu', hv', hw', h1', rfl⟩ := hy
  obtain rfl : u = 1 - v - w := by linarith
  obtain rfl : u' = 1 - v' - w' := by linarith
  obtain ⟨dv, dw, dv', dw', hne, h0⟩ := four_dependent (b - a) (c - a) (a' - b') (a' - c')
  have ex := congrArg V3.x h0
  have ey := congrArg V3.y h0
  have ez := congrArg V3.z h0
  simp at ex ey ez
  have hneg : ∃ r ∈ [(1 - v - w, -dv - dw), (v, dv), (w, dw), (1 - v' - w', -dv' - dw'), (v', dv'), (w', dw')], r.2 < 0 := by
    by_contra hc
    push Not at hc
    simp at hc
    obtain ⟨k1, k2, k3, k4, k5, k6⟩ := hc
    rcases hne with h | h | h | h
    · exact h (le_antisymm (by linarith) k2)
    · exact h (le_antisymm (by linarith) k3)
    · exact h (le_antisymm (by linarith) k5)
    · exact h (le_antisymm (by linarith) k6)
  obtain ⟨r, hr, hneg⟩ := hneg
  obtain ⟨s, g1, g2⟩ := exit_ray _ (by simp; exact ⟨by linarith, hv, hw, by linarith, hv', hw'⟩) r hr hneg
  simp only [List.mem_cons, List.mem_nil_iff, or_false, forall_eq_or_imp, forall_eq, exists_eq_or_imp, exists_eq_left] at g1 g2
  obtain ⟨k1, k2, k3, k4, k5, k6⟩ := g1
  refine ⟨_, ⟨1 - (v + s * dv) - (w + s * dw), v + s * dv, w + s * dw, by linarith, k2, k3, by ring, rfl⟩,
    _, ⟨1 - (v' + s * dv') - (w' + s * dw'), v' + s * dv', w' + s * dw', by linarith, k5, k6, by ring, rfl⟩, ?_, ?_⟩
  · unfold distSq
    congr 1
    ext
    · simp; linear_combination s * ex
    · simp; linear_combination s * ey
    · simp; linear_combination s * ez
  · rcases g2 with g | g | g | g | g | g
    · exact Or.inl (onEdge_of_zero (by linarith) k2 k3 (by ring) (Or.inl (by linarith)))
    · exact Or.inl (onEdge_of_zero (by linarith) k2 k3 (by ring) (Or.inr (Or.inl g)))
    · exact Or.inl (onEdge_of_zero (by linarith) k2 k3 (by ring) (Or.inr (Or.inr g)))
    · exact Or.inr (onEdge_of_zero (by linarith) k5 k6 (by ring) (Or.inl (by linarith)))
    · exact Or.inr (onEdge_of_zero (by linarith) k5 k6 (by ring) (Or.inr (Or.inl g)))
    · exact Or.inr (onEdge_of_zero (by linarith) k5 k6 (by ring) (Or.inr (Or.inr g)))

end MGL
