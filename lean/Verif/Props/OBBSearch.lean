import Verif.Model.OBBSearch
import Verif.Props.Mat3Solve
import Verif.Proofs.OBB
import Verif.Spec.MeshGeom
import Mathlib.Tactic.Linarith
import Mathlib.Tactic.FieldSimp

/-! C114: the tests that decide which directions the search for the smallest enclosing oriented box looks at. -/

set_option linter.unusedSectionVars false

namespace MGL
open V3 Spec
namespace OBB

section field
variable {α : Type} [Field α] [LinearOrder α] [IsStrictOrderedRing α]

theorem dot_mix (a b c d : V3 α) (t u : α) : dot (b + t • (a - b)) (d + u • (c - d)) =
    dot b d + t * dot (a - b) d + u * dot (c - d) b + t * u * dot (a - b) (c - d) := by
  simp only [dot, add_x, add_y, add_z, sub_x, sub_y, sub_z, smul_x, smul_y, smul_z]; ring

/-- A linear function with values of opposite sign at the ends of `[0, 1]` has a zero between. -/
theorem lin_zero {p q : α} (h : p ≤ 0 ∧ 0 ≤ q ∨ 0 ≤ p ∧ q ≤ 0) : ∃ t : α, 0 ≤ t ∧ t ≤ 1 ∧ p + t * (q - p) = 0 := by
  rcases eq_or_ne p 0 with h0 | h0
  · exact ⟨0, le_rfl, zero_le_one, by rw [h0]; ring⟩
  have hpq : p - q ≠ 0 := by
    intro e
    have : p = q := sub_eq_zero.1 e
    rcases h with ⟨h1, h2⟩ | ⟨h1, h2⟩ <;> exact h0 (le_antisymm (by linarith) (by linarith))
  refine ⟨p / (p - q), ?_, ?_, ?_⟩
  · rcases h with ⟨h1, h2⟩ | ⟨h1, h2⟩
    · exact div_nonneg_of_nonpos h1 (by linarith)
    · exact div_nonneg h1 (by linarith)
  · rcases h with ⟨h1, h2⟩ | ⟨h1, h2⟩
    · have : p - q < 0 := lt_of_le_of_ne (by linarith) hpq
      rw [div_le_one_of_neg this]; linarith
    · have : 0 < p - q := lt_of_le_of_ne (by linarith) (Ne.symm hpq)
      rw [div_le_one this]; linarith
  · field_simp; ring

/-- C114: the test of two edges is true exactly if a normal between the two faces at the first edge and a normal between the two
faces at the second edge are perpendicular. -/
theorem C114_edgesCompatible (f1a f1b f2a f2b : V3 α) : areEdgesCompatible f1a f1b f2a f2b = true ↔
    ∃ t u : α, 0 ≤ t ∧ t ≤ 1 ∧ 0 ≤ u ∧ u ≤ 1 ∧ dot (f1b + t • (f1a - f1b)) (f2b + u • (f2a - f2b)) = 0 := by
  simp only [dot_mix]
  unfold areEdgesCompatible
  simp only [min4, max4, min2_eq, max2_eq, Bool.and_eq_true, decide_eq_true_eq, min_le_iff, ge_iff_le, le_max_iff]
  generalize dot f1b f2b = a
  generalize dot (f1a - f1b) f2b = b
  generalize dot (f2a - f2b) f1b = c
  generalize dot (f1a - f1b) (f2a - f2b) = d
  constructor
  · intro h
    have t0 (h : a ≤ 0 ∧ 0 ≤ a + c ∨ 0 ≤ a ∧ a + c ≤ 0) :
        ∃ t u : α, 0 ≤ t ∧ t ≤ 1 ∧ 0 ≤ u ∧ u ≤ 1 ∧ a + t * b + u * c + t * u * d = 0 := by
      obtain ⟨u, h1, h2, h3⟩ := lin_zero h
      exact ⟨0, u, le_rfl, zero_le_one, h1, h2, by linear_combination h3⟩
    have t1 (h : a + b ≤ 0 ∧ 0 ≤ a + b + c + d ∨ 0 ≤ a + b ∧ a + b + c + d ≤ 0) :
        ∃ t u : α, 0 ≤ t ∧ t ≤ 1 ∧ 0 ≤ u ∧ u ≤ 1 ∧ a + t * b + u * c + t * u * d = 0 := by
      obtain ⟨u, h1, h2, h3⟩ := lin_zero h
      exact ⟨1, u, zero_le_one, le_rfl, h1, h2, by linear_combination h3⟩
    have u0 (h : a ≤ 0 ∧ 0 ≤ a + b ∨ 0 ≤ a ∧ a + b ≤ 0) :
        ∃ t u : α, 0 ≤ t ∧ t ≤ 1 ∧ 0 ≤ u ∧ u ≤ 1 ∧ a + t * b + u * c + t * u * d = 0 := by
      obtain ⟨u, h1, h2, h3⟩ := lin_zero h
      exact ⟨u, 0, h1, h2, le_rfl, zero_le_one, by linear_combination h3⟩
    have u1 (h : a + c ≤ 0 ∧ 0 ≤ a + b + c + d ∨ 0 ≤ a + c ∧ a + b + c + d ≤ 0) :
        ∃ t u : α, 0 ≤ t ∧ t ≤ 1 ∧ 0 ≤ u ∧ u ≤ 1 ∧ a + t * b + u * c + t * u * d = 0 := by
      obtain ⟨u, h1, h2, h3⟩ := lin_zero h
      exact ⟨u, 1, h1, h2, zero_le_one, le_rfl, by linear_combination h3⟩
    by_cases e0 : a ≤ 0 ∧ 0 ≤ a + c ∨ 0 ≤ a ∧ a + c ≤ 0
    · exact t0 e0
    by_cases e1 : a ≤ 0 ∧ 0 ≤ a + b ∨ 0 ≤ a ∧ a + b ≤ 0
    · exact u0 e1
    by_cases e2 : a + b ≤ 0 ∧ 0 ≤ a + b + c + d ∨ 0 ≤ a + b ∧ a + b + c + d ≤ 0
    · exact t1 e2
    exfalso
    rcases le_total a 0 with ha | ha
    · have k1 : a + c < 0 := by by_contra k; exact e0 (Or.inl ⟨ha, by linarith⟩)
      have k2 : a + b < 0 := by by_contra k; exact e1 (Or.inl ⟨ha, by linarith⟩)
      have k3 : a + b + c + d < 0 := by by_contra k; exact e2 (Or.inl ⟨by linarith, by linarith⟩)
      have k0 : a < 0 := by
        rcases lt_or_eq_of_le ha with k | k
        · exact k
        · exact absurd (Or.inr ⟨by linarith, by linarith⟩) e0
      rcases h.2 with (h | h) | h | h <;> linarith
    · have k1 : 0 < a + c := by by_contra k; exact e0 (Or.inr ⟨ha, by linarith⟩)
      have k2 : 0 < a + b := by by_contra k; exact e1 (Or.inr ⟨ha, by linarith⟩)
      have k3 : 0 < a + b + c + d := by by_contra k; exact e2 (Or.inr ⟨by linarith, by linarith⟩)
      have k0 : 0 < a := by
        rcases lt_or_eq_of_le ha with k | k
        · exact k
        · exact absurd (Or.inl ⟨by linarith, by linarith⟩) e0
      rcases h.1 with (h | h) | h | h <;> linarith
  · rintro ⟨t, u, h0, h1, h2, h3, e⟩
    have e : (1 - t) * (1 - u) * a + t * (1 - u) * (a + b) + (1 - t) * u * (a + c) + t * u * (a + b + c + d) = 0 := by
      linear_combination e
    have w0 : 0 ≤ (1 - t) * (1 - u) := mul_nonneg (by linarith) (by linarith)
    have w1 : 0 ≤ t * (1 - u) := mul_nonneg (by linarith) (by linarith)
    have w2 : 0 ≤ (1 - t) * u := mul_nonneg (by linarith) (by linarith)
    have w3 : 0 ≤ t * u := mul_nonneg (by linarith) (by linarith)
    have ws : (1 - t) * (1 - u) + t * (1 - u) + (1 - t) * u + t * u = 1 := by ring
    have pos (A B C D : α) (hA : 0 < A) (hB : 0 < B) (hC : 0 < C) (hD : 0 < D) :
        0 < (1 - t) * (1 - u) * A + t * (1 - u) * B + (1 - t) * u * C + t * u * D := by
      have m : 0 < min (min A B) (min C D) := by simp [hA, hB, hC, hD]
      have q0 := mul_le_mul_of_nonneg_left ((min_le_left _ _).trans (min_le_left A B) : min (min A B) (min C D) ≤ A) w0
      have q1 := mul_le_mul_of_nonneg_left ((min_le_left _ _).trans (min_le_right A B) : min (min A B) (min C D) ≤ B) w1
      have q2 := mul_le_mul_of_nonneg_left ((min_le_right _ _).trans (min_le_left C D) : min (min A B) (min C D) ≤ C) w2
      have q3 := mul_le_mul_of_nonneg_left ((min_le_right _ _).trans (min_le_right C D) : min (min A B) (min C D) ≤ D) w3
      have : min (min A B) (min C D) = (1 - t) * (1 - u) * min (min A B) (min C D) + t * (1 - u) * min (min A B) (min C D) +
          (1 - t) * u * min (min A B) (min C D) + t * u * min (min A B) (min C D) := by ring
      linarith
    constructor
    · by_contra H
      push Not at H
      have := pos a (a + b) (a + c) (a + b + c + d) H.1.1 H.1.2 H.2.1 H.2.2
      linarith
    · by_contra H
      push Not at H
      have := pos (-a) (-(a + b)) (-(a + c)) (-(a + b + c + d)) (by linarith [H.1.1]) (by linarith [H.1.2])
        (by linarith [H.2.1]) (by linarith [H.2.2])
      linarith

/-- Two edges of a cube at one corner are compatible; an edge of a thin spike and one beside it are not. -/
example : areEdgesCompatible (⟨1, 0, 0⟩ : V3 ℚ) ⟨0, 1, 0⟩ ⟨0, 1, 0⟩ ⟨0, 0, 1⟩ = true ∧
    areEdgesCompatible (⟨1, 1/5, 0⟩ : V3 ℚ) ⟨1, -1/5, 0⟩ ⟨1, 0, 1/5⟩ ⟨1, 0, -1/5⟩ = false := by decide +kernel

/-- C114: if the test of two opposing edges succeeds, the direction it returns is a normal between the two faces at the first
edge, and the opposite direction is one between the two faces at the second edge. -/
theorem C114_opposing_sound (f1a f1b f2a f2b n : V3 α) (h : areCompatibleOpposing f1a f1b f2a f2b = some n) :
    ∃ t u c : α, 1 / 10000 ≤ t ∧ t ≤ 1 - 1 / 10000 ∧ 1 / 10000 ≤ u ∧ u ≤ 1 - 1 / 10000 ∧ 0 < c ∧
      n = f1b + t • (f1a - f1b) ∧ -n = c • (f2b + u • (f2a - f2b)) := by
  unfold areCompatibleOpposing at h
  split at h
  · simp at h
  rename_i x hx
  simp only at h
  split_ifs at h with h1 h2 h3
  push Not at h1 h2 h3
  obtain rfl := Option.some.inj h
  obtain ⟨hm, -, -⟩ := C37_solveAxb _ _ _ hx
  refine ⟨x.y, x.z / x.x, x.x, h2.1, h2.2.1, h2.2.2.1, h2.2.2.2, h1.1, rfl, ?_⟩
  have hc : x.x ≠ 0 := h1.1.ne'
  have e : ∀ p q : α, x.x * (p + x.z / x.x * q) = x.x * p + x.z * q := by intro p q; field_simp
  have m0 := congrArg V3.x hm
  have m1 := congrArg V3.y hm
  have m2 := congrArg V3.z hm
  simp only [Mat3.mulVec, Mat3.ofCols, Matrix.of_apply, Matrix.cons_val', Matrix.cons_val, Matrix.cons_val_zero, Matrix.cons_val_one,
    sub_x, sub_y, sub_z, neg_x, neg_y, neg_z] at m0 m1 m2
  ext
  · simp only [add_x, sub_x, smul_x, neg_x, e]; linear_combination -m0
  · simp only [add_y, sub_y, smul_y, neg_y, e]; linear_combination -m1
  · simp only [add_z, sub_z, smul_z, neg_z, e]; linear_combination -m2

example : areCompatibleOpposing (⟨1, 1, 0⟩ : V3 ℚ) ⟨-1, 1, 0⟩ ⟨0, -1, 1⟩ ⟨0, -1, -1⟩ = some ⟨0, 1, 0⟩ := by decide +kernel

/-- C114, converse: a pair of opposite normals that keeps a distance of `1e-4` from the faces is found. The linear system has
to be one that the solver accepts; `C37_solveAxb_success` says which these are. -/
theorem C114_opposing_complete (f1a f1b f2a f2b : V3 α) (t u c : α)
    (hs : Mat3.solveAxb (Mat3.ofCols f2b (f1a - f1b) (f2a - f2b)) (-f1b) ≠ none)
    (ht : 1 / 10000 ≤ t ∧ t ≤ 1 - 1 / 10000) (hu : 1 / 10000 ≤ u ∧ u ≤ 1 - 1 / 10000) (hc : 0 < c)
    (h : -(f1b + t • (f1a - f1b)) = c • (f2b + u • (f2a - f2b))) :
    areCompatibleOpposing f1a f1b f2a f2b = some (f1b + t • (f1a - f1b)) := by
  obtain ⟨x, hx⟩ := Option.ne_none_iff_exists'.1 hs
  obtain ⟨-, -, hun⟩ := C37_solveAxb _ _ _ hx
  have m0 := congrArg V3.x h
  have m1 := congrArg V3.y h
  have m2 := congrArg V3.z h
  simp only [add_x, sub_x, smul_x, neg_x, add_y, sub_y, smul_y, neg_y, add_z, sub_z, smul_z, neg_z] at m0 m1 m2
  have e : (⟨c, t, c * u⟩ : V3 α) = x := by
    apply hun
    ext
    · simp [Mat3.mulVec, Mat3.ofCols]; linear_combination -m0
    · simp [Mat3.mulVec, Mat3.ofCols]; linear_combination -m1
    · simp [Mat3.mulVec, Mat3.ofCols]; linear_combination -m2
  have q0 : (0 : α) < 1 / 10000 := by norm_num
  have e1 : c * u / c = u := by field_simp
  unfold areCompatibleOpposing
  rw [hx, ← e]
  simp only [e1]
  have cu : 0 ≤ c * u := mul_nonneg hc.le (by linarith [hu.1])
  have cu' : c * u ≤ c := mul_le_of_le_one_right hc.le (by linarith [hu.2])
  rw [if_neg, if_neg, if_neg]
  · push Not; exact ⟨cu, cu'⟩
  · push Not; exact ⟨ht.1, ht.2, hu.1, hu.2⟩
  · push Not; exact ⟨hc, by linarith [ht.1], by linarith [ht.2]⟩

example : Mat3.solveAxb (Mat3.ofCols (⟨0, -1, -1⟩ : V3 ℚ) (⟨1, 1, 0⟩ - ⟨-1, 1, 0⟩) (⟨0, -1, 1⟩ - ⟨0, -1, -1⟩)) (-⟨-1, 1, 0⟩) ≠ none ∧
    -((⟨-1, 1, 0⟩ : V3 ℚ) + (1/2 : ℚ) • (⟨1, 1, 0⟩ - ⟨-1, 1, 0⟩)) = (1 : ℚ) • (⟨0, -1, -1⟩ + (1/2 : ℚ) • ((⟨0, -1, 1⟩ : V3 ℚ) - ⟨0, -1, -1⟩)) := by
  decide +kernel

/-- The vertex `v` is, among itself and the points `W`, one that lies farthest against the direction `n`. -/
def LowestAlong (n v : V3 α) (W : List (V3 α)) : Prop := ∀ w ∈ W, dot n v ≤ dot n w

theorem vertexA {p : Polyhedron α} {i : ℤ} (h0 : 0 ≤ i) (h1 : i < p.v.length) : p.vertex i = some (corner p.v i) := by
  obtain ⟨m, rfl⟩ := Int.eq_ofNat_of_zero_le h0
  have hm : m < p.v.length := by exact_mod_cast h1
  rw [Polyhedron.vertex, if_pos h0]
  simp [corner, List.getElem?_eq_getElem hm, List.getD_eq_getElem?_getD]

theorem dot_edge (f1a f1b v w : V3 α) (t : α) : dot (f1b + t • (f1a - f1b)) w - dot (f1b + t • (f1a - f1b)) v =
    dot f1b (w - v) - t * dot (f1b - f1a) (w - v) := by
  simp only [dot, add_x, add_y, add_z, sub_x, sub_y, sub_z, smul_x, smul_y, smul_z]; ring

theorem loop_accepts (h : Polyhedron α) (v f1a f1b : V3 α) (t : α) : ∀ (l : List ℤ) (tMin tMax : α),
    (∀ i ∈ l, 0 ≤ i ∧ i < h.v.length) → tMin ≤ t → t ≤ tMax → 0 ≤ t → t ≤ 1 →
    LowestAlong (f1b + t • (f1a - f1b)) v (l.map (corner h.v)) → antipodalLoop h v f1a f1b l tMin tMax = some true
  | [], _, _, _, _, _, _, _, _ => rfl
  | i :: r, tMin, tMax, hr, h1, h2, h3, h4, hl => by
    have hw := hl (corner h.v i) (by simp)
    have de := dot_edge f1a f1b v (corner h.v i) t
    have q0 : (0 : α) < 1 / 10000 := by norm_num
    have q1 : (0 : α) < 5 / 100 := by norm_num
    rw [antipodalLoop, vertexA (hr i (by simp)).1 (hr i (by simp)).2]
    simp only [Option.bind_eq_bind, Option.bind_some, min2_eq, max2_eq]
    generalize dot (f1b - f1a) (corner h.v i - v) = s at *
    generalize dot f1b (corner h.v i - v) = n at *
    have hn : t * s ≤ n := by linarith
    have ih := fun a b ha hb => loop_accepts h v f1a f1b t r a b (fun j hj => hr j (by simp [hj])) ha hb h3 h4
      (fun w hw => hl w (by rw [List.map_cons]; exact List.mem_cons_of_mem _ hw))
    have c1 : ¬ (¬ s > 1 / 10000 ∧ ¬ s < -(1 / 10000) ∧ n < -(1 / 10000)) := by
      rintro ⟨a, b, c⟩
      push Not at a b
      have : -(1 / 10000) ≤ t * s := by
        have k1 := mul_le_mul_of_nonneg_left b h3
        have k2 := mul_le_mul_of_nonneg_right h4 q0.le
        linarith
      linarith
    rw [if_neg c1]
    have c2 : t ≤ if s > 1 / 10000 then min tMax (n / s) else tMax := by
      split_ifs with k
      · exact le_min h2 ((le_div_iff₀ (q0.trans k)).2 hn)
      · exact h2
    have c3 : (if ¬ s > 1 / 10000 ∧ s < -(1 / 10000) then max tMin (n / s) else tMin) ≤ t := by
      split_ifs with k
      · have : s < 0 := k.2.trans (by linarith)
        exact max_le h1 ((div_le_iff_of_neg this).2 hn)
      · exact h1
    rw [if_neg (by linarith)]
    exact ih _ _ c3 c2

/-- C114: the test of a vertex against an edge never misses: if for some normal between the two faces at the edge no neighbour
of the vertex lies farther against it than the vertex, the answer is true. -/
theorem C114_antipodal_accepts (h : Polyhedron α) (vi : ℤ) (nb : List ℤ) (f1a f1b : V3 α)
    (hv : 0 ≤ vi ∧ vi < h.v.length) (hr : ∀ i ∈ nb, 0 ≤ i ∧ i < h.v.length) (t : α) (h0 : 0 ≤ t) (h1 : t ≤ 1)
    (hl : LowestAlong (f1b + t • (f1a - f1b)) (corner h.v vi) (nb.map (corner h.v))) :
    isVertexAntipodalToEdge h vi nb f1a f1b = some true := by
  rw [isVertexAntipodalToEdge, vertexA hv.1 hv.2]
  exact loop_accepts h _ f1a f1b t nb 0 1 hr h0 h1 h0 h1 hl

/-- The lowest corner of an octahedron, and an edge at its top. -/
def exOcta : Polyhedron ℚ := ⟨[⟨1, 0, 0⟩, ⟨-1, 0, 0⟩, ⟨0, 1, 0⟩, ⟨0, -1, 0⟩, ⟨0, 0, 1⟩, ⟨0, 0, -1⟩], []⟩

example : (∀ i ∈ [(0 : ℤ), 1, 2, 3], 0 ≤ i ∧ i < exOcta.v.length) ∧
    LowestAlong ((⟨1, 1, 1⟩ : V3 ℚ) + (1/2 : ℚ) • (⟨1, -1, 1⟩ - ⟨1, 1, 1⟩)) (corner exOcta.v 5) ([0, 1, 2, 3].map (corner exOcta.v)) ∧
    isVertexAntipodalToEdge exOcta 4 [0, 1, 2, 3] ⟨1, -1, 1⟩ ⟨1, 1, 1⟩ = some false := by
  unfold LowestAlong; decide +kernel

theorem loop_sound (h : Polyhedron α) (v f1a f1b : V3 α) : ∀ (l : List ℤ) (tMin tMax : α),
    (∀ i ∈ l, 0 ≤ i ∧ i < h.v.length) → 0 ≤ tMin → tMax ≤ 1 → tMin - 5 / 100 ≤ tMax →
    antipodalLoop h v f1a f1b l tMin tMax = some true →
    ∃ a b : α, tMin ≤ a ∧ b ≤ tMax ∧ a - 5 / 100 ≤ b ∧ ∀ w ∈ l.map (corner h.v),
      (1 / 10000 < dot (f1b - f1a) (w - v) → b * dot (f1b - f1a) (w - v) ≤ dot f1b (w - v)) ∧
      (dot (f1b - f1a) (w - v) < -(1 / 10000) → a * dot (f1b - f1a) (w - v) ≤ dot f1b (w - v)) ∧
      (|dot (f1b - f1a) (w - v)| ≤ 1 / 10000 → -(1 / 10000) ≤ dot f1b (w - v))
  | [], tMin, tMax, _, _, _, h3, _ => ⟨tMin, tMax, le_rfl, le_rfl, h3, by simp⟩
  | i :: r, tMin, tMax, hr, h1, h2, h3, hl => by
    have q0 : (0 : α) < 1 / 10000 := by norm_num
    rw [antipodalLoop, vertexA (hr i (by simp)).1 (hr i (by simp)).2] at hl
    simp only [Option.bind_eq_bind, Option.bind_some, min2_eq, max2_eq] at hl
    generalize hs : dot (f1b - f1a) (corner h.v i - v) = s at *
    generalize hn : dot f1b (corner h.v i - v) = n at *
    by_cases c1 : ¬ s > 1 / 10000 ∧ ¬ s < -(1 / 10000) ∧ n < -(1 / 10000)
    · rw [if_pos c1] at hl; simp at hl
    rw [if_neg c1] at hl
    set B := if s > 1 / 10000 then min tMax (n / s) else tMax with hB
    set A := if ¬ s > 1 / 10000 ∧ s < -(1 / 10000) then max tMin (n / s) else tMin with hA
    have a1 : tMin ≤ A := by rw [hA]; split_ifs <;> simp
    have b1 : B ≤ tMax := by rw [hB]; split_ifs <;> simp
    by_cases c2 : B - A < -(5 / 100)
    · rw [if_pos c2] at hl; simp at hl
    rw [if_neg c2] at hl
    obtain ⟨a, b, k1, k2, k3, k4⟩ := loop_sound h v f1a f1b r A B (fun j hj => hr j (by simp [hj])) (h1.trans a1) (b1.trans h2)
      (by linarith) hl
    refine ⟨a, b, a1.trans k1, k2.trans b1, k3, ?_⟩
    intro w hw
    rw [List.map_cons, List.mem_cons] at hw
    rcases hw with rfl | hw
    · rw [hs, hn]
      refine ⟨fun k => ?_, fun k => ?_, fun k => ?_⟩
      · have : B ≤ n / s := by rw [hB, if_pos k]; exact min_le_right _ _
        exact (le_div_iff₀ (q0.trans k)).1 (k2.trans this)
      · have k' : ¬ s > 1 / 10000 := by intro q; linarith
        have : n / s ≤ A := by rw [hA, if_pos ⟨k', k⟩]; exact le_max_right _ _
        exact (div_le_iff_of_neg (k.trans (by linarith))).1 (this.trans k1)
      · obtain ⟨u1, u2⟩ := abs_le.1 k
        by_contra q
        exact c1 ⟨by linarith, by linarith, by linarith⟩
    · exact k4 w hw

/-- C114 (partial): if the answer is true, then for some normal between the two faces at the edge every neighbour lies farther
against it than the vertex by at most the slack of the test, `5e-2` of the span of the normals plus `2e-4`. The full claim,
without a slack, is false: `C114_antipodal_violation`. -/
theorem C114_antipodal_sound_partial (h : Polyhedron α) (vi : ℤ) (nb : List ℤ) (f1a f1b : V3 α)
    (hv : 0 ≤ vi ∧ vi < h.v.length) (hr : ∀ i ∈ nb, 0 ≤ i ∧ i < h.v.length)
    (ha : isVertexAntipodalToEdge h vi nb f1a f1b = some true) :
    ∃ t : α, 0 ≤ t ∧ t ≤ 1 ∧ ∀ w ∈ nb.map (corner h.v), dot (f1b + t • (f1a - f1b)) (corner h.v vi) ≤
      dot (f1b + t • (f1a - f1b)) w + (5 / 100 * |dot (f1b - f1a) (w - corner h.v vi)| + 2 / 10000) := by
  rw [isVertexAntipodalToEdge, vertexA hv.1 hv.2] at ha
  have q : (0 : α) < 5 / 100 := by norm_num
  have q0 : (0 : α) < 1 / 10000 := by norm_num
  have q2 : (2 : α) / 10000 = 1 / 10000 + 1 / 10000 := by norm_num
  obtain ⟨a, b, k1, k2, k3, k4⟩ := loop_sound h (corner h.v vi) f1a f1b nb 0 1 hr le_rfl le_rfl (by norm_num) ha
  have m1 : min a 1 ≤ a := min_le_left _ _
  have m2 : a - 5 / 100 ≤ min a 1 := le_min (by linarith) (by linarith)
  have m3 : min a 1 ≤ 1 := min_le_right _ _
  have m0 : 0 ≤ min a 1 := le_min k1 zero_le_one
  generalize min a 1 = t at *
  refine ⟨t, m0, m3, ?_⟩
  intro w hw
  obtain ⟨c1, c2, c3⟩ := k4 w hw
  have de := dot_edge f1a f1b (corner h.v vi) w t
  generalize dot (f1b - f1a) (w - corner h.v vi) = s at *
  generalize dot f1b (w - corner h.v vi) = n at *
  by_cases s1 : 1 / 10000 < s
  · have hs : 0 < s := q0.trans s1
    have := c1 s1
    have e := mul_le_mul_of_nonneg_right (show t - 5 / 100 ≤ b by linarith) hs.le
    rw [abs_of_pos hs]
    linarith
  by_cases s2 : s < -(1 / 10000)
  · have hs : s < 0 := s2.trans (by linarith)
    have := c2 s2
    have e := mul_le_mul_of_nonpos_right (show a ≤ t + 5 / 100 by linarith) hs.le
    rw [abs_of_neg hs]
    linarith
  · push Not at s1 s2
    have hab : |s| ≤ 1 / 10000 := abs_le.2 ⟨s2, s1⟩
    have := c3 hab
    have e1 := mul_le_mul_of_nonneg_left s1 m0
    have e2 := mul_le_mul_of_nonneg_right m3 q0.le
    have := mul_nonneg q.le (abs_nonneg s)
    linarith

example : isVertexAntipodalToEdge exOcta 5 [0, 1, 2, 3] ⟨1, -1, 1⟩ ⟨1, 1, 1⟩ = some true := by decide +kernel

/-- C114: the test of a vertex against an edge accepts vertices that are not antipodal to it for any normal. -/
theorem C114_antipodal_violation : ∃ (h : Polyhedron ℚ) (vi : ℤ) (nb : List ℤ) (f1a f1b : V3 ℚ), (0 ≤ vi ∧ vi < h.v.length) ∧
    (∀ i ∈ nb, 0 ≤ i ∧ i < h.v.length) ∧ isVertexAntipodalToEdge h vi nb f1a f1b = some true ∧
    ∀ t : ℚ, ¬ LowestAlong (f1b + t • (f1a - f1b)) (corner h.v vi) (nb.map (corner h.v)) := by
  refine ⟨⟨[⟨0, 0, 0⟩, ⟨-1, 1, 0⟩, ⟨47/100, -53/100, 0⟩], []⟩, 0, [1, 2], ⟨1, 0, 0⟩, ⟨0, 1, 0⟩, by decide, by decide, by decide +kernel, ?_⟩
  intro t hl
  have h1 := hl ⟨-1, 1, 0⟩ (by simp [corner])
  have h2 := hl ⟨47/100, -53/100, 0⟩ (by simp [corner])
  simp only [corner, dot, add_x, add_y, add_z, sub_x, sub_y, sub_z, smul_x, smul_y, smul_z] at h1 h2
  norm_num at h1 h2
  linarith

theorem minAlong_spec (n : V3 α) : ∀ l : List (V3 α), l ≠ [] →
    ∃ m, minAlong n l = some m ∧ (∃ p ∈ l, dot n p = m) ∧ ∀ p ∈ l, m ≤ dot n p
  | [], h => absurd rfl h
  | [p], _ => ⟨dot n p, rfl, ⟨p, by simp, rfl⟩, by simp⟩
  | p :: q :: r, _ => by
    obtain ⟨m, h1, ⟨w, hw, e⟩, h3⟩ := minAlong_spec n (q :: r) (by simp)
    refine ⟨min m (dot n p), by rw [minAlong, h1]; simp only [min2_eq], ?_, ?_⟩
    · rcases le_total m (dot n p) with k | k
      · exact ⟨w, List.mem_cons_of_mem _ hw, by rw [e, min_eq_left k]⟩
      · exact ⟨p, by simp, by rw [min_eq_right k]⟩
    · intro x hx
      rw [List.mem_cons] at hx
      rcases hx with rfl | hx
      · exact min_le_right _ _
      · exact (min_le_left _ _).trans (h3 x hx)

/-- No point of `V` lies farther along `n` than `p`, and one of the points in `l`, all from `V`, lies farthest against `n`. -/
def Spans (V : List (V3 α)) (n p : V3 α) (l : List (V3 α)) : Prop :=
  p ∈ V ∧ (∀ x ∈ V, dot n x ≤ dot n p) ∧ (∀ q ∈ l, q ∈ V) ∧ ∃ q ∈ l, ∀ x ∈ V, dot n q ≤ dot n x

/-- C114: one step of the search. For three perpendicular unit directions, with a vertex farthest along each and lists that
contain one farthest against each, the step either keeps the best box, whose volume is then at most that of every box in these
directions around the points, or replaces it by a box in these directions that contains all points, has exactly the recorded
volume, which is less than the old one, and is part of every box in these directions that contains all points. -/
theorem C114_step (V : List (V3 α)) (n1 n2 n3 p1 p2 p3 : V3 α) (a1 a2 a3 : List (V3 α)) (best : Option α × OBB α)
    (hf : Frame n1 n2 n3) (s1 : Spans V n1 p1 a1) (s2 : Spans V n2 p2 a2) (s3 : Spans V n3 p3 a3) :
    ∃ res, testThreeAdjacentFaces n1 n2 n3 p1 p2 p3 a1 a2 a3 best = some res ∧
      ((res = best ∧ ∃ m, best.1 = some m ∧ ∀ c r : V3 α, (∀ x ∈ V, x ∈ Spec.obb c n1 n2 n3 r) →
          m ≤ (2 * r.x) * (2 * r.y) * (2 * r.z)) ∨
       (res.2.axis0 = n1 ∧ res.2.axis1 = n2 ∧ res.2.axis2 = n3 ∧ 0 ≤ res.2.r.x ∧ 0 ≤ res.2.r.y ∧ 0 ≤ res.2.r.z ∧
        (∀ x ∈ V, x ∈ Spec.obb res.2.pos n1 n2 n3 res.2.r) ∧
        (∀ c r : V3 α, (∀ x ∈ V, x ∈ Spec.obb c n1 n2 n3 r) →
          Spec.obb res.2.pos n1 n2 n3 res.2.r ⊆ Spec.obb c n1 n2 n3 r) ∧
        res.1 = some ((2 * res.2.r.x) * (2 * res.2.r.y) * (2 * res.2.r.z)) ∧
        ∀ m, best.1 = some m → (2 * res.2.r.x) * (2 * res.2.r.y) * (2 * res.2.r.z) < m)) := by
  have key : ∀ (n p : V3 α) (l : List (V3 α)), Spans V n p l → ∃ m, minAlong n l = some m ∧ (∃ q ∈ V, dot n q = m) ∧
      ∀ x ∈ V, m ≤ dot n x := by
    rintro n p l ⟨-, -, hl, q, hq, hx⟩
    obtain ⟨m, e, ⟨w, hw, e'⟩, hm⟩ := minAlong_spec n l (List.ne_nil_of_mem hq)
    exact ⟨m, e, ⟨w, hl w hw, e'⟩, fun x hxV => (hm q hq).trans (hx x hxV)⟩
  obtain ⟨m1, e1, ⟨q1, v1, w1⟩, b1⟩ := key _ _ _ s1
  obtain ⟨m2, e2, ⟨q2, v2, w2⟩, b2⟩ := key _ _ _ s2
  obtain ⟨m3, e3, ⟨q3, v3, w3⟩, b3⟩ := key _ _ _ s3
  obtain ⟨P1, u1, -, -⟩ := s1
  obtain ⟨P2, u2, -, -⟩ := s2
  obtain ⟨P3, u3, -, -⟩ := s3
  have mem : ∀ (c r p : V3 α), p ∈ Spec.obb c n1 n2 n3 r ↔
      (|dot n1 p - dot n1 c| ≤ r.x ∧ |dot n2 p - dot n2 c| ≤ r.y ∧ |dot n3 p - dot n3 c| ≤ r.z) := by
    intro c r p
    have e : ∀ n : V3 α, dot (p - c) n = dot n p - dot n c := by intro n; simp only [dot, sub_x, sub_y, sub_z]; ring
    rw [hf.mem_obb, e, e, e]
  have g1 := b1 _ P1
  have g2 := b2 _ P2
  have g3 := b3 _ P3
  have big : ∀ c r : V3 α, (∀ x ∈ V, x ∈ Spec.obb c n1 n2 n3 r) →
      dot n1 p1 - m1 ≤ 2 * r.x ∧ dot n2 p2 - m2 ≤ 2 * r.y ∧ dot n3 p3 - m3 ≤ 2 * r.z := by
    intro c r H
    have G : ∀ x ∈ V, _ := fun x hx => (mem c r x).1 (H x hx)
    have x1 := abs_le.1 (G _ P1).1
    have x2 := abs_le.1 (G _ P2).2.1
    have x3 := abs_le.1 (G _ P3).2.2
    have y1 := abs_le.1 (G _ v1).1
    have y2 := abs_le.1 (G _ v2).2.1
    have y3 := abs_le.1 (G _ v3).2.2
    refine ⟨?_, ?_, ?_⟩ <;> linarith
  unfold testThreeAdjacentFaces
  simp only [e1, e2, e3]
  by_cases hb : best.1.all (fun m => decide ((dot n1 p1 - m1) * (dot n2 p2 - m2) * (dot n3 p3 - m3) < m)) = true
  · rw [if_pos hb]
    refine ⟨_, rfl, Or.inr ?_⟩
    have cen : ∀ s t k : α, dot n1 (s • n1 + t • n2 + k • n3) = s ∧ dot n2 (s • n1 + t • n2 + k • n3) = t ∧
        dot n3 (s • n1 + t • n2 + k • n3) = k := by
      intro s t k
      have := hf.coords 0 s t k
      have e : (0 : V3 α) + s • n1 + t • n2 + k • n3 - 0 = s • n1 + t • n2 + k • n3 := by ext <;> simp
      rw [e] at this
      have cm : ∀ a b : V3 α, dot a b = dot b a := by intro a b; simp only [dot]; ring
      rw [cm n1, cm n2, cm n3]
      exact this
    have vol : (2 * ((dot n1 p1 - m1) * (1 / 2))) * (2 * ((dot n2 p2 - m2) * (1 / 2))) * (2 * ((dot n3 p3 - m3) * (1 / 2))) =
        (dot n1 p1 - m1) * (dot n2 p2 - m2) * (dot n3 p3 - m3) := by ring
    refine ⟨rfl, rfl, rfl, ?_, ?_, ?_, ?_, ?_, ?_, ?_⟩
    · show 0 ≤ (dot n1 p1 - m1) * (1 / 2); linarith
    · show 0 ≤ (dot n2 p2 - m2) * (1 / 2); linarith
    · show 0 ≤ (dot n3 p3 - m3) * (1 / 2); linarith
    · intro x hx
      refine (mem _ _ _).2 ?_
      simp only [cen]
      have := b1 x hx
      have := b2 x hx
      have := b3 x hx
      have := u1 x hx
      have := u2 x hx
      have := u3 x hx
      refine ⟨abs_le.2 ⟨?_, ?_⟩, abs_le.2 ⟨?_, ?_⟩, abs_le.2 ⟨?_, ?_⟩⟩ <;> linarith
    · intro c r H p hp
      have hp := (mem _ _ _).1 hp
      simp only [cen] at hp
      have f1 := abs_le.1 hp.1
      have f2 := abs_le.1 hp.2.1
      have f3 := abs_le.1 hp.2.2
      have G : ∀ x ∈ V, _ := fun x hx => (mem c r x).1 (H x hx)
      have x1 := abs_le.1 (G _ P1).1
      have x2 := abs_le.1 (G _ P2).2.1
      have x3 := abs_le.1 (G _ P3).2.2
      have y1 := abs_le.1 (G _ v1).1
      have y2 := abs_le.1 (G _ v2).2.1
      have y3 := abs_le.1 (G _ v3).2.2
      refine (mem c r p).2 ⟨abs_le.2 ⟨?_, ?_⟩, abs_le.2 ⟨?_, ?_⟩, abs_le.2 ⟨?_, ?_⟩⟩ <;> linarith
    · simp only [vol]
    · intro m hm
      simp only [vol]
      rw [hm] at hb
      simpa using hb
  · rw [if_neg hb]
    refine ⟨best, rfl, Or.inl ⟨rfl, ?_⟩⟩
    rcases hm : best.1 with _ | m
    · rw [hm] at hb; simp at hb
    refine ⟨m, rfl, ?_⟩
    intro c r H
    obtain ⟨h1, h2, h3⟩ := big c r H
    rw [hm] at hb
    have hb : m ≤ (dot n1 p1 - m1) * (dot n2 p2 - m2) * (dot n3 p3 - m3) := by simpa using hb
    refine hb.trans ?_
    have z1 : 0 ≤ dot n1 p1 - m1 := by linarith
    have z2 : 0 ≤ dot n2 p2 - m2 := by linarith
    have z3 : 0 ≤ dot n3 p3 - m3 := by linarith
    exact mul_le_mul (mul_le_mul h1 h2 z2 (z1.trans h1)) h3 z3 (mul_nonneg (z1.trans h1) (z2.trans h2))

/-- The octahedron in directions that are turned against its corners. -/
example : Frame (⟨3/5, 4/5, 0⟩ : V3 ℚ) ⟨-4/5, 3/5, 0⟩ ⟨0, 0, 1⟩ ∧ Spans exOcta.v ⟨3/5, 4/5, 0⟩ ⟨0, 1, 0⟩ [⟨-1, 0, 0⟩, ⟨0, -1, 0⟩] ∧
    Spans exOcta.v ⟨-4/5, 3/5, 0⟩ ⟨-1, 0, 0⟩ [⟨1, 0, 0⟩] ∧ Spans exOcta.v ⟨0, 0, 1⟩ ⟨0, 0, 1⟩ [⟨0, 0, -1⟩] := by
  refine ⟨⟨?_, ?_, ?_, ?_, ?_, ?_⟩, ?_, ?_, ?_⟩ <;> (try unfold Spans) <;> decide +kernel

end field

theorem sortedLoop_sound (arr : List ℤ) (i : ℤ) : ∀ fuel l r, sortedLoop arr i fuel l r = some (some true) → i ∈ arr
  | 0, _, _, h => by simp [sortedLoop] at h
  | fuel + 1, l, r, h => by
    rw [sortedLoop] at h
    split_ifs at h with h1
    · simp only at h
      split at h
      · simp at h
      rename_i a ha
      split_ifs at h with h2 h3
      · exact sortedLoop_sound arr i fuel _ _ h
      · exact sortedLoop_sound arr i fuel _ _ h
      · have : a = i := le_antisymm (by linarith) (by linarith)
        exact this ▸ List.mem_of_getElem? ha
    · simp at h

/-- C114 (partial): the search in a sorted array that answers true is right; and it answers at once, and rightly, for the first
and the last element and for numbers before the first or after the last. The full claim, that it ends and answers true exactly
for the elements, is false: `C114_sorted_violation`. -/
theorem C114_sorted_partial (arr : List ℤ) (i : ℤ) (fuel : ℕ) :
    (sortedArrayContains fuel arr i = some (some true) → i ∈ arr) ∧
    (arr.head? = some i ∨ arr.getLast? = some i → sortedArrayContains fuel arr i = some (some true)) ∧
    (arr ≠ [] → arr.Pairwise (· ≤ ·) → (∀ a ∈ arr, i < a) ∨ (∀ a ∈ arr, a < i) →
      sortedArrayContains fuel arr i = some (some false)) := by
  rcases arr with _ | ⟨a, r⟩
  · simp [sortedArrayContains]
  have hg : (a :: r)[(a :: r).length - 1]? = some ((a :: r).getLast (by simp)) := by
    rw [← List.getLast?_eq_getElem?, List.getLast?_eq_some_getLast]
  have e : sortedArrayContains fuel (a :: r) i = if a = i ∨ (a :: r).getLast (by simp) = i then some (some true)
      else if a > i ∨ (a :: r).getLast (by simp) < i then some (some false) else sortedLoop (a :: r) i fuel 0 ((a :: r).length - 1) := by
    rw [sortedArrayContains, hg]
    rfl
  have hL := List.getLast_mem (show a :: r ≠ [] by simp)
  refine ⟨?_, ?_, ?_⟩
  · rw [e]
    split_ifs with h1 h2
    · intro _
      rcases h1 with rfl | h1
      · simp
      · exact h1 ▸ hL
    · simp
    · exact sortedLoop_sound _ _ _ _ _
  · intro h
    rw [e, if_pos]
    rcases h with h | h
    · left; simpa using h
    · right
      rw [List.getLast?_eq_some_getLast (by simp)] at h
      exact Option.some.inj h
  · intro _ _ h
    rw [e]
    rcases h with h | h
    · rw [if_neg, if_pos]
      · exact Or.inl (h a (by simp))
      · rintro (k | k)
        · exact absurd (h a (by simp)) (by linarith)
        · exact absurd (h _ hL) (by linarith)
    · rw [if_neg, if_pos]
      · exact Or.inr (h _ hL)
      · rintro (k | k)
        · exact absurd (h a (by simp)) (by linarith)
        · exact absurd (h _ hL) (by linarith)

example : (sortedArrayContains 1 [2, 4, 7] 4 = some (some true)) ∧ sortedArrayContains 1 [2, 4, 7] 9 = some (some false) := by
  decide +kernel

/-- C114: the search in a sorted array of distinct numbers answers false for an element, does not end for another array, and
reads outside of a third. -/
theorem C114_sorted_violation :
    (∃ (arr : List ℤ) (i : ℤ), arr.Pairwise (· < ·) ∧ i ∈ arr ∧ ∃ N, ∀ fuel, N ≤ fuel → sortedArrayContains fuel arr i = some (some false)) ∧
    (∃ (arr : List ℤ) (i : ℤ), arr.Pairwise (· < ·) ∧ ∀ fuel, sortedArrayContains fuel arr i = none) ∧
    (∃ (arr : List ℤ) (i : ℤ), arr.Pairwise (· < ·) ∧ arr ≠ [] ∧ ∃ N, ∀ fuel, N ≤ fuel → sortedArrayContains fuel arr i = some none) := by
  refine ⟨⟨[0, 100, 200, 300, 400], 300, by decide, by decide, 2, ?_⟩, ⟨[0, 2, 5, 9], 3, by decide, ?_⟩,
    ⟨[0, 100, 200, 300, 400], 150, by decide, by decide, 2, ?_⟩⟩
  · intro fuel h
    obtain ⟨k, rfl⟩ := Nat.exists_eq_add_of_le' h
    rfl
  · intro fuel
    have : ∀ fuel, sortedLoop [0, 2, 5, 9] 3 fuel 0 3 = none := by
      intro fuel
      induction fuel with
      | zero => rfl
      | succ k ih => exact ih
    exact this fuel
  · intro fuel h
    obtain ⟨k, rfl⟩ := Nat.exists_eq_add_of_le' h
    rfl

end OBB
end MGL
