import Verif.Model.OBBBrute
import Verif.Props.Float3
import Verif.Proofs.OBB
import Mathlib.Tactic.Linarith
import Mathlib.Tactic.FieldSimp

/-! C115: enclosing oriented boxes by trial of orientations, and of one or two points. -/

set_option linter.unusedSectionVars false

namespace MGL
open V3 Spec
namespace OBB

section field
variable {α : Type} [Field α] [LinearOrder α] [IsStrictOrderedRing α]

/-- `d` is the greatest scalar product of `n` with a point of `V`. -/
def IsExtent (V : List (V3 α)) (n : V3 α) (d : α) : Prop := (∃ p ∈ V, dot n p = d) ∧ ∀ x ∈ V, dot n x ≤ d

/-- The directions of the trial are perpendicular unit vectors and the six distances are those of the farthest points. -/
def Trial.Right (V : List (V3 α)) (t : Trial α) : Prop :=
  Frame t.d0 t.d1 t.d2 ∧ IsExtent V t.d0 t.dst0 ∧ IsExtent V (-t.d0) t.dst1 ∧ IsExtent V t.d1 t.dst2 ∧
    IsExtent V (-t.d1) t.dst3 ∧ IsExtent V t.d2 t.dst4 ∧ IsExtent V (-t.d2) t.dst5

/-- The box has the directions of the trial and contains `V`, and every box in these directions that contains `V` contains it. -/
def IsSmallestIn (V : List (V3 α)) (t : Trial α) (o : OBB α) : Prop :=
  o.axis0 = t.d0 ∧ o.axis1 = t.d1 ∧ o.axis2 = t.d2 ∧ 0 ≤ o.r.x ∧ 0 ≤ o.r.y ∧ 0 ≤ o.r.z ∧
    (∀ x ∈ V, x ∈ Spec.obb o.pos o.axis0 o.axis1 o.axis2 o.r) ∧
    ∀ c r : V3 α, (∀ x ∈ V, x ∈ Spec.obb c t.d0 t.d1 t.d2 r) → Spec.obb o.pos o.axis0 o.axis1 o.axis2 o.r ⊆ Spec.obb c t.d0 t.d1 t.d2 r

theorem Trial.facts {V : List (V3 α)} {t : Trial α} (h : t.Right V) : (∀ c r p : V3 α, p ∈ Spec.obb c t.d0 t.d1 t.d2 r ↔
      (|dot t.d0 p - dot t.d0 c| ≤ r.x ∧ |dot t.d1 p - dot t.d1 c| ≤ r.y ∧ |dot t.d2 p - dot t.d2 c| ≤ r.z)) ∧
    (∀ x ∈ V, (-t.dst1 ≤ dot t.d0 x ∧ dot t.d0 x ≤ t.dst0) ∧ (-t.dst3 ≤ dot t.d1 x ∧ dot t.d1 x ≤ t.dst2) ∧
      (-t.dst5 ≤ dot t.d2 x ∧ dot t.d2 x ≤ t.dst4)) ∧
    (∀ c r : V3 α, (∀ x ∈ V, x ∈ Spec.obb c t.d0 t.d1 t.d2 r) →
      (t.dst0 ≤ dot t.d0 c + r.x ∧ dot t.d0 c - r.x ≤ -t.dst1) ∧ (t.dst2 ≤ dot t.d1 c + r.y ∧ dot t.d1 c - r.y ≤ -t.dst3) ∧
      (t.dst4 ≤ dot t.d2 c + r.z ∧ dot t.d2 c - r.z ≤ -t.dst5)) ∧
    (0 ≤ t.dst0 + t.dst1 ∧ 0 ≤ t.dst2 + t.dst3 ∧ 0 ≤ t.dst4 + t.dst5) := by
  obtain ⟨hf, ⟨⟨p0, m0, e0⟩, h0⟩, ⟨⟨p1, m1, e1⟩, h1⟩, ⟨⟨p2, m2, e2⟩, h2⟩, ⟨⟨p3, m3, e3⟩, h3⟩, ⟨⟨p4, m4, e4⟩, h4⟩,
    ⟨⟨p5, m5, e5⟩, h5⟩⟩ := h
  have ng : ∀ a b : V3 α, dot (-a) b = - dot a b := by intro a b; simp only [dot, neg_x, neg_y, neg_z]; ring
  simp only [ng] at e1 e3 e5 h1 h3 h5
  have mem : ∀ (c r p : V3 α), p ∈ Spec.obb c t.d0 t.d1 t.d2 r ↔
      (|dot t.d0 p - dot t.d0 c| ≤ r.x ∧ |dot t.d1 p - dot t.d1 c| ≤ r.y ∧ |dot t.d2 p - dot t.d2 c| ≤ r.z) := by
    intro c r p
    have e : ∀ n : V3 α, dot (p - c) n = dot n p - dot n c := by intro n; simp only [dot, sub_x, sub_y, sub_z]; ring
    rw [hf.mem_obb, e, e, e]
  have rng : ∀ x ∈ V, (-t.dst1 ≤ dot t.d0 x ∧ dot t.d0 x ≤ t.dst0) ∧ (-t.dst3 ≤ dot t.d1 x ∧ dot t.d1 x ≤ t.dst2) ∧
      (-t.dst5 ≤ dot t.d2 x ∧ dot t.d2 x ≤ t.dst4) := fun x hx =>
    ⟨⟨by linarith [h1 x hx], h0 x hx⟩, ⟨by linarith [h3 x hx], h2 x hx⟩, by linarith [h5 x hx], h4 x hx⟩
  refine ⟨mem, rng, ?_, ?_⟩
  · intro c r H
    have G : ∀ x ∈ V, _ := fun x hx => (mem c r x).1 (H x hx)
    have g0 := abs_le.1 (G _ m0).1
    have g1 := abs_le.1 (G _ m1).1
    have g2 := abs_le.1 (G _ m2).2.1
    have g3 := abs_le.1 (G _ m3).2.1
    have g4 := abs_le.1 (G _ m4).2.2
    have g5 := abs_le.1 (G _ m5).2.2
    refine ⟨⟨?_, ?_⟩, ⟨?_, ?_⟩, ?_, ?_⟩ <;> linarith
  · have := rng _ m0
    refine ⟨?_, ?_, ?_⟩ <;> linarith [this.1.1, this.1.2, this.2.1.1, this.2.1.2, this.2.2.1, this.2.2.2]

/-- The box that a trial writes is the smallest in its directions. -/
theorem trial_smallest {V : List (V3 α)} {t : Trial α} (h : t.Right V) : IsSmallestIn V t
    ⟨(1 / 2 : α) • ((t.dst0 - t.dst1) • t.d0 + (t.dst2 - t.dst3) • t.d1 + (t.dst4 - t.dst5) • t.d2),
        ⟨(t.dst0 + t.dst1) * (1 / 2), (t.dst2 + t.dst3) * (1 / 2), (t.dst4 + t.dst5) * (1 / 2)⟩, t.d0, t.d1, t.d2⟩ := by
  obtain ⟨mem, rng, big, p0, p1, p2⟩ := Trial.facts h
  have cen : ∀ s u k : α, dot t.d0 ((1 / 2 : α) • (s • t.d0 + u • t.d1 + k • t.d2)) = 1 / 2 * s ∧
      dot t.d1 ((1 / 2 : α) • (s • t.d0 + u • t.d1 + k • t.d2)) = 1 / 2 * u ∧
      dot t.d2 ((1 / 2 : α) • (s • t.d0 + u • t.d1 + k • t.d2)) = 1 / 2 * k := by
    intro s u k
    obtain ⟨q1, q2, q3, q4, q5, q6⟩ := h.1
    simp only [dot] at q1 q2 q3 q4 q5 q6
    simp only [dot, add_x, add_y, add_z, smul_x, smul_y, smul_z]
    refine ⟨?_, ?_, ?_⟩
    · linear_combination (1 / 2 * s) * q1 + (1 / 2 * u) * q4 + (1 / 2 * k) * q5
    · linear_combination (1 / 2 * s) * q4 + (1 / 2 * u) * q2 + (1 / 2 * k) * q6
    · linear_combination (1 / 2 * s) * q5 + (1 / 2 * u) * q6 + (1 / 2 * k) * q3
  refine ⟨rfl, rfl, rfl, ?_, ?_, ?_, ?_, ?_⟩
  · show 0 ≤ (t.dst0 + t.dst1) * (1 / 2); linarith
  · show 0 ≤ (t.dst2 + t.dst3) * (1 / 2); linarith
  · show 0 ≤ (t.dst4 + t.dst5) * (1 / 2); linarith
  · intro x hx
    obtain ⟨⟨a1, a2⟩, ⟨a3, a4⟩, a5, a6⟩ := rng x hx
    refine (mem _ _ _).2 ?_
    simp only [cen]
    refine ⟨abs_le.2 ⟨?_, ?_⟩, abs_le.2 ⟨?_, ?_⟩, abs_le.2 ⟨?_, ?_⟩⟩ <;> linarith
  · intro c r H p hp
    obtain ⟨⟨a1, a2⟩, ⟨a3, a4⟩, a5, a6⟩ := big c r H
    have hp := (mem _ _ _).1 hp
    simp only [cen] at hp
    have f1 := abs_le.1 hp.1
    have f2 := abs_le.1 hp.2.1
    have f3 := abs_le.1 hp.2.2
    refine (mem c r p).2 ⟨abs_le.2 ⟨?_, ?_⟩, abs_le.2 ⟨?_, ?_⟩, abs_le.2 ⟨?_, ?_⟩⟩ <;> linarith

/-- What a search compares: width times height plus (not times) depth. -/
def bruteMeasure (r : V3 α) : α := (2 * r.x) * (2 * r.y) + 2 * r.z

theorem brute_inv (V : List (V3 α)) : ∀ (ts done : List (Trial α)) (best : Option α × OBB α), (∀ t ∈ ts, t.Right V) →
    (done = [] ∧ best.1 = none ∨ ∃ t ∈ done, IsSmallestIn V t best.2 ∧ best.1 = some (bruteMeasure best.2.r) ∧ ∀ t' ∈ done, ∀ c r : V3 α,
      (∀ x ∈ V, x ∈ Spec.obb c t'.d0 t'.d1 t'.d2 r) → bruteMeasure best.2.r ≤ bruteMeasure r) →
    (done ++ ts = [] ∧ (ts.foldl bruteStep best).1 = none ∨ ∃ t ∈ done ++ ts, IsSmallestIn V t (ts.foldl bruteStep best).2 ∧
      (ts.foldl bruteStep best).1 = some (bruteMeasure (ts.foldl bruteStep best).2.r) ∧ ∀ t' ∈ done ++ ts, ∀ c r : V3 α,
      (∀ x ∈ V, x ∈ Spec.obb c t'.d0 t'.d1 t'.d2 r) → bruteMeasure (ts.foldl bruteStep best).2.r ≤ bruteMeasure r)
  | [], done, best, _, h => by simpa using h
  | t :: ts, done, best, hr, h => by
    have ht := hr t (by simp)
    have key := brute_inv V ts (done ++ [t]) (bruteStep best t) (fun u hu => hr u (by simp [hu]))
    rw [List.append_assoc, List.singleton_append] at key
    rw [List.foldl_cons]
    apply key
    right
    obtain ⟨-, -, big, p0, p1, p2⟩ := Trial.facts ht
    have mt : ∀ c r : V3 α, (∀ x ∈ V, x ∈ Spec.obb c t.d0 t.d1 t.d2 r) →
        (t.dst0 + t.dst1) * (t.dst2 + t.dst3) + (t.dst4 + t.dst5) ≤ bruteMeasure r := by
      intro c r H
      obtain ⟨⟨a1, a2⟩, ⟨a3, a4⟩, a5, a6⟩ := big c r H
      have b1 : t.dst0 + t.dst1 ≤ 2 * r.x := by linarith
      have b2 : t.dst2 + t.dst3 ≤ 2 * r.y := by linarith
      have := mul_le_mul b1 b2 p1 (p0.trans b1)
      unfold bruteMeasure
      linarith
    have vol : bruteMeasure (⟨(t.dst0 + t.dst1) * (1 / 2), (t.dst2 + t.dst3) * (1 / 2), (t.dst4 + t.dst5) * (1 / 2)⟩ : V3 α) =
        (t.dst0 + t.dst1) * (t.dst2 + t.dst3) + (t.dst4 + t.dst5) := by
      simp only [bruteMeasure]; ring
    unfold bruteStep
    simp only
    by_cases hb : best.1.all (fun m => decide ((t.dst0 + t.dst1) * (t.dst2 + t.dst3) + (t.dst4 + t.dst5) < m)) = true
    · rw [if_pos hb]
      refine ⟨t, by simp, trial_smallest ht, by rw [vol], ?_⟩
      intro t' ht' c r H
      simp only [vol]
      rw [List.mem_append, List.mem_singleton] at ht'
      rcases ht' with ht' | rfl
      · rcases h with ⟨rfl, -⟩ | ⟨t0, -, -, hv, hm⟩
        · simp at ht'
        · rw [hv] at hb
          have hb : (t.dst0 + t.dst1) * (t.dst2 + t.dst3) + (t.dst4 + t.dst5) < bruteMeasure best.2.r := by simpa using hb
          exact hb.le.trans (hm t' ht' c r H)
      · exact mt c r H
    · rw [if_neg hb]
      rcases h with ⟨-, h⟩ | ⟨t0, m0, s0, hv, hm⟩
      · rw [h] at hb; simp at hb
      refine ⟨t0, by simp [m0], s0, hv, ?_⟩
      intro t' ht' c r H
      rw [List.mem_append, List.mem_singleton] at ht'
      rcases ht' with ht' | rfl
      · exact hm t' ht' c r H
      · rw [hv] at hb
        have hb : bruteMeasure best.2.r ≤ (t'.dst0 + t'.dst1) * (t'.dst2 + t'.dst3) + (t'.dst4 + t'.dst5) := by simpa using hb
        exact hb.trans (mt c r H)

/-- C115 (partial): whatever orientations the search tries, in whatever order, it returns a box that contains all points and is
the smallest one in one of the orientations tried; and for no orientation tried is there a box around the points with a smaller
value of width times height plus depth. The full claim, with the volume instead, is false: `C115_search_violation`. -/
theorem C115_search_partial (V : List (V3 α)) (init : OBB α) (ts : List (Trial α)) (hne : ts ≠ []) (hr : ∀ t ∈ ts, t.Right V) :
    ∃ t ∈ ts, IsSmallestIn V t (bruteSearch init ts) ∧ ∀ t' ∈ ts, ∀ c r : V3 α, (∀ x ∈ V, x ∈ Spec.obb c t'.d0 t'.d1 t'.d2 r) →
      (2 * (bruteSearch init ts).r.x) * (2 * (bruteSearch init ts).r.y) + 2 * (bruteSearch init ts).r.z ≤
        (2 * r.x) * (2 * r.y) + 2 * r.z := by
  have := brute_inv V ts [] (none, init) hr (Or.inl ⟨rfl, rfl⟩)
  rw [List.nil_append] at this
  rcases this with ⟨h, -⟩ | ⟨t, h1, h2, -, h4⟩
  · exact absurd h hne
  · exact ⟨t, h1, h2, h4⟩

/-- Six points on the axes, at different distances. -/
def exCross : List (V3 ℚ) := [⟨10, 0, 0⟩, ⟨-10, 0, 0⟩, ⟨0, 1, 0⟩, ⟨0, -1, 0⟩, ⟨0, 0, 1/10⟩, ⟨0, 0, -1/10⟩]

/-- The orientation along the axes. -/
def exStraight : Trial ℚ := ⟨⟨1, 0, 0⟩, ⟨0, 1, 0⟩, ⟨0, 0, 1⟩, 10, 10, 1, 1, 1/10, 1/10⟩

/-- A turned orientation. -/
def exSlanted : Trial ℚ := ⟨⟨0, 0, 1⟩, ⟨-4/5, 3/5, 0⟩, ⟨-3/5, -4/5, 0⟩, 1/10, 1/10, 8, 8, 6, 6⟩

theorem exTrials_right : exStraight.Right exCross ∧ exSlanted.Right exCross := by
  unfold Trial.Right IsExtent
  refine ⟨⟨⟨?_, ?_, ?_, ?_, ?_, ?_⟩, ?_⟩, ⟨⟨?_, ?_, ?_, ?_, ?_, ?_⟩, ?_⟩⟩ <;> decide +kernel

example : ∀ t ∈ [exStraight, exSlanted], t.Right exCross := by
  intro t ht
  simp only [List.mem_cons, List.not_mem_nil, or_false] at ht
  rcases ht with rfl | rfl
  · exact exTrials_right.1
  · exact exTrials_right.2

/-- C115: the search compares width times height plus depth instead of the volume. Of two orientations it returns the one with the
larger box: the volume is more than four times that of the other. -/
theorem C115_search_violation : ∃ (V : List (V3 ℚ)) (ts : List (Trial ℚ)) (init o : OBB ℚ), (∀ t ∈ ts, t.Right V) ∧
    (∃ t ∈ ts, IsSmallestIn V t o) ∧ 4 * ((2 * o.r.x) * (2 * o.r.y) * (2 * o.r.z)) <
      (2 * (bruteSearch init ts).r.x) * (2 * (bruteSearch init ts).r.y) * (2 * (bruteSearch init ts).r.z) := by
  refine ⟨exCross, [exStraight, exSlanted], ⟨⟨0, 0, 0⟩, ⟨0, 0, 0⟩, ⟨1, 0, 0⟩, ⟨0, 1, 0⟩, ⟨0, 0, 1⟩⟩, _, ?_,
    ⟨exStraight, by simp, trial_smallest exTrials_right.1⟩, by decide +kernel⟩
  intro t ht
  simp only [List.mem_cons, List.not_mem_nil, or_false] at ht
  rcases ht with rfl | rfl
  · exact exTrials_right.1
  · exact exTrials_right.2

end field

/-- C115: the box of one point is the point. -/
theorem C115_one (nz : Bool) (p : V3 ℝ) : ∃ o, optimalFew nz [p] = some o ∧ Frame o.axis0 o.axis1 o.axis2 ∧
    Spec.obb o.pos o.axis0 o.axis1 o.axis2 o.r = {p} := by
  refine ⟨_, rfl, ⟨by simp [dot], by simp [dot], by simp [dot], by simp [dot], by simp [dot], by simp [dot]⟩, ?_⟩
  ext x
  simp only [Spec.obb, Set.mem_ofPred_eq, Set.mem_singleton_iff]
  constructor
  · rintro ⟨s, t, k, a1, a2, b1, b2, c1, c2, rfl⟩
    obtain rfl : s = 0 := by linarith
    obtain rfl : t = 0 := by linarith
    obtain rfl : k = 0 := by linarith
    ext <;> simp
  · rintro rfl
    exact ⟨0, 0, 0, by simp, by simp, by simp, by simp, by simp, by simp, by ext <;> simp⟩

/-- C115 (partial): the box of two points that are more than `1e-6` apart is the segment between them. Points that are nearer to
each other are not enclosed, and the directions of the box are perpendicular only if the distance is one: `C115_two_violation`. -/
theorem C115_two_partial (nz : Bool) (p q : V3 ℝ) (h : 1 / 1000000 < f3Length (q - p)) : ∃ o, optimalFew nz [p, q] = some o ∧
    Spec.obb o.pos o.axis0 o.axis1 o.axis2 o.r = Spec.seg p q := by
  have e : f3Normalize (q - p) = ((1 / f3Length (q - p)) • (q - p), f3Length (q - p)) := by rw [f3Normalize, if_pos h]
  refine ⟨_, rfl, ?_⟩
  simp only [e]
  have hl : 0 < f3Length (q - p) := lt_trans (by norm_num) h
  generalize f3Length (q - p) = l at *
  ext x
  simp only [Spec.obb, Spec.seg, Set.mem_ofPred_eq]
  constructor
  · rintro ⟨s, t, k, a1, a2, b1, b2, c1, c2, rfl⟩
    obtain rfl : t = 0 := by linarith
    obtain rfl : k = 0 := by linarith
    have hs1 : -(1 / 2) ≤ s / l := by rw [le_div_iff₀ hl]; linarith
    have hs2 : s / l ≤ 1 / 2 := by rw [div_le_iff₀ hl]; linarith
    refine ⟨1 / 2 + s / l, by linarith, by linarith, ?_⟩
    ext <;> simp only [add_x, add_y, add_z, smul_x, smul_y, smul_z, sub_x, sub_y, sub_z] <;> ring
  · rintro ⟨t, t0, t1, rfl⟩
    have g1 := mul_nonneg t0 hl.le
    have g2 := mul_le_mul_of_nonneg_right t1 hl.le
    refine ⟨(t - 1 / 2) * l, 0, 0, by linarith, by linarith, by simp, by simp, by simp, by simp, ?_⟩
    ext <;> simp only [add_x, add_y, add_z, smul_x, smul_y, smul_z, sub_x, sub_y, sub_z] <;> field_simp <;> ring

example : (1 : ℝ) / 1000000 < f3Length ((⟨3, 4, 0⟩ : V3 ℝ) - ⟨0, 0, 0⟩) := by
  have : f3Length ((⟨3, 4, 0⟩ : V3 ℝ) - ⟨0, 0, 0⟩) = 5 := by
    rw [f3Length, Real.sqrt_eq_iff_mul_self_eq_of_pos (by norm_num)]; norm_num [lenSq, dot]
  rw [this]; norm_num

/-- C115 (partial): for two points at distance one the directions of the box are perpendicular unit vectors. -/
theorem C115_two_axes_partial (nz : Bool) (p q : V3 ℝ) (h : lenSq (q - p) = 1) : ∃ o, optimalFew nz [p, q] = some o ∧
    Frame o.axis0 o.axis1 o.axis2 := by
  obtain ⟨h1, h2, h3, h4, h5, -⟩ := C54_perpendicularBasis_partial nz (q - p) h
  have hl : f3Length (q - p) = 1 := by rw [f3Length, h, Real.sqrt_one]
  have e : (f3Normalize (q - p)).1 = q - p := by
    rw [f3Normalize, hl, if_pos (by norm_num)]
    ext <;> simp
  refine ⟨_, rfl, ?_⟩
  simp only [e]
  exact ⟨h, h1, h2, h3, h4, h5⟩

example : lenSq ((⟨2 / 3, -1 / 3, 2 / 3⟩ : V3 ℝ) - ⟨0, 0, 0⟩) = 1 := by simp [lenSq, dot]; norm_num

/-- C115: the directions of the box of two points need not be perpendicular or of unit length, as `PerpendicularBasis` is called
before the vector is normalized; and the box of two points `1e-6` apart contains neither. -/
theorem C115_two_violation (nz : Bool) :
    (∃ o, optimalFew nz [⟨0, 0, 0⟩, ⟨2, 0, 0⟩] = some o ∧ dot o.axis0 o.axis1 ≠ 0 ∧ dot o.axis1 o.axis1 ≠ 1) ∧
    ∃ p q : V3 ℝ, p ≠ q ∧ ∃ o, optimalFew nz [p, q] = some o ∧ p ∉ Spec.obb o.pos o.axis0 o.axis1 o.axis2 o.r ∧
      q ∉ Spec.obb o.pos o.axis0 o.axis1 o.axis2 o.r := by
  have l2 : f3Length ((⟨2, 0, 0⟩ : V3 ℝ) - ⟨0, 0, 0⟩) = 2 := by
    rw [f3Length, Real.sqrt_eq_iff_mul_self_eq_of_pos (by norm_num)]; norm_num [lenSq, dot]
  have l6 : f3Length ((⟨1 / 1000000, 0, 0⟩ : V3 ℝ) - ⟨0, 0, 0⟩) = 1 / 1000000 := by
    rw [f3Length, Real.sqrt_eq_iff_mul_self_eq_of_pos (by norm_num)]; norm_num [lenSq, dot]
  refine ⟨⟨_, rfl, ?_, ?_⟩, ⟨0, 0, 0⟩, ⟨1 / 1000000, 0, 0⟩, ?_, _, rfl, ?_, ?_⟩
  · simp only [f3Normalize, l2]
    rcases nz with _ | _ <;> norm_num [f3PerpendicularBasis, copysign1, dot]
  · simp only [f3Normalize, l2]
    rcases nz with _ | _ <;> norm_num [f3PerpendicularBasis, copysign1, dot]
  · intro e
    have := congrArg V3.x e
    norm_num at this
  · simp only [f3Normalize, l6]
    rintro ⟨s, t, k, a1, a2, b1, b2, c1, c2, e⟩
    have := congrArg V3.x e
    norm_num at *
    obtain rfl : s = 0 := by linarith
    obtain rfl : t = 0 := by linarith
    obtain rfl : k = 0 := by linarith
    norm_num at this
  · simp only [f3Normalize, l6]
    rintro ⟨s, t, k, a1, a2, b1, b2, c1, c2, e⟩
    have := congrArg V3.x e
    norm_num at *
    obtain rfl : s = 0 := by linarith
    obtain rfl : t = 0 := by linarith
    obtain rfl : k = 0 := by linarith
    norm_num at this

end OBB
end MGL
