import Verif.Model.SphereOptimal
import Verif.Props.SphereEnclose

/-! C28: the enclosing sphere of an array of points. -/

set_option linter.unusedSectionVars false

namespace MGL
open V3
namespace Sphere

/-- Point `j` is in the sphere of the state, with the slack of 1e-4 of the code. -/
def OptState.Has (pts : ℕ → V3 ℝ) (st : OptState) (j : ℕ) : Prop :=
  distSq (pts j) st.s.pos ≤ st.s.r * st.s.r + 1 / 10000

theorem optStep_inv (pts : ℕ → V3 ℝ) (st : OptState)
    (h : st.clean = true → (∀ k, st.Has pts (st.sp k)) ∧ ∀ j, 1 ≤ j → j < st.i → st.Has pts j) :
    (optStep pts st).clean = true → (∀ k, (optStep pts st).Has pts ((optStep pts st).sp k)) ∧
      ∀ j, 1 ≤ j → j < (optStep pts st).i → (optStep pts st).Has pts j := by
  unfold optStep
  dsimp only
  split_ifs with h1 h2 h3 h4
  · intro hc
    obtain ⟨a, b⟩ := h hc
    obtain ⟨k, hk⟩ := h1
    refine ⟨a, fun j hj hji => ?_⟩
    rcases Nat.lt_succ_iff_lt_or_eq.1 hji with hlt | heq
    · exact b j hj hlt
    · rw [heq, hk]; exact a k
  · intro _
    have five := C28_optimal_five_partial (pts (st.sp 0)) (pts (st.sp 1)) (pts (st.sp 2)) (pts (st.sp 3)) (pts st.i) (by omega)
    refine ⟨fun k => ?_, fun j hj hji => absurd hji (by simp only; omega)⟩
    show distSq (pts (Function.update st.sp _ st.i k)) _ ≤ _
    by_cases hk : k = ⟨_, h3⟩
    · rw [hk, Function.update_self]; exact five _ (by simp)
    · rw [Function.update_of_ne hk]
      refine five _ ?_
      fin_cases k <;> simp
  · intro hc; cases hc
  · intro hc; cases hc
  · intro hc
    obtain ⟨a, b⟩ := h hc
    refine ⟨a, fun j hj hji => ?_⟩
    rcases Nat.lt_succ_iff_lt_or_eq.1 hji with hlt | heq
    · exact b j hj hlt
    · rw [heq]; exact not_lt.1 h2

theorem optLoop_inv (pts : ℕ → V3 ℝ) (n : ℕ) : ∀ (fuel : ℕ) (st out : OptState), optLoop pts n fuel st = some out →
    (st.clean = true → (∀ k, st.Has pts (st.sp k)) ∧ ∀ j, 1 ≤ j → j < st.i → st.Has pts j) →
    n ≤ out.i ∧ (out.clean = true → (∀ k, out.Has pts (out.sp k)) ∧ ∀ j, 1 ≤ j → j < out.i → out.Has pts j) := by
  intro fuel
  induction fuel with
  | zero => intro st out h; cases h
  | succ f ih =>
    intro st out h hi
    unfold optLoop at h
    split_ifs at h with hn
    · exact ih _ _ h (optStep_inv pts st hi)
    · obtain rfl := Option.some.inj h
      exact ⟨not_lt.1 hn, hi⟩

/-- C28: when `OptimalEnclosingSphere` of five or more points returns, and did not replace the sphere without going over the
points again since its last restart, every point but the first is in the sphere, with the squared slack of 1e-4 that the code
allows; the first point is too, if it was not evicted from the support. Missing: the first point once it was evicted (see
`C28_optimal_n_violation`), that the loop ends, and that the sphere is the smallest one. -/
theorem C28_optimal_n_partial (pts : List (V3 ℝ)) (fuel : ℕ) (out : OptState) (h : optimalN pts fuel = some out)
    (hc : out.clean = true) (j : ℕ) (hj : j < pts.length) (h0 : j ≠ 0 ∨ ∃ k, out.sp k = 0) :
    distSq pts[j] out.s.pos ≤ out.s.r * out.s.r + 1 / 10000 := by
  have four := C28_optimal_four (pts.getD 0 ⟨0, 0, 0⟩) (pts.getD 1 ⟨0, 0, 0⟩) (pts.getD 2 ⟨0, 0, 0⟩) (pts.getD 3 ⟨0, 0, 0⟩)
  have start : ∀ k : ℕ, k < 4 → (optStart fun i => pts.getD i ⟨0, 0, 0⟩).Has (fun i => pts.getD i ⟨0, 0, 0⟩) k := by
    intro k hk
    have hb : pts.getD k ⟨0, 0, 0⟩ ∈ Spec.ball (optStart fun i => pts.getD i ⟨0, 0, 0⟩).s.pos (optStart fun i => pts.getD i ⟨0, 0, 0⟩).s.r := by
      refine four _ ?_
      interval_cases k <;> simp
    unfold OptState.Has
    exact (show distSq (pts.getD k ⟨0, 0, 0⟩) (optStart fun i => pts.getD i ⟨0, 0, 0⟩).s.pos ≤
      (optStart fun i => pts.getD i ⟨0, 0, 0⟩).s.r * (optStart fun i => pts.getD i ⟨0, 0, 0⟩).s.r from hb).trans (by linarith)
  obtain ⟨hn, hi⟩ := optLoop_inv _ _ _ _ _ h fun _ => ⟨fun k => start k k.2, fun j _ hj => start j hj⟩
  obtain ⟨a, b⟩ := hi hc
  have e : (fun i => pts.getD i (⟨0, 0, 0⟩ : V3 ℝ)) j = pts[j] := by simp [List.getD_eq_getElem?_getD, hj]
  rw [← e]
  rcases h0 with h0 | ⟨k, hk⟩
  · exact b j (by omega) (by omega)
  · by_cases hj0 : j = 0
    · subst hj0; rw [← hk]; exact a k
    · exact b j (by omega) (by omega)

/-! ### A witness: the first point is evicted and never looked at again -/

theorem max2_dist {a c b pos : V3 ℝ} {d : ℝ} (hd : 0 ≤ d) (hac : distSq a c = (2 * d) ^ 2) (hb : distSq b pos ≤ d ^ 2) :
    max2 (V3.dist a c * (1 / 2)) (V3.dist b pos) = d := by
  have h1 : V3.dist a c = 2 * d := by
    show Real.sqrt (distSq a c) = _
    rw [hac]; exact Real.sqrt_sq (by linarith)
  have h2 : V3.dist b pos ≤ d := Real.sqrt_le_iff.2 ⟨hd, hb⟩
  rw [h1]
  unfold max2
  split_ifs <;> linarith

/-- The sphere of three points, the second of which has an obtuse angle. -/
theorem optimal3_obtuse (a b c pos : V3 ℝ) (s t d : ℝ) (hx : ¬ lenSq (cross (b - a) (c - a)) < 1 / 10000)
    (hf : fit3 (b - a) (c - a) = some (s, t)) (hst : ¬ (absF s > 10000 ∨ absF t > 10000)) (hs : s < 0)
    (hpos : (1 / 2 : ℝ) • (a + c) = pos) (hd : 0 ≤ d) (hac : distSq a c = (2 * d) ^ 2) (hb : distSq b pos ≤ d ^ 2) :
    optimal3 a b c = ⟨pos, d + 2 * (1 / 10000)⟩ := by
  unfold optimal3
  dsimp only
  rw [if_neg hx, hf]
  dsimp only
  rw [if_neg hst, if_pos hs, hpos, max2_dist hd hac hb]

/-- The sphere of three points, the first of which has an obtuse angle. -/
theorem optimal3_obtuse' (a b c pos : V3 ℝ) (s t d : ℝ) (hx : ¬ lenSq (cross (b - a) (c - a)) < 1 / 10000)
    (hf : fit3 (b - a) (c - a) = some (s, t)) (hst : ¬ (absF s > 10000 ∨ absF t > 10000)) (hs : ¬ s < 0) (ht : ¬ t < 0)
    (hst1 : s + t > 1)
    (hpos : (1 / 2 : ℝ) • (b + c) = pos) (hd : 0 ≤ d) (hac : distSq b c = (2 * d) ^ 2) (hb : distSq a pos ≤ d ^ 2) :
    optimal3 a b c = ⟨pos, d + 2 * (1 / 10000)⟩ := by
  unfold optimal3
  dsimp only
  rw [if_neg hx, hf]
  dsimp only
  rw [if_neg hst, if_neg hs, if_neg ht, if_pos hst1, hpos, max2_dist hd hac hb]

theorem opt3_012 : optimal3 ⟨-40, 50, 0⟩ ⟨-50, 0, 0⟩ ⟨-40, -5, 0⟩ = ⟨⟨-40, 45 / 2, 0⟩, 55 / 2 + 2 * (1 / 10000)⟩ :=
  optimal3_obtuse _ _ _ _ (-3 / 4) (13 / 11) _ (by norm_num [lenSq, cross, dot]) (by norm_num [fit3, equalAbs, absF, dot])
    (by norm_num [absF]) (by norm_num) (by ext <;> norm_num) (by norm_num) (by norm_num [distSq, lenSq, dot])
    (by norm_num [distSq, lenSq, dot])

theorem opt3_123 : optimal3 ⟨-50, 0, 0⟩ ⟨-40, -5, 0⟩ ⟨-40, 28, 0⟩ = ⟨⟨-40, 23 / 2, 0⟩, 33 / 2 + 2 * (1 / 10000)⟩ :=
  optimal3_obtuse' _ _ _ _ (221 / 330) (35 / 66) _ (by norm_num [lenSq, cross, dot]) (by norm_num [fit3, equalAbs, absF, dot])
    (by norm_num [absF]) (by norm_num) (by norm_num) (by norm_num) (by ext <;> norm_num) (by norm_num)
    (by norm_num [distSq, lenSq, dot]) (by norm_num [distSq, lenSq, dot])

theorem opt3_124 : optimal3 ⟨-50, 0, 0⟩ ⟨-40, -5, 0⟩ ⟨14, 48, 0⟩ = ⟨⟨-18, 24, 0⟩, 40 + 2 * (1 / 10000)⟩ :=
  optimal3_obtuse _ _ _ _ (-11 / 8) (75 / 128) _ (by norm_num [lenSq, cross, dot]) (by norm_num [fit3, equalAbs, absF, dot])
    (by norm_num [absF]) (by norm_num) (by ext <;> norm_num) (by norm_num) (by norm_num [distSq, lenSq, dot])
    (by norm_num [distSq, lenSq, dot])

theorem opt3_125 : optimal3 ⟨-50, 0, 0⟩ ⟨-40, -5, 0⟩ ⟨50, 0, 0⟩ = ⟨⟨0, 0, 0⟩, 50 + 2 * (1 / 10000)⟩ :=
  optimal3_obtuse _ _ _ _ (-35 / 2) (9 / 4) _ (by norm_num [lenSq, cross, dot]) (by norm_num [fit3, equalAbs, absF, dot])
    (by norm_num [absF]) (by norm_num) (by ext <;> norm_num) (by norm_num) (by norm_num [distSq, lenSq, dot])
    (by norm_num [distSq, lenSq, dot])

theorem fit4_planar (a b c : V3 ℝ) (ha : a.z = 0) (hb : b.z = 0) (hc : c.z = 0) : fit4 a b c = none := by
  unfold fit4
  rw [Option.map_eq_none_iff]
  unfold Mat3.inverseSymmetric
  dsimp only
  rw [if_pos]
  unfold equalAbs absF
  simp [dot, ha, hb, hc]
  ring_nf
  norm_num

/-- The sphere of four points of the plane z = 0. -/
theorem optimal4_planar (a b c d : V3 ℝ) (ha : a.z = 0) (hb : b.z = 0) (hc : c.z = 0) (hd : d.z = 0) :
    ((optimal3 a b c).contains d = true → optimal4 a b c d = ⟨(optimal3 a b c).pos, (optimal3 a b c).r + 2 * (1 / 10000)⟩) ∧
    ((optimal3 a b c).contains d = false → (optimal3 a b d).contains c = true →
      optimal4 a b c d = ⟨(optimal3 a b d).pos, (optimal3 a b d).r + 2 * (1 / 10000)⟩) := by
  have e : fit4 (b - a) (c - a) (d - a) = none := fit4_planar _ _ _ (by simp [ha, hb]) (by simp [ha, hc]) (by simp [ha, hd])
  unfold optimal4
  dsimp only
  rw [e]
  constructor
  · intro h; rw [if_pos h]
  · intro h h'; rw [if_neg (by rw [h]; decide), if_pos h']

theorem opt4_0123 : optimal4 ⟨-40, 50, 0⟩ ⟨-50, 0, 0⟩ ⟨-40, -5, 0⟩ ⟨-40, 28, 0⟩ = ⟨⟨-40, 45 / 2, 0⟩, 55 / 2 + 4 / 10000⟩ := by
  rw [(optimal4_planar _ _ _ _ rfl rfl rfl rfl).1 (by rw [opt3_012]; norm_num [contains, distSq, lenSq, dot]), opt3_012]
  norm_num

theorem opt4_1234 : optimal4 ⟨-50, 0, 0⟩ ⟨-40, -5, 0⟩ ⟨-40, 28, 0⟩ ⟨14, 48, 0⟩ = ⟨⟨-18, 24, 0⟩, 40 + 4 / 10000⟩ := by
  rw [(optimal4_planar _ _ _ _ rfl rfl rfl rfl).2 (by rw [opt3_123]; norm_num [contains, distSq, lenSq, dot])
    (by rw [opt3_124]; norm_num [contains, distSq, lenSq, dot]), opt3_124]
  norm_num

theorem opt4_1235 : optimal4 ⟨-50, 0, 0⟩ ⟨-40, -5, 0⟩ ⟨-40, 28, 0⟩ ⟨50, 0, 0⟩ = ⟨⟨0, 0, 0⟩, 50 + 4 / 10000⟩ := by
  rw [(optimal4_planar _ _ _ _ rfl rfl rfl rfl).2 (by rw [opt3_123]; norm_num [contains, distSq, lenSq, dot])
    (by rw [opt3_125]; norm_num [contains, distSq, lenSq, dot]), opt3_125]
  norm_num

theorem opt5_first : optimal5 ⟨-40, 50, 0⟩ ⟨-50, 0, 0⟩ ⟨-40, -5, 0⟩ ⟨-40, 28, 0⟩ ⟨14, 48, 0⟩ =
    (⟨⟨-18, 24, 0⟩, 40 + 4 / 10000⟩, 0) := by
  unfold optimal5
  rw [opt4_1234, if_pos]
  norm_num [containsEps, distSq, lenSq, dot]

theorem opt5_second : optimal5 ⟨14, 48, 0⟩ ⟨-50, 0, 0⟩ ⟨-40, -5, 0⟩ ⟨-40, 28, 0⟩ ⟨50, 0, 0⟩ =
    (⟨⟨0, 0, 0⟩, 50 + 4 / 10000⟩, 0) := by
  unfold optimal5
  rw [opt4_1235, if_pos]
  norm_num [containsEps, distSq, lenSq, dot]

theorem optStep_skip (pts : ℕ → V3 ℝ) (st : OptState) (h : ∃ k, st.i = st.sp k) :
    optStep pts st = { st with i := st.i + 1 } := by
  unfold optStep; rw [if_pos h]

theorem optStep_in (pts : ℕ → V3 ℝ) (st : OptState) (h : ¬ ∃ k, st.i = st.sp k) (hd : st.Has pts st.i) :
    optStep pts st = { st with i := st.i + 1 } := by
  unfold optStep; rw [if_neg h, if_neg (not_lt.2 hd)]

theorem optStep_evict (pts : ℕ → V3 ℝ) (st : OptState) (h : ¬ ∃ k, st.i = st.sp k) (hd : ¬ st.Has pts st.i) (s : Sphere ℝ)
    (h5 : optimal5 (pts (st.sp 0)) (pts (st.sp 1)) (pts (st.sp 2)) (pts (st.sp 3)) (pts st.i) = (s, 0))
    (hlt : st.sp 0 < st.i) :
    ∃ ex, optStep pts st = ⟨1, Function.update st.sp 0 st.i, ex, s, true⟩ := by
  unfold optStep
  rw [if_neg h, if_pos (not_le.1 hd)]
  dsimp only
  rw [h5]
  dsimp only
  rw [dif_pos (by decide), if_pos (show st.sp ⟨0, _⟩ < st.i ∨ _ from Or.inl hlt)]
  exact ⟨_, rfl⟩

/-- The six points of the witness. -/
def optPts : List (V3 ℝ) := [⟨-40, 50, 0⟩, ⟨-50, 0, 0⟩, ⟨-40, -5, 0⟩, ⟨-40, 28, 0⟩, ⟨14, 48, 0⟩, ⟨50, 0, 0⟩]

theorem optLoop_pass (pts : ℕ → V3 ℝ) (n f : ℕ) (st : OptState) (h : st.i < n) :
    optLoop pts n (f + 1) st = optLoop pts n f (optStep pts st) := by
  rw [optLoop, if_pos h]

theorem optLoop_skip (pts : ℕ → V3 ℝ) (n f i : ℕ) (sp : Fin 4 → ℕ) (ex : Fin 4 → Bool) (s : Sphere ℝ) (c : Bool) (hi : i < n)
    (h : ∃ k, i = sp k) : optLoop pts n (f + 1) ⟨i, sp, ex, s, c⟩ = optLoop pts n f ⟨i + 1, sp, ex, s, c⟩ := by
  rw [optLoop_pass _ _ _ _ hi, optStep_skip _ _ h]

theorem optimalN_witness : ∃ ex sp, (∀ k, sp k ≠ 0) ∧
    optimalN optPts 20 = some ⟨6, sp, ex, ⟨⟨0, 0, 0⟩, 50 + 4 / 10000⟩, true⟩ := by
  unfold optimalN
  set pts := fun i => optPts.getD i (⟨0, 0, 0⟩ : V3 ℝ) with hp
  have e0 : pts 0 = ⟨-40, 50, 0⟩ := rfl
  have e1 : pts 1 = ⟨-50, 0, 0⟩ := rfl
  have e2 : pts 2 = ⟨-40, -5, 0⟩ := rfl
  have e3 : pts 3 = ⟨-40, 28, 0⟩ := rfl
  have e4 : pts 4 = ⟨14, 48, 0⟩ := rfl
  have e5 : pts 5 = ⟨50, 0, 0⟩ := rfl
  have hs : optStart pts = ⟨4, fun k => k, fun _ => true, ⟨⟨-40, 45 / 2, 0⟩, 55 / 2 + 4 / 10000⟩, true⟩ := by
    unfold optStart; rw [e0, e1, e2, e3, opt4_0123]
  rw [hs]
  obtain ⟨ex1, h1⟩ := optStep_evict pts ⟨4, fun k => k, fun _ => true, ⟨⟨-40, 45 / 2, 0⟩, 55 / 2 + 4 / 10000⟩, true⟩ (by decide)
    (by show ¬ distSq (pts 4) _ ≤ _
        rw [e4]; norm_num [distSq, lenSq, dot]) _
    (show optimal5 (pts 0) (pts 1) (pts 2) (pts 3) (pts 4) = _ by rw [e0, e1, e2, e3, e4]; exact opt5_first) (by decide)
  obtain ⟨ex2, h2⟩ := optStep_evict pts ⟨5, Function.update (fun k => k) 0 4, ex1, ⟨⟨-18, 24, 0⟩, 40 + 4 / 10000⟩, true⟩
    (by (try dsimp only); decide)
    (by show ¬ distSq (pts 5) _ ≤ _
        rw [e5]; norm_num [distSq, lenSq, dot]) _
    (show optimal5 (pts 4) (pts 1) (pts 2) (pts 3) (pts 5) = _ by rw [e1, e2, e3, e4, e5]; exact opt5_second) (by (try dsimp only); decide)
  have h3 := optStep_in pts ⟨4, Function.update (Function.update (fun k => k) 0 4) 0 5, ex2, ⟨⟨0, 0, 0⟩, 50 + 4 / 10000⟩, true⟩
    (by (try dsimp only); decide)
    (by show distSq (pts 4) _ ≤ _
        rw [e4]; norm_num [distSq, lenSq, dot])
  refine ⟨ex2, Function.update (Function.update (fun k => k) 0 4) 0 5, by decide, ?_⟩
  show optLoop pts 6 20 _ = _
  rw [optLoop_pass _ _ _ _ (by (try dsimp only); decide), h1]
  dsimp only
  rw [optLoop_skip _ _ _ 1 _ _ _ _ (by (try dsimp only); decide) (by (try dsimp only); decide), optLoop_skip _ _ _ 2 _ _ _ _ (by (try dsimp only); decide) (by (try dsimp only); decide),
    optLoop_skip _ _ _ 3 _ _ _ _ (by (try dsimp only); decide) (by (try dsimp only); decide), optLoop_skip _ _ _ 4 _ _ _ _ (by (try dsimp only); decide) (by (try dsimp only); decide)]
  rw [optLoop_pass _ _ _ _ (by (try dsimp only); decide), h2]
  dsimp only
  rw [optLoop_skip _ _ _ 1 _ _ _ _ (by (try dsimp only); decide) (by (try dsimp only); decide), optLoop_skip _ _ _ 2 _ _ _ _ (by (try dsimp only); decide) (by (try dsimp only); decide),
    optLoop_skip _ _ _ 3 _ _ _ _ (by (try dsimp only); decide) (by (try dsimp only); decide), optLoop_pass _ _ _ _ (by (try dsimp only); decide), h3]
  dsimp only
  rw [optLoop_skip _ _ _ 5 _ _ _ _ (by (try dsimp only); decide) (by (try dsimp only); decide), optLoop, if_neg (by (try dsimp only); decide)]

/-- The theorem `C28_optimal_n_partial` applies to the witness: its other five points are in the sphere. -/
example : ∀ j (hj : j < optPts.length), j ≠ 0 → ∃ out, optimalN optPts 20 = some out ∧
    distSq optPts[j] out.s.pos ≤ out.s.r * out.s.r + 1 / 10000 := by
  obtain ⟨ex, sp, -, h⟩ := optimalN_witness
  exact fun j hj h0 => ⟨_, h, C28_optimal_n_partial _ _ _ h rfl j hj (Or.inl h0)⟩

/-- C28: `OptimalEnclosingSphere` of six points that leaves the first of them far outside. The point at index 0 is evicted from
the support when the fifth point comes in, being inside the new sphere. When the sixth point changes the sphere again, the
loop starts over with `i = 0` followed by `++i`, so that the points from index 1 on are looked at, but not the first one. -/
theorem C28_optimal_n_violation : ∃ out, optimalN optPts 20 = some out ∧ out.clean = true ∧
    ¬ distSq optPts[0] out.s.pos ≤ out.s.r * out.s.r + 1 / 10000 ∧ out.s.r + 14 < V3.dist optPts[0] out.s.pos := by
  obtain ⟨ex, sp, -, h⟩ := optimalN_witness
  refine ⟨_, h, rfl, ?_, ?_⟩
  · norm_num [optPts, distSq, lenSq, dot]
  · show _ < Real.sqrt _
    refine Real.lt_sqrt_of_sq_lt ?_
    norm_num [optPts, distSq, lenSq, dot]

end Sphere
end MGL
