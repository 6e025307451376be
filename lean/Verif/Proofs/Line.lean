import Verif.Model.Line
import Verif.Proofs.Vec3
import Verif.Proofs.Dist
import Verif.Proofs.Scalar
import Mathlib.Tactic.Linarith
import Mathlib.Tactic.LinearCombination
import Mathlib.Tactic.FieldSimp

/-! Closest points of linear objects: the squared distance is a convex quadratic function of the two
parameters, `closestPointLineLine` finds a global minimiser of it, and the minimum over a rectangle which
does not contain that minimiser lies on an edge facing it. -/

set_option linter.unusedSectionVars false

namespace MGL
open V3
variable {α : Type*} [Field α] [LinearOrder α] [IsStrictOrderedRing α]

/-- Squared distance as a function of the two parameters. -/
def pairDist (p u q v : V3 α) (s t : α) : α := distSq (p + s • u) (q + t • v)

theorem pairDist_eq (p u q v : V3 α) (s t : α) :
    pairDist p u q v s t = lenSq (p - q) + 2 * s * dot (p - q) u - 2 * t * dot (p - q) v
      + s * s * dot u u - 2 * s * t * dot v u + t * t * dot v v := by
  simp only [pairDist, distSq, lenSq, dot, sub_x, sub_y, sub_z, add_x, add_y, add_z, smul_x, smul_y, smul_z]; ring

theorem pairDist_swap (p u q v : V3 α) (s t : α) : pairDist q v p u t s = pairDist p u q v s t := by
  simp only [pairDist, distSq_eq]; ring

/-- The parameters found are a critical point of the squared distance. -/
theorem closestPointLineLine_critical (p u q v : V3 α) (hv : v ≠ 0) :
    let r := closestPointLineLine p u q v
    dot (p - q) u + r.1 * dot u u - r.2 * dot v u = 0 ∧
    - dot (p - q) v - r.1 * dot v u + r.2 * dot v v = 0 := by
  have hC : dot v v ≠ 0 := (lenSq_pos hv).ne'
  intro r
  have h2 : - dot (p - q) v - r.1 * dot v u + r.2 * dot v v = 0 := by
    have : r.2 = (dot (p - q) v + r.1 * dot v u) / dot v v := rfl
    rw [this]; field_simp; ring
  refine ⟨?_, h2⟩
  by_cases hd : dot u u * dot v v - dot v u * dot v u ≠ 0
  · have e1 : r.1 = (dot (p - q) v * dot v u - dot (p - q) u * dot v v) / (dot u u * dot v v - dot v u * dot v u) :=
      if_pos hd
    have e : r.1 * (dot u u * dot v v - dot v u * dot v u) = dot (p - q) v * dot v u - dot (p - q) u * dot v v := by
      rw [e1, div_mul_cancel₀ _ hd]
    apply mul_right_cancel₀ hC
    linear_combination e - dot v u * h2
  · have e1 : r.1 = 0 := if_neg hd
    push Not at hd
    have hl := lagrange v u
    have : lenSq (cross v u) = 0 := by
      have e : lenSq v * lenSq u = dot u u * dot v v := by simp only [lenSq]; ring
      rw [e] at hl; linear_combination hl + hd
    have hc := lenSq_eq_zero.1 this
    -- cross v u = 0, so dot w u * dot v v = dot w v * dot v u for all w
    have k : dot (p - q) u * dot v v = dot (p - q) v * dot v u := by
      have hx := congrArg V3.x hc; have hy := congrArg V3.y hc; have hz := congrArg V3.z hc
      simp only [cross, zero_x, zero_y, zero_z] at hx hy hz
      simp only [dot]
      generalize p - q = w
      linear_combination (w.z * v.y - w.y * v.z) * hx + (w.x * v.z - w.z * v.x) * hy + (w.y * v.x - w.x * v.y) * hz
    rw [e1] at h2 ⊢
    apply mul_right_cancel₀ hC
    linear_combination k - dot v u * h2

/-- The squared distance grows from the critical point by the squared length of the displacement. -/
theorem pairDist_grow (p u q v : V3 α) (hv : v ≠ 0) (s t : α) :
    let r := closestPointLineLine p u q v
    pairDist p u q v s t = pairDist p u q v r.1 r.2 + lenSq ((s - r.1) • u - (t - r.2) • v) := by
  intro r
  obtain ⟨h1, h2⟩ := closestPointLineLine_critical p u q v hv
  have e : lenSq ((s - r.1) • u - (t - r.2) • v) =
      (s - r.1) * (s - r.1) * dot u u - 2 * (s - r.1) * (t - r.2) * dot v u + (t - r.2) * (t - r.2) * dot v v := by
    simp only [lenSq, dot, sub_x, sub_y, sub_z, smul_x, smul_y, smul_z]; ring
  rw [e, pairDist_eq, pairDist_eq]
  linear_combination 2 * (s - r.1) * h1 + 2 * (t - r.2) * h2

theorem pairDist_min (p u q v : V3 α) (hv : v ≠ 0) (s t : α) :
    pairDist p u q v (closestPointLineLine p u q v).1 (closestPointLineLine p u q v).2 ≤ pairDist p u q v s t := by
  rw [pairDist_grow p u q v hv s t]
  exact le_add_of_nonneg_right (lenSq_nonneg _)

/-- Moving towards the critical point does not increase the distance. -/
theorem pairDist_slide (p u q v : V3 α) (hv : v ≠ 0) (s t k : α) (h0 : 0 ≤ k) (h1 : k ≤ 1) :
    let r := closestPointLineLine p u q v
    pairDist p u q v (s + k * (r.1 - s)) (t + k * (r.2 - t)) ≤ pairDist p u q v s t := by
  intro r
  rw [pairDist_grow p u q v hv s t, pairDist_grow p u q v hv (s + k * (r.1 - s))]
  have e : lenSq ((s + k * (r.1 - s) - r.1) • u - (t + k * (r.2 - t) - r.2) • v) =
      (1 - k) * (1 - k) * lenSq ((s - r.1) • u - (t - r.2) • v) := by
    simp only [lenSq, dot, sub_x, sub_y, sub_z, smul_x, smul_y, smul_z]; ring
  rw [e]
  have := lenSq_nonneg ((s - r.1) • u - (t - r.2) • v)
  have hk : (1 - k) * (1 - k) ≤ 1 := by nlinarith
  nlinarith

/-- `m` lies between `a` and `b` (in either order). -/
def Btw (a m b : α) : Prop := (a ≤ m ∧ m ≤ b) ∨ (b ≤ m ∧ m ≤ a)

theorem Btw.param {a m b : α} (h : Btw a m b) : ∃ k, 0 ≤ k ∧ k ≤ 1 ∧ a + k * (b - a) = m := by
  by_cases hab : a = b
  · refine ⟨0, le_rfl, zero_le_one, ?_⟩
    subst hab; rcases h with ⟨h1, h2⟩ | ⟨h1, h2⟩ <;> linarith
  · rcases h with ⟨h1, h2⟩ | ⟨h1, h2⟩
    · have : 0 < b - a := sub_pos.2 (lt_of_le_of_ne (h1.trans h2) hab)
      exact ⟨(m - a) / (b - a), div_nonneg (by linarith) this.le, (div_le_one this).2 (by linarith), by field_simp; ring⟩
    · have : 0 < a - b := sub_pos.2 (lt_of_le_of_ne (h1.trans h2) (Ne.symm hab))
      refine ⟨(a - m) / (a - b), div_nonneg (by linarith) this.le, (div_le_one this).2 (by linarith), ?_⟩
      field_simp; ring

theorem btw_of_param {a b k : α} (h0 : 0 ≤ k) (h1 : k ≤ 1) : Btw a (a + k * (b - a)) b := by
  rcases le_total a b with h | h
  · left; constructor <;> nlinarith
  · right; constructor <;> nlinarith

/-- If only the second parameter of the critical point is out of range, the nearest edge is at least as
good as any pair. -/
theorem exit_snd (p u q v : V3 α) (hv : v ≠ 0) (s t tb : α)
    (hb : Btw t tb (closestPointLineLine p u q v).2) :
    ∃ s', Btw s s' (closestPointLineLine p u q v).1 ∧ pairDist p u q v s' tb ≤ pairDist p u q v s t := by
  obtain ⟨k, h0, h1, e⟩ := hb.param
  refine ⟨_, btw_of_param h0 h1, ?_⟩
  rw [← e]; exact pairDist_slide p u q v hv s t k h0 h1

theorem exit_fst (p u q v : V3 α) (hv : v ≠ 0) (s t sb : α)
    (hb : Btw s sb (closestPointLineLine p u q v).1) :
    ∃ t', Btw t t' (closestPointLineLine p u q v).2 ∧ pairDist p u q v sb t' ≤ pairDist p u q v s t := by
  obtain ⟨k, h0, h1, e⟩ := hb.param
  refine ⟨_, btw_of_param h0 h1, ?_⟩
  rw [← e]; exact pairDist_slide p u q v hv s t k h0 h1

/-- If both are out of range, one of the two facing edges is at least as good as any pair. -/
theorem exit_both (p u q v : V3 α) (hv : v ≠ 0) (s t sb tb : α)
    (hs : Btw s sb (closestPointLineLine p u q v).1) (ht : Btw t tb (closestPointLineLine p u q v).2) :
    (∃ t', Btw t t' tb ∧ pairDist p u q v sb t' ≤ pairDist p u q v s t) ∨
    (∃ s', Btw s s' sb ∧ pairDist p u q v s' tb ≤ pairDist p u q v s t) := by
  obtain ⟨k, h0, h1, e⟩ := hs.param
  obtain ⟨l, l0, l1, f⟩ := ht.param
  rcases le_total k l with h | h
  · left
    refine ⟨t + k * ((closestPointLineLine p u q v).2 - t), ?_, ?_⟩
    · rw [← f]
      generalize (closestPointLineLine p u q v).2 - t = w
      rcases le_total 0 w with hw | hw
      · left; constructor <;> nlinarith
      · right; constructor <;> nlinarith
    · rw [← e]; exact pairDist_slide p u q v hv s t k h0 h1
  · right
    refine ⟨s + l * ((closestPointLineLine p u q v).1 - s), ?_, ?_⟩
    · rw [← e]
      generalize (closestPointLineLine p u q v).1 - s = w
      rcases le_total 0 w with hw | hw
      · left; constructor <;> nlinarith
      · right; constructor <;> nlinarith
    · rw [← f]; exact pairDist_slide p u q v hv s t l l0 l1

theorem clamp01_range (x : α) : 0 ≤ clamp01 x ∧ clamp01 x ≤ 1 := by
  unfold clamp01 clamp; split_ifs <;> constructor <;> linarith

/-- Distance from a point to a parametrised line grows quadratically from the foot. -/
theorem foot_grow (p u x : V3 α) (hu : u ≠ 0) (s : α) :
    distSq x (p + s • u) = distSq x (p + (dot (x - p) u / lenSq u) • u)
      + (s - dot (x - p) u / lenSq u) * (s - dot (x - p) u / lenSq u) * lenSq u := by
  have hC : lenSq u ≠ 0 := (lenSq_pos hu).ne'
  have h : dot (x - p) u / lenSq u * lenSq u = dot (x - p) u := div_mul_cancel₀ _ hC
  generalize dot (x - p) u / lenSq u = f at h ⊢
  simp only [distSq_eq, lenSq, dot, sub_x, sub_y, sub_z, add_x, add_y, add_z, smul_x, smul_y, smul_z] at h ⊢
  linear_combination 2 * (s - f) * h

theorem Line.closest (l : Line α) (h : lenSq l.dir = 1) (x : V3 α) (s : α) :
    distSq x (l.closestPoint x).1 ≤ distSq x (l.pos + s • l.dir) := by
  have hu : l.dir ≠ 0 := by intro e; rw [e] at h; simp [lenSq] at h
  rw [foot_grow l.pos l.dir x hu s]
  simp only [h, div_one, mul_one]
  exact le_add_of_nonneg_right (mul_self_nonneg _)

theorem Ray.closest (l : Ray α) (h : lenSq l.dir = 1) (x : V3 α) (s : α) (hs : 0 ≤ s) :
    distSq x (l.closestPoint x).1 ≤ distSq x (l.pos + s • l.dir) := by
  have hu : l.dir ≠ 0 := by intro e; rw [e] at h; simp [lenSq] at h
  rw [foot_grow l.pos l.dir x hu s]
  show distSq x (l.pos + (max2 0 (dot (x - l.pos) l.dir)) • l.dir) ≤ _
  rw [foot_grow l.pos l.dir x hu (max2 0 (dot (x - l.pos) l.dir)), max2_eq]
  simp only [h, div_one, mul_one]
  generalize dot (x - l.pos) l.dir = f
  apply (add_le_add_iff_left _).2
  rcases le_total 0 f with hf | hf
  · rw [max_eq_right hf, sub_self, mul_zero]; exact mul_self_nonneg _
  · rw [max_eq_left hf]; nlinarith

theorem LineSeg.closest (l : LineSeg α) (h : l.a ≠ l.b) (x : V3 α) (s : α) (h0 : 0 ≤ s) (h1 : s ≤ 1) :
    distSq x (l.closestPoint x).1 ≤ distSq x (l.a + s • (l.b - l.a)) := by
  have hu : l.b - l.a ≠ 0 := sub_ne_zero.2 (Ne.symm h)
  rw [foot_grow l.a (l.b - l.a) x hu s]
  show distSq x (l.a + (clamp01 (dot (x - l.a) (l.b - l.a) / lenSq (l.b - l.a))) • (l.b - l.a)) ≤ _
  rw [foot_grow l.a (l.b - l.a) x hu (clamp01 _)]
  have hp := lenSq_pos hu
  generalize dot (x - l.a) (l.b - l.a) / lenSq (l.b - l.a) = f
  apply (add_le_add_iff_left _).2
  apply mul_le_mul_of_nonneg_right _ hp.le
  unfold clamp01 clamp; split_ifs <;> nlinarith

theorem LineSeg.getPoint_eq (l : LineSeg α) (d : α) : l.getPoint d = l.a + d • (l.b - l.a) := by
  ext <;> simp [LineSeg.getPoint] <;> ring

theorem Line.closest_fst (l : Line α) (x : V3 α) : (l.closestPoint x).1 = l.pos + (l.closestPoint x).2 • l.dir := rfl
theorem Ray.closest_fst (l : Ray α) (x : V3 α) : (l.closestPoint x).1 = l.pos + (l.closestPoint x).2 • l.dir := rfl
theorem LineSeg.closest_fst (l : LineSeg α) (x : V3 α) :
    (l.closestPoint x).1 = l.a + (l.closestPoint x).2 • (l.b - l.a) := rfl
theorem Ray.closest_nonneg (l : Ray α) (x : V3 α) : 0 ≤ (l.closestPoint x).2 := by
  show 0 ≤ max2 0 _; rw [max2_eq]; exact le_max_left _ _
theorem LineSeg.closest_range (l : LineSeg α) (x : V3 α) : 0 ≤ (l.closestPoint x).2 ∧ (l.closestPoint x).2 ≤ 1 :=
  clamp01_range _

/-- Edge minimisation in terms of `pairDist`: fix the first parameter at `s`, the second object's nearest
point to `p + s u` is at least as good as any `t`. -/
theorem edge_fst (p u q v : V3 α) (s c t : α) (h : distSq (p + s • u) (q + c • v) ≤ distSq (p + s • u) (q + t • v)) :
    pairDist p u q v s c ≤ pairDist p u q v s t := h

theorem edge_snd (p u q v : V3 α) (c s t : α) (h : distSq (q + t • v) (p + c • u) ≤ distSq (q + t • v) (p + s • u)) :
    pairDist p u q v c t ≤ pairDist p u q v s t := by
  unfold pairDist; rw [distSq_comm, distSq_comm (p + s • u)]; exact h

end MGL
