import Verif.Proofs.Hull2DResult
import Mathlib.Tactic.NormNum
import Mathlib.Algebra.Order.Field.Rat

/-! C74, C75: planar convex hulls. -/

set_option linter.unusedSectionVars false

namespace MGL.Hull2D
open Spec

variable {α : Type*} [Field α] [LinearOrder α] [IsStrictOrderedRing α]

theorem hull2_mono {S T : List (V2 α)} (h : ∀ v ∈ S, v ∈ hull2 T) {q : V2 α} (hq : q ∈ hull2 S) : q ∈ hull2 T :=
  fun K hK hm => hq K hK fun s hs => h s hs K hK hm

theorem near_convex (S : List (V2 α)) (c : α) : Convex2 {x : V2 α | ∃ r ∈ hull2 S, distSq2 x r ≤ c} := by
  rintro p ⟨p', hp', hp⟩ q ⟨q', hq', hq⟩ s t hs ht hst
  refine ⟨_, hull2_convex S p' hp' q' hq' s t hs ht hst, ?_⟩
  unfold distSq2 at *
  have e : (s * p.x + t * q.x - (s * p'.x + t * q'.x)) ^ 2 + (s * p.y + t * q.y - (s * p'.y + t * q'.y)) ^ 2 =
      s * ((p.x - p'.x) ^ 2 + (p.y - p'.y) ^ 2) + t * ((q.x - q'.x) ^ 2 + (q.y - q'.y) ^ 2) -
      s * t * (((p.x - p'.x) - (q.x - q'.x)) ^ 2 + ((p.y - p'.y) - (q.y - q'.y)) ^ 2) := by
    have : t = 1 - s := by linear_combination hst
    rw [this]; ring
  show (s * p.x + t * q.x - (s * p'.x + t * q'.x)) ^ 2 + (s * p.y + t * q.y - (s * p'.y + t * q'.y)) ^ 2 ≤ c
  rw [e]
  have h1 : 0 ≤ s * t * (((p.x - p'.x) - (q.x - q'.x)) ^ 2 + ((p.y - p'.y) - (q.y - q'.y)) ^ 2) := by positivity
  have h2 := mul_le_mul_of_nonneg_left hp hs
  have h3 := mul_le_mul_of_nonneg_left hq ht
  have h4 : s * c + t * c = c := by rw [← add_mul, hst, one_mul]
  linarith

theorem distSq2_self (p : V2 α) : distSq2 p p = 0 := by simp [distSq2]

theorem distSq2_triangle {a b c : V2 α} {d : α} (h1 : distSq2 a b ≤ d) (h2 : distSq2 b c ≤ d) : distSq2 a c ≤ 4 * d := by
  unfold distSq2 at *
  nlinarith [sq_nonneg ((a.x - b.x) - (b.x - c.x)), sq_nonneg ((a.y - b.y) - (b.y - c.y))]

/-- C74: `ConvexHullInPlace` succeeds for every array of points without reading or writing outside an array. The points left
are points of the input, pairwise different, in strictly convex position and counter-clockwise, and every point of the input
is within 2/1000 of their convex hull. -/
theorem C74_convexHull (p : List (V2 α)) : ∃ out, convexHullInPlace p = some out ∧ (∀ v ∈ out, v ∈ p) ∧ StrictCCW out ∧
    (p ≠ [] → out ≠ []) ∧ ∀ q ∈ p, ∃ r ∈ hull2 out, distSq2 q r ≤ (2 / 1000) ^ 2 := by
  obtain ⟨out, h1, h2, h3, h4, h, k1, k2, k3⟩ := result_spec p
  refine ⟨out, h1, h2, h3, h4, fun q hq => ?_⟩
  have e : eps = (1 / 1000000 : α) := rfl
  refine k2 q hq _ (near_convex out _) fun v hv => ?_
  rcases k3 v hv with hv | ⟨k, -, hd, hv | ⟨o, ho, hd'⟩⟩
  · exact ⟨v, mem_hull2 hv, by rw [distSq2_self]; positivity⟩
  · refine ⟨k, mem_hull2 hv, ?_⟩
    rw [distSq2D_eq, e] at hd
    refine hd.trans ?_
    norm_num
  · refine ⟨o, mem_hull2 ho, ?_⟩
    rw [distSq2D_eq, e] at hd hd'
    refine (distSq2_triangle hd hd'.le).trans ?_
    norm_num

/-- C74: when different points of the input are more than 1/1000 apart, the convex hull of the points left is exactly the
convex hull of the input. -/
theorem C74_exact (p : List (V2 α)) (hsep : ∀ a ∈ p, ∀ b ∈ p, a ≠ b → (1 / 1000) ^ 2 < distSq2 a b) :
    ∃ out, convexHullInPlace p = some out ∧ StrictCCW out ∧ (∀ v ∈ out, v ∈ p) ∧ hull2 out = hull2 p := by
  obtain ⟨out, h1, h2, h3, h4, h, k1, k2, k3⟩ := result_spec p
  have e : eps = ((1 / 1000) ^ 2 : α) := by unfold eps; norm_num
  have eq : ∀ a ∈ p, ∀ b ∈ p, distSq2D a b ≤ eps → a = b := by
    intro a ha b hb hd
    by_contra hne
    have := hsep a ha b hb hne
    rw [distSq2D_eq, e] at hd
    exact absurd hd (not_le.2 this)
  have hsub : ∀ v ∈ h, v ∈ out := by
    intro v hv
    rcases k3 v hv with hv' | ⟨k, hk, hd, hv' | ⟨o, ho, hd'⟩⟩
    · exact hv'
    · rw [eq v (k1 v hv) k hk hd]; exact hv'
    · rw [eq v (k1 v hv) k hk hd, eq k hk o (h2 o ho) hd'.le]; exact ho
  refine ⟨out, h1, h3, h2, Set.eq_of_subset_of_subset ?_ ?_⟩
  · intro q hq; exact hull2_mono (fun v hv => mem_hull2 (h2 v hv)) hq
  · intro q hq; exact hull2_mono (fun v hv => hull2_mono (fun w hw => mem_hull2 (hsub w hw)) (k2 v hv)) hq

/-- Nine points: the corners of a square, middles of edges, the centre, a duplicate. -/
def exPts : List (V2 ℚ) := [⟨1, 1⟩, ⟨0, 0⟩, ⟨2, 2⟩, ⟨2, 0⟩, ⟨0, 2⟩, ⟨1, 0⟩, ⟨2, 1⟩, ⟨0, 0⟩, ⟨1, 2⟩]

example : convexHullInPlace exPts = some [⟨0, 0⟩, ⟨2, 0⟩, ⟨2, 2⟩, ⟨0, 2⟩] := by decide +kernel
example := C74_convexHull exPts
example := C74_exact exPts (by simp only [exPts, List.forall_mem_cons]; norm_num [distSq2])

/-! ### Vertices are extreme -/

theorem StrictCCW_rotate {x : V2 α} {xs : List (V2 α)} (h : StrictCCW (x :: xs)) : StrictCCW (xs ++ [x]) := by
  refine ⟨(List.perm_append_singleton x xs).nodup_iff.2 h.1, ?_⟩
  have := List.triplewise_cons.1 h.2
  rw [List.triplewise_append]
  refine ⟨this.2, by simp, fun a _ => by simp, fun a ha => ?_⟩
  rw [List.mem_singleton.1 ha]
  exact this.1.imp fun {b c} h => by rw [← area2_cycle]; exact h

theorem StrictCCW_swap (l m : List (V2 α)) (h : StrictCCW (l ++ m)) : StrictCCW (m ++ l) := by
  induction l generalizing m with
  | nil => simpa using h
  | cons x xs ih =>
    have := ih (m ++ [x]) (by have := StrictCCW_rotate h; simpa using this)
    simpa using this

/-- Two conditions that single out one vertex. -/
theorem extreme_half {v a b : V2 α} (h : 0 < area2 a v b) :
    Convex2 {w : V2 α | w ≠ v ∧ 0 ≤ area2 a v w ∧ 0 ≤ area2 v b w} := by
  have key : ∀ w, area2 a v w = 0 → area2 v b w = 0 → w = v := by
    intro w h1 h2
    unfold area2 at *
    have ex : ((v.x - a.x) * (b.y - a.y) - (v.y - a.y) * (b.x - a.x)) * (w.x - v.x) = 0 := by
      linear_combination (b.x - v.x) * h1 - (v.x - a.x) * h2
    have ey : ((v.x - a.x) * (b.y - a.y) - (v.y - a.y) * (b.x - a.x)) * (w.y - v.y) = 0 := by
      linear_combination (b.y - v.y) * h1 - (v.y - a.y) * h2
    refine V2.ext ?_ ?_
    · exact sub_eq_zero.1 ((mul_eq_zero.1 ex).resolve_left h.ne')
    · exact sub_eq_zero.1 ((mul_eq_zero.1 ey).resolve_left h.ne')
  rintro p ⟨p0, p1, p2⟩ q ⟨q0, q1, q2⟩ s t hs ht hst
  have e : t = 1 - s := by linear_combination hst
  have e1 : area2 a v (⟨s * p.x + t * q.x, s * p.y + t * q.y⟩ : V2 α) = s * area2 a v p + t * area2 a v q := by
    unfold area2; rw [e]; ring
  have e2 : area2 v b (⟨s * p.x + t * q.x, s * p.y + t * q.y⟩ : V2 α) = s * area2 v b p + t * area2 v b q := by
    unfold area2; rw [e]; ring
  refine ⟨?_, by rw [e1]; positivity, by rw [e2]; positivity⟩
  intro hv
  rw [hv] at e1 e2
  have z1 : area2 a v v = 0 := by unfold area2; ring
  have z2 : area2 v b v = 0 := by unfold area2; ring
  rw [z1] at e1
  rw [z2] at e2
  rcases hs.lt_or_eq with hs | hs
  · have a1 : area2 a v p = 0 := by
      have := mul_nonneg ht q1; have h0 := mul_nonneg hs.le p1
      exact (mul_eq_zero.1 (le_antisymm (by linarith) h0)).resolve_left hs.ne'
    have a2 : area2 v b p = 0 := by
      have := mul_nonneg ht q2; have h0 := mul_nonneg hs.le p2
      exact (mul_eq_zero.1 (le_antisymm (by linarith) h0)).resolve_left hs.ne'
    exact p0 (key p a1 a2)
  · have t1 : t = 1 := by rw [e, ← hs]; ring
    rw [← hs, t1] at e1 e2
    exact q0 (key q (by linear_combination -e1) (by linear_combination -e2))

theorem edge_half (a v b : V2 α) : Convex2 {w : V2 α | 0 ≤ area2 a v w ∧ 0 ≤ area2 v b w} := by
  rintro p ⟨p1, p2⟩ q ⟨q1, q2⟩ s t hs ht hst
  have e : t = 1 - s := by linear_combination hst
  have e1 : area2 a v (⟨s * p.x + t * q.x, s * p.y + t * q.y⟩ : V2 α) = s * area2 a v p + t * area2 a v q := by
    unfold area2; rw [e]; ring
  have e2 : area2 v b (⟨s * p.x + t * q.x, s * p.y + t * q.y⟩ : V2 α) = s * area2 v b p + t * area2 v b q := by
    unfold area2; rw [e]; ring
  exact ⟨by rw [e1]; positivity, by rw [e2]; positivity⟩

/-- A vertex of a strictly convex polygon is not in the convex hull of points of the polygon other than itself. -/
theorem vertex_extreme {l m S : List (V2 α)} {v : V2 α} (h : StrictCCW (l ++ v :: m)) (hS : ∀ w ∈ S, w ≠ v ∧ w ∈ hull2 (l ++ v :: m)) :
    v ∉ hull2 S := by
  have H : StrictCCW (v :: (m ++ l)) := by simpa using StrictCCW_swap l (v :: m) h
  have hS' : ∀ w ∈ S, w ≠ v ∧ w ∈ hull2 (v :: (m ++ l)) := fun w hw => ⟨(hS w hw).1, hull2_mono (fun x hx => mem_hull2 (by
    simp at hx ⊢; tauto)) (hS w hw).2⟩
  generalize m ++ l = r at H hS'
  intro hv
  match r, H, hS' with
  | [], H, hS' =>
    have : ∀ w ∈ S, False := by
      intro w hw
      have := (hS' w hw).2 {v} (by
        intro p hp q hq s t _ _ hst
        rw [Set.mem_singleton_iff] at hp hq ⊢
        rw [hp, hq]; apply V2.ext <;> (show _ = _; simp only []; rw [← add_mul, hst, one_mul])) (by simp)
      exact (hS' w hw).1 this
    have := hv ∅ (fun p hp => hp.elim) (fun s hs => (this s hs).elim)
    exact this
  | [b], H, hS' =>
    have hne : v ≠ b := by have := H.1; simp at this; exact this
    -- on a segment: the dot product with its direction, and the line itself
    have hK : Convex2 {w : V2 α | 0 < (w.x - v.x) * (b.x - v.x) + (w.y - v.y) * (b.y - v.y)} := by
      intro p hp q hq s t hs ht hst
      have hp' : 0 < (p.x - v.x) * (b.x - v.x) + (p.y - v.y) * (b.y - v.y) := hp
      have hq' : 0 < (q.x - v.x) * (b.x - v.x) + (q.y - v.y) * (b.y - v.y) := hq
      show 0 < (s * p.x + t * q.x - v.x) * (b.x - v.x) + (s * p.y + t * q.y - v.y) * (b.y - v.y)
      have e : t = 1 - s := by linear_combination hst
      have : (s * p.x + t * q.x - v.x) * (b.x - v.x) + (s * p.y + t * q.y - v.y) * (b.y - v.y) =
          s * ((p.x - v.x) * (b.x - v.x) + (p.y - v.y) * (b.y - v.y)) + t * ((q.x - v.x) * (b.x - v.x) + (q.y - v.y) * (b.y - v.y)) := by
        rw [e]; ring
      rw [this]
      rcases hs.lt_or_eq with hs | hs
      · have := mul_pos hs hp'; have := mul_nonneg ht hq'.le; linarith
      · have t1 : t = 1 := by rw [e, ← hs]; ring
        rw [← hs, t1]; linarith
    have := hv _ hK (by
      intro w hw
      obtain ⟨hwv, hw'⟩ := hS' w hw
      have K2 : Convex2 {w : V2 α | ∃ k : α, 0 ≤ k ∧ w = ⟨v.x + k * (b.x - v.x), v.y + k * (b.y - v.y)⟩} := by
        rintro p ⟨k, hk, rfl⟩ q ⟨k', hk', rfl⟩ s t hs ht hst
        refine ⟨s * k + t * k', by positivity, ?_⟩
        have e : t = 1 - s := by linear_combination hst
        apply V2.ext <;> simp only [e] <;> ring
      obtain ⟨k, hk, rfl⟩ := hw' _ K2 (by
        intro s hs
        simp at hs
        rcases hs with rfl | rfl
        · exact ⟨0, le_refl _, by apply V2.ext <;> simp⟩
        · exact ⟨1, zero_le_one, by apply V2.ext <;> simp⟩)
      show 0 < (v.x + k * (b.x - v.x) - v.x) * (b.x - v.x) + (v.y + k * (b.y - v.y) - v.y) * (b.y - v.y)
      have hk' : 0 < k := by
        rcases hk.lt_or_eq with h | h
        · exact h
        · exfalso; apply hwv; rw [← h]; apply V2.ext <;> simp
      have hd : 0 < (b.x - v.x) ^ 2 + (b.y - v.y) ^ 2 := by
        by_contra hh
        have h1 : (b.x - v.x) ^ 2 = 0 := by nlinarith [sq_nonneg (b.x - v.x), sq_nonneg (b.y - v.y)]
        have h2 : (b.y - v.y) ^ 2 = 0 := by nlinarith [sq_nonneg (b.x - v.x), sq_nonneg (b.y - v.y)]
        exact hne (V2.ext (sub_eq_zero.1 (pow_eq_zero_iff (two_ne_zero) |>.1 h1)).symm (sub_eq_zero.1 (pow_eq_zero_iff (two_ne_zero) |>.1 h2)).symm)
      have := mul_pos hk' hd
      linear_combination this)
    have hv0 : 0 < (v.x - v.x) * (b.x - v.x) + (v.y - v.y) * (b.y - v.y) := this
    simp at hv0
  | b :: c :: r, H, hS' =>
    obtain ⟨z, hz⟩ : ∃ z, (c :: r).getLast? = some z := ⟨(c :: r).getLast (by simp), List.getLast?_eq_getLast_of_ne_nil (by simp)⟩
    have hzm : z ∈ c :: r := List.mem_of_getLast? hz
    have T := (List.triplewise_cons.1 H.2).1
    have hb : ∀ w ∈ c :: r, 0 < area2 v b w := fun w hw => (List.pairwise_cons.1 T).1 w hw
    have hlast : ∀ w ∈ b :: c :: r, 0 ≤ area2 z v w := by
      intro w hw
      by_cases hwz : w = z
      · rw [hwz]; unfold area2; ring_nf; exact le_refl _
      · have e := List.dropLast_append_getLast (l := b :: c :: r) (by simp)
        have e' : (b :: c :: r).getLast (by simp) = z := by
          have : (b :: c :: r).getLast? = some z := by rw [List.getLast?_cons_cons, hz]
          rw [List.getLast?_eq_getLast_of_ne_nil (by simp)] at this
          exact Option.some.inj this
        rw [e'] at e
        rw [← e] at T hw
        have hw' : w ∈ (b :: c :: r).dropLast := by
          rcases List.mem_append.1 hw with h | h
          · exact h
          · exact absurd (List.mem_singleton.1 h) hwz
        have := (List.pairwise_append.1 T).2.2 w hw' z (by simp)
        rw [area2_cycle, area2_cycle] at this
        exact this.le
    have hzb : 0 < area2 z v b := by rw [area2_cycle]; exact hb z hzm
    have := hv _ (extreme_half hzb) (by
      intro w hw
      obtain ⟨hwv, hw'⟩ := hS' w hw
      have := hw' _ (edge_half z v b) (by
        intro s hs
        rcases List.mem_cons.1 hs with rfl | hs
        · exact ⟨by unfold area2; ring_nf; exact le_refl _, by unfold area2; ring_nf; exact le_refl _⟩
        · refine ⟨hlast s hs, ?_⟩
          rcases List.mem_cons.1 hs with rfl | hs
          · unfold area2; ring_nf; exact le_refl _
          · exact (hb s hs).le)
      exact ⟨hwv, this⟩)
    exact this.1 rfl

/-- C74: the points left are exactly the extreme points of the input, those that are not in the convex hull of the others,
when different points of the input are more than 1/1000 apart. -/
theorem C74_extreme (p : List (V2 α)) (hsep : ∀ a ∈ p, ∀ b ∈ p, a ≠ b → (1 / 1000) ^ 2 < distSq2 a b) :
    ∃ out, convexHullInPlace p = some out ∧ ∀ v ∈ p, v ∈ out ↔ v ∉ hull2 (p.filter fun w => w ≠ v) := by
  obtain ⟨out, h1, h2, h3, h4⟩ := C74_exact p hsep
  refine ⟨out, h1, fun v hv => ⟨fun ho => ?_, fun hn => ?_⟩⟩
  · obtain ⟨l, m, e⟩ := List.append_of_mem ho
    refine vertex_extreme (l := l) (m := m) (e ▸ h2) fun w hw => ?_
    rw [List.mem_filter] at hw
    refine ⟨by simpa using hw.2, ?_⟩
    rw [← e, h4]; exact mem_hull2 hw.1
  · by_contra ho
    apply hn
    have : v ∈ hull2 out := by rw [h4]; exact mem_hull2 hv
    refine hull2_mono (fun w hw => mem_hull2 ?_) this
    rw [List.mem_filter]
    refine ⟨h3 w hw, ?_⟩
    have : w ≠ v := by rintro rfl; exact ho hw
    simpa using this

example := C74_extreme exPts (by simp only [exPts, List.forall_mem_cons]; norm_num [distSq2])

/-- C74: `ConvexHull`, which copies the points first, gives the same. -/
theorem C74_convexHull_copy (p : List (V2 α)) : convexHull p = convexHullInPlace p := by
  unfold convexHull
  split
  · next h => subst h; rfl
  · rfl

/-- C74 fails for points close together: the hull of three corners of a triangle is reported to be a single point, although
the other corners are outside. -/
theorem C74_close_violation : ∃ p : List (V2 ℚ), convexHullInPlace p = some [⟨0, 0⟩] ∧ ∃ q ∈ p, q ∉ hull2 [(⟨0, 0⟩ : V2 ℚ)] := by
  refine ⟨[⟨0, 0⟩, ⟨1 / 2000, 0⟩, ⟨0, 1 / 2000⟩], by decide +kernel, ⟨1 / 2000, 0⟩, by simp, ?_⟩
  intro h
  have := h {w | w.x = 0} (by
    intro p hp q hq s t _ _ _
    have hp' : p.x = 0 := hp
    have hq' : q.x = 0 := hq
    show s * p.x + t * q.x = 0
    rw [hp', hq']; simp) (by simp)
  have e : (1 / 2000 : ℚ) = 0 := this
  norm_num at e

end MGL.Hull2D
