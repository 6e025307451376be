import Verif.Props.Hull2D

/-! C75: point containment in a planar convex hull. -/

set_option linter.unusedSectionVars false

namespace MGL.Hull2D
open Spec

variable {α : Type*} [Field α] [LinearOrder α] [IsStrictOrderedRing α]

theorem containsFrom_iff (ok : α → Bool) (q : V2 α) : ∀ (l : List (V2 α)) (z : V2 α),
    containsFrom ok q z l = true ↔ ∀ e ∈ (z :: l).zip l, ok (area2 e.1 e.2 q) = true := by
  intro l
  induction l with
  | nil => intro z; simp [containsFrom]
  | cons v vs ih =>
    intro z
    rw [containsFrom, List.zip_cons_cons, List.forall_mem_cons, perp_eq]
    split
    · next h => rw [ih v]; simp [h]
    · next h => simp [h]

theorem half_convex (a b : V2 α) : Convex2 {w : V2 α | 0 ≤ area2 a b w} := by
  intro p hp q hq s t hs ht hst
  have e : t = 1 - s := by linear_combination hst
  have e1 : area2 a b (⟨s * p.x + t * q.x, s * p.y + t * q.y⟩ : V2 α) = s * area2 a b p + t * area2 a b q := by
    unfold area2; rw [e]; ring
  have hp' : 0 ≤ area2 a b p := hp
  have hq' : 0 ≤ area2 a b q := hq
  show 0 ≤ area2 a b _
  rw [e1]; positivity

theorem area_self (a q : V2 α) : area2 a a q = 0 := by unfold area2; ring
theorem area_right (a b : V2 α) : area2 a b b = 0 := by unfold area2; ring
theorem area_left (a b : V2 α) : area2 a b a = 0 := by unfold area2; ring

/-- Edges inside the list, away from the closing one. -/
theorem consecutive_left {l : List (V2 α)} (h : StrictCCW l) {e : V2 α × V2 α} (he : e ∈ l.zip l.tail) : ∀ w ∈ l, 0 ≤ area2 e.1 e.2 w := by
  obtain ⟨i, hi, hie⟩ := List.getElem_of_mem he
  rw [List.length_zip, List.length_tail] at hi
  have hi1 : i < l.length := by omega
  have hi2 : i + 1 < l.length := by omega
  have e1 : e.1 = l[i] := by rw [← hie]; simp
  have e2 : e.2 = l[i + 1] := by rw [← hie]; simp
  have T := List.triplewise_iff_getElem.1 h.2
  intro w hw
  obtain ⟨j, hj, rfl⟩ := List.getElem_of_mem hw
  rw [e1, e2]
  rcases Nat.lt_trichotomy j i with h1 | h1 | h1
  · have := T j i (i + 1) h1 (by omega) hi2
    rw [area2_cycle] at this; exact this.le
  · subst h1; rw [area_left]
  · rcases Nat.lt_or_ge (i + 1) j with h2 | h2
    · exact (T i (i + 1) j (by omega) h2 hj).le
    · have : j = i + 1 := by omega
      subst this; rw [area_right]

theorem closing_left {l : List (V2 α)} (h : StrictCCW l) {a z : V2 α} (ha : l.head? = some a) (hz : l.getLast? = some z) :
    ∀ w ∈ l, 0 ≤ area2 z a w := by
  have T := List.triplewise_iff_getElem.1 h.2
  intro w hw
  obtain ⟨j, hj, rfl⟩ := List.getElem_of_mem hw
  have ea : a = l[0] := by
    rw [List.head?_eq_getElem?, List.getElem?_eq_getElem (by omega)] at ha; exact (Option.some.inj ha).symm
  have ez : z = l[l.length - 1] := by
    rw [List.getLast?_eq_getElem?, List.getElem?_eq_getElem (by omega)] at hz; exact (Option.some.inj hz).symm
  rcases Nat.eq_zero_or_pos j with h0 | h0
  · subst h0; rw [ea, area_right]
  · rcases Nat.lt_or_ge j (l.length - 1) with h1 | h1
    · have := T 0 j (l.length - 1) h0 h1 (by omega)
      rw [area2_cycle, area2_cycle] at this
      rw [ea, ez]; exact this.le
    · have : j = l.length - 1 := by omega
      subst this; rw [ez, area_left]

theorem edges2_mem {l : List (V2 α)} {e : V2 α × V2 α} (he : e ∈ edges2 l) :
    (l.head? = some e.2 ∧ l.getLast? = some e.1) ∨ e ∈ l.zip l.tail := by
  unfold edges2 at he
  split at he
  · cases he
  · next z hz =>
    cases l with
    | nil => cases he
    | cons a r =>
      rw [List.zip_cons_cons, List.mem_cons] at he
      rcases he with rfl | he
      · left; exact ⟨rfl, hz⟩
      · right; exact he

/-- All points of the hull are to the left of all edges. -/
theorem hull_left {l : List (V2 α)} (h : StrictCCW l) {q : V2 α} (hq : q ∈ hull2 l) {e : V2 α × V2 α} (he : e ∈ edges2 l) :
    0 ≤ area2 e.1 e.2 q := by
  refine hq _ (half_convex e.1 e.2) fun w hw => ?_
  rcases edges2_mem he with ⟨h1, h2⟩ | h1
  · exact closing_left h h1 h2 w hw
  · exact consecutive_left h h1 w hw

theorem tri_mem {K : Set (V2 α)} (hK : Convex2 K) {a b c q : V2 α} (ha : a ∈ K) (hb : b ∈ K) (hc : c ∈ K) (h : 0 < area2 a b c)
    (h1 : 0 ≤ area2 a b q) (h2 : 0 ≤ area2 b c q) (h3 : 0 ≤ area2 c a q) : q ∈ K := by
  have hsum : area2 a b q + area2 b c q + area2 c a q = area2 a b c := by unfold area2; ring
  have ex : area2 a b c * q.x = area2 b c q * a.x + area2 c a q * b.x + area2 a b q * c.x := by unfold area2; ring
  have ey : area2 a b c * q.y = area2 b c q * a.y + area2 c a q * b.y + area2 a b q * c.y := by unfold area2; ring
  generalize area2 a b c = A at *
  generalize area2 a b q = C at *
  generalize area2 b c q = U at *
  generalize area2 c a q = B at *
  rcases (add_nonneg h2 h3).lt_or_eq with hs | hs
  · have hm := hK a ha b hb (U / (U + B)) (B / (U + B)) (div_nonneg h2 hs.le) (div_nonneg h3 hs.le) (by field_simp)
    have := hK _ hm c hc ((U + B) / A) (C / A) (div_nonneg hs.le h.le) (div_nonneg h1 h.le) (by field_simp; linear_combination hsum)
    convert this using 1
    apply V2.ext
    · simp only []; field_simp; linear_combination ex
    · simp only []; field_simp; linear_combination ey
  · have u0 : U = 0 := by linarith
    have b0 : B = 0 := by linarith
    have cA : C = A := by linarith
    have : q = c := by
      apply V2.ext
      · have : A * (q.x - c.x) = 0 := by rw [mul_sub, ex, u0, b0, cA]; ring
        exact sub_eq_zero.1 ((mul_eq_zero.1 this).resolve_left h.ne')
      · have : A * (q.y - c.y) = 0 := by rw [mul_sub, ey, u0, b0, cA]; ring
        exact sub_eq_zero.1 ((mul_eq_zero.1 this).resolve_left h.ne')
    rw [this]; exact hc

/-- The triangles of the fan around the first vertex cover the polygon. -/
theorem fan_mem {K : Set (V2 α)} (hK : Convex2 K) {v0 q z : V2 α} (h0 : v0 ∈ K) : ∀ (r : List (V2 α)) (v1 v2 : V2 α),
    (∀ w ∈ v1 :: v2 :: r, w ∈ K) → (v1 :: v2 :: r).Pairwise (fun a b => 0 < area2 v0 a b) → 0 ≤ area2 v0 v1 q →
    (v2 :: r).getLast? = some z → area2 v0 z q ≤ 0 → (∀ e ∈ (v1 :: v2 :: r).zip (v2 :: r), 0 ≤ area2 e.1 e.2 q) → q ∈ K := by
  intro r
  induction r with
  | nil =>
    intro v1 v2 hm hp h1 hz hzq he
    have : v2 = z := by simpa using hz
    subst this
    refine tri_mem hK h0 (hm v1 (by simp)) (hm v2 (by simp)) ((List.pairwise_cons.1 hp).1 v2 (by simp)) h1 (he (v1, v2) (by simp)) ?_
    unfold area2 at hzq ⊢; linarith
  | cons v3 r ih =>
    intro v1 v2 hm hp h1 hz hzq he
    by_cases h2 : area2 v0 v2 q ≤ 0
    · refine tri_mem hK h0 (hm v1 (by simp)) (hm v2 (by simp)) ((List.pairwise_cons.1 hp).1 v2 (by simp)) h1 (he (v1, v2) (by simp)) ?_
      unfold area2 at h2 ⊢; linarith
    · refine ih v2 v3 (fun w hw => hm w (List.mem_cons_of_mem _ hw)) (List.pairwise_cons.1 hp).2 (not_le.1 h2).le
        (by rwa [List.getLast?_cons_cons] at hz) hzq fun e he' => he e (by rw [List.zip_cons_cons]; exact List.mem_cons_of_mem _ he')

/-- A point to the left of all edges is in the hull. -/
theorem left_hull' {l : List (V2 α)} (h : l.Triplewise fun a b c => 0 < area2 a b c) (hl : 3 ≤ l.length) {q : V2 α}
    (hq : ∀ e ∈ edges2 l, 0 ≤ area2 e.1 e.2 q) : q ∈ hull2 l := by
  match l, hl with
  | v0 :: v1 :: v2 :: r, _ =>
    obtain ⟨z, hz⟩ : ∃ z, (v2 :: r).getLast? = some z := ⟨(v2 :: r).getLast (by simp), List.getLast?_eq_getLast_of_ne_nil (by simp)⟩
    have hz' : (v0 :: v1 :: v2 :: r).getLast? = some z := by rw [List.getLast?_cons_cons, List.getLast?_cons_cons, hz]
    have hE : edges2 (v0 :: v1 :: v2 :: r) = (z, v0) :: (v0, v1) :: (v1 :: v2 :: r).zip (v2 :: r) := by
      unfold edges2; rw [hz']; rfl
    rw [hE] at hq
    intro K hK hm
    refine fan_mem hK (z := z) (hm v0 (by simp)) r v1 v2 (fun w hw => hm w (List.mem_cons_of_mem _ hw)) (List.triplewise_cons.1 h).1
      (hq (v0, v1) (by simp)) hz ?_ fun e he => hq e (List.mem_cons_of_mem _ (List.mem_cons_of_mem _ he))
    have := hq (z, v0) (by simp)
    unfold area2 at this ⊢
    linarith

theorem left_hull {l : List (V2 α)} (h : StrictCCW l) (hl : 3 ≤ l.length) {q : V2 α} (hq : ∀ e ∈ edges2 l, 0 ≤ area2 e.1 e.2 q) : q ∈ hull2 l :=
  left_hull' h.2 hl hq

/-- C75: for a counter-clockwise, strictly convex polygon with at least three vertices, `ConvexHullContains` is true for all
points of the polygon, and for other points only if the triangle over an edge has less than half of 1/100000 as its area.
For points not that close to the line of an edge it is exact. -/
theorem C75_contains (hull : List (V2 α)) (h : StrictCCW hull) (hl : 3 ≤ hull.length) (q : V2 α) :
    (q ∈ hull2 hull → convexHullContains hull q = true) ∧
    (convexHullContains hull q = true → q ∈ hull2 hull ∨ ∃ e ∈ edges2 hull, -(1 / 100000) < area2 e.1 e.2 q ∧ area2 e.1 e.2 q < 0) ∧
    ((∀ e ∈ edges2 hull, area2 e.1 e.2 q < 0 → area2 e.1 e.2 q ≤ -(1 / 100000)) → (convexHullContains hull q = true ↔ q ∈ hull2 hull)) := by
  obtain ⟨z, hz⟩ : ∃ z, hull.getLast? = some z := by
    cases hull with
    | nil => simp at hl
    | cons a r => exact ⟨_, List.getLast?_eq_getLast_of_ne_nil (by simp)⟩
  have key : convexHullContains hull q = true ↔ ∀ e ∈ edges2 hull, -(1 / 100000) < area2 e.1 e.2 q := by
    unfold convexHullContains edges2
    rw [hz]
    dsimp only
    rw [containsFrom_iff]
    simp
  have k1 : q ∈ hull2 hull → convexHullContains hull q = true := by
    intro hq
    rw [key]
    intro e he
    have := hull_left h hq he
    exact lt_of_lt_of_le (by norm_num) this
  have k2 : convexHullContains hull q = true → q ∈ hull2 hull ∨ ∃ e ∈ edges2 hull, -(1 / 100000) < area2 e.1 e.2 q ∧ area2 e.1 e.2 q < 0 := by
    intro hc
    rw [key] at hc
    by_cases hx : ∀ e ∈ edges2 hull, 0 ≤ area2 e.1 e.2 q
    · exact Or.inl (left_hull h hl hx)
    · push Not at hx
      obtain ⟨e, he, hn⟩ := hx
      exact Or.inr ⟨e, he, hc e he, hn⟩
  refine ⟨k1, k2, fun hs => ⟨fun hc => ?_, k1⟩⟩
  rcases k2 hc with h | ⟨e, he, h1, h2⟩
  · exact h
  · exact absurd (hs e he h2) (not_le.2 h1)

/-- C75: the template version, which the three-dimensional convex hull code uses, with 1/1000000. -/
theorem C75_containsT (hull : List (V2 α)) (h : StrictCCW hull) (hl : 3 ≤ hull.length) (q : V2 α) :
    (q ∈ hull2 hull → convexHullContainsT hull q = true) ∧
    (convexHullContainsT hull q = true → q ∈ hull2 hull ∨ ∃ e ∈ edges2 hull, -(1 / 1000000) ≤ area2 e.1 e.2 q ∧ area2 e.1 e.2 q < 0) ∧
    ((∀ e ∈ edges2 hull, area2 e.1 e.2 q < 0 → area2 e.1 e.2 q < -(1 / 1000000)) → (convexHullContainsT hull q = true ↔ q ∈ hull2 hull)) := by
  obtain ⟨z, hz⟩ : ∃ z, hull.getLast? = some z := by
    cases hull with
    | nil => simp at hl
    | cons a r => exact ⟨_, List.getLast?_eq_getLast_of_ne_nil (by simp)⟩
  have key : convexHullContainsT hull q = true ↔ ∀ e ∈ edges2 hull, -(1 / 1000000) ≤ area2 e.1 e.2 q := by
    unfold convexHullContainsT edges2
    rw [if_neg (by omega), hz]
    dsimp only
    rw [containsFrom_iff]
    simp
  have k1 : q ∈ hull2 hull → convexHullContainsT hull q = true := by
    intro hq
    rw [key]
    intro e he
    have := hull_left h hq he
    exact le_trans (by norm_num) this
  have k2 : convexHullContainsT hull q = true → q ∈ hull2 hull ∨ ∃ e ∈ edges2 hull, -(1 / 1000000) ≤ area2 e.1 e.2 q ∧ area2 e.1 e.2 q < 0 := by
    intro hc
    rw [key] at hc
    by_cases hx : ∀ e ∈ edges2 hull, 0 ≤ area2 e.1 e.2 q
    · exact Or.inl (left_hull h hl hx)
    · push Not at hx
      obtain ⟨e, he, hn⟩ := hx
      exact Or.inr ⟨e, he, hc e he, hn⟩
  refine ⟨k1, k2, fun hs => ⟨fun hc => ?_, k1⟩⟩
  rcases k2 hc with h | ⟨e, he, h1, h2⟩
  · exact h
  · exact absurd h1 (not_le.2 (hs e he h2))

/-- A square. -/
def exSquare : List (V2 ℚ) := [⟨0, 0⟩, ⟨2, 0⟩, ⟨2, 2⟩, ⟨0, 2⟩]

theorem exSquare_ccw : StrictCCW exSquare := by
  refine ⟨by decide +kernel, ?_⟩
  simp only [exSquare, List.triplewise_cons, List.pairwise_cons, List.forall_mem_cons]
  norm_num [area2]

example := C75_contains exSquare exSquare_ccw (by simp [exSquare]) ⟨1, 1⟩
example := C75_containsT exSquare exSquare_ccw (by simp [exSquare]) ⟨1, 1⟩
example : convexHullContains exSquare ⟨1, 1⟩ = true ∧ convexHullContains exSquare ⟨3, 1⟩ = false := by decide +kernel

/-- C75: together with C74: after `ConvexHullInPlace` gives at least three points, `ConvexHullContains` is true for every
point of the input when different points are more than 1/1000 apart. -/
theorem C75_contains_input (p : List (V2 α)) (hsep : ∀ a ∈ p, ∀ b ∈ p, a ≠ b → (1 / 1000) ^ 2 < distSq2 a b) :
    ∃ out, convexHullInPlace p = some out ∧ (3 ≤ out.length → ∀ q ∈ p, convexHullContains out q = true) := by
  obtain ⟨out, h1, h2, h3, h4⟩ := C74_exact p hsep
  refine ⟨out, h1, fun hl q hq => (C75_contains out h2 hl q).1 ?_⟩
  rw [h4]; exact mem_hull2 hq

example := C75_contains_input exPts (by simp only [exPts, List.forall_mem_cons]; norm_num [distSq2])

/-- C75 fails for hulls with fewer than three points: the hull of a single point (and of none) contains every point, and the
hull of two points contains the whole line through them. The template version contains nothing then, not even the points
themselves. -/
theorem C75_degenerate_violation :
    (∀ a q : V2 α, convexHullContains [a] q = true ∧ convexHullContains [] q = true ∧ convexHullContainsT [a] a = false) ∧
    (∀ (a b : V2 α) (t : α), convexHullContains [a, b] ⟨a.x + t * (b.x - a.x), a.y + t * (b.y - a.y)⟩ = true ∧ convexHullContainsT [a, b] a = false) ∧
    (∃ a q : V2 α, q ∉ hull2 [a] ∧ convexHullInPlace [a] = some [a]) := by
  refine ⟨fun a q => ⟨?_, rfl, rfl⟩, fun a b t => ⟨?_, rfl⟩, ⟨0, 0⟩, ⟨1, 0⟩, ?_, rfl⟩
  · simp [convexHullContains, containsFrom, perpDot2D]
  · have e1 : perpDot2D b a ⟨a.x + t * (b.x - a.x), a.y + t * (b.y - a.y)⟩ = 0 := by unfold perpDot2D; ring
    have e2 : perpDot2D a b ⟨a.x + t * (b.x - a.x), a.y + t * (b.y - a.y)⟩ = 0 := by unfold perpDot2D; ring
    simp [convexHullContains, containsFrom, e1, e2]
  · intro h
    have := h {w | w.x = 0} (by
      intro p hp q hq s t _ _ _
      have hp' : p.x = 0 := hp
      have hq' : q.x = 0 := hq
      show s * p.x + t * q.x = 0
      rw [hp', hq']; simp) (by simp)
    have e : (1 : α) = 0 := this
    exact one_ne_zero e

end MGL.Hull2D
