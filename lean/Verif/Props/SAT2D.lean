import Verif.Proofs.SAT2D

/-! C105: the separating axis test for convex polygons of the plane. -/

set_option linter.unusedSectionVars false

namespace MGL.SAT2D
open Spec V2 Hull2D Polygon

theorem cons_of_length {a : List (V2 ℝ)} (la : 3 ≤ a.length) : ∃ a0 as z, a = a0 :: as ∧ a.getLast? = some z ∧ edges2 a = walk z a := by
  cases a with
  | nil => simp at la
  | cons a0 as =>
    have hz : (a0 :: as).getLast? = some ((a0 :: as).getLast (by simp)) := List.getLast?_eq_some_getLast (by simp)
    exact ⟨a0, as, _, rfl, hz, edges2_eq_walk hz⟩

theorem separated_disjoint {a b : List (V2 ℝ)} (ha : StrictCCW a) {e : V2 ℝ × V2 ℝ} (he : e ∈ edges2 a) (h : ∀ q ∈ b, area2 e.1 e.2 q < 0) :
    ¬ (hull2 a ∩ hull2 b).Nonempty := by
  rintro ⟨x, hx, hy⟩
  have h1 := hull_left ha hx he
  cases b with
  | nil => exact hy ∅ (fun _ h => absurd h (by simp)) (by simp)
  | cons b0 bs =>
    obtain ⟨m, hm, hmax⟩ := exists_max (fun v => area2 e.1 e.2 v) (l := b0 :: bs) (by simp)
    have h2 := hull_le (c := area2 e.1 e.2 m) hmax hy
    have := h m hm
    linarith

/-- C105: for convex polygons with at least three vertices listed counter-clockwise (every three of them making a left turn) no assertion of
the test fails, and it answers that the polygons collide exactly when they have a common point, inside or on the boundary. -/
theorem C105_collide_partial {a b : List (V2 ℝ)} (ha : StrictCCW a) (hb : StrictCCW b) (la : 3 ≤ a.length) (lb : 3 ≤ b.length) :
    ∃ r, collide a b = some r ∧ (r = true ↔ (hull2 a ∩ hull2 b).Nonempty) := by
  obtain ⟨a0, as, za, ea, hza, wa⟩ := cons_of_length la
  obtain ⟨b0, bs, zb, eb, hzb, wb⟩ := cons_of_length lb
  have w1 := winding ha la
  have w2 := winding hb lb
  have s1 := separated_iff b0 bs a za
  have s2 := separated_iff a0 as b zb
  have key : collide a b = some (!(separated b0 bs za a) && !(separated a0 as zb b)) := by
    unfold collide
    rw [hza, hzb, w1, w2]
    subst ea eb
    dsimp only
    cases separated b0 bs za (a0 :: as) <;> cases separated a0 as zb (b0 :: bs) <;> rfl
  rw [← wa, ← eb] at s1
  rw [← wb, ← ea] at s2
  refine ⟨_, key, ?_⟩
  constructor
  · intro h
    rw [Bool.and_eq_true, Bool.not_eq_true', Bool.not_eq_true'] at h
    obtain ⟨h1, h2⟩ := h
    refine sat_core ha hb la lb (fun e he => ?_) (fun e he => ?_)
    · by_contra hc
      push Not at hc
      rw [s1.2 ⟨e, he, hc⟩] at h1; cases h1
    · by_contra hc
      push Not at hc
      rw [s2.2 ⟨e, he, hc⟩] at h2; cases h2
  · intro h
    rw [Bool.and_eq_true, Bool.not_eq_true', Bool.not_eq_true']
    constructor
    · by_contra hc
      rw [Bool.not_eq_false] at hc
      obtain ⟨e, he, hq⟩ := s1.1 hc
      exact separated_disjoint ha he hq h
    · by_contra hc
      rw [Bool.not_eq_false] at hc
      obtain ⟨e, he, hq⟩ := s2.1 hc
      rw [Set.inter_comm] at h
      exact separated_disjoint hb he hq h

/-- A triangle and a square that touch in one point. -/
def triA : List (V2 ℝ) := [⟨0, 0⟩, ⟨2, 0⟩, ⟨0, 2⟩]
def sqB : List (V2 ℝ) := [⟨1, 1⟩, ⟨3, 1⟩, ⟨3, 3⟩, ⟨1, 3⟩]

theorem triA_ccw : StrictCCW triA := by
  refine ⟨by simp [triA, V2.ext_iff], ?_⟩
  simp [triA, List.triplewise_cons, area2]

theorem sqB_ccw : StrictCCW sqB := by
  refine ⟨by simp [sqB, V2.ext_iff], ?_⟩
  simp [sqB, List.triplewise_cons, area2]; norm_num

/-- The hypotheses are met, with a point in common. -/
example : StrictCCW triA ∧ StrictCCW sqB ∧ 3 ≤ triA.length ∧ 3 ≤ sqB.length ∧ collide triA sqB = some true := by
  refine ⟨triA_ccw, sqB_ccw, by simp [triA], by simp [sqB], ?_⟩
  obtain ⟨r, h1, h2⟩ := C105_collide_partial triA_ccw sqB_ccw (by simp [triA]) (by simp [sqB])
  have : r = true := h2.2 ⟨⟨1, 1⟩, fun K hK hm => by
    have := hK ⟨2, 0⟩ (hm _ (by simp [triA])) ⟨0, 2⟩ (hm _ (by simp [triA])) (1 / 2) (1 / 2) (by norm_num) (by norm_num) (by norm_num)
    convert this using 1
    ext <;> norm_num, Hull2D.mem_hull2 (by simp [sqB])⟩
  rw [h1, this]

/-- C105: the assertion on the winding order has an absolute tolerance, so it does not catch a small polygon listed clockwise: a triangle that
lies inside another one is then reported not to collide with it. -/
theorem C105_winding_violation : ∃ a b : List (V2 ℝ), 3 ≤ a.length ∧ StrictCCW b ∧ StrictCCW a.reverse ∧ (∀ q ∈ b, q ∈ hull2 a) ∧
    hasCcwWindingOrder a = some true ∧ collide a b = some false := by
  refine ⟨[⟨0, 0⟩, ⟨0, 1 / 20⟩, ⟨1 / 20, 0⟩], [⟨1 / 100, 1 / 100⟩, ⟨3 / 100, 1 / 100⟩, ⟨1 / 100, 3 / 100⟩], by simp, ?_, ?_, ?_, ?_, ?_⟩
  · refine ⟨by simp [V2.ext_iff]; norm_num, ?_⟩
    simp [List.triplewise_cons, area2]; norm_num
  · refine ⟨by simp [V2.ext_iff], ?_⟩
    simp [List.triplewise_cons, area2]
  · have key : ∀ s t : ℝ, 0 ≤ s → 0 ≤ t → s + t ≤ 1 → s + t ≠ 0 → (⟨s / 20, t / 20⟩ : V2 ℝ) ∈ hull2 [⟨0, 0⟩, ⟨0, 1 / 20⟩, ⟨1 / 20, 0⟩] := by
      intro s t hs ht hst h0 K hK hm
      have hp : 0 < s + t := lt_of_le_of_ne (by linarith) (Ne.symm h0)
      have h1 := hK ⟨1 / 20, 0⟩ (hm _ (by simp)) ⟨0, 1 / 20⟩ (hm _ (by simp)) (s / (s + t)) (t / (s + t)) (by positivity) (by positivity) (by field_simp)
      have h2 := hK _ h1 ⟨0, 0⟩ (hm _ (by simp)) (s + t) (1 - (s + t)) hp.le (by linarith) (by ring)
      convert h2 using 1
      ext
      · simp only; field_simp; ring
      · simp only; field_simp; ring
    intro q hq
    simp only [List.mem_cons, List.not_mem_nil, or_false] at hq
    rcases hq with rfl | rfl | rfl
    · convert key (1 / 5) (1 / 5) (by norm_num) (by norm_num) (by norm_num) (by norm_num) using 1; ext <;> norm_num
    · convert key (3 / 5) (1 / 5) (by norm_num) (by norm_num) (by norm_num) (by norm_num) using 1; ext <;> norm_num
    · convert key (1 / 5) (3 / 5) (by norm_num) (by norm_num) (by norm_num) (by norm_num) using 1; ext <;> norm_num
  · norm_num [hasCcwWindingOrder, ccwFrom, perpDot2D]
  · norm_num [collide, hasCcwWindingOrder, ccwFrom, perpDot2D, separated, minPerp, perpDot, min2]

/-- C105: for segments given as polygons with two vertices the assertions hold, but two segments on one line that have no common point are
reported to collide. -/
theorem C105_segment_violation : ∃ a b : List (V2 ℝ), a.length = 2 ∧ b.length = 2 ∧ Disjoint (hull2 a) (hull2 b) ∧ collide a b = some true := by
  refine ⟨[⟨0, 0⟩, ⟨1, 0⟩], [⟨2, 0⟩, ⟨3, 0⟩], rfl, rfl, ?_, ?_⟩
  · rw [Set.disjoint_left]
    intro q h1 h2
    have c1 : Convex2 {w : V2 ℝ | w.x ≤ 1} := by
      intro p hp q hq s t hs ht hst
      simp only [Set.mem_ofPred_eq] at *
      nlinarith
    have c2 : Convex2 {w : V2 ℝ | 2 ≤ w.x} := by
      intro p hp q hq s t hs ht hst
      simp only [Set.mem_ofPred_eq] at *
      nlinarith
    have l1 : q.x ≤ 1 := h1 _ c1 (by simp)
    have l2 : 2 ≤ q.x := h2 _ c2 (by simp; norm_num)
    linarith
  · norm_num [collide, hasCcwWindingOrder, ccwFrom, perpDot2D, separated, minPerp, perpDot, min2]

/-- What the function that also computes a collision point says: with a positive result the polygons are at least that far apart; otherwise they
have a common point, the result is minus the penetration depth, and the stored values are a unit vector along which the first polygon leaves the
second one when it is moved by that depth, and the vertex of one polygon that is deepest inside the other along this direction. No shorter move,
in any direction, separates them. -/
def Answer (a b : List (V2 ℝ)) : ℝ ⊕ Best → Prop
  | .inl d => 0 < d ∧ ∀ x ∈ hull2 a, ∀ y ∈ hull2 b, d * d ≤ distSq2 x y
  | .inr r => r.dist ≤ 0 ∧ (hull2 a ∩ hull2 b).Nonempty ∧ lenSq r.normal = 1 ∧
      (∀ x ∈ hull2 a, ∀ y ∈ hull2 b, dot r.normal y ≤ dot r.normal (x + (-r.dist) • r.normal)) ∧
      (∀ t, lenSq t < r.dist * r.dist → ∃ x ∈ hull2 a, x + t ∈ hull2 b) ∧
      ((r.point ∈ b ∧ ∃ x ∈ a, dot r.normal r.point = dot r.normal x - r.dist) ∨
        (r.point ∈ a ∧ ∃ y ∈ b, dot r.normal y = dot r.normal r.point - r.dist))

theorem apart {a b : List (V2 ℝ)} (ha : StrictCCW a) {e : V2 ℝ × V2 ℝ} (he : e ∈ edges2 a) (hL : Long e) {d : ℝ} (hd : 0 < d)
    (h : ∀ q ∈ b, d * elen e ≤ -area2 e.1 e.2 q) : ∀ x ∈ hull2 a, ∀ y ∈ hull2 b, d * d ≤ distSq2 x y := by
  intro x hx y hy
  have h1 := hull_left ha hx he
  have h2 := hull_le (c := -(d * elen e)) (fun w hw => by linarith [h w hw]) hy
  have h3 := edge_cross e d hd.le (x - y) (by
    simp only [area2] at h1 h2
    simp only [sub_x, sub_y]; nlinarith)
  have h4 := le_of_mul_le_mul_right h3 (lt_trans (by norm_num) hL)
  simp only [lenSq, dot, sub_x, sub_y] at h4
  simp only [distSq2]; nlinarith

theorem sum_x (n x : V2 ℝ) (d : ℝ) (hn : lenSq n = 1) : dot n (x + (-d) • n) = dot n x - d := by
  simp only [lenSq, dot] at hn
  simp only [dot, add_x, add_y, smul_x, smul_y]
  linear_combination -d * hn

/-- C105: for convex polygons as above whose edges are longer than a thousandth, the signed distance, the contact normal and the contact point of
the second function are right: see `Answer`. -/
theorem C105_penetration_partial {a b : List (V2 ℝ)} (ha : StrictCCW a) (hb : StrictCCW b) (la : 3 ≤ a.length) (lb : 3 ≤ b.length)
    (ea : ∀ e ∈ edges2 a, (1 / 1000) ^ 2 < distSq2 e.1 e.2) (eb : ∀ e ∈ edges2 b, (1 / 1000) ^ 2 < distSq2 e.1 e.2) :
    ∃ r, collisionPoint a b = some r ∧ Answer a b r := by
  obtain ⟨a0, as, za, qa, hza, wa⟩ := cons_of_length la
  obtain ⟨b0, bs, zb, qb, hzb, wb⟩ := cons_of_length lb
  have w1 := winding ha la
  have w2 := winding hb lb
  have ea' : ∀ e ∈ edges2 a, Long e := ea
  have eb' : ∀ e ∈ edges2 b, Long e := eb
  obtain ⟨p1, p2⟩ := penetrate_spec 1 b0 bs a za none (by rw [← wa]; exact ea)
  have unf : collisionPoint a b = match penetrate 1 b0 bs none za a with
    | .inl d => some (.inl d)
    | .inr best =>
      match penetrate (-1) a0 as best zb b with
      | .inl d => some (.inl d)
      | .inr (some best) => some (.inr best)
      | .inr none => none := by
    unfold collisionPoint
    rw [hza, hzb, w1, w2]
    subst qa qb
    rfl
  rw [← wa, ← qb] at p1 p2
  rw [unf]
  cases hr : penetrate 1 b0 bs none za a with
  | inl d =>
    obtain ⟨d0, e, he, hq⟩ := p1 d hr
    exact ⟨_, rfl, d0, apart ha he (ea' e he) d0 hq⟩
  | inr best =>
    obtain ⟨j1, j2⟩ := p2 best hr
    obtain ⟨q1, q2⟩ := penetrate_spec (-1) a0 as b zb best (by rw [← wb]; exact eb)
    rw [← wb, ← qa] at q1 q2
    dsimp only
    cases hr2 : penetrate (-1) a0 as best zb b with
    | inl d =>
      obtain ⟨d0, e, he, hq⟩ := q1 d hr2
      refine ⟨_, rfl, d0, fun x hx y hy => ?_⟩
      have := apart hb he (eb' e he) d0 hq y hy x hx
      simp only [distSq2] at this ⊢
      nlinarith
    | inr best2 =>
      obtain ⟨k1, k2⟩ := q2 best2 hr2
      cases best2 with
      | none =>
        have := (k1 rfl).1
        rw [qb] at this; cases this
      | some r =>
        refine ⟨_, rfl, ?_⟩
        obtain ⟨m1, m2, m3⟩ := k2 r rfl
        cases best with
        | none =>
          have := (j1 rfl).1
          rw [qa] at this; cases this
        | some old =>
        obtain ⟨_, n2, n3⟩ := j2 old rfl
        have hold := m1 old rfl
        have n2' : ∀ e ∈ edges2 a, ∃ q ∈ b, -area2 e.1 e.2 q ≤ r.dist * elen e := by
          intro e he
          obtain ⟨q, hq, h⟩ := n2 e he
          exact ⟨q, hq, h.trans (mul_le_mul_of_nonneg_right hold (elen_pos (ea' e he)).le)⟩
        have n3' : ∃ e ∈ edges2 a, FromEdge 1 b e old := by
          rcases n3 with h | h
          · cases h
          · exact h
        have hfrom : (∃ e ∈ edges2 a, FromEdge 1 b e r) ∨ ∃ e ∈ edges2 b, FromEdge (-1) a e r := by
          rcases m3 with h | h
          · cases h; left; exact n3'
          · right; exact h
        have hd : r.dist ≤ 0 := by rcases hfrom with ⟨e, _, h⟩ | ⟨e, _, h⟩ <;> exact h.1
        have hn : lenSq r.normal = 1 := by
          rcases hfrom with ⟨e, he, h⟩ | ⟨e, he, h⟩
          · rw [h.2.2.2.2]; exact unit_perp (ea' e he) (by norm_num)
          · rw [h.2.2.2.2]; exact unit_perp (eb' e he) (by norm_num)
        refine ⟨hd, ?_, hn, ?_, ?_, ?_⟩
        · refine sat_core ha hb la lb (fun e he => ?_) fun e he => ?_
          · obtain ⟨q, hq, h⟩ := n2' e he
            refine ⟨q, hq, ?_⟩
            have := mul_nonneg (neg_nonneg.2 hd) (elen_pos (ea' e he)).le
            linarith
          · obtain ⟨q, hq, h⟩ := m2 e he
            refine ⟨q, hq, ?_⟩
            have := mul_nonneg (neg_nonneg.2 hd) (elen_pos (eb' e he)).le
            linarith
        · intro x hx y hy
          rw [sum_x _ _ _ hn]
          rcases hfrom with ⟨e, he, _, h2, _, _, h4⟩ | ⟨e, he, _, h2, _, _, h4⟩
          · have L := ea' e he
            have h5 := hull_left ha hx he
            have h6 := hull_le (c := -(r.dist * elen e)) (fun w hw => by linarith [h2 w hw]) hy
            have h7 := dot_perp_area L 1 x
            have h8 := dot_perp_area L 1 y
            rw [← h4] at h7 h8
            have : (dot r.normal y - (dot r.normal x - r.dist)) * elen e ≤ 0 := by nlinarith
            have := nonpos_of_mul_nonpos_left this (elen_pos L)
            linarith
          · have L := eb' e he
            have h5 := hull_left hb hy he
            have h6 := hull_le (c := -(r.dist * elen e)) (fun w hw => by linarith [h2 w hw]) hx
            have h7 := dot_perp_area L (-1) x
            have h8 := dot_perp_area L (-1) y
            rw [← h4] at h7 h8
            have : (dot r.normal y - (dot r.normal x - r.dist)) * elen e ≤ 0 := by nlinarith
            have := nonpos_of_mul_nonpos_left this (elen_pos L)
            linarith
        · intro t ht
          have g1 : ∀ e ∈ edges2 (a.map (· + t)), ∃ q ∈ b, 0 ≤ area2 e.1 e.2 q := by
            intro e he
            rw [edges_map] at he
            obtain ⟨e, he', rfl⟩ := List.mem_map.1 he
            obtain ⟨q, hq, h⟩ := n2' e he'
            have := (move_small (ea' e he') hd ht).1
            refine ⟨q, hq, ?_⟩
            simp only [Prod.map, area2, add_x, add_y] at h ⊢
            nlinarith
          have g2 : ∀ e ∈ edges2 b, ∃ q ∈ a.map (· + t), 0 ≤ area2 e.1 e.2 q := by
            intro e he
            obtain ⟨q, hq, h⟩ := m2 e he
            have := (move_small (eb' e he) hd ht).2
            refine ⟨q + t, List.mem_map.2 ⟨q, hq, rfl⟩, ?_⟩
            simp only [area2, add_x, add_y] at h ⊢
            nlinarith
          obtain ⟨q, q1, q2⟩ := sat_core (strict_translate t ha) hb (by rw [List.length_map]; exact la) lb g1 g2
          refine ⟨q - t, hull_translate q1, ?_⟩
          have : q - t + t = q := by ext <;> simp
          rw [this]; exact q2
        · rcases hfrom with ⟨e, he, _, _, h2, h3, h4⟩ | ⟨e, he, _, _, h2, h3, h4⟩
          · left
            have L := ea' e he
            refine ⟨h2, e.2, (mem_of_edge he).2, ?_⟩
            have h8 := dot_perp_area L 1 r.point
            rw [← h4] at h8
            have : (dot r.normal r.point - (dot r.normal e.2 - r.dist)) * elen e = 0 := by linear_combination h8 + h3
            rcases mul_eq_zero.1 this with h | h
            · linarith
            · exact absurd h (elen_pos L).ne'
          · right
            have L := eb' e he
            refine ⟨h2, e.2, (mem_of_edge he).2, ?_⟩
            have h8 := dot_perp_area L (-1) r.point
            rw [← h4] at h8
            have : (dot r.normal e.2 - (dot r.normal r.point - r.dist)) * elen e = 0 := by linear_combination h3 - h8
            rcases mul_eq_zero.1 this with h | h
            · linarith
            · exact absurd h (elen_pos L).ne'

/-- The hypotheses are met. -/
example : StrictCCW triA ∧ StrictCCW sqB ∧ (∀ e ∈ edges2 triA, (1 / 1000) ^ 2 < distSq2 e.1 e.2) ∧ ∀ e ∈ edges2 sqB, (1 / 1000) ^ 2 < distSq2 e.1 e.2 := by
  refine ⟨triA_ccw, sqB_ccw, ?_, ?_⟩
  · norm_num [triA, edges2, distSq2]
  · norm_num [sqB, edges2, distSq2]

/-- C105: edges no longer than a thousandth all get the direction of the first axis: two small triangles a whole unit apart are reported to
penetrate by the second function, although the first one reports that they do not collide. -/
theorem C105_tiny_violation : ∃ a b : List (V2 ℝ), StrictCCW a ∧ StrictCCW b ∧ a.length = 3 ∧ b.length = 3 ∧
    (∀ x ∈ hull2 a, ∀ y ∈ hull2 b, x.x + 1 ≤ y.x) ∧ collide a b = some false ∧ ∃ r, collisionPoint a b = some (.inr r) ∧ r.dist ≤ 0 := by
  refine ⟨[⟨0, 0⟩, ⟨1 / 10000, 0⟩, ⟨0, 1 / 10000⟩], [⟨2, 0⟩, ⟨20001 / 10000, 0⟩, ⟨2, 1 / 10000⟩], ?_, ?_, rfl, rfl, ?_, ?_, ?_⟩
  · refine ⟨by simp [V2.ext_iff], ?_⟩
    simp [List.triplewise_cons, area2]
  · refine ⟨by simp [V2.ext_iff]; norm_num, ?_⟩
    simp [List.triplewise_cons, area2]; norm_num
  · intro x hx y hy
    have c1 : Convex2 {w : V2 ℝ | w.x ≤ 1} := by
      intro p hp q hq s t hs ht hst
      simp only [Set.mem_ofPred_eq] at *
      nlinarith
    have c2 : Convex2 {w : V2 ℝ | 2 ≤ w.x} := by
      intro p hp q hq s t hs ht hst
      simp only [Set.mem_ofPred_eq] at *
      nlinarith
    have l1 : x.x ≤ 1 := hx _ c1 (by simp; norm_num)
    have l2 : 2 ≤ y.x := hy _ c2 (by simp; norm_num)
    linarith
  · norm_num [collide, hasCcwWindingOrder, ccwFrom, perpDot2D, separated, minPerp, perpDot, min2]
  · norm_num [collisionPoint, hasCcwWindingOrder, ccwFrom, perpDot2D, penetrate, minPerpAt, perpDot, Float2.normalize]

end MGL.SAT2D
