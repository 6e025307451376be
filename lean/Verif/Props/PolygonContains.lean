import Verif.Proofs.Polygon
import Verif.Props.Line

/-! Property C85: point containment in polygons. -/

set_option linter.unusedSectionVars false

namespace MGL
open V3 Spec
namespace Polygon

theorem hasTriangle_iff {p : List (V3 ℝ)} (h : HasTriangle p) : ∃ a b c, [a, b, c].Sublist p ∧ 1 / 100000000 < lenSq (cross (b - a) (c - a)) := by
  obtain ⟨a, b, c, hs, hl⟩ := h
  refine ⟨a, b, c, hs, ?_⟩
  have := len_mul_self (cross (b - a) (c - a))
  nlinarith

/-- The basis of a planar polygon. -/
theorem planarBasis {p : List (V3 ℝ)} {n : V3 ℝ} {d : ℝ} (hn : dot n n = 1) (hp : ∀ x ∈ p, dot n x = d) (ht : HasTriangle p)
    (he : FirstEdge p) : ∃ m e, (m = n ∧ e = d ∨ m = -n ∧ e = -d) ∧ planeCCW p = some ⟨m, e⟩ ∧ LocalBasis p m ∧ 3 ≤ p.length := by
  obtain ⟨a, b, c, hs, hl, hpl⟩ := planeCCW_some (hasTriangle_iff ht)
  have hlen : 3 ≤ p.length := hs.length_le
  obtain ⟨o, q, r, rfl, he⟩ := he
  have hm : ∀ {x}, x ∈ [a, b, c] → dot n x = d := fun hx => hp _ (hs.subset hx)
  have hoq : dot n o = dot n q := by rw [hp o (by simp), hp q (by simp)]
  rcases triPlane_eq hn (hm (by simp)) (hm (by simp)) (hm (by simp)) (lt_trans (by norm_num) hl) with ⟨_, h2⟩ | ⟨_, h2⟩
  · rw [h2] at hpl
    exact ⟨n, d, Or.inl ⟨rfl, rfl⟩, hpl, localBasis hpl hn hoq he, hlen⟩
  · rw [h2] at hpl
    have e1 : dot (-n) (-n) = 1 := by rw [← hn]; simp only [dot, neg_x, neg_y, neg_z]; ring
    have e2 : dot (-n) o = dot (-n) q := by
      have : ∀ x, dot (-n) x = -dot n x := fun x => by simp only [dot, neg_x, neg_y, neg_z]; ring
      rw [this, this, hoq]
    exact ⟨-n, -d, Or.inr ⟨rfl, rfl⟩, hpl, localBasis hpl e1 e2 he, hlen⟩

/-- C85: whatever the shape of a planar polygon, a point that `Contains(point)` reports as contained is off the plane of the polygon
by no more than the thickness, and is otherwise within `2e-4` of the convex hull of the vertices. -/
theorem C85_contains_near (p : List (V3 ℝ)) (n : V3 ℝ) (d : ℝ) (hn : dot n n = 1) (hp : ∀ x ∈ p, dot n x = d) (ht : HasTriangle p)
    (he : FirstEdge p) (x : V3 ℝ) (th : ℝ) (h : contains p x th = true) :
    (dot n x - d) ^ 2 ≤ th ∧ ∃ y ∈ hull3 p, distSq x y ≤ (dot n x - d) ^ 2 + (2 / 10000) ^ 2 := by
  obtain ⟨m, e, hm, hpl, B, hlen⟩ := planarBasis hn hp ht he
  obtain ⟨o, q, r, rfl, -⟩ := he
  rw [contains_eq B hlen (o := o) rfl, Bool.and_eq_true, Bool.not_eq_true', decide_eq_false_iff_not] at h
  have hδ : ∀ y ∈ o :: q :: r, dot m (y - x) = dot m (o - x) := by
    intro y hy
    have h1 := hp y hy
    have h2 := hp o (by simp)
    rcases hm with ⟨rfl, -⟩ | ⟨rfl, -⟩
    · rw [dot_sub, dot_sub, h1, h2]
    · have : ∀ x, dot (-n) x = -dot n x := fun x => by simp only [dot, neg_x, neg_y, neg_z]; ring
      rw [this, this, dot_sub, dot_sub, h1, h2]
  have hsq : dot m (o - x) * dot m (o - x) = (dot n x - d) ^ 2 := by
    have h2 := hp o (by simp)
    rcases hm with ⟨rfl, -⟩ | ⟨rfl, -⟩
    · rw [dot_sub, h2]; ring
    · have : ∀ x, dot (-n) x = -dot n x := fun x => by simp only [dot, neg_x, neg_y, neg_z]; ring
      rw [this, dot_sub, h2]; ring
  refine ⟨by rw [← hsq]; exact not_lt.1 h.1, ?_⟩
  obtain ⟨y, hy, hy2⟩ := evenOdd_near_hull h.2
  refine ⟨_, hull_of_loc B x hδ hy, ?_⟩
  have F := B.frame
  set u := basisU (o :: q :: r)
  set v := basisV (o :: q :: r)
  have e1 : distSq x (x + (0 : ℝ) • u + y • v + dot m (o - x) • m) = y * y * dot v v + dot m (o - x) * dot m (o - x) * dot m m +
      2 * y * dot m (o - x) * dot v m := by
    generalize dot m (o - x) = k
    simp only [distSq, lenSq, dot, sub_x, sub_y, sub_z, add_x, add_y, add_z, smul_x, smul_y, smul_z]; ring
  show distSq x (x + (0 : ℝ) • u + y • v + dot m (o - x) • m) ≤ _
  rw [e1, F.vv, F.ww, F.vw, hsq]
  have := abs_le.1 hy2
  nlinarith

/-- C85: on a strictly convex planar polygon, listed counter-clockwise about `n`, `Contains(point)` is true for every point that is
off the plane by no more than the thickness and whose projection has the disc of a radius above `2e-4` around it in the polygon. -/
theorem C85_contains_inside (p : List (V3 ℝ)) (n : V3 ℝ) (hc : ConvexPolygon n p) (ht : p.length = 3 ∨ HasTriangle p) (he : FirstEdge p)
    (q : V3 ℝ) (hq : ∀ x ∈ p, dot n q = dot n x) (r : ℝ) (hr : 2 / 10000 < r)
    (hin : ∀ y, dot n y = dot n q → dist q y ≤ r → y ∈ hull3 p) (δ th : ℝ) (hδ : δ ^ 2 ≤ th) : contains p (q + δ • n) th = true := by
  obtain ⟨o, q', r', rfl, he⟩ := he
  have B := convexBasis hc (ht.imp id hasTriangle_iff) he
  set p := o :: q' :: r' with hpd
  set x := q + δ • n with hx
  have hnx : dot n x = dot n q + δ := by
    have := hc.1
    rw [hx]; unfold dot at *; simp only [add_x, add_y, add_z, smul_x, smul_y, smul_z]; linear_combination δ * this
  rw [contains_eq B hc.2.1 (o := o) rfl, Bool.and_eq_true, Bool.not_eq_true', decide_eq_false_iff_not]
  have ho : dot n (o - x) = -δ := by rw [dot_sub, hnx, hq o (by simp [hpd])]; ring
  constructor
  · rw [ho]; rw [not_lt]; nlinarith
  · have F := B.frame
    -- points of the disc, in local coordinates
    have hdisc : ∀ h : V2 ℝ, h.x * h.x + h.y * h.y ≤ r * r → h ∈ hull2 (p.map (loc p x)) := by
      intro h hh
      have hy : q + h.x • basisU p + h.y • basisV p ∈ hull3 p := by
        apply hin
        · have h1 := F.uw
          have h2 := F.vw
          unfold dot at *; simp only [add_x, add_y, add_z, smul_x, smul_y, smul_z]; linear_combination h.x * h1 + h.y * h2
        · rw [dist_le_iff (by linarith)]
          have e : distSq q (q + h.x • basisU p + h.y • basisV p) = h.x * h.x * dot (basisU p) (basisU p) +
              h.y * h.y * dot (basisV p) (basisV p) + 2 * h.x * h.y * dot (basisU p) (basisV p) := by
            simp only [distSq, lenSq, dot, sub_x, sub_y, sub_z, add_x, add_y, add_z, smul_x, smul_y, smul_z]; ring
          rw [e, F.uu, F.vv, F.uv]; linarith
      have h1 := hull_loc p x hy
      have e : q + h.x • basisU p + h.y • basisV p = x + h.x • basisU p + h.y • basisV p + (-δ) • n := by
        rw [hx]; ext <;> simp only [add_x, add_y, add_z, smul_x, smul_y, smul_z] <;> ring
      rw [e, loc_of B] at h1
      exact h1
    have hT := loc_strict hc B x
    have hr0 : 0 < r := by linarith
    have hz : ∃ z, (p.map (loc p x)).getLast? = some z := by
      cases hz : (p.map (loc p x)).getLast? with
      | none => rw [List.getLast?_eq_none_iff] at hz; simp [hpd] at hz
      | some z => exact ⟨z, rfl⟩
    obtain ⟨z, hz⟩ := hz
    refine evenOdd_of_deep hT ?_ ?_ ?_
    · by_contra hno
      push Not at hno
      have := hull2_y (hdisc ⟨0, 2 / 10000⟩ (by nlinarith)) hno
      norm_num at this
    · by_contra hno
      push Not at hno
      have := hull2_y' (hdisc ⟨0, 0⟩ (by nlinarith)) hno
      norm_num at this
    · rw [edges2_eq_walk hz]
      intro e hee
      have key : ∀ s : ℝ, s * s ≤ (2 / 10000) * (2 / 10000) → 0 < area2 e.1 e.2 ⟨0, s⟩ := by
        intro s hs
        have hs' : |s| ≤ 2 / 10000 := abs_le_of_sq_le_sq (by nlinarith) (by norm_num)
        set dx := e.2.x - e.1.x with hdx
        set dy := e.2.y - e.1.y with hdy
        set L := Real.sqrt (dx * dx + dy * dy) with hL
        have hLL : L * L = dx * dx + dy * dy := Real.mul_self_sqrt (by nlinarith [mul_self_nonneg dx, mul_self_nonneg dy])
        have hL0 : 0 < L := by
          apply Real.sqrt_pos.2
          by_contra hcon
          have h1 : dx * dx = 0 := by nlinarith [mul_self_nonneg dx, mul_self_nonneg dy]
          have h2 : dy * dy = 0 := by nlinarith [mul_self_nonneg dx, mul_self_nonneg dy]
          have h1' := mul_self_eq_zero.1 h1
          have h2' := mul_self_eq_zero.1 h2
          have heq : e.1 = e.2 := by
            have a1 : e.1.x = e.2.x := by linarith
            have a2 : e.1.y = e.2.y := by linarith
            cases h3 : e.1; cases h4 : e.2; rw [h3, h4] at a1 a2; simp only at a1 a2; rw [a1, a2]
          obtain ⟨i, hi, e2, e1⟩ := walk_index hz hee
          have T := List.triplewise_iff_getElem.1 hT
          have hlen : 3 ≤ (p.map (loc p x)).length := by rw [List.length_map]; exact hc.2.1
          have za : ∀ a b : V2 ℝ, area2 a b b = 0 := fun a b => by unfold area2; ring
          have zb : ∀ a b : V2 ℝ, area2 a a b = 0 := fun a b => by unfold area2; ring
          have zc : ∀ a b : V2 ℝ, area2 a b a = 0 := fun a b => by unfold area2; ring
          rw [e1, e2] at heq
          rcases Nat.eq_zero_or_pos i with i0 | i0
          · subst i0
            simp only [if_true] at heq
            have := T 0 1 ((p.map (loc p x)).length - 1) (by omega) (by omega) (by omega)
            rw [heq, zc] at this
            exact lt_irrefl _ this
          · have hne : ¬ i = 0 := by omega
            simp only [hne, if_false] at heq
            rcases Nat.lt_or_ge (i + 1) (p.map (loc p x)).length with h5 | h5
            · have := T (i - 1) i (i + 1) (by omega) (by omega) h5
              rw [heq, zb] at this
              exact lt_irrefl _ this
            · have := T 0 (i - 1) i (by omega) (by omega) hi
              rw [heq, za] at this
              exact lt_irrefl _ this
        set k := r - 2 / 10000 with hk
        have hk0 : 0 < k := by linarith
        have hP : (⟨k * (dy / L), s - k * (dx / L)⟩ : V2 ℝ) ∈ hull2 (p.map (loc p x)) := by
          apply hdisc
          show k * (dy / L) * (k * (dy / L)) + (s - k * (dx / L)) * (s - k * (dx / L)) ≤ r * r
          have e1 : dy / L * (dy / L) + dx / L * (dx / L) = 1 := by
            field_simp; nlinarith
          have e2 : |dx / L| ≤ 1 := by
            apply abs_le_of_sq_le_sq _ (by norm_num)
            nlinarith [mul_self_nonneg (dy / L)]
          have e3 : k * (dy / L) * (k * (dy / L)) + (s - k * (dx / L)) * (s - k * (dx / L)) = k * k + s * s - 2 * k * (s * (dx / L)) := by
            linear_combination k * k * e1
          have e4 : |s * (dx / L)| ≤ 2 / 10000 := by
            rw [abs_mul]
            calc |s| * |dx / L| ≤ 2 / 10000 * 1 := mul_le_mul hs' e2 (abs_nonneg _) (by norm_num)
              _ = 2 / 10000 := by norm_num
          have e5 := (abs_le.1 e4).1
          rw [e3]
          have e6 : r = k + 2 / 10000 := by rw [hk]; ring
          rw [e6]
          nlinarith [mul_le_mul_of_nonneg_left e5 hk0.le]
        have h0 := hull2_left (fun v hv => edge_left hT hz hee hv) hP
        have e7 : area2 e.1 e.2 ⟨k * (dy / L), s - k * (dx / L)⟩ = area2 e.1 e.2 ⟨0, s⟩ - k * L := by
          have : dx * (dx / L) + dy * (dy / L) = L := by
            have e8 : dx * (dx / L) + dy * (dy / L) = (dx * dx + dy * dy) / L := by ring
            rw [e8, ← hLL, mul_div_assoc, div_self hL0.ne', mul_one]
          unfold area2
          rw [← hdx, ← hdy]
          linear_combination -k * this
        rw [e7] at h0
        have := mul_pos hk0 hL0
        linarith
      exact ⟨key _ (le_refl _), key _ (by norm_num)⟩

/-- A square. -/
def exSquare : List (V3 ℝ) := [⟨0, 0, 0⟩, ⟨1, 0, 0⟩, ⟨1, 1, 0⟩, ⟨0, 1, 0⟩]

theorem exSquare_convex : ConvexPolygon ⟨0, 0, 1⟩ exSquare := by
  refine ⟨by norm_num [dot], by simp [exSquare], ?_⟩
  simp only [exSquare, List.triplewise_cons, List.pairwise_cons, List.mem_cons, List.not_mem_nil]
  refine ⟨⟨?_, ?_, ?_, ?_⟩, ⟨?_, ?_, ?_⟩, ⟨?_, ?_⟩, ?_, List.Triplewise.nil⟩
  · rintro c (rfl | rfl | h) <;> first | exact h.elim | exact ⟨1, by norm_num, by ext <;> simp [cross]⟩
  · rintro c (rfl | h) <;> first | exact h.elim | exact ⟨1, by norm_num, by ext <;> simp [cross]⟩
  · rintro c h; exact h.elim
  · exact List.Pairwise.nil
  · rintro c (rfl | h) <;> first | exact h.elim | exact ⟨1, by norm_num, by ext <;> simp [cross]⟩
  · rintro c h; exact h.elim
  · exact List.Pairwise.nil
  · rintro c h; exact h.elim
  · exact List.Pairwise.nil
  · exact List.Pairwise.nil

theorem exSquare_big : HasTriangle exSquare := by
  refine ⟨⟨0, 0, 0⟩, ⟨1, 0, 0⟩, ⟨1, 1, 0⟩, by simp [exSquare], ?_⟩
  have e : cross ((⟨1, 0, 0⟩ : V3 ℝ) - ⟨0, 0, 0⟩) (⟨1, 1, 0⟩ - ⟨0, 0, 0⟩) = ⟨0, 0, 1⟩ := by ext <;> simp [cross]
  rw [e]
  norm_num [len, lenSq, dot]

theorem exSquare_edge : FirstEdge exSquare := by
  refine ⟨_, _, _, rfl, ?_⟩
  norm_num [V3.dist, distSq, len, lenSq, dot]

theorem exSquare_plane : ∀ x ∈ exSquare, dot (⟨0, 0, 1⟩ : V3 ℝ) x = 0 := by
  intro x hx
  simp only [exSquare, List.mem_cons, List.not_mem_nil, or_false] at hx
  rcases hx with rfl | rfl | rfl | rfl <;> simp [dot]

example := C85_contains_near exSquare ⟨0, 0, 1⟩ 0 (by norm_num [dot]) exSquare_plane exSquare_big exSquare_edge

/-- A point of the unit square is in the hull of its corners. -/
theorem exSquare_hull {a b : ℝ} (h1 : 0 ≤ a) (h2 : a ≤ 1) (h3 : 0 ≤ b) (h4 : b ≤ 1) : (⟨a, b, 0⟩ : V3 ℝ) ∈ hull3 exSquare := by
  intro K hK hS
  have c00 := hS ⟨0, 0, 0⟩ (by simp [exSquare])
  have c10 := hS ⟨1, 0, 0⟩ (by simp [exSquare])
  have c11 := hS ⟨1, 1, 0⟩ (by simp [exSquare])
  have c01 := hS ⟨0, 1, 0⟩ (by simp [exSquare])
  have l := hK _ c00 _ c10 (1 - a) a (by linarith) h1 (by ring)
  have u := hK _ c01 _ c11 (1 - a) a (by linarith) h1 (by ring)
  have m := hK _ l _ u (1 - b) b (by linarith) h3 (by ring)
  have e : (⟨a, b, 0⟩ : V3 ℝ) = (1 - b) • ((1 - a) • (⟨0, 0, 0⟩ : V3 ℝ) + a • ⟨1, 0, 0⟩) + b • ((1 - a) • ⟨0, 1, 0⟩ + a • ⟨1, 1, 0⟩) := by
    ext <;> simp <;> ring
  rw [e]
  exact m

/-- The disc of radius 1/4 around the centre of the square is in the square. -/
theorem exSquare_disc (y : V3 ℝ) (h1 : dot ⟨0, 0, 1⟩ y = dot ⟨0, 0, 1⟩ (⟨1 / 2, 1 / 2, 0⟩ : V3 ℝ))
    (h2 : V3.dist (⟨1 / 2, 1 / 2, 0⟩ : V3 ℝ) y ≤ 1 / 4) : y ∈ hull3 exSquare := by
  rw [dist_le_iff (by norm_num)] at h2
  obtain ⟨a, b, c⟩ := y
  simp only [dot, zero_mul, one_mul, zero_add] at h1
  subst h1
  simp only [distSq, lenSq, dot, sub_x, sub_y, sub_z] at h2
  apply exSquare_hull <;> nlinarith [mul_self_nonneg (1 / 2 - a), mul_self_nonneg (1 / 2 - b)]

example := C85_contains_inside exSquare ⟨0, 0, 1⟩ exSquare_convex (Or.inr exSquare_big) exSquare_edge ⟨1 / 2, 1 / 2, 0⟩
  (by intro x hx; rw [exSquare_plane x hx]; norm_num [dot]) (1 / 4) (by norm_num) exSquare_disc (1 / 1000) (1 / 100000) (by norm_num)

open Classical in
/-- C85: the rule behind `Contains(point)`: for a point in the plane of the polygon, as long as no vertex is within `1e-4` of the line
through the point along the first edge, the point is contained exactly when the half-line from the point in the direction of the first
edge meets an odd number of the polygon's edges. This holds for every planar polygon, concave ones included. -/
theorem C85_evenOdd (p : List (V3 ℝ)) (n : V3 ℝ) (d : ℝ) (hn : dot n n = 1) (hp : ∀ x ∈ p, dot n x = d) (ht : HasTriangle p)
    (o q : V3 ℝ) (r : List (V3 ℝ)) (hpe : p = o :: q :: r) (he : 1 / 1000000 < dist o q) (u : V3 ℝ) (hu : u = (1 / dist o q) • (q - o))
    (x : V3 ℝ) (hx : dot n x = d) (hgen : ∀ y ∈ p, 1 / 10000 ≤ |dot (y - x) (cross n u)|) (th : ℝ) (hth : 0 ≤ th) :
    contains p x th = true ↔ Odd ((closedEdges p).countP fun e => decide (∃ s : ℝ, 0 < s ∧ x + s • u ∈ seg e.1 e.2)) := by
  obtain ⟨m, e, hm, hpl, B, hlen⟩ := planarBasis hn hp ht ⟨o, q, r, hpe, he⟩
  have hmx : ∀ y ∈ p, dot m (y - x) = 0 := by
    intro y hy
    have h1 := hp y hy
    rcases hm with ⟨rfl, -⟩ | ⟨rfl, -⟩
    · rw [dot_sub, h1, hx]; ring
    · have : ∀ x, dot (-n) x = -dot n x := fun x => by simp only [dot, neg_x, neg_y, neg_z]; ring
      rw [this, dot_sub, h1, hx]; ring
  have hom : o ∈ p := by rw [hpe]; simp
  have hub : basisU p = u := by
    have he' : 1 / 1000000 < len (q - o) := by rw [dist_comm, dist_eq_len] at he; exact he
    rw [hpe, basisU, f3Normalized_pos he', hu, dist_comm, dist_eq_len]
  have F := B.frame
  have hvb : basisV p = cross m u := by
    have h1 := B.cross_eq
    have h2 := F.uu
    have h3 := F.uv
    rw [hub] at h1 h2 h3
    rw [← h1]
    generalize basisV p = v at *
    unfold dot at *
    ext <;> simp only [cross]
    · linear_combination -v.x * h2 + u.x * h3
    · linear_combination -v.y * h2 + u.y * h3
    · linear_combination -v.z * h2 + u.z * h3
  have hgen' : ∀ y ∈ p, 1 / 10000 ≤ |(loc p x y).y| := by
    intro y hy
    have h1 := hgen y hy
    show _ ≤ |dot (y - x) (basisV p)|
    rw [hvb]
    rcases hm with ⟨rfl, -⟩ | ⟨rfl, -⟩
    · exact h1
    · have : dot (y - x) (cross (-n) u) = -dot (y - x) (cross n u) := by simp only [dot, cross, neg_x, neg_y, neg_z]; ring
      rw [this, abs_neg]; exact h1
  have hnud : ∀ y ∈ p, nudge (loc p x y) = loc p x y := by
    intro y hy
    unfold nudge
    rw [absF_eq, if_neg (not_lt.2 (hgen' y hy))]
  have hz : ∃ z, p.getLast? = some z := by
    cases hz : p.getLast? with
    | none => rw [List.getLast?_eq_none_iff] at hz; rw [hz] at hom; cases hom
    | some z => exact ⟨z, rfl⟩
  obtain ⟨z, hz⟩ := hz
  have hzm : z ∈ p := List.mem_of_getLast? hz
  rw [contains_eq B hlen (o := o) (by rw [hpe]; rfl), hmx o hom, Bool.and_eq_true, Bool.not_eq_true', decide_eq_false_iff_not]
  have hz' : (p.map (loc p x)).getLast? = some (loc p x z) := by rw [List.getLast?_map, hz]; rfl
  have hmm : (p.map (loc p x)).map nudge = p.map (loc p x) := by
    rw [List.map_map]
    exact List.map_congr_left fun y hy => hnud y hy
  rw [evenOdd_eq hz', hnud z hzm, hmm, walk_map, List.countP_map]
  have hce : closedEdges p = walk z p := by rw [closedEdges, hz]; rfl
  rw [hce]
  have hc : ∀ e ∈ walk z p, ((fun e : V2 ℝ × V2 ℝ => crosses e.1 e.2) ∘ fun e : V3 ℝ × V3 ℝ => (loc p x e.1, loc p x e.2)) e =
      decide (∃ s : ℝ, 0 < s ∧ x + s • u ∈ seg e.1 e.2) := by
    intro e hee
    have hm2 := walk_mem hee
    have h2 : e.2 ∈ p := hm2.2
    have h1 : e.1 ∈ p := by
      rcases List.mem_cons.1 hm2.1 with h | h
      · rw [h]; exact hzm
      · exact h
    rw [Bool.eq_iff_iff, decide_eq_true_iff]
    show crosses (loc p x e.1) (loc p x e.2) = true ↔ _
    rw [crosses_iff]
    have y1 := hgen' e.1 h1
    have y2 := hgen' e.2 h2
    have f1 := F.eq_add x e.1
    have f2 := F.eq_add x e.2
    have g1 : dot (e.1 - x) m = 0 := by rw [← hmx e.1 h1]; simp only [dot]; ring
    have g2 : dot (e.2 - x) m = 0 := by rw [← hmx e.2 h2]; simp only [dot]; ring
    rw [g1, hub] at f1
    rw [g2, hub] at f2
    set a := loc p x e.1 with ha
    set b := loc p x e.2 with hb
    have a1 : dot (e.1 - x) u = a.x := by rw [ha, ← hub]; rfl
    have a2 : dot (e.1 - x) (basisV p) = a.y := by rw [ha]; rfl
    have b1 : dot (e.2 - x) u = b.x := by rw [hb, ← hub]; rfl
    have b2 : dot (e.2 - x) (basisV p) = b.y := by rw [hb]; rfl
    rw [a1, a2] at f1
    rw [b1, b2] at f2
    have a0 : a.y ≠ 0 := by intro h; rw [h, abs_zero] at y1; norm_num at y1
    have b0 : b.y ≠ 0 := by intro h; rw [h, abs_zero] at y2; norm_num at y2
    have comb : ∀ t s : ℝ, a.y + t * (b.y - a.y) = 0 → s = a.x + t * (b.x - a.x) → x + s • u = e.1 + t • (e.2 - e.1) := by
      intro t s h0 h1
      rw [f1, f2, h1]
      generalize basisV p = v
      ext <;> simp only [add_x, add_y, add_z, sub_x, sub_y, sub_z, smul_x, smul_y, smul_z]
      · linear_combination -v.x * h0
      · linear_combination -v.y * h0
      · linear_combination -v.z * h0
    constructor
    · rintro ⟨hs, hxp⟩
      have hd : b.y - a.y ≠ 0 := by
        intro h
        have : b.y = a.y := by linarith
        rw [this] at hs
        nlinarith [mul_self_nonneg a.y]
      have hr : 0 ≤ -a.y / (b.y - a.y) ∧ -a.y / (b.y - a.y) ≤ 1 := by
        rcases mul_neg_iff.1 hs with ⟨h3, h4⟩ | ⟨h3, h4⟩
        · constructor
          · exact div_nonneg_of_nonpos (by linarith) (by linarith)
          · rw [div_le_one_of_neg (by linarith)]; linarith
        · constructor
          · exact div_nonneg (by linarith) (by linarith)
          · rw [div_le_one (by linarith)]; linarith
      refine ⟨xAt a b, hxp, -a.y / (b.y - a.y), hr.1, hr.2, comb _ _ ?_ rfl⟩
      field_simp
      ring
    · rintro ⟨s, hs, t, t0, t1, hst⟩
      have k1 : a.y + t * (b.y - a.y) = 0 := by
        have h3 := congrArg (fun y => dot (y - x) (basisV p)) hst
        have h4 : dot (x + s • u - x) (basisV p) = s * dot u (basisV p) := by simp only [dot, add_x, add_y, add_z, sub_x, sub_y, sub_z, smul_x, smul_y, smul_z]; ring
        have h5 : dot (e.1 + t • (e.2 - e.1) - x) (basisV p) = dot (e.1 - x) (basisV p) + t * (dot (e.2 - x) (basisV p) - dot (e.1 - x) (basisV p)) := by
          simp only [dot, add_x, add_y, add_z, sub_x, sub_y, sub_z, smul_x, smul_y, smul_z]; ring
        have h6 := F.uv
        rw [hub] at h6
        rw [h4, h5, a2, b2, h6] at h3
        linarith
      have k2 : s = a.x + t * (b.x - a.x) := by
        have h3 := congrArg (fun y => dot (y - x) u) hst
        have h4 : dot (x + s • u - x) u = s * dot u u := by simp only [dot, add_x, add_y, add_z, sub_x, sub_y, sub_z, smul_x, smul_y, smul_z]; ring
        have h5 : dot (e.1 + t • (e.2 - e.1) - x) u = dot (e.1 - x) u + t * (dot (e.2 - x) u - dot (e.1 - x) u) := by
          simp only [dot, add_x, add_y, add_z, sub_x, sub_y, sub_z, smul_x, smul_y, smul_z]; ring
        have h6 := F.uu
        rw [hub] at h6
        rw [h4, h5, a1, b1, h6] at h3
        linarith
      have hd : b.y - a.y ≠ 0 := by
        intro h; rw [h] at k1; exact a0 (by linarith)
      have hlt : a.y * b.y < 0 := by
        have e1 : a.y * (1 - t) = -(t * b.y) := by linear_combination k1
        by_contra hcon
        have hpos : 0 < a.y * b.y := lt_of_le_of_ne (not_lt.1 hcon) (mul_ne_zero a0 b0).symm
        have e2 : a.y * a.y * (1 - t) + t * (a.y * b.y) = 0 := by linear_combination a.y * e1
        have e3 : 0 < a.y * a.y := mul_self_pos.2 a0
        rcases eq_or_lt_of_le t1 with h | h
        · rw [h] at e2; linarith
        · nlinarith [mul_pos e3 (sub_pos.2 h), mul_nonneg t0 hpos.le]
      refine ⟨hlt, ?_⟩
      have : xAt a b = s := by
        have e1 : -a.y / (b.y - a.y) = t := by rw [div_eq_iff hd]; linarith
        rw [xAt, e1, k2]
      rw [this]; exact hs
  rw [List.countP_congr fun e he => by rw [hc e he]]
  exact ⟨fun h => h.2, fun h => ⟨by rw [not_lt]; simpa using hth, h⟩⟩

/-- An L-shaped, concave polygon. -/
def exEll : List (V3 ℝ) := [⟨2, 1, 0⟩, ⟨1, 1, 0⟩, ⟨1, 2, 0⟩, ⟨0, 2, 0⟩, ⟨0, 0, 0⟩, ⟨2, 0, 0⟩]

theorem exEll_plane : ∀ x ∈ exEll, dot (⟨0, 0, 1⟩ : V3 ℝ) x = 0 := by
  intro x hx
  simp only [exEll, List.mem_cons, List.not_mem_nil, or_false] at hx
  rcases hx with rfl | rfl | rfl | rfl | rfl | rfl <;> simp [dot]

theorem exEll_big : HasTriangle exEll := by
  refine ⟨⟨2, 1, 0⟩, ⟨1, 1, 0⟩, ⟨1, 2, 0⟩, by simp [exEll], ?_⟩
  have e : cross ((⟨1, 1, 0⟩ : V3 ℝ) - ⟨2, 1, 0⟩) (⟨1, 2, 0⟩ - ⟨2, 1, 0⟩) = ⟨0, 0, -1⟩ := by ext <;> norm_num [cross]
  rw [e]
  norm_num [len, lenSq, dot]

theorem exEll_dist : V3.dist (⟨2, 1, 0⟩ : V3 ℝ) ⟨1, 1, 0⟩ = 1 := by
  norm_num [V3.dist, distSq, len, lenSq, dot]

example := C85_evenOdd exEll ⟨0, 0, 1⟩ 0 (by norm_num [dot]) exEll_plane exEll_big ⟨2, 1, 0⟩ ⟨1, 1, 0⟩ _ rfl
  (by rw [exEll_dist]; norm_num) ⟨-1, 0, 0⟩ (by rw [exEll_dist]; ext <;> norm_num) ⟨1 / 2, 3 / 2, 0⟩ (by norm_num [dot]) (by
    intro y hy
    have e : cross (⟨0, 0, 1⟩ : V3 ℝ) ⟨-1, 0, 0⟩ = ⟨0, -1, 0⟩ := by ext <;> norm_num [cross]
    rw [e]
    simp only [exEll, List.mem_cons, List.not_mem_nil, or_false] at hy
    rcases hy with rfl | rfl | rfl | rfl | rfl | rfl <;> norm_num [dot, abs_of_pos, abs_of_neg]) 0 (le_refl _)

/-- `Plane`s of opposite orientation meet a line at the same parameter. -/
theorem plane_param {n m : V3 ℝ} {d e : ℝ} (h : m = n ∧ e = d ∨ m = -n ∧ e = -d) (a v : V3 ℝ) :
    |dot m v| = |dot n v| ∧ (e - dot m a) / dot m v = (d - dot n a) / dot n v := by
  rcases h with ⟨rfl, rfl⟩ | ⟨rfl, rfl⟩
  · exact ⟨rfl, rfl⟩
  · have : ∀ x, dot (-n) x = -dot n x := fun x => by simp only [dot, neg_x, neg_y, neg_z]; ring
    rw [this, this, abs_neg]
    refine ⟨rfl, ?_⟩
    rw [← neg_div_neg_eq]
    congr 1 <;> ring

theorem at_param {n : V3 ℝ} {d : ℝ} {a v : V3 ℝ} (h : dot n v ≠ 0) : dot n (a + ((d - dot n a) / dot n v) • v) = d := by
  have e : ∀ t : ℝ, dot n (a + t • v) = dot n a + t * dot n v := fun t => by
    simp only [dot, add_x, add_y, add_z, smul_x, smul_y, smul_z]; ring
  rw [e, div_mul_cancel₀ _ h]
  ring

theorem param_unique {n : V3 ℝ} {d t : ℝ} {a v : V3 ℝ} (h : dot n v ≠ 0) (ht : dot n (a + t • v) = d) : (d - dot n a) / dot n v = t := by
  have e : dot n (a + t • v) = dot n a + t * dot n v := by
    simp only [dot, add_x, add_y, add_z, smul_x, smul_y, smul_z]; ring
  rw [div_eq_iff h]; linarith

theorem seg_getPoint (l : LineSeg ℝ) (t : ℝ) : l.getPoint t = l.a + t • (l.b - l.a) := by
  unfold LineSeg.getPoint
  ext <;> simp only [add_x, add_y, add_z, sub_x, sub_y, sub_z, smul_x, smul_y, smul_z] <;> ring

theorem ilp {n : V3 ℝ} {d : ℝ} {a v : V3 ℝ} (h : 1 / 10000 < |dot n v|) : Plane.intersectLinePlane n d a v = (true, (d - dot n a) / dot n v) := by
  unfold Plane.intersectLinePlane
  simp only [absF_eq]
  rw [if_pos h]

/-- A point of the plane that is contained is near the hull. -/
theorem contains_plane {p : List (V3 ℝ)} {n : V3 ℝ} {d : ℝ} (hn : dot n n = 1) (hp : ∀ x ∈ p, dot n x = d) (ht : HasTriangle p)
    (he : FirstEdge p) {x : V3 ℝ} {th : ℝ} (h : contains p x th = true) (hx : dot n x = d) : ∃ y ∈ hull3 p, dist x y ≤ 2 / 10000 := by
  obtain ⟨-, y, hy, hd⟩ := C85_contains_near p n d hn hp ht he x th h
  refine ⟨y, hy, ?_⟩
  rw [dist_le_iff (by norm_num)]
  rw [hx] at hd
  linarith

/-- C85: a segment, ray or line that is not parallel to the plane of a planar polygon and is reported to intersect it does come within
`2e-4` of the convex hull of the vertices. -/
theorem C85_intersects_near (p : List (V3 ℝ)) (n : V3 ℝ) (d : ℝ) (hn : dot n n = 1) (hp : ∀ x ∈ p, dot n x = d) (ht : HasTriangle p)
    (he : FirstEdge p) :
    (∀ l : LineSeg ℝ, 1 / 10000 ≤ |dot n (l.b - l.a)| → intersectsSeg p l = some true →
      ∃ x ∈ seg l.a l.b, ∃ y ∈ hull3 p, dist x y ≤ 2 / 10000) ∧
    (∀ l : Ray ℝ, 1 / 10000 < |dot n l.dir| → intersectsRay p l = some true → ∃ x ∈ Spec.ray l.pos l.dir, ∃ y ∈ hull3 p, dist x y ≤ 2 / 10000) ∧
    (∀ l : Line ℝ, 1 / 10000 < |dot n l.dir| → intersectsLine p l = some true → ∃ x ∈ Spec.line l.pos l.dir, ∃ y ∈ hull3 p, dist x y ≤ 2 / 10000) := by
  obtain ⟨m, e, hm, hpl, B, hlen⟩ := planarBasis hn hp ht he
  refine ⟨?_, ?_, ?_⟩
  · intro l hl h
    obtain ⟨k1, k2⟩ := plane_param hm l.a (l.b - l.a)
    unfold intersectsSeg at h
    simp only [hpl, Option.bind_eq_bind, Option.bind_some] at h
    rw [absF_eq, k1, if_neg (not_lt.2 hl), k2, seg_getPoint] at h
    split_ifs at h with h1
    · cases h
    · push Not at h1
      have h0 : dot n (l.b - l.a) ≠ 0 := by intro h0; rw [h0, abs_zero] at hl; norm_num at hl
      exact ⟨_, ⟨_, h1.1, h1.2, rfl⟩, contains_plane hn hp ht he (Option.some.inj h) (at_param h0)⟩
  · intro l hl h
    obtain ⟨k1, k2⟩ := plane_param hm l.pos l.dir
    unfold intersectsRay Plane.intersectsRay at h
    simp only [hpl, Option.map_some] at h
    rw [ilp (by rw [k1]; exact hl), k2] at h
    have h := Option.some.inj h
    split_ifs at h with h1
    simp only [Bool.true_and, Bool.not_eq_true', decide_eq_false_iff_not, not_not] at h1
    have h0 : dot n l.dir ≠ 0 := by intro h0; rw [h0, abs_zero] at hl; norm_num at hl
    exact ⟨_, ⟨_, h1, rfl⟩, contains_plane hn hp ht he h (at_param h0)⟩
  · intro l hl h
    obtain ⟨k1, k2⟩ := plane_param hm l.pos l.dir
    unfold intersectsLine Plane.intersectsLine at h
    simp only [hpl, Option.map_some] at h
    rw [ilp (by rw [k1]; exact hl), k2] at h
    have h := Option.some.inj h
    simp only [Bool.not_true, Bool.false_eq_true, if_false] at h
    have h0 : dot n l.dir ≠ 0 := by intro h0; rw [h0, abs_zero] at hl; norm_num at hl
    exact ⟨_, ⟨_, rfl⟩, contains_plane hn hp ht he h (at_param h0)⟩

example := C85_intersects_near exSquare ⟨0, 0, 1⟩ 0 (by norm_num [dot]) exSquare_plane exSquare_big exSquare_edge

/-- C85: a segment, ray or line that is not parallel to the plane of a strictly convex polygon and passes through a point of the polygon
that is more than `2e-4` away from its boundary is reported to intersect the polygon. -/
theorem C85_intersects_inside (p : List (V3 ℝ)) (n : V3 ℝ) (hc : ConvexPolygon n p) (ht : p.length = 3 ∨ HasTriangle p) (he : FirstEdge p)
    (q : V3 ℝ) (hq : ∀ x ∈ p, dot n q = dot n x) (r : ℝ) (hr : 2 / 10000 < r)
    (hin : ∀ y, dot n y = dot n q → dist q y ≤ r → y ∈ hull3 p) :
    (∀ l : LineSeg ℝ, 1 / 10000 ≤ |dot n (l.b - l.a)| → q ∈ seg l.a l.b → intersectsSeg p l = some true) ∧
    (∀ l : Ray ℝ, 1 / 10000 < |dot n l.dir| → q ∈ Spec.ray l.pos l.dir → intersectsRay p l = some true) ∧
    (∀ l : Line ℝ, 1 / 10000 < |dot n l.dir| → q ∈ Spec.line l.pos l.dir → intersectsLine p l = some true) := by
  have hcont : contains p q = true := by
    have := C85_contains_inside p n hc ht he q hq r hr hin 0 (1 / 100000) (by norm_num)
    have e : q + (0 : ℝ) • n = q := by ext <;> simp
    rw [e] at this; exact this
  obtain ⟨o, q', r', hpe, he⟩ := he
  have hom : o ∈ p := by rw [hpe]; simp
  have hpl := planeCCW_convex hc (o := o) (by rw [hpe]; rfl) (ht.imp id hasTriangle_iff)
  have hqo := hq o hom
  refine ⟨?_, ?_, ?_⟩
  · rintro l hl ⟨t, t0, t1, ht⟩
    have h0 : dot n (l.b - l.a) ≠ 0 := by intro h0; rw [h0, abs_zero] at hl; norm_num at hl
    unfold intersectsSeg
    simp only [hpl, Option.bind_eq_bind, Option.bind_some]
    rw [absF_eq, if_neg (not_lt.2 hl), param_unique h0 (by rw [← ht, hqo]), if_neg (by push Not; exact ⟨t0, t1⟩)]
    rw [seg_getPoint, ← ht, hcont]
  · rintro l hl ⟨t, t0, ht⟩
    have h0 : dot n l.dir ≠ 0 := by intro h0; rw [h0, abs_zero] at hl; norm_num at hl
    unfold intersectsRay Plane.intersectsRay
    simp only [hpl, Option.map_some]
    rw [ilp hl, param_unique h0 (by rw [← ht, hqo])]
    simp only [Bool.true_and, ge_iff_le, decide_eq_true t0, Bool.not_true, Bool.false_eq_true, if_false]
    show some (contains p (l.pos + t • l.dir)) = _
    rw [← ht, hcont]
  · rintro l hl ⟨t, ht⟩
    have h0 : dot n l.dir ≠ 0 := by intro h0; rw [h0, abs_zero] at hl; norm_num at hl
    unfold intersectsLine Plane.intersectsLine
    simp only [hpl, Option.map_some]
    rw [ilp hl, param_unique h0 (by rw [← ht, hqo])]
    simp only [Bool.not_true, Bool.false_eq_true, if_false]
    show some (contains p (l.pos + t • l.dir)) = _
    rw [← ht, hcont]

example := C85_intersects_inside exSquare ⟨0, 0, 1⟩ exSquare_convex (Or.inr exSquare_big) exSquare_edge ⟨1 / 2, 1 / 2, 0⟩
  (by intro x hx; rw [exSquare_plane x hx]; norm_num [dot]) (1 / 4) (by norm_num) exSquare_disc

/-- The unit square, moved ten units along the x axis. -/
def exFar : List (V3 ℝ) := [⟨10, 0, 0⟩, ⟨11, 0, 0⟩, ⟨11, 1, 0⟩, ⟨10, 1, 0⟩]

theorem exFar_plane : ∀ x ∈ exFar, dot (⟨0, 0, 1⟩ : V3 ℝ) x = 0 := by
  intro x hx
  simp only [exFar, List.mem_cons, List.not_mem_nil, or_false] at hx
  rcases hx with rfl | rfl | rfl | rfl <;> simp [dot]

theorem exFar_big : HasTriangle exFar := by
  refine ⟨⟨10, 0, 0⟩, ⟨11, 0, 0⟩, ⟨11, 1, 0⟩, by simp [exFar], ?_⟩
  have e : cross ((⟨11, 0, 0⟩ : V3 ℝ) - ⟨10, 0, 0⟩) (⟨11, 1, 0⟩ - ⟨10, 0, 0⟩) = ⟨0, 0, 1⟩ := by ext <;> norm_num [cross]
  rw [e]
  norm_num [len, lenSq, dot]

theorem exFar_convex : ConvexPolygon ⟨0, 0, 1⟩ exFar := by
  refine ⟨by norm_num [dot], by simp [exFar], ?_⟩
  simp only [exFar, List.triplewise_cons, List.pairwise_cons, List.mem_cons, List.not_mem_nil]
  refine ⟨⟨?_, ?_, ?_, ?_⟩, ⟨?_, ?_, ?_⟩, ⟨?_, ?_⟩, ?_, List.Triplewise.nil⟩
  · rintro c (rfl | rfl | h) <;> first | exact h.elim | exact ⟨1, by norm_num, by ext <;> norm_num [cross]⟩
  · rintro c (rfl | h) <;> first | exact h.elim | exact ⟨1, by norm_num, by ext <;> norm_num [cross]⟩
  · rintro c h; exact h.elim
  · exact List.Pairwise.nil
  · rintro c (rfl | h) <;> first | exact h.elim | exact ⟨1, by norm_num, by ext <;> norm_num [cross]⟩
  · rintro c h; exact h.elim
  · exact List.Pairwise.nil
  · rintro c h; exact h.elim
  · exact List.Pairwise.nil
  · exact List.Pairwise.nil

theorem exFar_edge : FirstEdge exFar := by
  refine ⟨_, _, _, rfl, ?_⟩
  norm_num [V3.dist, distSq, len, lenSq, dot]

/-- The hull of the moved square starts at `x = 10`. -/
theorem exFar_hull {y : V3 ℝ} (h : y ∈ hull3 exFar) : 10 ≤ y.x := by
  refine h {y | 10 ≤ y.x} ?_ ?_
  · intro a ha b hb s t hs ht hst
    show 10 ≤ (s • a + t • b).x
    simp only [add_x, smul_x]
    have h1 : (10 : ℝ) ≤ a.x := ha
    have h2 : (10 : ℝ) ≤ b.x := hb
    nlinarith
  · intro s hs
    simp only [exFar, List.mem_cons, List.not_mem_nil, or_false] at hs
    rcases hs with rfl | rfl | rfl | rfl <;> norm_num

/-- C85: for segments in the plane of the polygon the claim fails: `Intersects(LineSegment)` measures the segment from the first vertex
but the edges from the origin. The segment from `(9, 1/2, 0)` to `(21/2, 1/2, 0)` crosses the left side of the square `[10, 11] × [0, 1]`
and ends at its centre, yet is reported not to intersect it. -/
theorem C85_intersects_inPlane_violation :
    (∃ x ∈ seg (⟨9, 1 / 2, 0⟩ : V3 ℝ) ⟨21 / 2, 1 / 2, 0⟩, x ∈ hull3 exFar) ∧
    intersectsSeg exFar ⟨⟨9, 1 / 2, 0⟩, ⟨21 / 2, 1 / 2, 0⟩⟩ = some false := by
  constructor
  · refine ⟨⟨21 / 2, 1 / 2, 0⟩, ⟨1, by norm_num, le_refl _, by ext <;> norm_num⟩, ?_⟩
    intro K hK hS
    have c00 := hS ⟨10, 0, 0⟩ (by simp [exFar])
    have c11 := hS ⟨11, 1, 0⟩ (by simp [exFar])
    have m := hK _ c00 _ c11 (1 / 2) (1 / 2) (by norm_num) (by norm_num) (by norm_num)
    have e : (⟨21 / 2, 1 / 2, 0⟩ : V3 ℝ) = (1 / 2 : ℝ) • ⟨10, 0, 0⟩ + (1 / 2 : ℝ) • ⟨11, 1, 0⟩ := by ext <;> norm_num
    rw [e]; exact m
  · have hn : dot (⟨0, 0, 1⟩ : V3 ℝ) ⟨0, 0, 1⟩ = 1 := by norm_num [dot]
    have hpl : planeCCW exFar = some ⟨⟨0, 0, 1⟩, 0⟩ := by
      have := planeCCW_convex exFar_convex (o := ⟨10, 0, 0⟩) rfl (Or.inr (hasTriangle_iff exFar_big))
      rw [this]
      norm_num [dot]
    have hu : basisU exFar = ⟨1, 0, 0⟩ := by
      show f3Normalized ((⟨11, 0, 0⟩ : V3 ℝ) - ⟨10, 0, 0⟩) = _
      have e : (⟨11, 0, 0⟩ : V3 ℝ) - ⟨10, 0, 0⟩ = ⟨1, 0, 0⟩ := by ext <;> norm_num
      rw [e, f3Normalized_unit (by norm_num [lenSq, dot])]
    have hv : basisV exFar = ⟨0, 1, 0⟩ := by
      unfold basisV
      rw [hpl, hu, if_neg (by simp [exFar])]
      have e : cross (⟨0, 0, 1⟩ : V3 ℝ) ⟨1, 0, 0⟩ = ⟨0, 1, 0⟩ := by ext <;> norm_num [cross]
      show f3Normalized (cross (⟨0, 0, 1⟩ : V3 ℝ) ⟨1, 0, 0⟩) = _
      rw [e, f3Normalized_unit (by norm_num [lenSq, dot])]
    have hto : ∀ x : V3 ℝ, mapTo2D exFar x = some ⟨x.x - 10, x.y⟩ := by
      intro x
      unfold mapTo2D
      rw [hu, hv]
      simp only [exFar, List.head?_cons, Option.map_some, Option.some.injEq, V2.mk.injEq]
      constructor <;> simp [dot]
    unfold intersectsSeg
    simp only [hpl, Option.bind_eq_bind, Option.bind_some, hto]
    rw [if_pos (by norm_num [dot, absF])]
    congr 1
    unfold intersects2D
    rw [if_neg (by simp [exFar]), hu, hv]
    have hmap : (exFar.map fun y => (⟨dot y ⟨1, 0, 0⟩, dot y ⟨0, 1, 0⟩, 0⟩ : V3 ℝ)) = exFar := by
      simp [exFar, dot]
    simp only [hmap]
    have hlast : exFar.getLast? = some ⟨10, 1, 0⟩ := rfl
    rw [hlast]
    simp only [Bool.or_eq_false_iff]
    constructor
    · rw [List.any_eq_false]
      intro e he
      have hxs : ∀ x : V3 ℝ, x ∈ (⟨10, 1, 0⟩ : V3 ℝ) :: exFar → 10 ≤ x.x := by
        intro x hx
        simp only [exFar, List.mem_cons, List.not_mem_nil, or_false] at hx
        rcases hx with rfl | rfl | rfl | rfl | rfl <;> norm_num
      have hne : e.1 ≠ e.2 := by
        simp only [exFar, List.zip_cons_cons, List.zip_nil_right, List.mem_cons, List.not_mem_nil, or_false] at he
        rcases he with rfl | rfl | rfl | rfl <;> simp
      have h1 := hxs _ (List.of_mem_zip he).1
      have h2 := hxs _ (List.mem_cons_of_mem _ (List.of_mem_zip he).2)
      rw [C23_intersects _ _ hne (by simp; norm_num)]
      rintro ⟨x, ⟨s, s0, s1, rfl⟩, y, ⟨t, t0, t1, rfl⟩, hd⟩
      rw [dist_le_iff (by norm_num)] at hd
      simp only [distSq, lenSq, dot, add_x, add_y, add_z, sub_x, sub_y, sub_z, smul_x, smul_y, smul_z] at hd
      have h3 : (10 : ℝ) ≤ e.1.x + s * (e.2.x - e.1.x) := by nlinarith
      nlinarith [mul_self_nonneg (e.1.y + s * (e.2.y - e.1.y) - (1 / 2 + t * (1 / 2 - 1 / 2))),
        mul_self_nonneg (e.1.z + s * (e.2.z - e.1.z) - (0 + t * (0 - 0)))]
    · have e : mapFrom2D exFar ⟨9 - 10, 1 / 2⟩ = some ⟨9, 1 / 2, 0⟩ := by
        unfold mapFrom2D
        rw [hu, hv]
        simp only [exFar, List.head?_cons, Option.map_some, Option.some.injEq]
        ext <;> norm_num
      simp only [e]
      by_contra hcon
      obtain ⟨-, y, hy, hd⟩ := C85_contains_near exFar ⟨0, 0, 1⟩ 0 hn exFar_plane exFar_big exFar_edge ⟨9, 1 / 2, 0⟩ _
        (by simpa using hcon)
      have := exFar_hull hy
      simp only [distSq, lenSq, dot, sub_x, sub_y, sub_z] at hd
      nlinarith [mul_self_nonneg (1 / 2 - y.y), mul_self_nonneg (0 - y.z)]

/-- C85: `Contains(Polygon, thickness)` asks for every vertex of the other polygon, with the *square* of the distance from the plane
compared to `thickness`: with the default `1e-3`, a vertex may be `0.0316` away, some thirty times the thickness. -/
theorem C85_containsPolygon (p q : List (V3 ℝ)) (th : ℝ) : containsPolygon p q th = true ↔ ∀ x ∈ q, contains p x th = true := by
  unfold containsPolygon
  rw [List.all_eq_true]

/-- C85: the default thickness of `1e-3` admits a polygon at a distance of `3e-2`. -/
theorem C85_thickness_violation : containsPolygon exSquare [⟨1 / 2, 1 / 2, 3 / 100⟩] = true := by
  rw [containsPolygon, List.all_eq_true]
  intro x hx
  rw [List.mem_singleton] at hx
  subst hx
  have := C85_contains_inside exSquare ⟨0, 0, 1⟩ exSquare_convex (Or.inr exSquare_big) exSquare_edge ⟨1 / 2, 1 / 2, 0⟩
    (by intro x hx; rw [exSquare_plane x hx]; norm_num [dot]) (1 / 4) (by norm_num) exSquare_disc (3 / 100) (1 / 1000) (by norm_num)
  have e : (⟨1 / 2, 1 / 2, 0⟩ : V3 ℝ) + (3 / 100 : ℝ) • ⟨0, 0, 1⟩ = ⟨1 / 2, 1 / 2, 3 / 100⟩ := by ext <;> norm_num
  rw [e] at this
  exact this

end Polygon
end MGL
