import Verif.Model.PolygonMore
import Verif.Props.Polygon
import Verif.Props.PolygonContains
import Verif.Props.PolygonTriangulate
import Verif.Props.Hull2DContains

/-! Helper lemmas for the predicates of polygons: diagonals, simplicity and containment of segments. -/

set_option linter.unusedSectionVars false

namespace MGL
open V3 Spec
namespace Polygon

theorem strict_of_triple {l : List (V2 ℝ)} (h : l.Triplewise fun a b c => 0 < area2 a b c) (hl : 3 ≤ l.length) : StrictCCW l := by
  refine ⟨?_, h⟩
  have T := List.triplewise_iff_getElem.1 h
  rw [List.nodup_iff_injective_getElem]
  have key : ∀ i j (hi : i < l.length) (hj : j < l.length), i < j → l[i] ≠ l[j] := by
    intro i j hi hj hij he
    by_cases h1 : i + 1 < j
    · have := T i (i + 1) j (by omega) h1 hj
      rw [he] at this
      unfold area2 at this; ring_nf at this; exact lt_irrefl _ this
    · by_cases h2 : j + 1 < l.length
      · have := T i j (j + 1) hij (by omega) h2
        rw [he] at this
        unfold area2 at this; ring_nf at this; exact lt_irrefl _ this
      · have := T 0 i j (by omega) hij hj
        rw [he] at this
        unfold area2 at this; ring_nf at this; exact lt_irrefl _ this
  rintro ⟨i, hi⟩ ⟨j, hj⟩ he
  simp only at he
  rcases Nat.lt_trichotomy i j with h1 | h1 | h1
  · exact absurd he (key i j hi hj h1)
  · simp [h1]
  · exact absurd he.symm (key j i hj hi h1)

/-- Vertices off an edge are strictly to its left. -/
theorem edge_strict {l : List (V2 ℝ)} (h : StrictCCW l) {e : V2 ℝ × V2 ℝ} (he : e ∈ edges2 l) {w : V2 ℝ} (hw : w ∈ l) :
    0 < area2 e.1 e.2 w ∨ w = e.1 ∨ w = e.2 := by
  have T := List.triplewise_iff_getElem.1 h.2
  obtain ⟨j, hj, rfl⟩ := List.getElem_of_mem hw
  rcases Hull2D.edges2_mem he with ⟨h1, h2⟩ | h1
  · have ea : e.2 = l[0] := by
      rw [List.head?_eq_getElem?, List.getElem?_eq_getElem (by omega)] at h1; exact (Option.some.inj h1).symm
    have ez : e.1 = l[l.length - 1] := by
      rw [List.getLast?_eq_getElem?, List.getElem?_eq_getElem (by omega)] at h2; exact (Option.some.inj h2).symm
    rcases Nat.eq_zero_or_pos j with h0 | h0
    · subst h0; right; right; exact ea.symm
    · rcases Nat.lt_or_ge j (l.length - 1) with h3 | h3
      · have := T 0 j (l.length - 1) h0 h3 (by omega)
        rw [Hull2D.area2_cycle, Hull2D.area2_cycle] at this
        rw [ea, ez]; exact Or.inl this
      · have : j = l.length - 1 := by omega
        subst this; right; left; exact ez.symm
  · obtain ⟨i, hi, hie⟩ := List.getElem_of_mem h1
    rw [List.length_zip, List.length_tail] at hi
    have hi1 : i < l.length := by omega
    have hi2 : i + 1 < l.length := by omega
    have e1 : e.1 = l[i] := by rw [← hie]; simp
    have e2 : e.2 = l[i + 1] := by rw [← hie]; simp
    rw [e1, e2]
    rcases Nat.lt_trichotomy j i with h3 | h3 | h3
    · have := T j i (i + 1) h3 (by omega) hi2
      rw [Hull2D.area2_cycle] at this; exact Or.inl this
    · subst h3; exact Or.inr (Or.inl rfl)
    · rcases Nat.lt_or_ge (i + 1) j with h2 | h2
      · exact Or.inl (T i (i + 1) j (by omega) h2 hj)
      · have : j = i + 1 := by omega
        subst this; exact Or.inr (Or.inr rfl)

/-- Points of the hull on the line of an edge are points of the edge. -/
theorem on_edge {l : List (V2 ℝ)} (h : StrictCCW l) {e : V2 ℝ × V2 ℝ} (he : e ∈ edges2 l) {z : V2 ℝ} (hz : z ∈ hull2 l) (h0 : area2 e.1 e.2 z = 0) :
    ∃ s : ℝ, 0 ≤ s ∧ s ≤ 1 ∧ z = ⟨e.1.x + s * (e.2.x - e.1.x), e.1.y + s * (e.2.y - e.1.y)⟩ := by
  have key : z ∈ {w : V2 ℝ | 0 < area2 e.1 e.2 w ∨ ∃ s : ℝ, 0 ≤ s ∧ s ≤ 1 ∧ w = ⟨e.1.x + s * (e.2.x - e.1.x), e.1.y + s * (e.2.y - e.1.y)⟩} := by
    refine hz _ ?_ ?_
    · intro p hp q hq s t hs ht hst
      have e' : t = 1 - s := by linear_combination hst
      have lin : area2 e.1 e.2 (⟨s * p.x + t * q.x, s * p.y + t * q.y⟩ : V2 ℝ) = s * area2 e.1 e.2 p + t * area2 e.1 e.2 q := by
        unfold area2; rw [e']; ring
      have on : ∀ s : ℝ, area2 e.1 e.2 (⟨e.1.x + s * (e.2.x - e.1.x), e.1.y + s * (e.2.y - e.1.y)⟩ : V2 ℝ) = 0 := by
        intro s; unfold area2; ring
      show 0 < area2 e.1 e.2 _ ∨ _
      rw [lin]
      rcases hp with hp | ⟨a, a0, a1, rfl⟩
      · rcases hs.lt_or_eq with hs' | hs'
        · left
          have hq0 : 0 ≤ area2 e.1 e.2 q := by
            rcases hq with hq | ⟨b, b0, b1, rfl⟩
            · exact hq.le
            · rw [on]
          have := mul_pos hs' hp
          have := mul_nonneg ht hq0
          linarith
        · have : t = 1 := by linarith
          subst this
          rw [← hs']
          rcases hq with hq | ⟨b, b0, b1, rfl⟩
          · left; linarith
          · right; exact ⟨b, b0, b1, by simp⟩
      · rcases hq with hq | ⟨b, b0, b1, rfl⟩
        · rcases ht.lt_or_eq with ht' | ht'
          · left; rw [on]; have := mul_pos ht' hq; linarith
          · have : s = 1 := by linarith
            subst this
            rw [← ht']
            right; exact ⟨a, a0, a1, by simp⟩
        · right
          refine ⟨s * a + t * b, by positivity, by nlinarith, ?_⟩
          rw [e']
          ext
          · simp only; ring
          · simp only; ring
    · intro w hw
      rcases edge_strict h he hw with h1 | rfl | rfl
      · exact Or.inl h1
      · exact Or.inr ⟨0, le_rfl, zero_le_one, by ext <;> simp⟩
      · exact Or.inr ⟨1, zero_le_one, le_rfl, by ext <;> simp⟩
  rcases key with h1 | h1
  · rw [h0] at h1; exact absurd h1 (lt_irrefl _)
  · exact h1

/-- A segment that leaves a convex polygon meets an edge. -/
theorem leaves {l : List (V2 ℝ)} (h : StrictCCW l) (hl : 3 ≤ l.length) {y w : V2 ℝ} (hy : y ∈ hull2 l) (hw : w ∉ hull2 l) :
    ∃ e ∈ edges2 l, ∃ s t : ℝ, 0 ≤ s ∧ s ≤ 1 ∧ 0 ≤ t ∧ t ≤ 1 ∧
      e.1.x + s * (e.2.x - e.1.x) = y.x + t * (w.x - y.x) ∧ e.1.y + s * (e.2.y - e.1.y) = y.y + t * (w.y - y.y) := by
  classical
  have hex : ∃ e ∈ edges2 l, area2 e.1 e.2 w < 0 := by
    by_contra hno
    push Not at hno
    exact hw (Hull2D.left_hull h hl hno)
  obtain ⟨e0, he0, hneg0⟩ := hex
  let r : V2 ℝ × V2 ℝ → ℝ := fun e => area2 e.1 e.2 y / (area2 e.1 e.2 y - area2 e.1 e.2 w)
  obtain ⟨e, he, hmin⟩ := Finset.exists_min_image ((edges2 l).toFinset.filter fun e => area2 e.1 e.2 w < 0) r ⟨e0, by simp [he0, hneg0]⟩
  rw [Finset.mem_filter, List.mem_toFinset] at he
  obtain ⟨he, hneg⟩ := he
  have hy0 := fun {e} he => Hull2D.hull_left h hy (e := e) he
  have pos : ∀ e ∈ edges2 l, area2 e.1 e.2 w < 0 → 0 < area2 e.1 e.2 y - area2 e.1 e.2 w := fun e he hn => by linarith [hy0 he]
  have t0 : 0 ≤ r e := div_nonneg (hy0 he) (pos e he hneg).le
  have t1 : r e ≤ 1 := by
    show _ / _ ≤ _
    rw [div_le_one (pos e he hneg)]; linarith
  have lin : ∀ (e : V2 ℝ × V2 ℝ) (t : ℝ), area2 e.1 e.2 (⟨y.x + t * (w.x - y.x), y.y + t * (w.y - y.y)⟩ : V2 ℝ) =
      area2 e.1 e.2 y + t * (area2 e.1 e.2 w - area2 e.1 e.2 y) := by intro e t; unfold area2; ring
  have hz : (⟨y.x + r e * (w.x - y.x), y.y + r e * (w.y - y.y)⟩ : V2 ℝ) ∈ hull2 l := by
    refine Hull2D.left_hull h hl fun e' he' => ?_
    rw [lin]
    by_cases hn : area2 e'.1 e'.2 w < 0
    · have h1 := hmin e' (by simp [he', hn])
      have h2 := pos e' he' hn
      have h3 : r e * (area2 e'.1 e'.2 y - area2 e'.1 e'.2 w) ≤ area2 e'.1 e'.2 y := by
        have := mul_le_mul_of_nonneg_right h1 h2.le
        have e3 : r e' * (area2 e'.1 e'.2 y - area2 e'.1 e'.2 w) = area2 e'.1 e'.2 y := div_mul_cancel₀ _ h2.ne'
        linarith
      linarith
    · have := hy0 he'
      nlinarith
  have hzero : area2 e.1 e.2 (⟨y.x + r e * (w.x - y.x), y.y + r e * (w.y - y.y)⟩ : V2 ℝ) = 0 := by
    rw [lin]
    have e3 : r e * (area2 e.1 e.2 y - area2 e.1 e.2 w) = area2 e.1 e.2 y := div_mul_cancel₀ _ (pos e he hneg).ne'
    linarith
  obtain ⟨s, s0, s1, hs⟩ := on_edge h he hz hzero
  refine ⟨e, he, s, r e, s0, s1, t0, t1, ?_, ?_⟩
  · have := congrArg V2.x hs; exact this.symm
  · have := congrArg V2.y hs; exact this.symm

theorem edges_loc (f : V3 ℝ → V2 ℝ) (p : List (V3 ℝ)) : edges2 (p.map f) = (closedEdges p).map (Prod.map f f) := by
  unfold edges2 closedEdges
  rw [List.getLast?_map]
  cases h : p.getLast? with
  | none => rfl
  | some z =>
    simp only [Option.map_some]
    rw [← List.map_cons, List.zip_map]

/-- In space: a segment in the plane of a convex polygon that leaves it meets an edge. -/
theorem leaves3 {p : List (V3 ℝ)} {n : V3 ℝ} {d : ℝ} (hc : ConvexPolygon n p) (B : LocalBasis p n) (hp : ∀ x ∈ p, dot n x = d) {y w : V3 ℝ}
    (hy : y ∈ hull3 p) (hw : w ∉ hull3 p) (hwd : dot n w = d) :
    ∃ e ∈ closedEdges p, ∃ t : ℝ, 0 ≤ t ∧ t ≤ 1 ∧ y + t • (w - y) ∈ seg e.1 e.2 := by
  have hyd := hull_plane hp hy
  have S := strict_of_triple (loc_strict hc B y) (by rw [List.length_map]; exact hc.2.1)
  have h1 := hull_loc p y hy
  have h2 : loc p y w ∉ hull2 (p.map (loc p y)) := by
    intro h
    have := hull_of_loc B y (δ := 0) (fun x hx => by rw [dot_sub, hp x hx, hyd]; ring) h
    have e := B.frame.eq_add y w
    have e2 : dot (w - y) n = 0 := by
      have : dot (w - y) n = dot n w - dot n y := by simp only [dot, sub_x, sub_y, sub_z]; ring
      rw [this, hwd, hyd]; ring
    rw [e2] at e
    apply hw
    rw [e]; exact this
  obtain ⟨e2, he2, s, t, s0, s1, t0, t1, ex, ey⟩ := leaves S (by rw [List.length_map]; exact hc.2.1) h1 h2
  rw [edges_loc] at he2
  obtain ⟨e, he, rfl⟩ := List.mem_map.1 he2
  refine ⟨e, he, t, t0, t1, s, s0, s1, ?_⟩
  have hmem : e.1 ∈ p ∧ e.2 ∈ p := by
    unfold closedEdges at he
    split at he
    · cases he
    · next z hz =>
      have := List.of_mem_zip he
      refine ⟨?_, this.2⟩
      rcases List.mem_cons.1 this.1 with h | h
      · rw [h]; exact List.mem_of_getLast? hz
      · exact h
  have hd1 := hp _ hmem.1
  have hd2 := hp _ hmem.2
  have f1 := B.frame.eq_add y (y + t • (w - y))
  have f2 := B.frame.eq_add y (e.1 + s • (e.2 - e.1))
  have g1 : dot (y + t • (w - y) - y) n = 0 := by
    simp only [dot, add_x, add_y, add_z, sub_x, sub_y, sub_z, smul_x, smul_y, smul_z] at *
    linear_combination t * hwd - t * hyd
  have g2 : dot (e.1 + s • (e.2 - e.1) - y) n = 0 := by
    simp only [dot, add_x, add_y, add_z, sub_x, sub_y, sub_z, smul_x, smul_y, smul_z] at *
    linear_combination (1 - s) * hd1 + s * hd2 - hyd
  have k1 : dot (e.1 + s • (e.2 - e.1) - y) (basisU p) = dot (y + t • (w - y) - y) (basisU p) := by
    simp only [Prod.map, loc] at ex
    have z0 : dot (y - y) (basisU p) = 0 := by simp [dot]
    rw [z0] at ex
    simp only [dot, add_x, add_y, add_z, sub_x, sub_y, sub_z, smul_x, smul_y, smul_z] at *
    linear_combination ex
  have k2 : dot (e.1 + s • (e.2 - e.1) - y) (basisV p) = dot (y + t • (w - y) - y) (basisV p) := by
    simp only [Prod.map, loc] at ey
    have z0 : dot (y - y) (basisV p) = 0 := by simp [dot]
    rw [z0] at ey
    simp only [dot, add_x, add_y, add_z, sub_x, sub_y, sub_z, smul_x, smul_y, smul_z] at *
    linear_combination ey
  rw [f1, f2, g1, g2, k1, k2]

theorem edges_mem_iff (p : List (V3 ℝ)) (e : V3 ℝ × V3 ℝ) : e ∈ p.zip (p.rotate 1) ↔ e ∈ closedEdges p := by
  rcases p with _ | ⟨a, r⟩
  · simp [closedEdges]
  · have h : ∀ (r : List (V3 ℝ)) (a b : V3 ℝ), e ∈ (a :: r).zip (r ++ [b]) ↔ e ∈ (a :: r).zip r ∨ e = ((a :: r).getLast (by simp), b) := by
      intro r
      induction r with
      | nil => intro a b; simp
      | cons c r ih =>
        intro a b
        rw [List.cons_append, List.zip_cons_cons, List.mem_cons, ih c b, List.zip_cons_cons, List.mem_cons, or_assoc]
        rfl
    unfold closedEdges
    rw [List.getLast?_eq_some_getLast (by simp)]
    simp only [List.rotate_cons_succ, List.rotate_zero]
    rw [h r a a, List.zip_cons_cons, List.mem_cons, or_comm]

theorem edge_mem {p : List (V3 ℝ)} {e : V3 ℝ × V3 ℝ} (he : e ∈ closedEdges p) : e.1 ∈ p ∧ e.2 ∈ p := by
  rw [← edges_mem_iff] at he
  have := List.of_mem_zip he
  exact ⟨this.1, List.mem_rotate.1 this.2⟩

/-- The edges by index. -/
theorem edge_get {p : List (V3 ℝ)} (hp : 2 ≤ p.length) {i : ℕ} (hi : i < p.length) :
    ∃ e ∈ closedEdges p, edge p i = some ⟨e.1, e.2⟩ ∧ p[i]? = some e.1 ∧ p[(i + 1) % p.length]? = some e.2 := by
  have hi' : i < (p.zip (p.rotate 1)).length := by rw [List.length_zip, List.length_rotate]; omega
  refine ⟨_, (edges_mem_iff _ _).1 (List.getElem_mem hi'), edge_eq hp hi', ?_, ?_⟩
  · rw [List.getElem_zip, List.getElem?_eq_getElem hi]
  · rw [List.getElem_zip, List.getElem_rotate, List.getElem?_eq_getElem]

theorem get_edge {p : List (V3 ℝ)} (hp : 2 ≤ p.length) {e : V3 ℝ × V3 ℝ} (he : e ∈ closedEdges p) :
    ∃ i < p.length, edge p i = some ⟨e.1, e.2⟩ := by
  rw [← edges_mem_iff] at he
  obtain ⟨i, hi, rfl⟩ := List.getElem_of_mem he
  have hi' := hi
  rw [List.length_zip, List.length_rotate] at hi'
  exact ⟨i, by omega, edge_eq hp hi⟩

/-- The plane of a planar polygon. -/
theorem plane_spec {p : List (V3 ℝ)} {n : V3 ℝ} {d : ℝ} (hn : dot n n = 1) (hp : ∀ x ∈ p, dot n x = d) (ht : HasTriangle p) :
    ∃ pl, planeCCW p = some pl ∧ (∀ x, pl.project x = x - (dot n x - d) • n) ∧ ∀ x, pl.distance x = |dot n x - d| := by
  rcases C84_plane p n d hn hp ht with ⟨h, -⟩ | ⟨h, -⟩
  · refine ⟨_, h, fun x => rfl, fun x => ?_⟩
    unfold Plane.distance Plane.signedDistance
    rw [absF_eq]
  · refine ⟨_, h, fun x => ?_, fun x => ?_⟩
    · unfold Plane.project
      rw [dot_neg']
      ext <;> simp only [sub_x, sub_y, sub_z, smul_x, smul_y, smul_z, neg_x, neg_y, neg_z] <;> ring
    · unfold Plane.distance Plane.signedDistance
      rw [absF_eq, dot_neg', ← abs_neg]
      congr 1; ring

theorem on_plane {n x : V3 ℝ} {d : ℝ} (h : dot n x = d) : x - (dot n x - d) • n = x := by
  rw [h]; ext <;> simp

theorem dot_project {n : V3 ℝ} (hn : dot n n = 1) (x : V3 ℝ) (d : ℝ) : dot n (x - (dot n x - d) • n) = d := by
  simp only [dot, sub_x, sub_y, sub_z, smul_x, smul_y, smul_z] at *
  linear_combination (-(n.x * x.x + n.y * x.y + n.z * x.z - d)) * hn

/-- The projection maps segments onto segments. -/
theorem project_seg {n a b : V3 ℝ} {d t : ℝ} : (a + t • (b - a)) - (dot n (a + t • (b - a)) - d) • n =
    (a - (dot n a - d) • n) + t • ((b - (dot n b - d) • n) - (a - (dot n a - d) • n)) := by
  ext <;> simp only [dot, sub_x, sub_y, sub_z, smul_x, smul_y, smul_z, add_x, add_y, add_z] <;> ring

theorem diagonalLoop_false (pl : Plane ℝ) (p : List (V3 ℝ)) (i j k : ℕ) (diag : LineSeg ℝ) {a b : V3 ℝ} (h1 : k ≠ i) (h2 : k + 1 ≠ i) (h3 : k ≠ j)
    (ha : p[k]? = some a) (hb : p[k + 1]? = some b) (hx : (pl.projectSeg ⟨a, b⟩).intersectsSeg diag (1 / 1000) = true) (B : List ℕ) :
    ∀ A : List ℕ, (∀ m ∈ A, m + 1 < p.length) → diagonalLoop pl p i j diag (A ++ k :: B) = some false := by
  intro A
  induction A with
  | nil =>
    intro _
    rw [List.nil_append, diagonalLoop, if_pos (by simp [h1, h2, h3]), ha, hb]
    simp only [Option.bind_eq_bind, Option.bind_some]
    rw [if_pos hx]
  | cons m A ih =>
    intro hA
    rw [List.cons_append, diagonalLoop]
    have hm := hA m (by simp)
    split
    · rw [List.getElem?_eq_getElem (by omega : m < p.length), List.getElem?_eq_getElem hm]
      simp only [Option.bind_eq_bind, Option.bind_some]
      split
      · rfl
      · exact ih fun x hx => hA x (by simp [hx])
    · exact ih fun x hx => hA x (by simp [hx])

/-- Edges of a convex polygon have different ends. -/
theorem convex_edges {p : List (V3 ℝ)} {n : V3 ℝ} (hc : ConvexPolygon n p) (B : LocalBasis p n) : ∀ e ∈ closedEdges p, e.1 ≠ e.2 := by
  intro e he h
  have S := strict_of_triple (loc_strict hc B 0) (by rw [List.length_map]; exact hc.2.1)
  have he2 : Prod.map (loc p 0) (loc p 0) e ∈ edges2 (p.map (loc p 0)) := by rw [edges_loc]; exact List.mem_map_of_mem he
  have all : ∀ w ∈ p.map (loc p 0), w = loc p 0 e.1 := by
    intro w hw
    rcases edge_strict S he2 hw with h1 | h1 | h1
    · exfalso
      simp only [Prod.map, ← h] at h1
      unfold area2 at h1; ring_nf at h1; exact lt_irrefl _ h1
    · exact h1
    · rw [h1, h]; rfl
  have hl : 3 ≤ (p.map (loc p 0)).length := by rw [List.length_map]; exact hc.2.1
  have hnd := List.nodup_iff_injective_getElem.1 S.1
  have e1 := all _ (List.getElem_mem (by omega : 0 < (p.map (loc p 0)).length))
  have e2 := all _ (List.getElem_mem (by omega : 1 < (p.map (loc p 0)).length))
  have := @hnd ⟨0, by omega⟩ ⟨1, by omega⟩ (e1.trans e2.symm)
  simp at this

end Polygon
end MGL
