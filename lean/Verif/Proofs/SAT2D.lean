import Verif.Model.SAT2D
import Verif.Proofs.Polygon2D
import Verif.Proofs.Scalar
import Verif.Props.Hull2DContains
import Mathlib.Analysis.Normed.Module.HahnBanach
import Mathlib.Analysis.LocallyConvex.Separation
import Mathlib.Analysis.Convex.Topology

/-! Helper lemmas for the separating axis test of convex polygons. -/

namespace MGL.SAT2D
open Spec V2 Hull2D Polygon

theorem perpDot_area (u v w : V2 ℝ) : area2 u v w = perpDot v (v - u) - perpDot w (v - u) := by
  simp only [area2, perpDot, sub_x, sub_y]; ring

/-- The outward normal of a directed edge. -/
def outw (e : V2 ℝ) : V2 ℝ := ⟨e.y, -e.x⟩

theorem perpDot_outw (a e : V2 ℝ) : perpDot a e = dot (outw e) a := by
  simp only [perpDot, dot, outw]; ring

theorem minPerp_le (edge : V2 ℝ) : ∀ (bs : List (V2 ℝ)) (b0 : V2 ℝ),
    (∀ q ∈ b0 :: bs, minPerp edge b0 bs ≤ perpDot q edge) ∧ ∃ q ∈ b0 :: bs, minPerp edge b0 bs = perpDot q edge := by
  intro bs
  suffices h : ∀ (m : ℝ), (∀ q ∈ bs, bs.foldl (fun m q => min2 m (perpDot q edge)) m ≤ perpDot q edge) ∧
      bs.foldl (fun m q => min2 m (perpDot q edge)) m ≤ m ∧
      (bs.foldl (fun m q => min2 m (perpDot q edge)) m = m ∨ ∃ q ∈ bs, bs.foldl (fun m q => min2 m (perpDot q edge)) m = perpDot q edge) by
    intro b0
    obtain ⟨h1, h2, h3⟩ := h (perpDot b0 edge)
    refine ⟨fun q hq => ?_, ?_⟩
    · rcases List.mem_cons.1 hq with rfl | hq
      · exact h2
      · exact h1 q hq
    · rcases h3 with h3 | ⟨q, hq, h3⟩
      · exact ⟨b0, List.mem_cons_self .., h3⟩
      · exact ⟨q, List.mem_cons_of_mem _ hq, h3⟩
  induction bs with
  | nil => intro m; simp
  | cons x r ih =>
    intro m
    simp only [List.foldl_cons]
    obtain ⟨h1, h2, h3⟩ := ih (min2 m (perpDot x edge))
    rw [min2_eq] at h1 h2 h3 ⊢
    refine ⟨fun q hq => ?_, h2.trans (min_le_left _ _), ?_⟩
    · rcases List.mem_cons.1 hq with rfl | hq
      · exact h2.trans (min_le_right _ _)
      · exact h1 q hq
    · rcases h3 with h3 | ⟨q, hq, h3⟩
      · rcases min_choice m (perpDot x edge) with hc | hc
        · left; rw [h3, hc]
        · right; exact ⟨x, List.mem_cons_self .., by rw [h3, hc]⟩
      · right; exact ⟨q, List.mem_cons_of_mem _ hq, h3⟩

theorem minPerp_gt {edge b0 : V2 ℝ} {bs : List (V2 ℝ)} {m : ℝ} : minPerp edge b0 bs > m ↔ ∀ q ∈ b0 :: bs, m < perpDot q edge := by
  obtain ⟨h1, q, hq, h2⟩ := minPerp_le edge bs b0
  constructor
  · intro h q hq; exact lt_of_lt_of_le h (h1 q hq)
  · intro h; rw [gt_iff_lt, h2]; exact h q hq

/-- The loop finds an edge whose outer side has all of the other polygon. -/
theorem separated_iff (b0 : V2 ℝ) (bs : List (V2 ℝ)) : ∀ (l : List (V2 ℝ)) (z : V2 ℝ),
    separated b0 bs z l = true ↔ ∃ e ∈ walk z l, ∀ q ∈ b0 :: bs, area2 e.1 e.2 q < 0 := by
  intro l
  induction l with
  | nil => intro z; simp [separated, walk_nil]
  | cons p r ih =>
    intro z
    have key : (minPerp (p - z) b0 bs > perpDot p (p - z)) ↔ ∀ q ∈ b0 :: bs, area2 z p q < 0 := by
      rw [minPerp_gt]
      refine forall₂_congr fun q _ => ?_
      rw [perpDot_area]; constructor <;> intro h <;> linarith
    unfold separated
    dsimp only
    rw [walk_cons]
    split_ifs with h
    · simp only [true_iff]
      exact ⟨_, List.mem_cons_self .., key.1 h⟩
    · rw [ih p]
      constructor
      · rintro ⟨e, he, h'⟩; exact ⟨e, List.mem_cons_of_mem _ he, h'⟩
      · rintro ⟨e, he, h'⟩
        rcases List.mem_cons.1 he with rfl | he
        · exact absurd (key.2 h') h
        · exact ⟨e, he, h'⟩

/-- Edges of a polygon do not depend on where the list starts. -/
theorem edges_swap {l m : List (V2 ℝ)} {e : V2 ℝ × V2 ℝ} (h : e ∈ edges2 (l ++ m)) : e ∈ edges2 (m ++ l) := by
  rcases List.eq_nil_or_concat m with rfl | ⟨m', y, rfl⟩
  · simpa using h
  rcases List.eq_nil_or_concat l with rfl | ⟨l', x, rfl⟩
  · simpa using h
  rw [edges2_eq_walk (z := y) (by simp [List.getLast?_cons]), walk_append, List.mem_append] at h
  rw [edges2_eq_walk (z := x) (by simp [List.getLast?_cons]), walk_append, List.mem_append]
  have e1 : ∀ z, (l'.concat x).getLastD z = x := by intro z; simp
  have e2 : ∀ z, (m'.concat y).getLastD z = y := by intro z; simp
  rw [e1] at h
  rw [e2]
  exact h.symm

/-- The neighbours of a vertex. -/
theorem neighbours {l : List (V2 ℝ)} (h : StrictCCW l) (hl : 3 ≤ l.length) {p : V2 ℝ} (hp : p ∈ l) :
    ∃ y x, (y, p) ∈ edges2 l ∧ (p, x) ∈ edges2 l ∧ 0 < area2 y p x := by
  obtain ⟨l1, m, rfl⟩ := List.append_of_mem hp
  have hs : StrictCCW (p :: (m ++ l1)) := by simpa using StrictCCW_swap l1 (p :: m) h
  have hlen : 2 ≤ (m ++ l1).length := by simp at hl ⊢; omega
  have back : ∀ e, e ∈ edges2 (p :: (m ++ l1)) → e ∈ edges2 (l1 ++ p :: m) := by
    intro e he; exact edges_swap (l := p :: m) (m := l1) (by simpa using he)
  generalize m ++ l1 = k at hs hlen back
  rcases k with _ | ⟨x, k⟩
  · simp at hlen
  rcases List.eq_nil_or_concat k with rfl | ⟨k', y, rfl⟩
  · simp at hlen
  refine ⟨y, x, back _ ?_, back _ ?_, ?_⟩
  · rw [edges2_eq_walk (z := y) (by simp [List.getLast?_cons])]; exact List.mem_cons_self ..
  · rw [edges2_eq_walk (z := y) (by simp [List.getLast?_cons])]; exact List.mem_cons_of_mem _ (List.mem_cons_self ..)
  · have t := (List.triplewise_cons.1 hs.2).1
    have := List.rel_of_pairwise_cons t (a' := y) (by simp)
    rw [← area2_cycle] at this
    exact this

/-- A vector is a combination of the normals of the two edges at the vertex where it is greatest. -/
theorem in_cone {y p x n : V2 ℝ} (h : 0 < area2 y p x) (h1 : dot n y ≤ dot n p) (h2 : dot n x ≤ dot n p) :
    ∃ α β : ℝ, 0 ≤ α ∧ 0 ≤ β ∧ n = α • outw (p - y) + β • outw (x - p) := by
  refine ⟨(dot n p - dot n x) / area2 y p x, (dot n p - dot n y) / area2 y p x, div_nonneg (by linarith) h.le, div_nonneg (by linarith) h.le, ?_⟩
  have h0 := h.ne'
  ext
  · simp only [add_x, smul_x, outw, sub_x, sub_y]
    rw [div_mul_eq_mul_div, div_mul_eq_mul_div, ← add_div, eq_div_iff h0]
    simp only [dot, area2]; ring
  · simp only [add_y, smul_y, outw, sub_x, sub_y]
    rw [div_mul_eq_mul_div, div_mul_eq_mul_div, ← add_div, eq_div_iff h0]
    simp only [dot, area2]; ring

/-- A nonnegative combination. -/
def InCone (u v r : V2 ℝ) : Prop := ∃ α β : ℝ, 0 ≤ α ∧ 0 ≤ β ∧ r = α • u + β • v

theorem InCone.swap {u v r : V2 ℝ} (h : InCone u v r) : InCone v u r := by
  obtain ⟨a, b, ha, hb, rfl⟩ := h
  exact ⟨b, a, hb, ha, by ext <;> simp <;> ring⟩

theorem InCone.comb {u v r s : V2 ℝ} (hr : InCone u v r) (hs : InCone u v s) {a b : ℝ} (ha : 0 ≤ a) (hb : 0 ≤ b) : InCone u v (a • r + b • s) := by
  obtain ⟨a1, b1, h1, h2, rfl⟩ := hr
  obtain ⟨a2, b2, h3, h4, rfl⟩ := hs
  exact ⟨a * a1 + b * a2, a * b1 + b * b2, by positivity, by positivity, by ext <;> simp <;> ring⟩

theorem InCone.scale {u v r : V2 ℝ} {s : ℝ} (hs : 0 < s) (h : InCone u v (s • r)) : InCone u v r := by
  obtain ⟨a, b, ha, hb, e⟩ := h
  refine ⟨a / s, b / s, div_nonneg ha hs.le, div_nonneg hb hs.le, ?_⟩
  have ex := congrArg V2.x e
  have ey := congrArg V2.y e
  simp only [smul_x, smul_y, add_x, add_y] at ex ey
  ext
  · simp only [add_x, smul_x]; field_simp; linarith
  · simp only [add_y, smul_y]; field_simp; linarith

theorem leave_cone {u1 u2 v1 v2 n u w : V2 ℝ} {a b c d : ℝ} (hn : InCone u1 u2 n) (hu : InCone u1 u2 u) (en : n = c • v1 + d • v2) (eu : u = a • v1 + b • v2)
    (hc : 0 ≤ c) (ha : a < 0) (hab : a * d ≤ c * b) (fn : 0 < dot n w) (fu : 0 < dot u w) :
    0 < dot v2 w ∧ InCone u1 u2 v2 := by
  have hr := hn.comb hu (neg_nonneg.2 ha.le) hc
  have e : (-a) • n + c • u = (c * b - a * d) • v2 := by rw [en, eu]; ext <;> simp <;> ring
  have f : 0 < (c * b - a * d) * dot v2 w := by
    have : dot ((-a) • n + c • u) w = (-a) * dot n w + c * dot u w := by simp only [dot, add_x, add_y, smul_x, smul_y]; ring
    have e2 : dot ((c * b - a * d) • v2) w = (c * b - a * d) * dot v2 w := by simp only [dot, smul_x, smul_y]; ring
    rw [← e2, ← e, this]
    have := mul_pos (neg_pos.2 ha) fn
    have := mul_nonneg hc fu.le
    linarith
  have hs : 0 < c * b - a * d := by
    rcases (sub_nonneg.2 hab).lt_or_eq with h | h
    · exact h
    · rw [← h] at f; simp at f
  rw [e] at hr
  exact ⟨pos_of_mul_pos_right f hs.le, hr.scale hs⟩

/-- Two cones of the plane with a common vector on the positive side of `w`: a side of one of them is in the other and on the positive
side, too. -/
theorem common_side {u1 u2 v1 v2 n w : V2 ℝ} (hu : InCone u1 u2 n) (hv : InCone v1 v2 n) (hb : v1.x * v2.y - v1.y * v2.x ≠ 0) (hw : 0 < dot n w) :
    ∃ r, 0 < dot r w ∧ ((InCone v1 v2 r ∧ (r = u1 ∨ r = u2)) ∨ (InCone u1 u2 r ∧ (r = v1 ∨ r = v2))) := by
  have hcase : ∃ u, (u = u1 ∨ u = u2) ∧ 0 < dot u w := by
    obtain ⟨a, b, ha, hb, rfl⟩ := hu
    have : dot (a • u1 + b • u2) w = a * dot u1 w + b * dot u2 w := by simp only [dot, add_x, add_y, smul_x, smul_y]; ring
    rw [this] at hw
    by_contra hc
    push Not at hc
    have h1 := hc u1 (Or.inl rfl)
    have h2 := hc u2 (Or.inr rfl)
    nlinarith [mul_nonneg ha (neg_nonneg.2 h1), mul_nonneg hb (neg_nonneg.2 h2)]
  obtain ⟨u, hu12, fu⟩ := hcase
  have huc : InCone u1 u2 u := by
    rcases hu12 with rfl | rfl
    · exact ⟨1, 0, zero_le_one, le_rfl, by ext <;> simp⟩
    · exact ⟨0, 1, le_rfl, zero_le_one, by ext <;> simp⟩
  obtain ⟨c, d, hc, hd, en⟩ := hv
  obtain ⟨a, b, eu⟩ : ∃ a b : ℝ, u = a • v1 + b • v2 := by
    refine ⟨(u.x * v2.y - u.y * v2.x) / (v1.x * v2.y - v1.y * v2.x), (v1.x * u.y - v1.y * u.x) / (v1.x * v2.y - v1.y * v2.x), ?_⟩
    ext
    · simp only [add_x, smul_x]
      rw [div_mul_eq_mul_div, div_mul_eq_mul_div, ← add_div, eq_div_iff hb]; ring
    · simp only [add_y, smul_y]
      rw [div_mul_eq_mul_div, div_mul_eq_mul_div, ← add_div, eq_div_iff hb]; ring
  have sw : ∀ {s t : ℝ} {p q r : V2 ℝ}, r = s • p + t • q → r = t • q + s • p := by
    rintro s t p q r rfl; ext <;> simp <;> ring
  by_cases h1 : 0 ≤ a ∧ 0 ≤ b
  · exact ⟨u, fu, Or.inl ⟨⟨a, b, h1.1, h1.2, eu⟩, hu12⟩⟩
  · by_cases h2 : a < 0 ∧ a * d ≤ c * b
    · obtain ⟨f, i⟩ := leave_cone hu huc en eu hc h2.1 h2.2 hw fu
      exact ⟨v2, f, Or.inr ⟨i, Or.inr rfl⟩⟩
    · have h3 : b < 0 ∧ b * c ≤ d * a := by
        by_cases ha : a < 0
        · have h4 : c * b < a * d := by by_contra hx; exact h2 ⟨ha, not_lt.1 hx⟩
          refine ⟨?_, by nlinarith⟩
          by_contra hb'
          have := mul_nonneg hc (not_lt.1 hb')
          have := mul_nonneg (neg_nonneg.2 ha.le) hd
          linarith
        · have hb' : b < 0 := by by_contra hx; exact h1 ⟨not_lt.1 ha, not_lt.1 hx⟩
          refine ⟨hb', ?_⟩
          have := mul_nonneg hd (not_lt.1 ha)
          have := mul_nonneg (neg_nonneg.2 hb'.le) hc
          linarith
      obtain ⟨f, i⟩ := leave_cone hu huc (sw en) (sw eu) hd h3.1 h3.2 hw fu
      exact ⟨v1, f, Or.inr ⟨i, Or.inl rfl⟩⟩

/-- Disjoint hulls are separated by a line. -/
theorem separate {a b : List (V2 ℝ)} (h : Disjoint (hull2 a) (hull2 b)) :
    ∃ (n : V2 ℝ) (s : ℝ), (∀ p ∈ a, dot n p < s) ∧ ∀ q ∈ b, s < dot n q := by
  let toP : V2 ℝ → ℝ × ℝ := fun v => (v.x, v.y)
  have sub : ∀ l : List (V2 ℝ), convexHull ℝ (toP '' {v | v ∈ l}) ⊆ toP '' hull2 l := by
    intro l
    apply convexHull_min
    · rintro _ ⟨v, hv, rfl⟩; exact ⟨v, Hull2D.mem_hull2 hv, rfl⟩
    · rintro _ ⟨v, hv, rfl⟩ _ ⟨w, hw, rfl⟩ s t hs ht hst
      exact ⟨⟨s * v.x + t * w.x, s * v.y + t * w.y⟩, fun K hK hl => hK v (hv K hK hl) w (hw K hK hl) s t hs ht hst, rfl⟩
  have hd : Disjoint (convexHull ℝ (toP '' {v | v ∈ a})) (convexHull ℝ (toP '' {v | v ∈ b})) := by
    rw [Set.disjoint_left]
    intro z hz hz'
    obtain ⟨v, hv, rfl⟩ := sub a hz
    obtain ⟨w, hw, e⟩ := sub b hz'
    have : w = v := by
      have e1 := congrArg Prod.fst e
      have e2 := congrArg Prod.snd e
      exact V2.ext e1 e2
    exact Set.disjoint_left.1 h hv (this ▸ hw)
  have fin : ∀ l : List (V2 ℝ), (toP '' {v | v ∈ l}).Finite := fun l => (List.finite_toSet l).image _
  obtain ⟨f, s, t, h1, h2, h3⟩ := geometric_hahn_banach_compact_closed (convex_convexHull ℝ _) ((fin a).isCompact_convexHull (𝕜 := ℝ))
    (convex_convexHull ℝ _) ((fin b).isClosed_convexHull (𝕜 := ℝ)) hd
  have ef : ∀ v : V2 ℝ, f (toP v) = dot ⟨f (1, 0), f (0, 1)⟩ v := by
    intro v
    have : toP v = v.x • ((1, 0) : ℝ × ℝ) + v.y • ((0, 1) : ℝ × ℝ) := by simp [toP]
    rw [this, map_add, map_smul, map_smul]
    simp only [dot, smul_eq_mul]; ring
  refine ⟨⟨f (1, 0), f (0, 1)⟩, s, fun p hp => ?_, fun q hq => ?_⟩
  · rw [← ef]; exact h1 _ (subset_convexHull ℝ _ ⟨p, hp, rfl⟩)
  · rw [← ef]; exact h2.trans (h3 _ (subset_convexHull ℝ _ ⟨q, hq, rfl⟩))

theorem exists_max (f : V2 ℝ → ℝ) : ∀ {l : List (V2 ℝ)}, l ≠ [] → ∃ p ∈ l, ∀ q ∈ l, f q ≤ f p := by
  intro l hl
  obtain ⟨p, hp, h⟩ := (List.finite_toSet l).exists_maximalFor f {v | v ∈ l} ⟨l.head hl, List.head_mem hl⟩
  refine ⟨p, hp, fun q hq => ?_⟩
  rcases le_total (f q) (f p) with hc | hc
  · exact hc
  · exact h hq hc

theorem vertex_left {l : List (V2 ℝ)} (h : StrictCCW l) {e : V2 ℝ × V2 ℝ} (he : e ∈ edges2 l) {w : V2 ℝ} (hw : w ∈ l) : 0 ≤ area2 e.1 e.2 w :=
  hull_left h (Hull2D.mem_hull2 hw) he

theorem area_dot (u v w : V2 ℝ) : area2 u v w = dot (outw (v - u)) v - dot (outw (v - u)) w := by
  simp only [area2, dot, outw, sub_x, sub_y]; ring

/-- The separating axis theorem: when no edge of either polygon has all of the other polygon on its outer side, the polygons have a common
point. -/
theorem sat_core {a b : List (V2 ℝ)} (ha : StrictCCW a) (hb : StrictCCW b) (la : 3 ≤ a.length) (lb : 3 ≤ b.length)
    (h1 : ∀ e ∈ edges2 a, ∃ q ∈ b, 0 ≤ area2 e.1 e.2 q) (h2 : ∀ e ∈ edges2 b, ∃ p ∈ a, 0 ≤ area2 e.1 e.2 p) :
    (hull2 a ∩ hull2 b).Nonempty := by
  by_contra hne
  have hd : Disjoint (hull2 a) (hull2 b) := by
    rw [Set.disjoint_iff_inter_eq_empty]; exact Set.not_nonempty_iff_eq_empty.1 hne
  obtain ⟨n, s, ns, ms⟩ := separate hd
  obtain ⟨p, hp, pm⟩ := exists_max (fun v => dot n v) (l := a) (by rintro rfl; simp at la)
  obtain ⟨q, hq, qm⟩ := exists_max (fun v => -dot n v) (l := b) (by rintro rfl; simp at lb)
  obtain ⟨y, x, ey, ex, ar⟩ := neighbours ha la hp
  obtain ⟨y', x', ey', ex', ar'⟩ := neighbours hb lb hq
  have mem2 : ∀ {l : List (V2 ℝ)} {e : V2 ℝ × V2 ℝ}, e ∈ edges2 l → e.1 ∈ l ∧ e.2 ∈ l := by
    intro l e he
    rcases List.eq_nil_or_concat l with rfl | ⟨m, z, rfl⟩
    · cases he
    · rw [edges2_eq_walk (z := z) (by simp)] at he
      obtain ⟨m1, m2⟩ := walk_mem he
      refine ⟨?_, m2⟩
      rcases List.mem_cons.1 m1 with m1 | m1
      · rw [m1]; simp
      · exact m1
  have hu : InCone (outw (p - y)) (outw (x - p)) n := in_cone ar (pm y (mem2 ey).1) (pm x (mem2 ex).2)
  have hv0 : InCone (outw (q - y')) (outw (x' - q)) (-n) := by
    have neg : ∀ v, dot (-n) v = -dot n v := by intro v; simp only [dot, neg_x, neg_y]; ring
    apply in_cone ar'
    · rw [neg, neg]; exact qm y' (mem2 ey').1
    · rw [neg, neg]; exact qm x' (mem2 ex').2
  have hv : InCone (-outw (q - y')) (-outw (x' - q)) n := by
    obtain ⟨c, d, hc, hd, e⟩ := hv0
    refine ⟨c, d, hc, hd, ?_⟩
    have e1 := congrArg V2.x e
    have e2 := congrArg V2.y e
    simp only [neg_x, neg_y, add_x, add_y, smul_x, smul_y] at e1 e2
    ext
    · simp only [add_x, smul_x, neg_x]; linarith
    · simp only [add_y, smul_y, neg_y]; linarith
  have hw : 0 < dot n (q - p) := by
    have e : dot n (q - p) = dot n q - dot n p := by simp only [dot, sub_x, sub_y]; ring
    rw [e]
    have := ns p hp
    have := ms q hq
    linarith
  have hbas : (-outw (q - y')).x * (-outw (x' - q)).y - (-outw (q - y')).y * (-outw (x' - q)).x ≠ 0 := by
    have e : (-outw (q - y')).x * (-outw (x' - q)).y - (-outw (q - y')).y * (-outw (x' - q)).x = area2 y' q x' := by
      simp only [outw, neg_x, neg_y, sub_x, sub_y, area2]; ring
    rw [e]; exact ar'.ne'
  obtain ⟨r, fr, hr⟩ := common_side hu hv hbas hw
  -- vectors of the cones support the polygons at the vertices
  have supA : ∀ r, InCone (outw (p - y)) (outw (x - p)) r → ∀ v ∈ a, dot r v ≤ dot r p := by
    rintro r ⟨c, d, hc, hd, rfl⟩ v hv
    have g1 := vertex_left ha ey hv
    have g2 := vertex_left ha ex hv
    have e1 : dot (outw (p - y)) p - dot (outw (p - y)) v = area2 y p v := (area_dot _ _ _).symm
    have e2 : dot (outw (x - p)) p - dot (outw (x - p)) v = area2 p x v := by simp only [area2, dot, outw, sub_x, sub_y]; ring
    have e3 : ∀ w, dot (c • outw (p - y) + d • outw (x - p)) w = c * dot (outw (p - y)) w + d * dot (outw (x - p)) w := by
      intro w; simp only [dot, add_x, add_y, smul_x, smul_y]; ring
    rw [e3, e3]
    have := mul_nonneg hc g1
    have := mul_nonneg hd g2
    simp only at *
    nlinarith
  have supB : ∀ r, InCone (-outw (q - y')) (-outw (x' - q)) r → ∀ v ∈ b, dot r q ≤ dot r v := by
    rintro r ⟨c, d, hc, hd, rfl⟩ v hv
    have g1 := vertex_left hb ey' hv
    have g2 := vertex_left hb ex' hv
    have e1 : dot (outw (q - y')) q - dot (outw (q - y')) v = area2 y' q v := (area_dot _ _ _).symm
    have e2 : dot (outw (x' - q)) q - dot (outw (x' - q)) v = area2 q x' v := by simp only [area2, dot, outw, sub_x, sub_y]; ring
    have e3 : ∀ w, dot (c • -outw (q - y') + d • -outw (x' - q)) w = -(c * dot (outw (q - y')) w + d * dot (outw (x' - q)) w) := by
      intro w; simp only [dot, add_x, add_y, smul_x, smul_y, neg_x, neg_y]; ring
    rw [e3, e3]
    have := mul_nonneg hc g1
    have := mul_nonneg hd g2
    simp only at *
    nlinarith
  have fr' : dot r p < dot r q := by
    have e : dot r (q - p) = dot r q - dot r p := by simp only [dot, sub_x, sub_y]; ring
    rw [e] at fr; linarith
  rcases hr with ⟨hr, rfl | rfl⟩ | ⟨hr, rfl | rfl⟩
  · obtain ⟨v, hv, g⟩ := h1 _ ey
    have := supB _ hr v hv
    rw [area_dot] at g
    simp only at g
    linarith
  · obtain ⟨v, hv, g⟩ := h1 _ ex
    have := supB _ hr v hv
    have e2 : area2 p x v = dot (outw (x - p)) p - dot (outw (x - p)) v := by simp only [area2, dot, outw, sub_x, sub_y]; ring
    simp only at g
    rw [e2] at g
    linarith
  · obtain ⟨v, hv, g⟩ := h2 _ ey'
    have := supA _ hr v hv
    have e2 : area2 y' q v = dot (-outw (q - y')) v - dot (-outw (q - y')) q := by simp only [area2, dot, outw, sub_x, sub_y, neg_x, neg_y]; ring
    simp only at g
    rw [e2] at g
    linarith
  · obtain ⟨v, hv, g⟩ := h2 _ ex'
    have := supA _ hr v hv
    have e2 : area2 q x' v = dot (-outw (x' - q)) v - dot (-outw (x' - q)) q := by simp only [area2, dot, outw, sub_x, sub_y, neg_x, neg_y]; ring
    simp only at g
    rw [e2] at g
    linarith

theorem mem_of_edge {l : List (V2 ℝ)} {e : V2 ℝ × V2 ℝ} (he : e ∈ edges2 l) : e.1 ∈ l ∧ e.2 ∈ l := by
  rcases List.eq_nil_or_concat l with rfl | ⟨m, z, rfl⟩
  · cases he
  · rw [edges2_eq_walk (z := z) (by simp)] at he
    obtain ⟨m1, m2⟩ := walk_mem he
    refine ⟨?_, m2⟩
    rcases List.mem_cons.1 m1 with m1 | m1
    · rw [m1]; simp
    · exact m1

theorem ccwFrom_true {a : List (V2 ℝ)} (h : StrictCCW a) : ∀ (l : List (V2 ℝ)) (y z : V2 ℝ), (y, z) ∈ edges2 a → (∀ e ∈ walk z l, e ∈ edges2 a) →
    ccwFrom y z l = true := by
  intro l
  induction l with
  | nil => intros; rfl
  | cons x r ih =>
    intro y z h1 h2
    unfold ccwFrom
    rw [walk_cons] at h2
    have h3 := h2 (z, x) (List.mem_cons_self ..)
    have := vertex_left h h1 (mem_of_edge h3).2
    rw [if_neg]
    · exact ih z x h3 fun e he => h2 e (List.mem_cons_of_mem _ he)
    · rw [perp_eq, not_lt]
      simp only at this
      linarith

/-- The assertion on the winding order holds. -/
theorem winding {a : List (V2 ℝ)} (h : StrictCCW a) (hl : 3 ≤ a.length) : hasCcwWindingOrder a = some true := by
  rcases List.eq_nil_or_concat a with rfl | ⟨l, z, rfl⟩
  · simp at hl
  rcases List.eq_nil_or_concat l with rfl | ⟨l, y, rfl⟩
  · simp at hl
  have hw : edges2 ((l.concat y).concat z) = walk z ((l.concat y).concat z) := edges2_eq_walk (by simp)
  have e1 : ∀ t ∈ walk z ((l.concat y).concat z), t ∈ edges2 ((l.concat y).concat z) := by intro t ht; rw [hw]; exact ht
  have e2 : (y, z) ∈ edges2 ((l.concat y).concat z) := by
    rw [hw, List.concat_eq_append, walk_append, List.mem_append]
    right; simp [walk]
  have := ccwFrom_true h _ y z e2 e1
  unfold hasCcwWindingOrder
  split
  · rfl
  · next heq _ =>
    simp at heq
    obtain ⟨rfl, rfl, _⟩ := heq
    rw [this]
  · next hn1 hn2 => exact absurd (by simp) (hn2 z y l.reverse)

theorem half_convex_le (a b : V2 ℝ) (c : ℝ) : Convex2 {w : V2 ℝ | area2 a b w ≤ c} := by
  intro p hp q hq s t hs ht hst
  have e : t = 1 - s := by linear_combination hst
  have e1 : area2 a b (⟨s * p.x + t * q.x, s * p.y + t * q.y⟩ : V2 ℝ) = s * area2 a b p + t * area2 a b q := by
    unfold area2; rw [e]; ring
  have hp' : area2 a b p ≤ c := hp
  have hq' : area2 a b q ≤ c := hq
  show area2 a b _ ≤ c
  have e2 : c = s * c + t * c := by rw [← add_mul, hst, one_mul]
  rw [e1, e2]
  exact add_le_add (mul_le_mul_of_nonneg_left hp' hs) (mul_le_mul_of_nonneg_left hq' ht)

theorem hull_le {l : List (V2 ℝ)} {u v : V2 ℝ} {c : ℝ} (h : ∀ w ∈ l, area2 u v w ≤ c) {q : V2 ℝ} (hq : q ∈ hull2 l) : area2 u v q ≤ c :=
  hq _ (half_convex_le u v c) h

theorem minPerpAt_spec (edge : V2 ℝ) (bs : List (V2 ℝ)) (b0 : V2 ℝ) :
    (∀ q ∈ b0 :: bs, (minPerpAt edge b0 bs).1 ≤ perpDot q edge) ∧ (minPerpAt edge b0 bs).2 ∈ b0 :: bs ∧
    (minPerpAt edge b0 bs).1 = perpDot (minPerpAt edge b0 bs).2 edge := by
  unfold minPerpAt
  suffices h : ∀ (bs : List (V2 ℝ)) (m : ℝ × V2 ℝ), m.1 = perpDot m.2 edge →
      let r := bs.foldl (fun m q => if perpDot q edge < m.1 then (perpDot q edge, q) else m) m
      (∀ q ∈ bs, r.1 ≤ perpDot q edge) ∧ r.1 ≤ m.1 ∧ (r.2 = m.2 ∨ r.2 ∈ bs) ∧ r.1 = perpDot r.2 edge by
    obtain ⟨h1, h2, h3, h4⟩ := h bs (perpDot b0 edge, b0) rfl
    refine ⟨fun q hq => ?_, ?_, h4⟩
    · rcases List.mem_cons.1 hq with rfl | hq
      · exact h2
      · exact h1 q hq
    · rcases h3 with h3 | h3
      · rw [h3]; exact List.mem_cons_self ..
      · exact List.mem_cons_of_mem _ h3
  intro bs
  induction bs with
  | nil => intro m hm; simp [hm]
  | cons x r ih =>
    intro m hm
    simp only [List.foldl_cons]
    by_cases hc : perpDot x edge < m.1
    · rw [if_pos hc]
      obtain ⟨h1, h2, h3, h4⟩ := ih (perpDot x edge, x) rfl
      refine ⟨fun q hq => ?_, h2.trans hc.le, ?_, h4⟩
      · rcases List.mem_cons.1 hq with rfl | hq
        · exact h2
        · exact h1 q hq
      · rcases h3 with h3 | h3
        · right; rw [h3]; exact List.mem_cons_self ..
        · right; exact List.mem_cons_of_mem _ h3
    · rw [if_neg hc]
      obtain ⟨h1, h2, h3, h4⟩ := ih m hm
      refine ⟨fun q hq => ?_, h2, ?_, h4⟩
      · rcases List.mem_cons.1 hq with rfl | hq
        · exact h2.trans (not_lt.1 hc)
        · exact h1 q hq
      · rcases h3 with h3 | h3
        · left; exact h3
        · right; exact List.mem_cons_of_mem _ h3

/-- Edges that `Normalize` normalises. -/
def Long (e : V2 ℝ × V2 ℝ) : Prop := (1 / 1000) ^ 2 < distSq2 e.1 e.2

/-- The length of an edge. -/
noncomputable def elen (e : V2 ℝ × V2 ℝ) : ℝ := Float2.length (e.2 - e.1)

theorem elen_sq (e : V2 ℝ × V2 ℝ) : elen e * elen e = distSq2 e.1 e.2 := by
  unfold elen Float2.length
  rw [Real.mul_self_sqrt (by nlinarith [mul_self_nonneg (e.2 - e.1).x, mul_self_nonneg (e.2 - e.1).y])]
  simp only [distSq2, sub_x, sub_y]; ring

theorem elen_pos {e : V2 ℝ × V2 ℝ} (h : Long e) : 0 < elen e := by
  have h1 := elen_sq e
  have h2 : 0 ≤ elen e := Real.sqrt_nonneg _
  unfold Long at h
  rcases h2.lt_or_eq with h3 | h3
  · exact h3
  · rw [← h3, mul_zero] at h1; rw [← h1] at h; norm_num at h

theorem normalize_long {e : V2 ℝ × V2 ℝ} (h : Long e) : (Float2.normalize (e.2 - e.1)).1 = (1 / elen e) • (e.2 - e.1) := by
  unfold Float2.normalize
  rw [if_pos]
  · rfl
  · unfold Long distSq2 at h
    simp only [sub_x, sub_y]; nlinarith

/-- What one edge says about the best value found. -/
def FromEdge (sign : ℝ) (b : List (V2 ℝ)) (e : V2 ℝ × V2 ℝ) (r : Best) : Prop :=
  r.dist ≤ 0 ∧ (∀ q ∈ b, r.dist * elen e ≤ -area2 e.1 e.2 q) ∧ r.point ∈ b ∧ r.dist * elen e = -area2 e.1 e.2 r.point ∧ r.normal = (sign * (1 / elen e)) • perp (e.2 - e.1)

theorem edge_dist {e : V2 ℝ × V2 ℝ} (h : Long e) (q : V2 ℝ) :
    (perpDot q ((1 / elen e) • (e.2 - e.1)) - perpDot e.2 ((1 / elen e) • (e.2 - e.1))) * elen e = -area2 e.1 e.2 q := by
  have h0 := (elen_pos h).ne'
  have : perpDot q ((1 / elen e) • (e.2 - e.1)) - perpDot e.2 ((1 / elen e) • (e.2 - e.1)) = -area2 e.1 e.2 q / elen e := by
    rw [eq_div_iff h0]
    simp only [perpDot, area2, smul_x, smul_y, sub_x, sub_y]
    field_simp; ring
  rw [this]; field_simp

theorem penetrate_spec (sign : ℝ) (b0 : V2 ℝ) (bs : List (V2 ℝ)) : ∀ (l : List (V2 ℝ)) (z : V2 ℝ) (best : Option Best),
    (∀ e ∈ walk z l, Long e) →
    (∀ d, penetrate sign b0 bs best z l = .inl d → 0 < d ∧ ∃ e ∈ walk z l, ∀ q ∈ b0 :: bs, d * elen e ≤ -area2 e.1 e.2 q) ∧
    (∀ r, penetrate sign b0 bs best z l = .inr r → (r = none → l = [] ∧ best = none) ∧ ∀ b', r = some b' →
      (∀ old, best = some old → old.dist ≤ b'.dist) ∧ (∀ e ∈ walk z l, ∃ q ∈ b0 :: bs, -area2 e.1 e.2 q ≤ b'.dist * elen e) ∧
      (best = some b' ∨ ∃ e ∈ walk z l, FromEdge sign (b0 :: bs) e b')) := by
  intro l
  induction l with
  | nil =>
    intro z best _
    refine ⟨fun d h => by simp [penetrate] at h, fun r h => ?_⟩
    simp only [penetrate, Sum.inr.injEq] at h
    subst h
    refine ⟨fun h => ⟨rfl, h⟩, fun b' hb => ⟨fun old ho => ?_, by simp [walk_nil], Or.inl hb⟩⟩
    rw [hb] at ho; cases ho; exact le_rfl
  | cons p r ih =>
    intro z best hl
    rw [walk_cons] at hl
    have hL : Long (z, p) := hl _ (List.mem_cons_self ..)
    have hl' : ∀ e ∈ walk p r, Long e := fun e he => hl e (List.mem_cons_of_mem _ he)
    have h0 := elen_pos hL
    obtain ⟨m1, m2, m3⟩ := minPerpAt_spec ((1 / elen (z, p)) • (p - z)) bs b0
    have hD : ∀ q, (perpDot q ((1 / elen (z, p)) • (p - z)) - perpDot p ((1 / elen (z, p)) • (p - z))) * elen (z, p) = -area2 z p q := edge_dist hL
    unfold penetrate
    rw [show (Float2.normalize (p - z)).1 = (1 / elen (z, p)) • (p - z) from normalize_long hL]
    dsimp only
    generalize hd : (minPerpAt ((1 / elen (z, p)) • (p - z)) b0 bs).1 - perpDot p ((1 / elen (z, p)) • (p - z)) = d
    have hall : ∀ q ∈ b0 :: bs, d * elen (z, p) ≤ -area2 z p q := by
      intro q hq
      rw [← hD q, ← hd]
      exact mul_le_mul_of_nonneg_right (by linarith [m1 q hq]) h0.le
    have hex : ∃ q ∈ b0 :: bs, -area2 z p q = d * elen (z, p) := ⟨_, m2, by rw [← hD, ← hd, m3]⟩
    by_cases hc : d > 0
    · rw [if_pos hc]
      refine ⟨fun d' h => ?_, fun r h => by cases h⟩
      cases h
      exact ⟨hc, (z, p), List.mem_cons_self .., hall⟩
    · rw [if_neg hc]
      have hfrom : FromEdge sign (b0 :: bs) (z, p) ⟨d, (minPerpAt ((1 / elen (z, p)) • (p - z)) b0 bs).2, sign • Float2.perp' ((1 / elen (z, p)) • (p - z))⟩ := by
        refine ⟨not_lt.1 hc, hall, m2, by rw [← hD, ← hd, m3], ?_⟩
        simp only [Float2.perp', perp]
        ext
        · simp only [smul_x, smul_y]; ring
        · simp only [smul_x, smul_y]; ring
      have hnd : (⟨d, (minPerpAt ((1 / elen (z, p)) • (p - z)) b0 bs).2, sign • Float2.perp' ((1 / elen (z, p)) • (p - z))⟩ : Best).dist = d := rfl
      generalize (⟨d, (minPerpAt ((1 / elen (z, p)) • (p - z)) b0 bs).2, sign • Float2.perp' ((1 / elen (z, p)) • (p - z))⟩ : Best) = new at hfrom hnd ⊢
      have step : ∀ c : Best, d ≤ c.dist → (c = new ∨ best = some c) → (∀ old, best = some old → old.dist ≤ c.dist) →
          (∀ d, penetrate sign b0 bs (some c) p r = .inl d → 0 < d ∧ ∃ e ∈ walk z (p :: r), ∀ q ∈ b0 :: bs, d * elen e ≤ -area2 e.1 e.2 q) ∧
          (∀ s, penetrate sign b0 bs (some c) p r = .inr s → (s = none → p :: r = [] ∧ best = none) ∧ ∀ b', s = some b' →
            (∀ old, best = some old → old.dist ≤ b'.dist) ∧ (∀ e ∈ walk z (p :: r), ∃ q ∈ b0 :: bs, -area2 e.1 e.2 q ≤ b'.dist * elen e) ∧
            (best = some b' ∨ ∃ e ∈ walk z (p :: r), FromEdge sign (b0 :: bs) e b')) := by
        intro c hc1 hc2 hc3
        obtain ⟨i1, i2⟩ := ih p (some c) hl'
        rw [walk_cons]
        refine ⟨fun d h => ?_, fun s h => ?_⟩
        · obtain ⟨j1, e, he, j2⟩ := i1 d h
          exact ⟨j1, e, List.mem_cons_of_mem _ he, j2⟩
        · obtain ⟨j1, j2⟩ := i2 s h
          refine ⟨fun hs => by simpa using (j1 hs).2, fun b' hb => ?_⟩
          obtain ⟨k1, k2, k3⟩ := j2 b' hb
          have hcb := k1 c rfl
          refine ⟨fun old ho => (hc3 old ho).trans hcb, fun e he => ?_, ?_⟩
          · rcases List.mem_cons.1 he with rfl | he
            · obtain ⟨q, hq, hq'⟩ := hex
              exact ⟨q, hq, hq'.le.trans (mul_le_mul_of_nonneg_right (hc1.trans hcb) h0.le)⟩
            · exact k2 e he
          · rcases k3 with k3 | ⟨e, he, k3⟩
            · cases k3
              rcases hc2 with rfl | hc2
              · right; exact ⟨_, List.mem_cons_self .., hfrom⟩
              · left; exact hc2
            · right; exact ⟨e, List.mem_cons_of_mem _ he, k3⟩
      cases hb : best with
      | none =>
        rw [hb] at step
        exact step new hnd.ge (Or.inl rfl) (by intro old h; cases h)
      | some old =>
        rw [hb] at step
        dsimp only
        by_cases hgt : d > old.dist
        · rw [if_pos hgt]
          refine step new hnd.ge (Or.inl rfl) ?_
          intro o h; cases h; rw [hnd]; exact le_of_lt hgt
        · rw [if_neg hgt]
          refine step old (not_lt.1 hgt) (Or.inr rfl) ?_
          intro o h; cases h; exact le_rfl

theorem area_translate (t u v w : V2 ℝ) : area2 (u + t) (v + t) (w + t) = area2 u v w := by
  simp only [area2, add_x, add_y]; ring

theorem strict_translate {a : List (V2 ℝ)} (t : V2 ℝ) (h : StrictCCW a) : StrictCCW (a.map (· + t)) := by
  refine ⟨h.1.map fun u v huv => ?_, ?_⟩
  · have h1 := congrArg V2.x huv
    have h2 := congrArg V2.y huv
    simp only [add_x, add_y, add_left_inj] at h1 h2
    exact V2.ext h1 h2
  · rw [List.triplewise_map]
    refine h.2.imp fun {u v w} hh => ?_
    rw [area_translate]; exact hh

theorem edges_map (f : V2 ℝ → V2 ℝ) (a : List (V2 ℝ)) : edges2 (a.map f) = (edges2 a).map (Prod.map f f) := by
  unfold edges2
  rw [List.getLast?_map]
  cases h : a.getLast? with
  | none => rfl
  | some z =>
    simp only [Option.map_some]
    rw [← List.map_cons, List.zip_map]

theorem hull_translate {a : List (V2 ℝ)} {t q : V2 ℝ} (h : q ∈ hull2 (a.map (· + t))) : q - t ∈ hull2 a := by
  intro K hK hm
  refine h {z | z - t ∈ K} ?_ ?_
  · intro p hp q hq s r hs hr hsr
    have := hK _ hp _ hq s r hs hr hsr
    have e : r = 1 - s := by linear_combination hsr
    show _ ∈ K
    convert this using 1
    ext
    · simp only [sub_x]; rw [e]; ring
    · simp only [sub_y]; rw [e]; ring
  · intro s hs
    obtain ⟨w, hw, rfl⟩ := List.mem_map.1 hs
    show w + t - t ∈ K
    have : w + t - t = w := by ext <;> simp
    rw [this]; exact hm w hw

/-- The product of an edge with a vector is at most the product of the lengths. -/
theorem edge_cross (e : V2 ℝ × V2 ℝ) (d : ℝ) (hd : 0 ≤ d) (u : V2 ℝ) (h : (e.2.x - e.1.x) * u.y - (e.2.y - e.1.y) * u.x ≥ d * elen e) :
    d * d * distSq2 e.1 e.2 ≤ lenSq u * distSq2 e.1 e.2 := by
  have h1 := elen_sq e
  have h2 : 0 ≤ elen e := Real.sqrt_nonneg _
  have h3 : (d * elen e) * (d * elen e) ≤ ((e.2.x - e.1.x) * u.y - (e.2.y - e.1.y) * u.x) * ((e.2.x - e.1.x) * u.y - (e.2.y - e.1.y) * u.x) :=
    mul_self_le_mul_self (mul_nonneg hd h2) h
  have h4 : ((e.2.x - e.1.x) * u.y - (e.2.y - e.1.y) * u.x) * ((e.2.x - e.1.x) * u.y - (e.2.y - e.1.y) * u.x) ≤ lenSq u * distSq2 e.1 e.2 := by
    simp only [lenSq, dot, distSq2]
    nlinarith [mul_self_nonneg ((e.2.x - e.1.x) * u.x + (e.2.y - e.1.y) * u.y)]
  calc d * d * distSq2 e.1 e.2 = (d * elen e) * (d * elen e) := by rw [← h1]; ring
    _ ≤ _ := h3.trans h4

/-- Moving by less than the penetration does not carry a vertex over an edge. -/
theorem move_small {e : V2 ℝ × V2 ℝ} (hL : Long e) {d : ℝ} (hd : d ≤ 0) {t : V2 ℝ} (ht : lenSq t < d * d) :
    (e.2.x - e.1.x) * t.y - (e.2.y - e.1.y) * t.x ≤ -d * elen e ∧ d * elen e ≤ (e.2.x - e.1.x) * t.y - (e.2.y - e.1.y) * t.x := by
  have hp : 0 < distSq2 e.1 e.2 := lt_trans (by norm_num) hL
  constructor
  · by_contra hc
    have := edge_cross e (-d) (by linarith) t (not_le.1 hc).le
    have := le_of_mul_le_mul_right this hp
    nlinarith
  · by_contra hc
    have := edge_cross e (-d) (by linarith) (-t) (by simp only [neg_x, neg_y]; linarith [not_le.1 hc])
    have := le_of_mul_le_mul_right this hp
    simp only [lenSq, dot, neg_x, neg_y] at this ht
    nlinarith

theorem dot_perp_area {e : V2 ℝ × V2 ℝ} (hL : Long e) (s : ℝ) (w : V2 ℝ) :
    (dot ((s * (1 / elen e)) • perp (e.2 - e.1)) w - dot ((s * (1 / elen e)) • perp (e.2 - e.1)) e.2) * elen e = s * area2 e.1 e.2 w := by
  have h0 := (elen_pos hL).ne'
  have : dot ((s * (1 / elen e)) • perp (e.2 - e.1)) w - dot ((s * (1 / elen e)) • perp (e.2 - e.1)) e.2 = s * area2 e.1 e.2 w / elen e := by
    rw [eq_div_iff h0]
    simp only [dot, area2, perp, smul_x, smul_y, sub_x, sub_y]
    field_simp; ring
  rw [this]; field_simp

theorem unit_perp {e : V2 ℝ × V2 ℝ} (hL : Long e) {s : ℝ} (hs : s * s = 1) : lenSq ((s * (1 / elen e)) • perp (e.2 - e.1)) = 1 := by
  have h0 := (elen_pos hL).ne'
  have h1 := elen_sq e
  have : lenSq ((s * (1 / elen e)) • perp (e.2 - e.1)) = s * s * distSq2 e.1 e.2 / (elen e * elen e) := by
    rw [eq_div_iff (mul_ne_zero h0 h0)]
    simp only [lenSq, dot, perp, smul_x, smul_y, sub_x, sub_y, distSq2]
    field_simp; ring
  rw [this, hs, h1, one_mul, div_self]
  exact (lt_trans (by norm_num) hL).ne'

end MGL.SAT2D
