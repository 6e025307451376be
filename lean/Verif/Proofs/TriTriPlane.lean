import Verif.Proofs.TriTri
import Verif.Props.Float3

/-! Facts for triangles in a common plane. -/

set_option linter.unusedSectionVars false

namespace MGL
open V3 Spec

/-! ### Segments of the plane -/

open MinAreaRect in
/-- Segments with a common point, parallel or clearly not parallel, are found to intersect. -/
theorem seg2D_complete (p0 d0 p1 d1 : V2 ℝ) (h : perpDot d0 d1 = 0 ∨ 1 / 100000000 * V2.lenSq d0 * V2.lenSq d1 < perpDot d0 d1 * perpDot d0 d1)
    (hd : 0 < V2.lenSq d0) (s t : ℝ) (s0 : 0 ≤ s) (s1 : s ≤ 1) (t0 : 0 ≤ t) (t1 : t ≤ 1) (hm : p0 + s • d0 = p1 + t • d1) :
    (seg2DIntersect p0 d0 p1 d1).1 = true := by
  have ex := congrArg V2.x hm
  have ey := congrArg V2.y hm
  simp only [V2.add_x, V2.smul_x, V2.add_y, V2.smul_y] at ex ey
  have e1 : perpDot (p1 - p0) d1 = s * perpDot d0 d1 := by
    simp only [perpDot, V2.sub_x, V2.sub_y]; linear_combination d1.x * ey - d1.y * ex
  have e2 : perpDot (p1 - p0) d0 = t * perpDot d0 d1 := by
    simp only [perpDot, V2.sub_x, V2.sub_y]; linear_combination d0.x * ey - d0.y * ex
  unfold seg2DIntersect
  dsimp only
  rw [e1, e2]
  rcases h with h | h
  · rw [h]
    have hl0 := hd.le
    have hl1 : 0 ≤ V2.lenSq d1 := by simp only [V2.lenSq, V2.dot]; nlinarith [mul_self_nonneg d1.x, mul_self_nonneg d1.y]
    have hle : 0 ≤ V2.lenSq (p1 - p0) := by
      simp only [V2.lenSq, V2.dot]; nlinarith [mul_self_nonneg (p1 - p0).x, mul_self_nonneg (p1 - p0).y]
    rw [if_neg (by rw [not_lt]; have := mul_nonneg hl0 hl1; linarith), if_neg (by rw [not_lt]; have := mul_nonneg hl0 hle; linarith)]
    simp only [min2_eq, max2_eq, decide_eq_true_eq]
    have hs : s = V2.dot d0 (p1 - p0) / V2.lenSq d0 + t * (V2.dot d0 d1 / V2.lenSq d0) := by
      rw [mul_div_assoc', ← add_div, eq_div_iff hd.ne']
      simp only [V2.lenSq, V2.dot, V2.sub_x, V2.sub_y]
      linear_combination d0.x * ex + d0.y * ey
    generalize V2.dot d0 (p1 - p0) / V2.lenSq d0 = x at *
    generalize V2.dot d0 d1 / V2.lenSq d0 = y at *
    have k1 : min x (x + y) ≤ 1 := by
      rcases le_total 0 y with hy | hy
      · exact (min_le_left _ _).trans (by nlinarith)
      · exact (min_le_right _ _).trans (by nlinarith)
    have k2 : 0 ≤ max x (x + y) := by
      rcases le_total 0 y with hy | hy
      · exact le_trans (by nlinarith) (le_max_right _ _)
      · exact le_trans (by nlinarith) (le_max_left _ _)
    unfold intervalIntersection
    rw [if_neg (by rintro (h | h) <;> linarith)]
    split_ifs <;> simp
  · rw [if_pos h]
    have hc : perpDot d0 d1 ≠ 0 := fun h0 => by
      rw [h0] at h
      have hl1 : 0 ≤ V2.lenSq d1 := by simp only [V2.lenSq, V2.dot]; nlinarith [mul_self_nonneg d1.x, mul_self_nonneg d1.y]
      have := mul_nonneg hd.le hl1
      linarith
    rw [mul_div_assoc, div_self hc, mul_div_assoc, div_self hc]
    simp only [mul_one, Bool.and_eq_true, decide_eq_true_eq]
    exact ⟨⟨⟨s0, s1⟩, t0⟩, t1⟩

open MinAreaRect in
/-- Segments that are clearly not parallel and are found to intersect have a common point. -/
theorem seg2D_sound (p0 d0 p1 d1 : V2 ℝ) (h : 1 / 100000000 * V2.lenSq d0 * V2.lenSq d1 < perpDot d0 d1 * perpDot d0 d1)
    (hi : (seg2DIntersect p0 d0 p1 d1).1 = true) :
    ∃ s t : ℝ, 0 ≤ s ∧ s ≤ 1 ∧ 0 ≤ t ∧ t ≤ 1 ∧ p0 + s • d0 = p1 + t • d1 ∧ (seg2DIntersect p0 d0 p1 d1).2 = some (s, t) := by
  have hc : perpDot d0 d1 ≠ 0 := fun h0 => by
    rw [h0] at h
    have hl0 : 0 ≤ V2.lenSq d0 := by simp only [V2.lenSq, V2.dot]; nlinarith [mul_self_nonneg d0.x, mul_self_nonneg d0.y]
    have hl1 : 0 ≤ V2.lenSq d1 := by simp only [V2.lenSq, V2.dot]; nlinarith [mul_self_nonneg d1.x, mul_self_nonneg d1.y]
    have := mul_nonneg hl0 hl1
    linarith
  unfold seg2DIntersect at hi ⊢
  dsimp only at hi ⊢
  rw [if_pos h] at hi ⊢
  simp only [Bool.and_eq_true, decide_eq_true_eq] at hi
  obtain ⟨⟨⟨a, b⟩, c⟩, d⟩ := hi
  refine ⟨_, _, a, b, c, d, ?_, rfl⟩
  ext
  · simp only [V2.add_x, V2.smul_x]
    field_simp
    simp only [perpDot, V2.sub_x, V2.sub_y]; ring
  · simp only [V2.add_y, V2.smul_y]
    field_simp
    simp only [perpDot, V2.sub_x, V2.sub_y]; ring

/-! ### Coordinates in a plane -/

/-- An orthonormal basis of the plane with the normal `n`. -/
structure PlaneBasis (n U V : V3 ℝ) : Prop where
  uu : dot U U = 1
  vv : dot V V = 1
  nu : dot n U = 0
  nv : dot n V = 0
  uv : dot U V = 0
  cr : cross U V = n

theorem PlaneBasis.expand {n U V : V3 ℝ} (h : PlaneBasis n U V) {w : V3 ℝ} (hw : dot n w = 0) : w = dot U w • U + dot V w • V := by
  have e : lenSq (w - (dot U w • U + dot V w • V)) = 0 := by
    have g : dot (cross U V) w * dot (cross U V) w = lenSq w * (dot U U * dot V V - dot U V * dot U V) - dot U w * (dot U w * dot V V - dot U V * dot V w) +
        dot V w * (dot U w * dot U V - dot U U * dot V w) := by
      simp only [lenSq, dot, cross]; ring
    rw [h.cr, hw, h.uu, h.vv, h.uv] at g
    have k : lenSq (w - (dot U w • U + dot V w • V)) = lenSq w - 2 * (dot U w * dot U w + dot V w * dot V w) +
        (dot U w * dot U w * dot U U + 2 * dot U w * dot V w * dot U V + dot V w * dot V w * dot V V) := by
      generalize hp : dot U w = p
      generalize hq : dot V w = q
      have e1 : lenSq (w - (p • U + q • V)) = lenSq w - 2 * (p * dot U w + q * dot V w) + (p * p * dot U U + 2 * p * q * dot U V + q * q * dot V V) := by
        simp only [lenSq, dot, sub_x, sub_y, sub_z, add_x, add_y, add_z, smul_x, smul_y, smul_z]; ring
      rw [e1, hp, hq]
    rw [k, h.uu, h.vv, h.uv]
    linarith
  exact sub_eq_zero.1 (lenSq_eq_zero.1 e)

theorem PlaneBasis.lenSq2 {n U V : V3 ℝ} (h : PlaneBasis n U V) {w : V3 ℝ} (hw : dot n w = 0) :
    V2.lenSq ⟨dot U w, dot V w⟩ = lenSq w := by
  have e := h.expand hw
  have k : lenSq w = dot U w * dot U w + dot V w * dot V w := by
    have : lenSq w = dot w w := rfl
    rw [this]
    conv_lhs => rw [e]
    generalize dot U w = p at *
    generalize dot V w = q at *
    have e1 : dot (p • U + q • V) (p • U + q • V) = p * p * dot U U + 2 * p * q * dot U V + q * q * dot V V := by
      simp only [dot, add_x, add_y, add_z, smul_x, smul_y, smul_z]; ring
    rw [e1, h.uu, h.vv, h.uv]; ring
  rw [k]; rfl

open MinAreaRect in
theorem PlaneBasis.perp2 {n U V : V3 ℝ} (h : PlaneBasis n U V) {v w : V3 ℝ} (hv : dot n v = 0) (hw : dot n w = 0) :
    perpDot ⟨dot U v, dot V v⟩ ⟨dot U w, dot V w⟩ * perpDot ⟨dot U v, dot V v⟩ ⟨dot U w, dot V w⟩ = lenSq (cross v w) := by
  have e : perpDot ⟨dot U v, dot V v⟩ ⟨dot U w, dot V w⟩ = dot n (cross v w) := by
    rw [← h.cr]; simp only [perpDot, dot, cross]; ring
  have hn : lenSq n = 1 := by
    have g : lenSq (cross U V) = dot U U * dot V V - dot U V * dot U V := by simp only [lenSq, dot, cross]; ring
    rw [h.cr, h.uu, h.vv, h.uv] at g; linarith
  have g : dot n (cross v w) * dot n (cross v w) = lenSq n * lenSq (cross v w) - lenSq (cross n (cross v w)) := by
    simp only [lenSq, dot, cross]; ring
  have z : cross n (cross v w) = dot n w • v - dot n v • w := by
    ext <;> simp only [cross, dot, sub_x, sub_y, sub_z, smul_x, smul_y, smul_z] <;> ring
  have z0 : lenSq (cross n (cross v w)) = 0 := by rw [z, hv, hw]; simp [lenSq, dot]
  rw [e, g, hn, z0]; ring

namespace Tri

/-- From a point of a triangle towards a point of its plane that is outside it: an edge is met. -/
theorem exit_seg {t : Tri ℝ} (hn : cross (t.b - t.a) (t.c - t.a) ≠ 0) {x z : V3 ℝ} (hx : x ∈ tri t.a t.b t.c)
    (hz : dot (cross (t.b - t.a) (t.c - t.a)) (z - t.a) = 0) (hout : z ∉ tri t.a t.b t.c) : ∃ y ∈ seg x z, OnEdge t.a t.b t.c y := by
  obtain ⟨q, -, hq1, hq2, -⟩ := C32_barycentric t hn z hz
  obtain ⟨u, v, w, hu, hv, hw, h1, rfl⟩ := hx
  have hq2' : q.x • t.a + q.y • t.b + q.z • t.c = z := hq2
  rcases exit_lemma [(u, q.x), (v, q.y), (w, q.z)] (by simp; exact ⟨hu, hv, hw⟩) with h | ⟨s, s0, s1, h2, p, hp, h3⟩
  · exact absurd ⟨q.x, q.y, q.z, h (u, q.x) (by simp), h (v, q.y) (by simp), h (w, q.z) (by simp), hq1, hq2'.symm⟩ hout
  · refine ⟨((1 - s) * u + s * q.x) • t.a + ((1 - s) * v + s * q.y) • t.b + ((1 - s) * w + s * q.z) • t.c, ⟨s, s0, s1, ?_⟩, ?_⟩
    · rw [← hq2']
      ext <;> simp <;> ring
    · refine onEdge_of_zero (h2 (u, q.x) (by simp)) (h2 (v, q.y) (by simp)) (h2 (w, q.z) (by simp)) (by linear_combination (1 - s) * h1 + s * hq1) ?_
      simp only [List.mem_cons, List.not_mem_nil, or_false] at hp
      rcases hp with rfl | rfl | rfl
      · exact Or.inl h3
      · exact Or.inr (Or.inl h3)
      · exact Or.inr (Or.inr h3)

theorem onEdge_triEdges {t : Tri ℝ} {x : V3 ℝ} : OnEdge t.a t.b t.c x ↔ ∃ e ∈ triEdges t.a t.b t.c, x ∈ seg e.1 e.2 := by
  simp [OnEdge, triEdges]

theorem triEdges_sub {t : Tri ℝ} {e : V3 ℝ × V3 ℝ} (he : e ∈ triEdges t.a t.b t.c) : ∀ x ∈ seg e.1 e.2, x ∈ tri t.a t.b t.c := by
  simp only [triEdges, List.mem_cons, List.not_mem_nil, or_false] at he
  rcases he with rfl | rfl | rfl
  · exact fun x hx => seg_sub_tri _ _ _ hx
  · intro x hx; rw [← tri_cycle]; exact seg_sub_tri _ _ _ hx
  · intro x hx; rw [← tri_cycle, ← tri_cycle]; exact seg_sub_tri _ _ _ hx

theorem tri_plane {t : Tri ℝ} {x : V3 ℝ} (hx : x ∈ tri t.a t.b t.c) : dot (cross (t.b - t.a) (t.c - t.a)) (x - t.a) = 0 := by
  obtain ⟨u, v, w, -, -, -, h, rfl⟩ := hx
  obtain rfl : u = 1 - v - w := by linarith
  simp only [dot, cross, add_x, add_y, add_z, smul_x, smul_y, smul_z, sub_x, sub_y, sub_z]; ring

/-- Two triangles of a plane with a common point, neither containing the first vertex of the other, have edges with a common point. -/
theorem edges_cross {t t2 : Tri ℝ} (h1 : cross (t.b - t.a) (t.c - t.a) ≠ 0) (h2 : cross (t2.b - t2.a) (t2.c - t2.a) ≠ 0)
    (p1 : ∀ x ∈ tri t2.a t2.b t2.c, dot (cross (t.b - t.a) (t.c - t.a)) (x - t.a) = 0)
    (p2 : ∀ x ∈ tri t.a t.b t.c, dot (cross (t2.b - t2.a) (t2.c - t2.a)) (x - t2.a) = 0)
    {x : V3 ℝ} (hx : x ∈ tri t.a t.b t.c) (hx2 : x ∈ tri t2.a t2.b t2.c) (ha : t.a ∉ tri t2.a t2.b t2.c) (ha2 : t2.a ∉ tri t.a t.b t.c) :
    ∃ e ∈ triEdges t.a t.b t.c, ∃ f ∈ triEdges t2.a t2.b t2.c, ∃ y, y ∈ seg e.1 e.2 ∧ y ∈ seg f.1 f.2 := by
  have va : t.a ∈ tri t.a t.b t.c := ⟨1, 0, 0, by norm_num, le_rfl, le_rfl, by norm_num, by ext <;> simp⟩
  have wa : t2.a ∈ tri t2.a t2.b t2.c := ⟨1, 0, 0, by norm_num, le_rfl, le_rfl, by norm_num, by ext <;> simp⟩
  have wb : t2.b ∈ tri t2.a t2.b t2.c := ⟨0, 1, 0, le_rfl, by norm_num, le_rfl, by norm_num, by ext <;> simp⟩
  have wc : t2.c ∈ tri t2.a t2.b t2.c := ⟨0, 0, 1, le_rfl, le_rfl, by norm_num, by norm_num, by ext <;> simp⟩
  obtain ⟨y, hy, hyo⟩ := exit_seg h2 hx2 (p2 _ va) ha
  have hyt : y ∈ tri t.a t.b t.c := tri_convex _ _ _ x hx _ va hy
  have go : ∀ p q : V3 ℝ, p ∈ tri t.a t.b t.c → q ∈ tri t2.a t2.b t2.c → q ∉ tri t.a t.b t.c →
      (∃ f ∈ triEdges t2.a t2.b t2.c, ∀ z ∈ seg p q, z ∈ seg f.1 f.2) →
      ∃ e ∈ triEdges t.a t.b t.c, ∃ f ∈ triEdges t2.a t2.b t2.c, ∃ y, y ∈ seg e.1 e.2 ∧ y ∈ seg f.1 f.2 := by
    rintro p q hp hq hqo ⟨f, hf, hs⟩
    obtain ⟨z, hz, hzo⟩ := exit_seg h1 hp (p1 _ hq) hqo
    obtain ⟨e, he, hze⟩ := onEdge_triEdges.1 hzo
    exact ⟨e, he, f, hf, z, hze, hs z hz⟩
  have sub : ∀ (p q r : V3 ℝ), r ∈ seg p q → ∀ z ∈ seg r p, z ∈ seg p q := by
    rintro p q _ ⟨k, k0, k1, rfl⟩ _ ⟨m, m0, m1, rfl⟩
    exact ⟨(1 - m) * k, mul_nonneg (by linarith) k0, by nlinarith, by ext <;> simp <;> ring⟩
  rcases hyo with hy | hy | hy
  · exact go y t2.a hyt wa ha2 ⟨(t2.a, t2.b), by simp [triEdges], sub _ _ _ hy⟩
  · by_cases hb : t2.b ∈ tri t.a t.b t.c
    · exact go t2.b t2.a hb wa ha2 ⟨(t2.a, t2.b), by simp [triEdges], fun z hz => by rw [seg_comm]; exact hz⟩
    · exact go y t2.b hyt wb hb ⟨(t2.b, t2.c), by simp [triEdges], sub _ _ _ hy⟩
  · exact go y t2.a hyt wa ha2 ⟨(t2.c, t2.a), by simp [triEdges], fun z hz => by
      rw [seg_comm] at hy ⊢; exact sub _ _ _ hy z hz⟩

theorem edgeEdge_isSome (a U V : V3 ℝ) (p q r s : V2 ℝ) : (edgeEdge a U V p q r s).isSome = (seg2DIntersect p (q - p) r (s - r)).1 := by
  unfold edgeEdge
  generalize seg2DIntersect p (q - p) r (s - r) = x
  obtain ⟨b, o⟩ := x
  cases b <;> cases o <;> rfl

/-- The coordinates of a point. -/
def coord (U V a x : V3 ℝ) : V2 ℝ := ⟨dot U (x - a), dot V (x - a)⟩

theorem coord_sub (U V a p q : V3 ℝ) : coord U V a q - coord U V a p = ⟨dot U (q - p), dot V (q - p)⟩ := by
  ext <;> simp only [coord, V2.sub_x, V2.sub_y, dot, sub_x, sub_y, sub_z] <;> ring

theorem coord_self (U V a : V3 ℝ) : coord U V a a = ⟨0, 0⟩ := by
  ext <;> simp [coord, dot]

/-- The parallel case: it is found out by vertex containment or by one of the nine pairs of edges. -/
theorem parallel_isSome (nz : Bool) (t t2 : Tri ℝ) (n : V3 ℝ) (hd : dot n t.a = dot n t2.a) :
    (t.intersectsTriParallel nz t2 n).isSome = true ↔ t2.containsAnyThickness t.a = true ∨ t.containsAnyThickness t2.a = true ∨
      ∃ e ∈ triEdges t.a t.b t.c, ∃ f ∈ triEdges t2.a t2.b t2.c,
        (seg2DIntersect (coord (f3PerpendicularBasis nz n).1 (f3PerpendicularBasis nz n).2 t.a e.1)
          (coord (f3PerpendicularBasis nz n).1 (f3PerpendicularBasis nz n).2 t.a e.2 - coord (f3PerpendicularBasis nz n).1 (f3PerpendicularBasis nz n).2 t.a e.1)
          (coord (f3PerpendicularBasis nz n).1 (f3PerpendicularBasis nz n).2 t.a f.1)
          (coord (f3PerpendicularBasis nz n).1 (f3PerpendicularBasis nz n).2 t.a f.2 - coord (f3PerpendicularBasis nz n).1 (f3PerpendicularBasis nz n).2 t.a f.1)).1 = true := by
  unfold intersectsTriParallel
  rw [hd, sub_self, absF_eq, abs_zero, if_neg (by norm_num)]
  cases hc1 : t2.containsAnyThickness t.a
  · cases hc2 : t.containsAnyThickness t2.a
    · dsimp only
      rw [← coord_self (f3PerpendicularBasis nz n).1 (f3PerpendicularBasis nz n).2 t.a]
      change (Option.isSome (if (false || false) = true then _ else edgeEdge t.a _ _ (coord _ _ _ _) (coord _ _ _ t.b) (coord _ _ _ t2.a) (coord _ _ _ t2.b) <|> _)) = true ↔ _
      have hor : ∀ (x y : Option (Option (LineSeg ℝ))), (x <|> y).isSome = (x.isSome || y.isSome) := fun x y => by cases x <;> rfl
      simp only [Bool.or_self, Bool.false_eq_true, if_false, hor, edgeEdge_isSome, Bool.or_eq_true, false_or, triEdges, List.mem_cons,
        List.not_mem_nil, or_false, exists_eq_or_imp, exists_eq_left, or_assoc]
      rfl
    · simp
  · simp

end Tri
end MGL
