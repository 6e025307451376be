import Verif.Props.Triangle
import Verif.Props.Line
import Verif.Proofs.Exit

/-! C33: line, ray and segment against triangle; C31: closest pairs of a triangle and a line or segment. -/

namespace MGL
open V3
variable {α : Type*} [Field α] [LinearOrder α] [IsStrictOrderedRing α]

set_option linter.unusedSectionVars false

/-- The plane coordinates of the point where a line meets the plane of a triangle are determined. -/
theorem line_tri_unique {o d a b c : V3 α} (hdet : dot d (cross (b - a) (c - a)) ≠ 0) {t u v t' u' v' : α}
    (h : o + t • d = a + (u • (b - a) + v • (c - a))) (h' : o + t' • d = a + (u' • (b - a) + v' • (c - a))) : t = t' ∧ u = u' ∧ v = v' := by
  have e : (t - t') • d = (u - u') • (b - a) + (v - v') • (c - a) := by
    have hx := congrArg V3.x h
    have hy := congrArg V3.y h
    have hz := congrArg V3.z h
    have hx' := congrArg V3.x h'
    have hy' := congrArg V3.y h'
    have hz' := congrArg V3.z h'
    simp at hx hy hz hx' hy' hz'
    ext
    · simp; linear_combination hx - hx'
    · simp; linear_combination hy - hy'
    · simp; linear_combination hz - hz'
  have k1 : (t - t') * dot d (cross (b - a) (c - a)) = 0 := by
    rw [← smul_dot, e]; simp only [dot, cross]; simp; ring
  have k2 : (u - u') * dot d (cross (b - a) (c - a)) = 0 := by
    have h1 : (u - u') * dot d (cross (b - a) (c - a)) = -dot (cross d (c - a)) ((u - u') • (b - a) + (v - v') • (c - a)) := by
      simp only [dot, cross]; simp; ring
    rw [h1, ← e]; simp only [dot, cross]; simp; ring
  have k3 : (v - v') * dot d (cross (b - a) (c - a)) = 0 := by
    have h1 : (v - v') * dot d (cross (b - a) (c - a)) = dot (cross d (b - a)) ((u - u') • (b - a) + (v - v') • (c - a)) := by
      simp only [dot, cross]; simp; ring
    rw [h1, ← e]; simp only [dot, cross]; simp; ring
  refine ⟨?_, ?_, ?_⟩
  · exact sub_eq_zero.1 ((mul_eq_zero.1 k1).resolve_right hdet)
  · exact sub_eq_zero.1 ((mul_eq_zero.1 k2).resolve_right hdet)
  · exact sub_eq_zero.1 ((mul_eq_zero.1 k3).resolve_right hdet)

/-- C33: exactly when `IntersectLineTri` reports a hit, and what it reports: the determinant exceeds the tolerance, the line
point and the triangle point are the same, and the barycentric coordinates are in range up to the tolerance. -/
theorem C33_intersectLineTri (o d a b c : V3 α) (t u v : α) :
    Tri.intersectLineTri o d a b c = some (t, u, v) ↔
      1 / 10000 < |dot d (cross (b - a) (c - a))| ∧ o + t • d = a + (u • (b - a) + v • (c - a)) ∧
      -(1 / 10000) ≤ u ∧ u ≤ 1 + 1 / 10000 ∧ -(1 / 10000) ≤ v ∧ u + v ≤ 1 + 1 / 10000 := by
  have edet : dot (b - a) (cross d (c - a)) = -dot d (cross (b - a) (c - a)) := by simp only [dot, cross]; ring
  have sol : dot d (cross (b - a) (c - a)) ≠ 0 →
      o + (dot (c - a) (cross (o - a) (b - a)) * (1 / dot (b - a) (cross d (c - a)))) • d =
      a + ((dot (o - a) (cross d (c - a)) * (1 / dot (b - a) (cross d (c - a)))) • (b - a) +
        (dot d (cross (o - a) (b - a)) * (1 / dot (b - a) (cross d (c - a)))) • (c - a)) := by
    intro h
    have hd : dot (b - a) (cross d (c - a)) ≠ 0 := by rw [edet]; exact neg_ne_zero.2 h
    have e : dot (b - a) (cross d (c - a)) • (o - a) + dot (c - a) (cross (o - a) (b - a)) • d =
        dot (o - a) (cross d (c - a)) • (b - a) + dot d (cross (o - a) (b - a)) • (c - a) := by
      ext <;> simp only [dot, cross] <;> simp <;> ring
    generalize dot (b - a) (cross d (c - a)) = D at *
    have ex := congrArg V3.x e
    have ey := congrArg V3.y e
    have ez := congrArg V3.z e
    simp only [V3.smul_x, V3.smul_y, V3.smul_z, V3.add_x, V3.add_y, V3.add_z, V3.sub_x, V3.sub_y, V3.sub_z] at ex ey ez
    ext
    · simp only [V3.smul_x, V3.add_x, V3.sub_x]; field_simp; linear_combination ex
    · simp only [V3.smul_y, V3.add_y, V3.sub_y]; field_simp; linear_combination ey
    · simp only [V3.smul_z, V3.add_z, V3.sub_z]; field_simp; linear_combination ez
  unfold Tri.intersectLineTri
  dsimp only
  rw [absF_eq, edet, abs_neg]
  rw [edet] at sol
  by_cases h0 : |dot d (cross (b - a) (c - a))| ≤ 1 / 10000
  · rw [if_pos h0]
    constructor
    · intro h; cases h
    · rintro ⟨h, -⟩; exact absurd h (not_lt.2 h0)
  · rw [if_neg h0]
    push Not at h0
    have hne : dot d (cross (b - a) (c - a)) ≠ 0 := by
      intro h; rw [h, abs_zero] at h0; have : (0 : α) < 1 / 10000 := by positivity
      linarith
    have sol := sol hne
    generalize dot (o - a) (cross d (c - a)) * (1 / -dot d (cross (b - a) (c - a))) = U at *
    generalize dot d (cross (o - a) (b - a)) * (1 / -dot d (cross (b - a) (c - a))) = V at *
    generalize dot (c - a) (cross (o - a) (b - a)) * (1 / -dot d (cross (b - a) (c - a))) = T at *
    constructor
    · intro h
      split_ifs at h with h1 h2
      push Not at h1 h2
      obtain ⟨k1, k2⟩ := Prod.mk.inj (Option.some.inj h)
      obtain ⟨k3, k4⟩ := Prod.mk.inj k2
      rw [← k1, ← k3, ← k4]
      exact ⟨h0, sol, h1.1, h1.2, h2.1, h2.2⟩
    · rintro ⟨-, h1, h2, h3, h4, h5⟩
      obtain ⟨rfl, rfl, rfl⟩ := line_tri_unique hne sol h1
      rw [if_neg (by push Not; exact ⟨h2, h3⟩), if_neg (by push Not; exact ⟨h4, h5⟩)]

/-- C33: a reported hit lies on the line, ray or segment at the reported parameter, and it is the point of the plane of the
triangle with the reported barycentric coordinates. -/
theorem C33_hit (t : Tri α) :
    (∀ (l : Line α) (d : α) (p : V3 α), t.intersectsLine l = some (d, p) → p = l.pos + d • l.dir ∧
      ∃ u v : α, p = t.point2 u v ∧ -(1 / 10000) ≤ u ∧ -(1 / 10000) ≤ v ∧ u + v ≤ 1 + 1 / 10000) ∧
    (∀ (l : Ray α) (d : α) (p : V3 α), t.intersectsRay l = some (d, p) → p = l.pos + d • l.dir ∧ 0 ≤ d ∧
      ∃ u v : α, p = t.point2 u v ∧ -(1 / 10000) ≤ u ∧ -(1 / 10000) ≤ v ∧ u + v ≤ 1 + 1 / 10000) ∧
    (∀ (l : LineSeg α) (d : α) (p : V3 α), t.intersectsSeg l = some (d, p) → p = l.a + d • (l.b - l.a) ∧ 0 ≤ d ∧ d ≤ 1 ∧
      ∃ u v : α, p = t.point2 u v ∧ -(1 / 10000) ≤ u ∧ -(1 / 10000) ≤ v ∧ u + v ≤ 1 + 1 / 10000) := by
  refine ⟨?_, ?_, ?_⟩
  · intro l d p h
    unfold Tri.intersectsLine at h
    rcases hh : Tri.intersectLineTri l.pos l.dir t.a t.b t.c with _ | ⟨d', u, v⟩
    · rw [hh] at h; cases h
    · rw [hh] at h
      obtain ⟨rfl, rfl⟩ := Prod.mk.inj (Option.some.inj h)
      obtain ⟨-, h1, h2, -, h4, h5⟩ := (C33_intersectLineTri _ _ _ _ _ _ _ _).1 hh
      exact ⟨rfl, u, v, h1, h2, h4, h5⟩
  · intro l d p h
    unfold Tri.intersectsRay at h
    rcases hh : Tri.intersectLineTri l.pos l.dir t.a t.b t.c with _ | ⟨d', u, v⟩
    · rw [hh] at h; cases h
    · rw [hh] at h
      dsimp only at h
      split_ifs at h with h0
      obtain ⟨rfl, rfl⟩ := Prod.mk.inj (Option.some.inj h)
      obtain ⟨-, h1, h2, -, h4, h5⟩ := (C33_intersectLineTri _ _ _ _ _ _ _ _).1 hh
      exact ⟨rfl, h0, u, v, h1, h2, h4, h5⟩
  · intro l d p h
    unfold Tri.intersectsSeg at h
    rcases hh : Tri.intersectLineTri l.a (l.b - l.a) t.a t.b t.c with _ | ⟨d', u, v⟩
    · rw [hh] at h; cases h
    · rw [hh] at h
      dsimp only at h
      split_ifs at h with h0
      obtain ⟨rfl, rfl⟩ := Prod.mk.inj (Option.some.inj h)
      obtain ⟨-, h1, h2, -, h4, h5⟩ := (C33_intersectLineTri _ _ _ _ _ _ _ _).1 hh
      have e : l.getPoint d' = l.a + d' • (l.b - l.a) := by unfold LineSeg.getPoint; ext <;> simp <;> ring
      exact ⟨e, h0.1, h0.2, u, v, e.trans h1, h2, h4, h5⟩

example := (C33_hit (⟨⟨0, 0, 0⟩, ⟨1, 0, 0⟩, ⟨0, 1, 0⟩⟩ : Tri ℚ)).1 ⟨⟨1/4, 1/4, 3⟩, ⟨0, 0, 1⟩⟩ (-3) ⟨1/4, 1/4, 0⟩ (by decide +kernel)

theorem tri_coords {a b c x : V3 α} (h : x ∈ Spec.tri a b c) : ∃ u v : α, 0 ≤ u ∧ 0 ≤ v ∧ u + v ≤ 1 ∧ x = a + (u • (b - a) + v • (c - a)) := by
  obtain ⟨u, v, w, hu, hv, hw, h1, rfl⟩ := h
  obtain rfl : u = 1 - v - w := by linarith
  exact ⟨v, w, hv, hw, by linarith, by ext <;> simp <;> ring⟩

/-- C33: a line, ray or segment that meets the triangle, with determinant above the tolerance, is reported, with the meeting
point and its parameter. -/
theorem C33_complete (tr : Tri α) (x : V3 α) (hx : x ∈ Spec.tri tr.a tr.b tr.c) (t : α) :
    (∀ l : Line α, 1 / 10000 < |dot l.dir (cross (tr.b - tr.a) (tr.c - tr.a))| → x = l.pos + t • l.dir → tr.intersectsLine l = some (t, x)) ∧
    (∀ l : Ray α, 1 / 10000 < |dot l.dir (cross (tr.b - tr.a) (tr.c - tr.a))| → 0 ≤ t → x = l.pos + t • l.dir → tr.intersectsRay l = some (t, x)) ∧
    (∀ l : LineSeg α, 1 / 10000 < |dot (l.b - l.a) (cross (tr.b - tr.a) (tr.c - tr.a))| → 0 ≤ t → t ≤ 1 → x = l.a + t • (l.b - l.a) →
      tr.intersectsSeg l = some (t, x)) := by
  obtain ⟨u, v, hu, hv, huv, hxe⟩ := tri_coords hx
  have e0 : (0 : α) < 1 / 10000 := by positivity
  refine ⟨?_, ?_, ?_⟩
  · intro l hd h
    have := (C33_intersectLineTri l.pos l.dir tr.a tr.b tr.c t u v).2 ⟨hd, h.symm.trans hxe, by linarith, by linarith, by linarith, by linarith⟩
    unfold Tri.intersectsLine
    rw [this, h]; rfl
  · intro l hd h0 h
    have := (C33_intersectLineTri l.pos l.dir tr.a tr.b tr.c t u v).2 ⟨hd, h.symm.trans hxe, by linarith, by linarith, by linarith, by linarith⟩
    unfold Tri.intersectsRay
    rw [this, h]; dsimp only; rw [if_pos h0]; rfl
  · intro l hd h0 h1 h
    have := (C33_intersectLineTri l.a (l.b - l.a) tr.a tr.b tr.c t u v).2 ⟨hd, h.symm.trans hxe, by linarith, by linarith, by linarith, by linarith⟩
    unfold Tri.intersectsSeg
    rw [this, h]; dsimp only; rw [if_pos ⟨h0, h1⟩]
    congr 2
    unfold LineSeg.getPoint; ext <;> simp <;> ring

/-- A unit line through the triangle `0, x, y`. -/
example : (⟨⟨0, 0, 0⟩, ⟨1, 0, 0⟩, ⟨0, 1, 0⟩⟩ : Tri ℚ).intersectsLine ⟨⟨1/4, 1/4, 3⟩, ⟨0, 0, 1⟩⟩ = some (-3, ⟨1/4, 1/4, 0⟩) := by decide +kernel

/-- C33: the tolerance makes the test miss every triangle whose area is at most 1/20000, whatever unit line passes through it;
and report hits outside larger triangles. -/
theorem C33_tolerance_effects :
    (∃ (t : Tri ℚ) (l : Line ℚ), lenSq l.dir = 1 ∧ (∃ x ∈ Spec.tri t.a t.b t.c, x ∈ Spec.line l.pos l.dir) ∧
      cross (t.b - t.a) (t.c - t.a) ≠ 0 ∧ cross l.dir (cross (t.b - t.a) (t.c - t.a)) = 0 ∧ t.intersectsLine l = none) ∧
    (∃ (t : Tri ℚ) (l : Line ℚ) (d : ℚ) (p : V3 ℚ), lenSq l.dir = 1 ∧ (∀ x ∈ Spec.tri t.a t.b t.c, x ∉ Spec.line l.pos l.dir) ∧
      t.intersectsLine l = some (d, p)) := by
  constructor
  · refine ⟨⟨⟨0, 0, 0⟩, ⟨1/100, 0, 0⟩, ⟨0, 1/100, 0⟩⟩, ⟨⟨0, 0, 5⟩, ⟨0, 0, 1⟩⟩, by norm_num [lenSq, dot], ⟨⟨0, 0, 0⟩, ?_, ?_⟩, ?_, ?_, by decide +kernel⟩
    · exact ⟨1, 0, 0, by norm_num, by norm_num, by norm_num, by norm_num, by ext <;> simp⟩
    · exact ⟨-5, by ext <;> simp⟩
    · simp [cross, V3.ext_iff]
    · simp [cross, V3.ext_iff]
  · refine ⟨⟨⟨0, 0, 0⟩, ⟨1, 0, 0⟩, ⟨0, 1, 0⟩⟩, ⟨⟨1/2, -1/20000, 0⟩, ⟨0, 0, 1⟩⟩, 0, ⟨1/2, -1/20000, 0⟩, by norm_num [lenSq, dot], ?_, by decide +kernel⟩
    rintro x ⟨u, v, w, hu, hv, hw, h1, rfl⟩ ⟨t, h⟩
    have := congrArg V3.y h
    norm_num at this
    linarith

/-! ### Closest pairs -/

/-- The result of the three edge queries is the best of the three. -/
theorem edge_best {S1 S2 S3 T : Set (V3 α)} {q1 r1 q2 r2 q3 r3 : V3 α} (h1 : Spec.IsClosestPair S1 T q1 r1) (h2 : Spec.IsClosestPair S2 T q2 r2)
    (h3 : Spec.IsClosestPair S3 T q3 r3) (q r : V3 α)
    (h : (q, r) = if distSq q1 r1 ≤ distSq q2 r2 ∧ distSq q1 r1 ≤ distSq q3 r3 then (q1, r1) else if distSq q2 r2 ≤ distSq q3 r3 then (q2, r2) else (q3, r3)) :
    Spec.IsClosestPair (S1 ∪ (S2 ∪ S3)) T q r := by
  obtain ⟨a1, b1, c1⟩ := h1
  obtain ⟨a2, b2, c2⟩ := h2
  obtain ⟨a3, b3, c3⟩ := h3
  have key : ∀ m : α, m ≤ distSq q1 r1 → m ≤ distSq q2 r2 → m ≤ distSq q3 r3 → ∀ s ∈ S1 ∪ (S2 ∪ S3), ∀ t ∈ T, m ≤ distSq s t := by
    intro m g1 g2 g3 s hs t ht
    rcases hs with hs | hs | hs
    · exact g1.trans (c1 s hs t ht)
    · exact g2.trans (c2 s hs t ht)
    · exact g3.trans (c3 s hs t ht)
  split_ifs at h with k1 k2
  · obtain ⟨rfl, rfl⟩ := Prod.mk.inj h
    exact ⟨Or.inl a1, b1, key _ le_rfl k1.1 k1.2⟩
  · obtain ⟨rfl, rfl⟩ := Prod.mk.inj h
    refine ⟨Or.inr (Or.inl a2), b2, key _ ?_ le_rfl k2⟩
    by_contra hc; push Not at hc; exact k1 ⟨hc.le, hc.le.trans k2⟩
  · obtain ⟨rfl, rfl⟩ := Prod.mk.inj h
    push Not at k2
    refine ⟨Or.inr (Or.inr a3), b3, key _ ?_ k2.le le_rfl⟩
    by_contra hc; push Not at hc; exact k1 ⟨hc.le.trans k2.le, hc.le⟩

theorem tri_edges (a b c : V3 α) : ∀ x ∈ (Spec.seg a b ∪ (Spec.seg b c ∪ Spec.seg c a)), x ∈ Spec.tri a b c := by
  have h := (C32_triangle_queries (⟨a, b, c⟩ : Tri α)).2.1
  rintro x (hx | hx | hx)
  · exact h 0 hx
  · exact h 1 hx
  · exact h 2 hx

/-- C31: `ClosestPointToTriangleEdge`: the nearest pair between the boundary of the triangle and the line or segment. -/
theorem C31_closestPointToEdge (t : Tri α) (hab : t.a ≠ t.b) (hac : t.a ≠ t.c) (hbc : t.b ≠ t.c) :
    (∀ l : Line α, lenSq l.dir = 1 → Spec.IsClosestPair (Spec.seg t.a t.b ∪ (Spec.seg t.b t.c ∪ Spec.seg t.c t.a)) (Spec.line l.pos l.dir)
      (t.closestPointToEdgeLine l).1 (l.getPoint (t.closestPointToEdgeLine l).2)) ∧
    (∀ l : LineSeg α, l.a ≠ l.b → Spec.IsClosestPair (Spec.seg t.a t.b ∪ (Spec.seg t.b t.c ∪ Spec.seg t.c t.a)) (Spec.seg l.a l.b)
      (t.closestPointToEdgeSeg l).1 (l.getPoint (t.closestPointToEdgeSeg l).2)) := by
  constructor
  · intro l hl
    have h1 := ((C23_segment (t.edge 0) hab).1 l hl).1
    have h2 := ((C23_segment (t.edge 1) hbc).1 l hl).1
    have h3 := ((C23_segment (t.edge 2) hac.symm).1 l hl).1
    refine edge_best h1 h2 h3 _ _ ?_
    unfold Tri.closestPointToEdgeLine
    dsimp only
    split_ifs <;> rfl
  · intro l hl
    have h1 := ((C23_segment (t.edge 0) hab).2.2 l hl).1
    have h2 := ((C23_segment (t.edge 1) hbc).2.2 l hl).1
    have h3 := ((C23_segment (t.edge 2) hac.symm).2.2 l hl).1
    refine edge_best h1 h2 h3 _ _ ?_
    unfold Tri.closestPointToEdgeSeg
    dsimp only
    split_ifs <;> rfl

example := C31_closestPointToEdge (⟨⟨0, 0, 0⟩, ⟨1, 0, 0⟩, ⟨0, 1, 0⟩⟩ : Tri ℚ) (by simp) (by simp) (by simp)

/-- The line crosses the triangle clearly, or is parallel to its plane, or misses it by more than the tolerance. -/
def Spec.ClearOfTriangle (o d a b c : V3 α) : Prop :=
  (dot d (cross (b - a) (c - a)) = 0 ∨ 1 / 10000 < |dot d (cross (b - a) (c - a))|) ∧
  ∀ t u v : α, o + t • d = a + (u • (b - a) + v • (c - a)) → -(1 / 10000) ≤ u → -(1 / 10000) ≤ v → u + v ≤ 1 + 1 / 10000 → 0 ≤ u ∧ 0 ≤ v ∧ u + v ≤ 1

theorem lineDir_ne_zero {d : V3 α} (h : lenSq d = 1) : d ≠ 0 := by
  rintro rfl; simp [lenSq, dot] at h

/-- C31: `ClosestPoint(Line)` is a nearest pair for every line that is clear of the triangle's edges and not almost
parallel to its plane. -/
theorem C31_closest_line_partial (t : Tri α) (hab : t.a ≠ t.b) (hac : t.a ≠ t.c) (hbc : t.b ≠ t.c) (l : Line α) (hl : lenSq l.dir = 1)
    (hclear : Spec.ClearOfTriangle l.pos l.dir t.a t.b t.c) :
    Spec.IsClosestPair (Spec.tri t.a t.b t.c) (Spec.line l.pos l.dir) (t.closestLine l).1 (t.closestLine l).2 := by
  have hnn : ∀ s r : V3 α, (0 : α) ≤ distSq s r := distSq_nonneg
  unfold Tri.closestLine
  rcases hh : t.intersectsLine l with _ | ⟨d, p⟩
  · dsimp only
    have hb := (C31_closestPointToEdge t hab hac hbc).1 l hl
    refine ⟨tri_edges _ _ _ _ hb.1, hb.2.1, ?_⟩
    intro s hs y hy
    by_cases hdis : ∀ x ∈ Spec.tri t.a t.b t.c, x ∉ Spec.line l.pos l.dir
    · obtain ⟨x', hx', y', hy', hle, hE⟩ := tri_line_boundary t.a t.b t.c l.pos l.dir (lineDir_ne_zero hl) hdis s y hs hy
      exact (hb.2.2 x' hE y' hy').trans hle
    · push Not at hdis
      obtain ⟨x, hx, k, hk⟩ := hdis
      rcases hclear.1 with h0 | h0
      · -- the line is parallel and meets the triangle: it also meets an edge
        obtain ⟨v, w, hv, hw, hvw, hxe⟩ := tri_coords hx
        rcases span_or_dependent (t.b - t.a) (t.c - t.a) (-l.dir) with hsp | ⟨dv, dw, dt, hne, h00⟩
        · exfalso
          obtain ⟨e1, e2, e3, he⟩ := hsp (cross (t.b - t.a) (t.c - t.a))
          have hz : lenSq (cross (t.b - t.a) (t.c - t.a)) = 0 := by
            have : lenSq (cross (t.b - t.a) (t.c - t.a)) = dot (cross (t.b - t.a) (t.c - t.a)) (e1 • (t.b - t.a) + e2 • (t.c - t.a) + e3 • (-l.dir)) := by
              rw [he]; rfl
            rw [this]
            have : dot (cross (t.b - t.a) (t.c - t.a)) (e1 • (t.b - t.a) + e2 • (t.c - t.a) + e3 • (-l.dir)) = -e3 * dot l.dir (cross (t.b - t.a) (t.c - t.a)) := by
              simp only [dot, cross]; simp; ring
            rw [this, h0, mul_zero]
          rw [lenSq_eq_zero] at hz
          -- all vectors would be combinations of dependent vectors
          obtain ⟨f1, f2, f3, hf⟩ := hsp (cross (t.b - t.a) l.dir)
          have g1 : lenSq (cross (t.b - t.a) l.dir) = 0 := by
            have : lenSq (cross (t.b - t.a) l.dir) = dot (cross (t.b - t.a) l.dir) (f1 • (t.b - t.a) + f2 • (t.c - t.a) + f3 • (-l.dir)) := by rw [hf]; rfl
            rw [this]
            have : dot (cross (t.b - t.a) l.dir) (f1 • (t.b - t.a) + f2 • (t.c - t.a) + f3 • (-l.dir)) = -f2 * dot l.dir (cross (t.b - t.a) (t.c - t.a)) := by
              simp only [dot, cross]; simp; ring
            rw [this, h0, mul_zero]
          rw [lenSq_eq_zero] at g1
          -- b - a is parallel to both others, so everything is parallel to it
          have hall : ∀ w : V3 α, cross (t.b - t.a) w = 0 := by
            intro w
            obtain ⟨x1, x2, x3, hx⟩ := hsp w
            have : cross (t.b - t.a) (x1 • (t.b - t.a) + x2 • (t.c - t.a) + x3 • (-l.dir)) = x2 • cross (t.b - t.a) (t.c - t.a) - x3 • cross (t.b - t.a) l.dir := by
              ext <;> simp only [cross] <;> simp <;> ring
            rw [← hx, this, hz, g1]; ext <;> simp
          apply hab
          have k1 := hall ⟨1, 0, 0⟩
          have k2 := hall ⟨0, 1, 0⟩
          have k1y := congrArg V3.y k1
          have k1z := congrArg V3.z k1
          have k2z := congrArg V3.z k2
          simp [cross] at k1y k1z k2z
          ext <;> linarith
        · have ex := congrArg V3.x h00
          have ey := congrArg V3.y h00
          have ez := congrArg V3.z h00
          simp at ex ey ez
          have hneg : ∃ r ∈ [(1 - v - w, -dv - dw), (v, dv), (w, dw)], r.2 < 0 := by
            by_contra hc
            push Not at hc
            simp at hc
            obtain ⟨k1, k2, k3⟩ := hc
            have dv0 : dv = 0 := le_antisymm (by linarith) k2
            have dw0 : dw = 0 := le_antisymm (by linarith) k3
            have dt0 : dt ≠ 0 := by
              rcases hne with h | h | h
              · exact absurd dv0 h
              · exact absurd dw0 h
              · exact h
            apply lineDir_ne_zero hl
            rw [dv0, dw0] at ex ey ez
            ext
            · have : dt * l.dir.x = 0 := by linarith
              simpa [dt0] using this
            · have : dt * l.dir.y = 0 := by linarith
              simpa [dt0] using this
            · have : dt * l.dir.z = 0 := by linarith
              simpa [dt0] using this
          obtain ⟨r, hr, hneg⟩ := hneg
          obtain ⟨s', g1, g2⟩ := exit_ray _ (by simp; exact ⟨by linarith, hv, hw⟩) r hr hneg
          simp only [List.mem_cons, List.mem_nil_iff, or_false, forall_eq_or_imp, forall_eq, exists_eq_or_imp, exists_eq_left] at g1 g2
          obtain ⟨k1, k2, k3⟩ := g1
          have hE := onEdge_of_zero (a := t.a) (b := t.b) (c := t.c) (u := 1 - (v + s' * dv) - (w + s' * dw)) (by linarith) k2 k3 (by ring)
            (by rcases g2 with g | g | g
                · left; linarith
                · right; left; linarith
                · right; right; linarith)
          have hkx := congrArg V3.x (hk.symm.trans hxe)
          have hky := congrArg V3.y (hk.symm.trans hxe)
          have hkz := congrArg V3.z (hk.symm.trans hxe)
          simp at hkx hky hkz
          have hL : (1 - (v + s' * dv) - (w + s' * dw)) • t.a + (v + s' * dv) • t.b + (w + s' * dw) • t.c ∈ Spec.line l.pos l.dir := by
            refine ⟨k + s' * dt, ?_⟩
            ext
            · simp; linear_combination s' * ex - hkx
            · simp; linear_combination s' * ey - hky
            · simp; linear_combination s' * ez - hkz
          have := hb.2.2 _ hE _ hL
          rw [distSq_self] at this
          exact this.trans (hnn _ _)
      · have := (C33_complete t x hx k).1 l h0 hk
        rw [hh] at this; cases this
  · dsimp only
    have hh' := hh
    unfold Tri.intersectsLine at hh'
    rcases hi : Tri.intersectLineTri l.pos l.dir t.a t.b t.c with _ | ⟨d', u, v⟩
    · rw [hi] at hh'; cases hh'
    · rw [hi] at hh'
      obtain ⟨rfl, rfl⟩ := Prod.mk.inj (Option.some.inj hh')
      obtain ⟨-, h1, h2, -, h4, h5⟩ := (C33_intersectLineTri _ _ _ _ _ _ _ _).1 hi
      obtain ⟨k1, k2, k3⟩ := hclear.2 _ u v h1 h2 h4 h5
      refine ⟨?_, ⟨_, rfl⟩, ?_⟩
      · exact ⟨1 - u - v, u, v, by linarith, k1, k2, by ring, h1.trans (by ext <;> simp <;> ring)⟩
      · intro s _ y _; rw [distSq_self]; exact hnn _ _

theorem exClear : Spec.ClearOfTriangle (⟨-3, 0, 1⟩ : V3 α) ⟨3/5, 0, 4/5⟩ ⟨0, 0, 0⟩ ⟨1, 0, 0⟩ ⟨0, 1, 0⟩ := by
  refine ⟨Or.inr ?_, fun t u v e hu hv huv => ?_⟩
  · rw [show dot (⟨3/5, 0, 4/5⟩ : V3 α) (cross (⟨1, 0, 0⟩ - ⟨0, 0, 0⟩) (⟨0, 1, 0⟩ - ⟨0, 0, 0⟩)) = 4 / 5 by simp [dot, cross],
      abs_of_nonneg (by norm_num)]
    norm_num
  · have ex := congrArg V3.x e
    have ez := congrArg V3.z e
    simp at ex ez
    exact absurd hu (by linarith)

example := C31_closest_line_partial (⟨⟨0, 0, 0⟩, ⟨1, 0, 0⟩, ⟨0, 1, 0⟩⟩ : Tri ℚ) (by simp) (by simp) (by simp) ⟨⟨-3, 0, 1⟩, ⟨3/5, 0, 4/5⟩⟩
  (by norm_num [lenSq, dot]) exClear

/-- C31: `ClosestPoint(LineSegment)` is a nearest pair for every segment whose line is clear of the triangle's edges and
not almost parallel to its plane; it never divides by zero. -/
theorem C31_closest_segment_partial (t : Tri α) (hab : t.a ≠ t.b) (hac : t.a ≠ t.c) (hbc : t.b ≠ t.c) (l : LineSeg α) (hl : l.a ≠ l.b)
    (hclear : Spec.ClearOfTriangle l.a (l.b - l.a) t.a t.b t.c) (hpar : dot (l.b - l.a) (cross (t.b - t.a) (t.c - t.a)) ≠ 0 ∨
      ∀ x ∈ Spec.tri t.a t.b t.c, x ∉ Spec.seg l.a l.b) :
    ∃ q r, t.closestSeg l = some (q, r) ∧ Spec.IsClosestPair (Spec.tri t.a t.b t.c) (Spec.seg l.a l.b) q r := by
  obtain ⟨pt2, hp2, c2⟩ := C31_closestPoint t hab hac hbc l.a
  obtain ⟨pt3, hp3, c3⟩ := C31_closestPoint t hab hac hbc l.b
  have hb := (C31_closestPointToEdge t hab hac hbc).2 l hl
  have hgp : ∀ d, l.getPoint d = l.a + d • (l.b - l.a) := by intro d; unfold LineSeg.getPoint; ext <;> simp <;> ring
  have hA : l.a ∈ Spec.seg l.a l.b := ⟨0, by simp, by simp, by ext <;> simp⟩
  have hB : l.b ∈ Spec.seg l.a l.b := ⟨1, by simp, by simp, by ext <;> simp⟩
  -- the three-way comparison, used when there is no crossing
  have hno : (∀ x ∈ Spec.tri t.a t.b t.c, x ∉ Spec.seg l.a l.b) → ∃ q r,
      ((t.closestPoint l.a).bind fun pt2 => (t.closestPoint l.b).map fun pt3 =>
        if distSq (t.closestPointToEdgeSeg l).1 (l.getPoint (t.closestPointToEdgeSeg l).2) ≤ distSq pt2 l.a ∧
           distSq (t.closestPointToEdgeSeg l).1 (l.getPoint (t.closestPointToEdgeSeg l).2) ≤ distSq pt3 l.b then
          ((t.closestPointToEdgeSeg l).1, l.getPoint (t.closestPointToEdgeSeg l).2)
        else if distSq pt2 l.a ≤ distSq pt3 l.b then (pt2, l.a) else (pt3, l.b)) = some (q, r) ∧
      Spec.IsClosestPair (Spec.tri t.a t.b t.c) (Spec.seg l.a l.b) q r := by
    intro hdis
    set q1 := (t.closestPointToEdgeSeg l).1 with hq1
    set r1 := l.getPoint (t.closestPointToEdgeSeg l).2 with hr1
    have key : ∀ m : α, m ≤ distSq q1 r1 → m ≤ distSq pt2 l.a → m ≤ distSq pt3 l.b →
        ∀ s ∈ Spec.tri t.a t.b t.c, ∀ y ∈ Spec.seg l.a l.b, m ≤ distSq s y := by
      intro m g1 g2 g3 s hs y hy
      obtain ⟨x', hx', y', hy', hle, hE | rfl | rfl⟩ := tri_seg_boundary t.a t.b t.c l.a l.b hdis s y hs hy
      · exact (g1.trans (hb.2.2 x' hE y' hy')).trans hle
      · have := c2.2 x' hx'
        rw [distSq_comm _ pt2, distSq_comm _ x'] at this
        exact (g2.trans this).trans hle
      · have := c3.2 x' hx'
        rw [distSq_comm _ pt3, distSq_comm _ x'] at this
        exact (g3.trans this).trans hle
    rw [hp2, hp3]
    simp only [Option.bind_some, Option.map_some]
    split_ifs with k1 k2
    · exact ⟨_, _, rfl, tri_edges _ _ _ _ hb.1, hb.2.1, key _ le_rfl k1.1 k1.2⟩
    · refine ⟨_, _, rfl, c2.1, hA, key _ ?_ le_rfl k2⟩
      by_contra hc; push Not at hc; exact k1 ⟨hc.le, hc.le.trans k2⟩
    · push Not at k2
      refine ⟨_, _, rfl, c3.1, hB, key _ ?_ k2.le le_rfl⟩
      by_contra hc; push Not at hc; exact k1 ⟨hc.le.trans k2.le, hc.le⟩
  have hmiss : (∀ d u v, Tri.intersectLineTri l.a (l.b - l.a) t.a t.b t.c = some (d, u, v) → ¬ (d ≥ 0 ∧ d ≤ 1)) →
      ∀ x ∈ Spec.tri t.a t.b t.c, x ∉ Spec.seg l.a l.b := by
    intro h x hx hs
    have hdet : 1 / 10000 < |dot (l.b - l.a) (cross (t.b - t.a) (t.c - t.a))| := by
      rcases hclear.1 with h0 | h0
      · rcases hpar with hp | hp
        · exact absurd h0 hp
        · exact absurd hs (hp x hx)
      · exact h0
    obtain ⟨k, k0, k1, hk⟩ := hs
    obtain ⟨u, v, hu, hv, huv, hxe⟩ := tri_coords hx
    have e0 : (0 : α) < 1 / 10000 := by positivity
    have := (C33_intersectLineTri l.a (l.b - l.a) t.a t.b t.c k u v).2 ⟨hdet, hk.symm.trans hxe, by linarith, by linarith, by linarith, by linarith⟩
    exact h _ _ _ this ⟨k0, k1⟩
  unfold Tri.closestSeg
  dsimp only
  rcases hi : Tri.intersectLineTri l.a (l.b - l.a) t.a t.b t.c with _ | ⟨d, u, v⟩
  · exact hno (hmiss (by rw [hi]; intro d u v h; cases h))
  · dsimp only
    split_ifs with h0
    · obtain ⟨-, h1, h2, -, h4, h5⟩ := (C33_intersectLineTri _ _ _ _ _ _ _ _).1 hi
      obtain ⟨k1, k2, k3⟩ := hclear.2 _ u v h1 h2 h4 h5
      have hpt : t.point2 u v = l.getPoint d := by rw [hgp]; exact h1.symm
      refine ⟨_, _, rfl, ?_, ⟨d, h0.1, h0.2, hgp d⟩, ?_⟩
      · exact ⟨1 - u - v, u, v, by linarith, k1, k2, by ring, by unfold Tri.point2; ext <;> simp <;> ring⟩
      · intro s _ y _
        rw [hpt, distSq_self]; exact distSq_nonneg _ _
    · refine hno (hmiss ?_)
      rw [hi]
      intro d' u' v' h
      obtain ⟨rfl, -⟩ := Prod.mk.inj (Option.some.inj h)
      exact h0

/-- A segment that passes the triangle at height 2, beyond the edge `x`-`y`. -/
example : (⟨⟨0, 0, 0⟩, ⟨1, 0, 0⟩, ⟨0, 1, 0⟩⟩ : Tri ℚ).closestSeg ⟨⟨1, 1, 2⟩, ⟨2, 2, 3⟩⟩ = some (⟨1/2, 1/2, 0⟩, ⟨1, 1, 2⟩) := by decide +kernel

/-- C31: a segment piercing a small triangle is reported to be away from it. -/
theorem C31_closest_segment_violation : ∃ (t : Tri ℚ) (l : LineSeg ℚ) (q r : V3 ℚ),
    (∃ x ∈ Spec.tri t.a t.b t.c, x ∈ Spec.seg l.a l.b) ∧ t.closestSeg l = some (q, r) ∧ q ≠ r := by
  refine ⟨⟨⟨0, 0, 0⟩, ⟨1/100, 0, 0⟩, ⟨0, 1/100, 0⟩⟩, ⟨⟨1/1000, 1/1000, -1/2⟩, ⟨1/1000, 1/1000, 1/2⟩⟩, ⟨1/1000, 0, 0⟩, ⟨1/1000, 1/1000, 0⟩,
    ⟨⟨1/1000, 1/1000, 0⟩, ?_, ?_⟩, by decide +kernel, by decide +kernel⟩
  · exact ⟨8/10, 1/10, 1/10, by norm_num, by norm_num, by norm_num, by norm_num, by ext <;> norm_num⟩
  · exact ⟨1/2, by norm_num, by norm_num, by ext <;> norm_num⟩

/-- C31: `Distance(Capsule)` under the same conditions. -/
theorem C31_distance_capsule_partial (t : Tri ℝ) (hab : t.a ≠ t.b) (hac : t.a ≠ t.c) (hbc : t.b ≠ t.c) (l : LineSeg ℝ) (hl : l.a ≠ l.b)
    (hclear : Spec.ClearOfTriangle l.a (l.b - l.a) t.a t.b t.c) (hpar : dot (l.b - l.a) (cross (t.b - t.a) (t.c - t.a)) ≠ 0 ∨
      ∀ x ∈ Spec.tri t.a t.b t.c, x ∉ Spec.seg l.a l.b) (r : ℝ) (hr : 0 ≤ r) :
    ∃ d, t.distanceCapsule l r = some d ∧ Spec.IsSetDist (Spec.tri t.a t.b t.c) (Spec.capsule l.a l.b r) d := by
  obtain ⟨q, s, h, hc⟩ := C31_closest_segment_partial t hab hac hbc l hl hclear hpar
  refine ⟨max 0 (V3.dist q s - r), ?_, ?_⟩
  · unfold Tri.distanceCapsule; rw [h, ← max2_eq]; rfl
  · exact setDist_thicken (setDist_of_pair hc) hr

example := C31_distance_capsule_partial ⟨⟨0, 0, 0⟩, ⟨1, 0, 0⟩, ⟨0, 1, 0⟩⟩ (by simp) (by simp) (by simp) ⟨⟨-3, 0, 1⟩, ⟨-3 + 3/5, 0, 1 + 4/5⟩⟩
  (by norm_num [V3.ext_iff]) (by
    rw [show (⟨-3 + 3/5, 0, 1 + 4/5⟩ : V3 ℝ) - ⟨-3, 0, 1⟩ = ⟨3/5, 0, 4/5⟩ by ext <;> norm_num]; exact exClear)
  (Or.inl (by norm_num [dot, cross])) 2 (by norm_num)

end MGL
