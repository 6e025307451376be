import Verif.Model.GJKShapes
import Verif.Proofs.GJKRun
import Verif.Props.Frustum
import Verif.Props.AABB
import Verif.Props.Triangle
import Verif.Props.Capsule
import Verif.Props.Sphere

/-! # C76: intersection tests by GJK

`Describes a A` (Verif/Proofs/GJKRun.lean) says that the two functions the code calls on an object are right for the set `A`
of its points. -/

set_option linter.unusedSectionVars false

namespace MGL
open V3 GJK Spec

/-- C76: the array of four points is never overrun, whatever the functions of the objects return. -/
theorem C76_safe {α : Type*} [Field α] [LinearOrder α] (a b : Support α) : run a b ≠ none ∧ intersect a b ≠ none := by
  have h : run a b ≠ none := by
    unfold run
    dsimp only
    split_ifs
    · simp
    · exact safe_loop a b 50 _ _ (by simp) (by simp)
  refine ⟨h, ?_⟩
  unfold intersect
  simpa using h

example : intersect (AABB.support (⟨⟨0, 0, 0⟩, ⟨2, 2, 2⟩⟩ : AABB ℚ)) (Tri.support (⟨⟨3, 0, 0⟩, ⟨0, 3, 0⟩, ⟨0, 0, 3⟩⟩ : Tri ℚ)) = some true := by
  decide +kernel

example : intersect (AABB.support (⟨⟨0, 0, 0⟩, ⟨2, 2, 2⟩⟩ : AABB ℚ)) (Tri.support (⟨⟨7, 0, 0⟩, ⟨0, 7, 0⟩, ⟨0, 0, 7⟩⟩ : Tri ℚ)) = some false := by
  decide +kernel

/-- C76: when the test stops because it found a separating direction, the objects have no point in common. -/
theorem C76_apart {a b : Support ℝ} {A B : Set (V3 ℝ)} (ha : Describes a A) (hb : Describes b B) (h : run a b = some .apart) :
    ∀ x ∈ A, x ∉ B := by
  unfold run at h
  dsimp only at h
  split_ifs at h
  · simp at h
  · exact apart_loop ha hb 50 _ _ h

/-- C76: when the test finds that two convex objects meet, they come within 0.068 of each other (`d⁶ ≤ 10⁻⁷`). -/
theorem C76_meet_partial {a b : Support ℝ} {A B : Set (V3 ℝ)} (ha : Describes a A) (hb : Describes b B) (hA : Convex3 A) (hB : Convex3 B)
    (h : run a b = some .meet) : ∃ p ∈ A, ∃ q ∈ B, distSq p q ^ 3 ≤ 1 / 10000000 := by
  by_cases h0 : (0 : V3 ℝ) ∈ diff A B
  · obtain ⟨p, hp, q, hq, e⟩ := h0
    refine ⟨p, hp, q, hq, ?_⟩
    rw [distSq, ← e]; simp [lenSq, dot]
  · have hm : a.any - b.any ∈ diff A B := ⟨_, ha.1, _, hb.1, rfl⟩
    suffices h' : ∃ c ∈ diff A B, lenSq c ^ 3 ≤ 1 / 10000000 by
      obtain ⟨_, ⟨p, hp, q, hq, rfl⟩, e⟩ := h'
      exact ⟨p, hp, q, hq, e⟩
    unfold run at h
    dsimp only at h
    split_ifs at h with hc
    · refine ⟨_, hm, ?_⟩
      have := V3.lenSq_nonneg (a.any - b.any)
      calc lenSq (a.any - b.any) ^ 3 ≤ (1 / 10000000) ^ 3 := pow_le_pow_left₀ this hc.le 3
        _ ≤ _ := by norm_num
    · refine meet_loop ha hb hA hB h0 50 _ _ ⟨by simpa using hm, Or.inl ⟨_, rfl, rfl, ?_⟩⟩ h
      push Not at hc
      exact lt_of_lt_of_le (by norm_num) hc

/-- What the answer of the test on two objects means: `true` that they come within 0.068 of each other, `false` that they
have no point in common, except where the test ran out of iterations. -/
def GJKAnswer (A B : Set (V3 ℝ)) (gaveUp : Prop) (o : Option Bool) : Prop :=
  ∃ r, o = some r ∧ (r = true → ∃ p ∈ A, ∃ q ∈ B, distSq p q ^ 3 ≤ 1 / 10000000) ∧ (r = false → (∀ x ∈ A, x ∉ B) ∨ gaveUp)

/-- C76: the answer for any two convex objects. -/
theorem C76_intersect_partial {a b : Support ℝ} {A B : Set (V3 ℝ)} (ha : Describes a A) (hb : Describes b B) (hA : Convex3 A)
    (hB : Convex3 B) : GJKAnswer A B (run a b = some .gaveUp) (intersect a b) := by
  have hs := (C76_safe a b).1
  unfold intersect
  rcases e : run a b with _ | o
  · exact absurd e hs
  · refine ⟨decide (o = .meet), rfl, fun h => ?_, fun h => ?_⟩
    · have : o = .meet := by simpa using h
      exact C76_meet_partial ha hb hA hB (e.trans (by rw [this]))
    · have : o ≠ .meet := by simpa using h
      cases o
      · exact absurd rfl this
      · exact Or.inl (C76_apart ha hb e)
      · exact Or.inr rfl

/-! ### The classes -/

theorem convex3_of {S : Set (V3 ℝ)} (hS : ∀ p ∈ S, ∀ q ∈ S, ∀ t : ℝ, 0 ≤ t → t ≤ 1 → p + t • (q - p) ∈ S) : Convex3 S := by
  intro p hp q hq s t hs ht hst
  have e : s • p + t • q = p + t • (q - p) := by
    have : s = 1 - t := by linarith
    rw [this]; ext <;> simp only [add_x, add_y, add_z, sub_x, sub_y, sub_z, smul_x, smul_y, smul_z] <;> ring
  rw [e]; exact hS p hp q hq t ht (by linarith)

theorem box_convex3 (mn mx : V3 ℝ) : Convex3 (box mn mx) := by
  apply convex3_of
  rintro p ⟨a1, a2, a3, a4, a5, a6⟩ q ⟨b1, b2, b3, b4, b5, b6⟩ t h0 h1
  refine ⟨?_, ?_, ?_, ?_, ?_, ?_⟩ <;> simp only [add_x, add_y, add_z, sub_x, sub_y, sub_z, smul_x, smul_y, smul_z] <;> nlinarith

theorem obb_convex3 (o : OBB ℝ) : Convex3 o.points := convex3_of fun _ hp _ hq t h0 h1 => obb_convex _ _ _ _ _ hp hq t h0 h1

theorem capsule_convex3 (c : Capsule ℝ) : Convex3 c.points := convex3_of (capsule_convex _ _ _)

theorem frustum_convex3 (f : Frustum) (h : f.Valid) : Convex3 f.points := convex3_of (f.points_convex h)

theorem tri_convex3 (a b c : V3 ℝ) : Convex3 (tri a b c) := by
  rintro _ ⟨u, v, w, hu, hv, hw, hs, rfl⟩ _ ⟨u', v', w', hu', hv', hw', hs', rfl⟩ s t h0 h1 hst
  refine ⟨s * u + t * u', s * v + t * v', s * w + t * w', by positivity, by positivity, by positivity, ?_, ?_⟩
  · linear_combination s * hs + t * hs' + hst
  · ext <;> simp only [add_x, add_y, add_z, smul_x, smul_y, smul_z] <;> ring

theorem seg_convex3 (a b : V3 ℝ) : Convex3 (seg a b) := by
  rintro _ ⟨u, h0, h1, rfl⟩ _ ⟨v, k0, k1, rfl⟩ s t hs ht hst
  refine ⟨s * u + t * v, by positivity, by nlinarith, ?_⟩
  have : s = 1 - t := by linarith
  rw [this]; ext <;> simp only [add_x, add_y, add_z, sub_x, sub_y, sub_z, smul_x, smul_y, smul_z] <;> ring

theorem ball_convex3 (c : V3 ℝ) (r : ℝ) : Convex3 (ball c r) := by
  intro p hp q hq s t hs ht hst
  simp only [ball, Set.mem_ofPred_eq] at *
  have e : distSq (s • p + t • q) c = s * distSq p c + t * distSq q c - s * t * distSq p q := by
    have : s = 1 - t := by linarith
    rw [this]; simp only [distSq, lenSq, dot, add_x, add_y, add_z, sub_x, sub_y, sub_z, smul_x, smul_y, smul_z]; ring
  rw [e]
  have h1 : 0 ≤ s * t * distSq p q := mul_nonneg (mul_nonneg hs ht) (V3.lenSq_nonneg _)
  have h2 := mul_le_mul_of_nonneg_left hp hs
  have h3 := mul_le_mul_of_nonneg_left hq ht
  have h4 : s * (r * r) + t * (r * r) = r * r := by linear_combination r * r * hst
  linarith

theorem hull3_convex3 (S : List (V3 ℝ)) : Convex3 (hull3 S) :=
  fun p hp q hq s t hs ht hst K hK hm => hK p (hp K hK hm) q (hq K hK hm) s t hs ht hst

theorem describes_of {A : Set (V3 ℝ)} {x : V3 ℝ} {f : V3 ℝ → V3 ℝ} (hx : x ∈ A) (hf : ∀ d, IsExtreme A d (f d)) :
    Describes ⟨x, fun d => some (f d, dot (f d) d)⟩ A := by
  refine ⟨hx, ?_, fun _ _ => rfl⟩
  intro d q v h
  obtain ⟨rfl, rfl⟩ := Prod.mk.inj (Option.some.inj h)
  exact ⟨V3.dot_comm _ _, hf d⟩

theorem describes_of' {A : Set (V3 ℝ)} {x : V3 ℝ} {f : V3 ℝ → V3 ℝ} (hx : x ∈ A) (hf : ∀ d, d ≠ 0 → IsExtreme A d (f d)) :
    Describes ⟨x, fun d => if d = 0 then none else some (f d, dot (f d) d)⟩ A := by
  refine ⟨hx, ?_, fun d hd => by simp [hd]⟩
  intro d q v h
  dsimp only at h
  split_ifs at h with hd
  obtain ⟨rfl, rfl⟩ := Prod.mk.inj (Option.some.inj h)
  exact ⟨V3.dot_comm _ _, hf d hd⟩

theorem AABB.describes (b : AABB ℝ) (hb : b.Proper) : Describes b.support (box b.minPoint b.maxPoint) :=
  describes_of ⟨le_rfl, hb.1, le_rfl, hb.2.1, le_rfl, hb.2.2⟩ fun d => (C19_extremePoint b hb d).1

theorem OBB.describes (o : OBB ℝ) (hx : 0 ≤ o.r.x) (hy : 0 ≤ o.r.y) (hz : 0 ≤ o.r.z) : Describes o.support o.points :=
  describes_of ⟨0, 0, 0, by linarith, hx, by linarith, hy, by linarith, hz, by ext <;> simp⟩ (C36_extremePoint o hx hy hz)

theorem LineSeg.describes (l : LineSeg ℝ) : Describes l.support (seg l.a l.b) :=
  describes_of ⟨0, le_rfl, zero_le_one, by ext <;> simp⟩ (C63_segment_extremePoint l)

theorem Tri.describes (t : Tri ℝ) : Describes t.support (tri t.a t.b t.c) :=
  describes_of (f := t.extremePoint) ⟨1, 0, 0, by simp, le_rfl, le_rfl, by simp, by ext <;> simp⟩
    fun d => ((C32_triangle_queries t).2.2.2.2.1 d).1

theorem Sphere.describes (s : Sphere ℝ) (h : 0 ≤ s.r) : Describes s.support (ball s.pos s.r) :=
  describes_of' (by simp only [ball, Set.mem_ofPred_eq]; rw [distSq_self]; exact mul_self_nonneg _) (C27_extremePoint s h)

theorem Capsule.describes (c : Capsule ℝ) (h : 0 ≤ c.r) : Describes c.support c.points := by
  refine ⟨⟨c.l.a, ⟨0, le_rfl, zero_le_one, by ext <;> simp⟩, ?_⟩, ?_, fun d hd => by simp [Capsule.support, hd]⟩
  · show distSq c.l.a c.l.a ≤ _
    rw [distSq_self]; exact mul_self_nonneg _
  · intro d q v he
    simp only [Capsule.support] at he
    split_ifs at he with hd
    obtain ⟨h1, h2⟩ := C69_extremePoint c h d hd
    rw [h2] at he
    obtain ⟨rfl, rfl⟩ := Prod.mk.inj (Option.some.inj he)
    exact ⟨rfl, h1⟩

theorem Frustum.describes (f : Frustum) (h : f.Valid) : Describes f.support f.points := by
  refine ⟨f.corner_mem h 0, ?_, ?_⟩
  · intro d q v he
    obtain ⟨q', e, -, hx⟩ := f.C71_extremePoint h d
    obtain ⟨rfl, rfl⟩ := Prod.mk.inj (Option.some.inj (e.symm.trans he))
    exact ⟨rfl, hx⟩
  · intro d _
    obtain ⟨q', e, -, hx⟩ := f.C71_extremePoint h d
    simp only [Frustum.support, e, Option.isSome_some]

theorem polygonExtremeLoop_spec (d : V3 ℝ) : ∀ (cs : List (V3 ℝ)) (m : V3 ℝ),
    ∃ q, polygonExtremeLoop d (some (m, dot d m)) cs = some (q, dot d q) ∧ q ∈ m :: cs ∧ ∀ c ∈ m :: cs, dot d c ≤ dot d q := by
  intro cs
  induction cs with
  | nil => intro m; exact ⟨m, rfl, by simp, by simp⟩
  | cons c cs ih =>
    intro m
    rw [polygonExtremeLoop]
    split_ifs with h
    · obtain ⟨q, e, hq, hm⟩ := ih c
      refine ⟨q, e, by simp only [List.mem_cons] at hq ⊢; tauto, ?_⟩
      intro x hx
      rcases List.mem_cons.1 hx with rfl | hx
      · exact h.le.trans (hm c (by simp))
      · exact hm x hx
    · obtain ⟨q, e, hq, hm⟩ := ih m
      refine ⟨q, e, by simp only [List.mem_cons] at hq ⊢; tauto, ?_⟩
      intro x hx
      rcases List.mem_cons.1 hx with rfl | hx
      · exact hm x (by simp)
      · rcases List.mem_cons.1 hx with rfl | hx
        · exact (not_lt.1 h).trans (hm m (by simp))
        · exact hm x (by simp [hx])

theorem polygon_describes (p : V3 ℝ) (ps : List (V3 ℝ)) : Describes (polygonSupport p ps) (hull3 (p :: ps)) := by
  have h : ∀ d, ∃ q, (polygonSupport p ps).ext d = some (q, dot d q) ∧ IsExtreme (hull3 (p :: ps)) d q := by
    intro d
    obtain ⟨q, e, hq, hm⟩ := polygonExtremeLoop_spec d ps p
    refine ⟨q, e, fun K _ hK => hK q hq, ?_⟩
    intro x hx
    refine hx {y | dot d y ≤ dot d q} ?_ hm
    intro a ha b hb s t hs ht hst
    simp only [Set.mem_ofPred_eq] at *
    have e : dot d (s • a + t • b) = s * dot d a + t * dot d b := by
      simp only [dot, add_x, add_y, add_z, smul_x, smul_y, smul_z]; ring
    rw [e]
    have h1 := mul_le_mul_of_nonneg_left ha hs
    have h2 := mul_le_mul_of_nonneg_left hb ht
    have h3 : s * dot d q + t * dot d q = dot d q := by linear_combination dot d q * hst
    linarith
  refine ⟨fun K _ hK => hK p (by simp), ?_, ?_⟩
  · intro d q v he
    obtain ⟨q', e, hx⟩ := h d
    obtain ⟨rfl, rfl⟩ := Prod.mk.inj (Option.some.inj (e.symm.trans he))
    exact ⟨rfl, hx⟩
  · intro d _
    obtain ⟨q', e, hx⟩ := h d
    simp [e]

theorem exApart : run (LineSeg.support ⟨⟨-1, 0, 0⟩, ⟨1, 0, 0⟩⟩) (LineSeg.support (⟨⟨2, 0, 0⟩, ⟨5, 3, 0⟩⟩ : LineSeg ℝ)) = some .apart := by
  have e1 : LineSeg.extremePoint (⟨⟨-1, 0, 0⟩, ⟨1, 0, 0⟩⟩ : LineSeg ℝ) (-((⟨-1, 0, 0⟩ : V3 ℝ) - ⟨2, 0, 0⟩)) = ⟨1, 0, 0⟩ := by
    norm_num [LineSeg.extremePoint, dot]
  have e2 : LineSeg.extremePoint (⟨⟨2, 0, 0⟩, ⟨5, 3, 0⟩⟩ : LineSeg ℝ) (- -((⟨-1, 0, 0⟩ : V3 ℝ) - ⟨2, 0, 0⟩)) = ⟨2, 0, 0⟩ := by
    norm_num [LineSeg.extremePoint, dot]
  unfold run
  dsimp only [LineSeg.support]
  rw [if_neg (by norm_num [lenSq, dot]), loop]
  dsimp only
  rw [e1, e2, if_pos (by norm_num [dot])]

example := C76_apart (LineSeg.describes _) (LineSeg.describes _) exApart

theorem exMeet : run (LineSeg.support ⟨⟨-1, 0, 0⟩, ⟨1, 0, 0⟩⟩) (LineSeg.support (⟨⟨0, 0, 0⟩, ⟨5, 0, 0⟩⟩ : LineSeg ℝ)) = some .meet := by
  have e1 : LineSeg.extremePoint (⟨⟨-1, 0, 0⟩, ⟨1, 0, 0⟩⟩ : LineSeg ℝ) (-((⟨-1, 0, 0⟩ : V3 ℝ) - ⟨0, 0, 0⟩)) = ⟨1, 0, 0⟩ := by
    norm_num [LineSeg.extremePoint, dot]
  have e2 : LineSeg.extremePoint (⟨⟨0, 0, 0⟩, ⟨5, 0, 0⟩⟩ : LineSeg ℝ) (- -((⟨-1, 0, 0⟩ : V3 ℝ) - ⟨0, 0, 0⟩)) = ⟨0, 0, 0⟩ := by
    norm_num [LineSeg.extremePoint, dot]
  have e3 : updateSimplex ([(⟨-1, 0, 0⟩ : V3 ℝ) - ⟨0, 0, 0⟩] ++ [(⟨1, 0, 0⟩ : V3 ℝ) - ⟨0, 0, 0⟩]) = some ([], 0) := by
    norm_num [updateSimplex, update2, cross, lenSq, dot]
  unfold run
  dsimp only [LineSeg.support]
  rw [if_neg (by norm_num [lenSq, dot]), loop]
  dsimp only
  rw [e1, e2, if_neg (by norm_num [dot]), e3]

example := C76_meet_partial (LineSeg.describes _) (LineSeg.describes _) (seg_convex3 _ _) (seg_convex3 _ _) exMeet

example (s : Sphere ℝ) (hs : 0 ≤ s.r) (t : Tri ℝ) := C76_intersect_partial (s.describes hs) t.describes (ball_convex3 _ _) (tri_convex3 _ _ _)

/-- C76: a frustum against a segment, a box, an oriented box, a triangle, a sphere, a capsule, another frustum, and a convex
polygon. -/
theorem C76_frustum_partial (f : Frustum) (h : f.Valid) :
    (∀ l : LineSeg ℝ, GJKAnswer f.points (seg l.a l.b) (run f.support l.support = some .gaveUp) (f.intersectsSeg l)) ∧
    (∀ b : AABB ℝ, b.Proper → GJKAnswer f.points (box b.minPoint b.maxPoint) (run f.support b.support = some .gaveUp) (f.intersectsAABB b)) ∧
    (∀ o : OBB ℝ, 0 ≤ o.r.x → 0 ≤ o.r.y → 0 ≤ o.r.z →
      GJKAnswer f.points o.points (run f.support o.support = some .gaveUp) (f.intersectsOBB o)) ∧
    (∀ t : Tri ℝ, GJKAnswer f.points (tri t.a t.b t.c) (run f.support t.support = some .gaveUp) (f.intersectsTri t)) ∧
    (∀ s : Sphere ℝ, 0 ≤ s.r → GJKAnswer f.points (ball s.pos s.r) (run f.support s.support = some .gaveUp) (f.intersectsSphere s)) ∧
    (∀ c : Capsule ℝ, 0 ≤ c.r → GJKAnswer f.points c.points (run f.support c.support = some .gaveUp) (f.intersectsCapsule c)) ∧
    (∀ g : Frustum, g.Valid → GJKAnswer f.points g.points (run f.support g.support = some .gaveUp) (f.intersectsFrustum g)) ∧
    ∀ p ps, GJKAnswer (hull3 (p :: ps)) f.points (run (polygonSupport p ps) f.support = some .gaveUp) (f.polygonConvexIntersects p ps) := by
  have hf := f.describes h
  have hc := frustum_convex3 f h
  exact ⟨fun l => C76_intersect_partial hf l.describes hc (seg_convex3 _ _),
    fun b hb => C76_intersect_partial hf (b.describes hb) hc (box_convex3 _ _),
    fun o h1 h2 h3 => C76_intersect_partial hf (o.describes h1 h2 h3) hc (obb_convex3 o),
    fun t => C76_intersect_partial hf t.describes hc (tri_convex3 _ _ _),
    fun s hs => C76_intersect_partial hf (s.describes hs) hc (ball_convex3 _ _),
    fun c hr => C76_intersect_partial hf (c.describes hr) hc (capsule_convex3 c),
    fun g hg => C76_intersect_partial hf (g.describes hg) hc (frustum_convex3 g hg),
    fun p ps => C76_intersect_partial (polygon_describes p ps) hf (hull3_convex3 _) hc⟩

example := C76_frustum_partial exPersp exPersp_valid

/-- C76: a convex polygon against a box and an oriented box, a capsule against an oriented box. -/
theorem C76_boxes_partial (p : V3 ℝ) (ps : List (V3 ℝ)) (c : Capsule ℝ) (hr : 0 ≤ c.r) (b : AABB ℝ) (hb : b.Proper) (o : OBB ℝ) (hx : 0 ≤ o.r.x)
    (hy : 0 ≤ o.r.y) (hz : 0 ≤ o.r.z) :
    GJKAnswer (hull3 (p :: ps)) (box b.minPoint b.maxPoint) (run (polygonSupport p ps) b.support = some .gaveUp) (polygonConvexIntersectsAABB p ps b) ∧
    GJKAnswer (hull3 (p :: ps)) o.points (run (polygonSupport p ps) o.support = some .gaveUp) (polygonConvexIntersectsOBB p ps o) ∧
    GJKAnswer c.points o.points (run c.support o.support = some .gaveUp) (c.intersectsOBB o) :=
  ⟨C76_intersect_partial (polygon_describes p ps) (b.describes hb) (hull3_convex3 _) (box_convex3 _ _),
   C76_intersect_partial (polygon_describes p ps) (o.describes hx hy hz) (hull3_convex3 _) (obb_convex3 o),
   C76_intersect_partial (c.describes hr) (o.describes hx hy hz) (capsule_convex3 c) (obb_convex3 o)⟩

example := C76_boxes_partial ⟨0, 0, 0⟩ [⟨1, 0, 0⟩, ⟨1, 1, 0⟩, ⟨0, 1, 0⟩] ⟨⟨⟨1, 0, 2⟩, ⟨4, 0, 6⟩⟩, 2⟩ (by norm_num) ⟨⟨0, 0, 0⟩, ⟨1, 2, 3⟩⟩
  ⟨by norm_num, by norm_num, by norm_num⟩ ⟨⟨1, 2, 3⟩, ⟨2, 3, 1⟩, ⟨3/5, 4/5, 0⟩, ⟨-4/5, 3/5, 0⟩, ⟨0, 0, 1⟩⟩ (by norm_num) (by norm_num) (by norm_num)

/-- C76: a capsule against a box; moving both near the origin first does not change what the answer means. -/
theorem C76_capsule_box_partial (c : Capsule ℝ) (hr : 0 ≤ c.r) (b : AABB ℝ) (hb : b.Proper) :
    ∃ o : V3 ℝ, GJKAnswer c.points (box b.minPoint b.maxPoint) (run (c.translate o).support (b.translate o).support = some .gaveUp)
      (c.intersectsAABB b) := by
  refine ⟨-((1 / 2 : ℝ) • (f3Min c.minimalEnclosingAABB.minPoint b.minPoint + f3Max c.minimalEnclosingAABB.maxPoint b.maxPoint)), ?_⟩
  have e : c.intersectsAABB b = intersect (c.translate (-((1 / 2 : ℝ) • (f3Min c.minimalEnclosingAABB.minPoint b.minPoint +
      f3Max c.minimalEnclosingAABB.maxPoint b.maxPoint)))).support (b.translate (-((1 / 2 : ℝ) • (f3Min c.minimalEnclosingAABB.minPoint b.minPoint +
      f3Max c.minimalEnclosingAABB.maxPoint b.maxPoint)))).support := rfl
  rw [e]
  generalize -((1 / 2 : ℝ) • (f3Min c.minimalEnclosingAABB.minPoint b.minPoint + f3Max c.minimalEnclosingAABB.maxPoint b.maxPoint)) = o
  have hb' : (b.translate o).Proper := by
    obtain ⟨h1, h2, h3⟩ := hb
    refine ⟨?_, ?_, ?_⟩ <;> simp only [AABB.translate, add_x, add_y, add_z] <;> linarith
  have m1 : ∀ x : V3 ℝ, x ∈ (c.translate o).points ↔ x - o ∈ c.points := by
    intro x
    constructor
    · rintro ⟨_, ⟨t, h0, h1, rfl⟩, hd⟩
      refine ⟨_, ⟨t, h0, h1, rfl⟩, le_of_eq_of_le ?_ hd⟩
      simp only [Capsule.translate, distSq, lenSq, dot, add_x, add_y, add_z, sub_x, sub_y, sub_z, smul_x, smul_y, smul_z]; ring
    · rintro ⟨_, ⟨t, h0, h1, rfl⟩, hd⟩
      refine ⟨_, ⟨t, h0, h1, rfl⟩, le_of_eq_of_le ?_ hd⟩
      simp only [Capsule.translate, distSq, lenSq, dot, add_x, add_y, add_z, sub_x, sub_y, sub_z, smul_x, smul_y, smul_z]; ring
  have m2 : ∀ x : V3 ℝ, x ∈ box (b.translate o).minPoint (b.translate o).maxPoint ↔ x - o ∈ box b.minPoint b.maxPoint := by
    intro x
    simp only [box, AABB.translate, Set.mem_ofPred_eq, add_x, add_y, add_z, sub_x, sub_y, sub_z, le_sub_iff_add_le, sub_le_iff_le_add]
  obtain ⟨r, e, h1, h2⟩ := C76_intersect_partial ((c.translate o).describes hr) ((b.translate o).describes hb') (capsule_convex3 _) (box_convex3 _ _)
  refine ⟨r, e, fun h => ?_, fun h => ?_⟩
  · obtain ⟨p, hp, q, hq, hd⟩ := h1 h
    refine ⟨p - o, (m1 p).1 hp, q - o, (m2 q).1 hq, ?_⟩
    have : distSq (p - o) (q - o) = distSq p q := by simp only [distSq, lenSq, dot, sub_x, sub_y, sub_z]; ring
    rw [this]; exact hd
  · refine (h2 h).imp_left fun h3 x hx hx' => ?_
    have ex : x + o - o = x := by ext <;> simp
    exact h3 (x + o) ((m1 _).2 (by rw [ex]; exact hx)) ((m2 _).2 (by rw [ex]; exact hx'))

example := C76_capsule_box_partial ⟨⟨⟨1, 0, 2⟩, ⟨4, 0, 6⟩⟩, 2⟩ (by norm_num) ⟨⟨0, 0, 0⟩, ⟨1, 2, 3⟩⟩ ⟨by norm_num, by norm_num, by norm_num⟩

/-- C76: the test says that a small triangle meets a point box although their distance is 0.03. -/
theorem C76_meet_violation : polygonConvexIntersectsAABB (⟨1/20, 3/100, 0⟩ : V3 ℚ) [⟨-1/20, 3/100, 0⟩, ⟨0, 1/25, 0⟩] ⟨0, 0⟩ = some true ∧
    (∀ x ∈ hull3 [(⟨1/20, 3/100, 0⟩ : V3 ℚ), ⟨-1/20, 3/100, 0⟩, ⟨0, 1/25, 0⟩], 3 / 100 ≤ x.y) ∧
    ∀ x ∈ box (0 : V3 ℚ) 0, x.y = 0 := by
  refine ⟨by decide +kernel, ?_, ?_⟩
  · intro x hx
    refine hx {y | 3 / 100 ≤ y.y} ?_ (by intro s hs; fin_cases hs <;> norm_num)
    intro a ha b hb s t hs ht hst
    simp only [Set.mem_ofPred_eq, add_y, smul_y] at *
    nlinarith
  · rintro x ⟨-, -, h1, h2, -⟩
    exact le_antisymm h2 h1

/-- The vertices, in order, of a convex polygon on the parabola `y = x²`: the powers of -1/2 up to the 59th, and the origin. -/
def parabolaPolygon : List (V3 ℚ) :=
  let v : ℕ → V3 ℚ := fun k => ⟨(-1 / 2) ^ k, (1 / 4) ^ k, 0⟩
  ((List.range 30).map fun i => v (2 * i + 1)) ++ [0] ++ (List.range 29).reverse.map fun i => v (2 * i + 2)

/-- C76: the test runs out of iterations, and says that this polygon does not meet the box that consists of the origin,
although the origin is a vertex of it. -/
theorem C76_gaveUp_violation : polygonConvexIntersectsAABB (⟨1, 1, 0⟩ : V3 ℚ) parabolaPolygon ⟨0, 0⟩ = some false ∧
    (0 : V3 ℚ) ∈ hull3 (⟨1, 1, 0⟩ :: parabolaPolygon) ∧ (0 : V3 ℚ) ∈ box (0 : V3 ℚ) 0 := by
  refine ⟨by decide +kernel, fun K _ hK => hK 0 ?_, ⟨le_rfl, le_rfl, le_rfl, le_rfl, le_rfl, le_rfl⟩⟩
  simp [parabolaPolygon]

end MGL
