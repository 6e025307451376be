import Verif.Proofs.GJK2D
import Mathlib.Algebra.Order.Ring.Unbundled.Rat
import Mathlib.Tactic.FinCases

/-! # C77: intersection tests of the plane by GJK

`Describes a A` (Verif/Proofs/GJK2D.lean) says that the two functions the code calls on an object are right for the set `A` of
its points. -/

set_option linter.unusedSectionVars false

namespace MGL
open Spec GJK2D
variable {α : Type*} [Field α] [LinearOrder α] [IsStrictOrderedRing α]

/-- C77: the array of three points is never overrun, whatever the functions of the objects return. -/
theorem C77_safe (a b : Support2 α) : GJK2D.run a b ≠ none ∧ GJK2D.intersect a b ≠ none := by
  have h : GJK2D.run a b ≠ none := by
    unfold GJK2D.run
    dsimp only
    split_ifs
    · simp
    · exact safe_loop a b 50 _ _ (by simp) (by simp)
  refine ⟨h, ?_⟩
  unfold GJK2D.intersect
  simpa using h

/-- C77: when the test stops because it found a separating direction, the objects have no point in common. -/
theorem C77_apart {a b : Support2 α} {A B : Set (V2 α)} (ha : Describes a A) (hb : Describes b B) (h : GJK2D.run a b = some .apart) :
    ∀ x ∈ A, x ∉ B := by
  unfold GJK2D.run at h
  dsimp only at h
  split_ifs at h
  · simp at h
  · exact apart_loop ha hb 50 _ _ h

/-- C77: when the test finds that two convex objects meet, they come within `10⁻³·⁵` of each other. -/
theorem C77_meet {a b : Support2 α} {A B : Set (V2 α)} (ha : Describes a A) (hb : Describes b B) (hA : Convex2 A) (hB : Convex2 B)
    (h : GJK2D.run a b = some .meet) : ∃ p ∈ A, ∃ q ∈ B, distSq2 p q ≤ 1 / 10000000 := by
  have hd : ∀ p q : V2 α, distSq2 p q = V2.lenSq (p - q) := by
    intro p q; simp only [distSq2, V2.lenSq, V2.dot, V2.sub_x, V2.sub_y]; ring
  by_cases h0 : (0 : V2 α) ∈ diff A B
  · obtain ⟨p, hp, q, hq, e⟩ := h0
    refine ⟨p, hp, q, hq, ?_⟩
    rw [hd, ← e]; simp [V2.lenSq, V2.dot]
  · have hm : a.any - b.any ∈ diff A B := ⟨_, ha.1, _, hb.1, rfl⟩
    suffices h' : ∃ c ∈ diff A B, V2.lenSq c ≤ 1 / 10000000 by
      obtain ⟨_, ⟨p, hp, q, hq, rfl⟩, e⟩ := h'
      exact ⟨p, hp, q, hq, by rw [hd]; exact e⟩
    unfold GJK2D.run at h
    dsimp only at h
    split_ifs at h with hc
    · exact ⟨_, hm, hc.le⟩
    · refine meet_loop ha hb hA hB h0 50 _ _ ⟨by simpa using hm, Or.inl ⟨_, rfl, rfl, ?_⟩⟩ h
      push Not at hc
      exact lt_of_lt_of_le (by positivity) hc

/-- What the answer of the test on two objects means: `true` that they come within `10⁻³·⁵` of each other, `false` that they
have no point in common, except where the test ran out of iterations. -/
def GJK2DAnswer (A B : Set (V2 α)) (gaveUp : Prop) (o : Option Bool) : Prop :=
  ∃ r, o = some r ∧ (r = true → ∃ p ∈ A, ∃ q ∈ B, distSq2 p q ≤ 1 / 10000000) ∧ (r = false → (∀ x ∈ A, x ∉ B) ∨ gaveUp)

/-- C77: the answer for any two convex objects. -/
theorem C77_intersect_partial {a b : Support2 α} {A B : Set (V2 α)} (ha : Describes a A) (hb : Describes b B) (hA : Convex2 A)
    (hB : Convex2 B) : GJK2DAnswer A B (GJK2D.run a b = some .gaveUp) (GJK2D.intersect a b) := by
  have hs := (C77_safe a b).1
  unfold GJK2D.intersect
  rcases e : GJK2D.run a b with _ | o
  · exact absurd e hs
  · refine ⟨decide (o = .meet), rfl, fun h => ?_, fun h => ?_⟩
    · have : o = .meet := by simpa using h
      exact C77_meet ha hb hA hB (e.trans (by rw [this]))
    · have : o ≠ .meet := by simpa using h
      cases o
      · exact absurd rfl this
      · exact Or.inl (C77_apart ha hb e)
      · exact Or.inr rfl

/-! ### The functions -/

theorem hull2_convex2 (S : List (V2 α)) : Convex2 (hull2 S) :=
  fun p hp q hq s t hs ht hst K hK hm => hK p (hp K hK hm) q (hq K hK hm) s t hs ht hst

theorem extremeLoop2_spec (d : V2 α) : ∀ (cs : List (V2 α)) (m : V2 α),
    ∃ q, GJK2D.extremeLoop d (some (m, V2.dot d m)) cs = some (q, V2.dot d q) ∧ q ∈ m :: cs ∧ ∀ c ∈ m :: cs, V2.dot d c ≤ V2.dot d q := by
  intro cs
  induction cs with
  | nil => intro m; exact ⟨m, rfl, by simp, by simp⟩
  | cons c cs ih =>
    intro m
    rw [GJK2D.extremeLoop]
    split_ifs with h
    · obtain ⟨q, e, hq, hm⟩ := ih c
      refine ⟨q, e, by simp only [List.mem_cons] at hq ⊢; tauto, ?_⟩
      intro x hx
      rcases List.mem_cons.1 hx with rfl | hx
      · exact h.le.trans (hm c (by simp))
      · exact hm x hx
    · obtain ⟨q, e, hq, hm⟩ := ih m
      refine ⟨q, e, by simp only [List.mem_cons] at hq ⊢; tauto, ?_⟩
      intro x hx
      rcases List.mem_cons.1 hx with rfl | hx
      · exact hm x (by simp)
      · rcases List.mem_cons.1 hx with rfl | hx
        · exact (not_lt.1 h).trans (hm m (by simp))
        · exact hm x (by simp [hx])

theorem polygon2_describes (p : V2 α) (ps : List (V2 α)) : Describes (GJK2D.polygonSupport p ps) (hull2 (p :: ps)) := by
  have h : ∀ d, ∃ q, (GJK2D.polygonSupport p ps).ext d = some (q, V2.dot d q) ∧ IsExtreme2 (hull2 (p :: ps)) d q := by
    intro d
    obtain ⟨q, e, hq, hm⟩ := extremeLoop2_spec d ps p
    refine ⟨q, e, fun K _ hK => hK q hq, ?_⟩
    intro x hx
    refine hx {y | V2.dot d y ≤ V2.dot d q} ?_ hm
    intro a ha b hb s t hs ht hst
    simp only [Set.mem_ofPred_eq] at *
    have e : V2.dot d ⟨s * a.x + t * b.x, s * a.y + t * b.y⟩ = s * V2.dot d a + t * V2.dot d b := by
      simp only [V2.dot]; ring
    rw [e]
    have h1 := mul_le_mul_of_nonneg_left ha hs
    have h2 := mul_le_mul_of_nonneg_left hb ht
    have h3 : s * V2.dot d q + t * V2.dot d q = V2.dot d q := by linear_combination V2.dot d q * hst
    linarith
  refine ⟨fun K _ hK => hK p (by simp), ?_, ?_⟩
  · intro d q v he
    obtain ⟨q', e, hx⟩ := h d
    obtain ⟨rfl, rfl⟩ := Prod.mk.inj (Option.some.inj (e.symm.trans he))
    exact ⟨rfl, hx⟩
  · intro d _
    obtain ⟨q', e, hx⟩ := h d
    simp [e]

theorem point2_describes (v : V2 α) : Describes (pointSupport v) {v} := by
  refine ⟨rfl, ?_, fun _ _ => rfl⟩
  intro d q w h
  obtain ⟨rfl, rfl⟩ := Prod.mk.inj (Option.some.inj h)
  refine ⟨by simp only [V2.dot]; ring, rfl, ?_⟩
  rintro s rfl; exact le_rfl

theorem point2_convex2 (v : V2 α) : Convex2 ({v} : Set (V2 α)) := by
  rintro p hp q hq s t _ _ h
  rw [Set.mem_singleton_iff] at *
  rw [hp, hq]
  ext
  · dsimp only; linear_combination v.x * h
  · dsimp only; linear_combination v.y * h

theorem rect2_convex2 (c u v : V2 α) : Convex2 (rect2 c u v) := by
  rintro _ ⟨a, b, a1, a2, b1, b2, rfl⟩ _ ⟨a', b', a1', a2', b1', b2', rfl⟩ s t hs ht hst
  refine ⟨s * a + t * a', s * b + t * b', by nlinarith, by nlinarith, by nlinarith, by nlinarith, ?_⟩
  have : s = 1 - t := by linarith
  ext <;> simp [this] <;> ring

theorem obb2_describes (c u v : V2 α) : Describes (obbSupport c u v) (rect2 c u v) := by
  refine ⟨⟨0, 0, by simp, by simp, by simp, by simp, by ext <;> simp [obbSupport]⟩, ?_, fun _ _ => rfl⟩
  intro d q w h
  obtain ⟨rfl, rfl⟩ := Prod.mk.inj (Option.some.inj h)
  have sgn : ∀ e : α, -1 ≤ (if e ≥ 0 then (1 : α) else -1) ∧ (if e ≥ 0 then (1 : α) else -1) ≤ 1 ∧
      ∀ s, -1 ≤ s → s ≤ 1 → s * e ≤ (if e ≥ 0 then (1 : α) else -1) * e := by
    intro e
    split_ifs with he
    · exact ⟨by linarith, le_rfl, fun s a b => by nlinarith⟩
    · push Not at he; exact ⟨le_rfl, by linarith, fun s a b => by nlinarith⟩
  obtain ⟨a1, a2, a3⟩ := sgn (V2.dot d u)
  obtain ⟨b1, b2, b3⟩ := sgn (V2.dot d v)
  refine ⟨by simp only [V2.dot]; ring, ⟨_, _, a1, a2, b1, b2, rfl⟩, ?_⟩
  rintro _ ⟨s, t, s1, s2, t1, t2, rfl⟩
  have e : ∀ s t : α, V2.dot d (c + s • u + t • v) = V2.dot d c + s * V2.dot d u + t * V2.dot d v := by
    intro s t; simp only [V2.dot, V2.add_x, V2.add_y, V2.smul_x, V2.smul_y]; ring
  unfold obbExtreme
  simp only [e]
  have := a3 s s1 s2
  have := b3 t t1 t2
  linarith

/-- C77: two convex polygons, a convex polygon and a point, a convex polygon and a rectangle. -/
theorem C77_functions_partial (p : V2 α) (ps : List (V2 α)) :
    (∀ q qs, GJK2DAnswer (hull2 (p :: ps)) (hull2 (q :: qs)) (GJK2D.run (GJK2D.polygonSupport p ps) (GJK2D.polygonSupport q qs) = some .gaveUp)
      (intersect2D p ps q qs)) ∧
    (∀ b, GJK2DAnswer (hull2 (p :: ps)) {b} (GJK2D.run (GJK2D.polygonSupport p ps) (pointSupport b) = some .gaveUp) (containsPt2D p ps b)) ∧
    ∀ c u v, GJK2DAnswer (hull2 (p :: ps)) (rect2 c u v) (GJK2D.run (GJK2D.polygonSupport p ps) (obbSupport c u v) = some .gaveUp)
      (intersectOBB2D p ps c u v) :=
  ⟨fun q qs => C77_intersect_partial (polygon2_describes p ps) (polygon2_describes q qs) (hull2_convex2 _) (hull2_convex2 _),
   fun b => C77_intersect_partial (polygon2_describes p ps) (point2_describes b) (hull2_convex2 _) (point2_convex2 b),
   fun c u v => C77_intersect_partial (polygon2_describes p ps) (obb2_describes c u v) (hull2_convex2 _) (rect2_convex2 c u v)⟩

example : intersect2D (⟨0, 0⟩ : V2 ℚ) [⟨4, 0⟩, ⟨0, 4⟩] ⟨1, 1⟩ [⟨9, 2⟩, ⟨2, 9⟩] = some true ∧
    intersect2D (⟨0, 0⟩ : V2 ℚ) [⟨4, 0⟩, ⟨0, 4⟩] ⟨3, 2⟩ [⟨9, 2⟩, ⟨2, 9⟩] = some false ∧
    containsPt2D (⟨0, 0⟩ : V2 ℚ) [⟨4, 0⟩, ⟨0, 4⟩] ⟨2, 1⟩ = some true ∧
    intersectOBB2D (⟨0, 0⟩ : V2 ℚ) [⟨4, 0⟩, ⟨0, 4⟩] ⟨3, 3⟩ ⟨1/2, 1/2⟩ ⟨-2, 2⟩ = some false := by decide +kernel

example : ∀ x ∈ hull2 [(⟨0, 0⟩ : V2 ℚ), ⟨4, 0⟩, ⟨0, 4⟩], x ∉ ({⟨5, 5⟩} : Set (V2 ℚ)) :=
  C77_apart (polygon2_describes _ _) (point2_describes _) (by decide +kernel)

example : ∃ p ∈ hull2 [(⟨0, 0⟩ : V2 ℚ), ⟨4, 0⟩, ⟨0, 4⟩], ∃ q ∈ ({⟨2, 1⟩} : Set (V2 ℚ)), distSq2 p q ≤ 1 / 10000000 :=
  C77_meet (polygon2_describes _ _) (point2_describes _) (hull2_convex2 _) (point2_convex2 _) (by decide +kernel)

/-- The vertices, in order, of a convex polygon on the parabola `y = x²`: the powers of -1/2 up to the 59th, and the origin. -/
def parabolaPolygon2 : List (V2 ℚ) :=
  let v : ℕ → V2 ℚ := fun k => ⟨(-1 / 2) ^ k, (1 / 4) ^ k⟩
  ((List.range 30).map fun i => v (2 * i + 1)) ++ [0] ++ (List.range 29).reverse.map fun i => v (2 * i + 2)

/-- C77: the test runs out of iterations, and says that this polygon does not contain the origin, which is one of its
vertices. -/
theorem C77_gaveUp_violation : containsPt2D (⟨1, 1⟩ : V2 ℚ) parabolaPolygon2 0 = some false ∧
    (0 : V2 ℚ) ∈ hull2 (⟨1, 1⟩ :: parabolaPolygon2) := by
  refine ⟨by decide +kernel, fun K _ hK => hK 0 ?_⟩
  simp [parabolaPolygon2]

/-- C77: the tolerance is really used: the point is not in the polygon, at distance 1/5000 from it. -/
theorem C77_meet_violation : containsPt2D (⟨1/5000, 0⟩ : V2 ℚ) [⟨1, 0⟩, ⟨1, 1⟩] 0 = some true ∧
    ∀ x ∈ hull2 [(⟨1/5000, 0⟩ : V2 ℚ), ⟨1, 0⟩, ⟨1, 1⟩], x ∉ ({0} : Set (V2 ℚ)) := by
  refine ⟨by decide +kernel, ?_⟩
  rintro x hx rfl
  have : (1 / 5000 : ℚ) ≤ (0 : V2 ℚ).x := by
    refine hx {y | 1 / 5000 ≤ y.x} ?_ (by intro s hs; fin_cases hs <;> norm_num)
    intro a ha b hb s t hs ht hst
    simp only [Set.mem_ofPred_eq] at *
    nlinarith
  norm_num at this

end MGL
