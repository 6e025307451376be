import Verif.Proofs.PBVolume
import Verif.Props.PlaneIntersect
import Verif.Spec.HalfSpaces

/-! C102: volumes bounded by planes (`PBVolume`): containment, culling of boxes and spheres, set intersection and conversion to
polyhedra. -/

set_option linter.unusedSectionVars false

namespace MGL
open V3
namespace PBVolume
variable {α : Type} [Field α] [LinearOrder α] [IsStrictOrderedRing α]

/-- The planes of a volume as pairs of the normal and the distance from the origin. -/
def planes (b : PBVolume α) : List (V3 α × α) := b.p.map fun q => (q.normal, q.d)

theorem mem_half (b : PBVolume α) (x : V3 α) : x ∈ Spec.halfSpaces b.planes ↔ ∀ q ∈ b.p, q.signedDistance x ≤ 0 := by
  simp only [Spec.halfSpaces, planes, Set.mem_ofPred_eq, List.mem_map, forall_exists_index, and_imp, forall_apply_eq_imp_iff₂,
    Plane.signedDistance, sub_nonpos]

/-- C102: `Contains` decides whether the point is on the inner side of all planes. -/
theorem C102_contains (b : PBVolume α) (x : V3 α) : b.contains x = true ↔ x ∈ Spec.halfSpaces b.planes := by
  rw [mem_half]
  simp [contains]

/-- C102: `SetIntersection` of two volumes contains exactly their common points. -/
theorem C102_setIntersection (b c : PBVolume α) :
    Spec.halfSpaces (b.setIntersection c).planes = Spec.halfSpaces b.planes ∩ Spec.halfSpaces c.planes ∧
    ∀ x, (b.setIntersection c).contains x = (b.contains x && c.contains x) := by
  constructor
  · ext x
    rw [Set.mem_inter_iff, mem_half, mem_half, mem_half]
    simp only [setIntersection, List.mem_append]
    exact ⟨fun h => ⟨fun q hq => h q (Or.inl hq), fun q hq => h q (Or.inr hq)⟩, fun h q hq => hq.elim (h.1 q) (h.2 q)⟩
  · intro x
    simp [contains, setIntersection]

/-! ### Culling -/

theorem corner_le (n : α) {lo hi t : α} (h1 : lo ≤ t) (h2 : t ≤ hi) :
    n * (if n < 0 then hi else lo) ≤ n * t ∧ n * t ≤ n * (if n ≥ 0 then hi else lo) := by
  by_cases h : n < 0
  · rw [if_pos h, if_neg (not_le.2 h)]
    exact ⟨mul_le_mul_of_nonpos_left h2 h.le, mul_le_mul_of_nonpos_left h1 h.le⟩
  · rw [if_neg h, if_pos (not_lt.1 h)]
    exact ⟨mul_le_mul_of_nonneg_left h1 (not_lt.1 h), mul_le_mul_of_nonneg_left h2 (not_lt.1 h)⟩

theorem box_bounds (q : Plane α) (bx : AABB α) (x : V3 α) (h : x ∈ Spec.box bx.minPoint bx.maxPoint) :
    q.signedDistance (nPoint q.normal bx) ≤ q.signedDistance x ∧ q.signedDistance x ≤ q.signedDistance (pPoint q.normal bx) := by
  obtain ⟨a1, a2, a3, a4, a5, a6⟩ := h
  have hx := corner_le q.normal.x a1 a2
  have hy := corner_le q.normal.y a3 a4
  have hz := corner_le q.normal.z a5 a6
  simp only [Plane.signedDistance, dot, nPoint, pPoint]
  constructor <;> linarith [hx.1, hx.2, hy.1, hy.2, hz.1, hz.2]

theorem corner_mem (c : Prop) [Decidable c] {lo hi : α} (h : lo ≤ hi) : lo ≤ (if c then hi else lo) ∧ (if c then hi else lo) ≤ hi := by
  split <;> simp [h]

/-- What a loop over the planes returns that gives up at the first plane with `out`, and remembers whether `some` ever held. -/
theorem loop_spec (out cut : Plane α → Prop) (loop : List (Plane α) → Cull → Cull)
    (h0 : ∀ r, loop [] r = r)
    (h1 : ∀ q qs r, out q → loop (q :: qs) r = .outside)
    (h2 : ∀ q qs r, ¬ out q → cut q → loop (q :: qs) r = loop qs .notContained)
    (h3 : ∀ q qs r, ¬ out q → ¬ cut q → loop (q :: qs) r = loop qs r) (l : List (Plane α)) :
    (loop l .inside = .outside ↔ ∃ q ∈ l, out q) ∧
    (loop l .inside = .inside ↔ ∀ q ∈ l, ¬ out q ∧ ¬ cut q) := by
  have key : ∀ r : Cull, r ≠ .outside → ((loop l r = .outside ↔ ∃ q ∈ l, out q) ∧
      (loop l r = .inside ↔ r = .inside ∧ ∀ q ∈ l, ¬ out q ∧ ¬ cut q)) := by
    induction l with
    | nil => intro r hr; rw [h0]; simp [hr]
    | cons q qs ih =>
      intro r hr
      by_cases ho : out q
      · rw [h1 _ _ _ ho]; simp [ho]
      · by_cases hc : cut q
        · rw [h2 _ _ _ ho hc]
          obtain ⟨i1, i2⟩ := ih .notContained (by simp)
          rw [i1, i2]
          simp [ho, hc]
        · rw [h3 _ _ _ ho hc]
          obtain ⟨i1, i2⟩ := ih r hr
          rw [i1, i2]
          simp [ho, hc]
  obtain ⟨k1, k2⟩ := key .inside (by simp)
  exact ⟨k1, k2.trans (by simp)⟩

/-- C102: culling a box (with its corners in order). `TestOutside` is returned exactly if the whole box is on the outer side of one
of the planes, so it has no point inside the volume; `TestInside` exactly if the whole box is inside the volume, without touching
its planes. -/
theorem C102_cull_box (b : PBVolume α) (bx : AABB α) (hx : bx.minPoint.x ≤ bx.maxPoint.x) (hy : bx.minPoint.y ≤ bx.maxPoint.y)
    (hz : bx.minPoint.z ≤ bx.maxPoint.z) :
    (b.cullAABB bx = .outside ↔ Spec.SeparatedBy b.planes (Spec.box bx.minPoint bx.maxPoint)) ∧
    (b.cullAABB bx = .outside → Spec.box bx.minPoint bx.maxPoint ∩ Spec.openHalfSpaces b.planes = ∅) ∧
    (b.cullAABB bx = .inside ↔ Spec.box bx.minPoint bx.maxPoint ⊆ Spec.openHalfSpaces b.planes) := by
  have hn : ∀ n : V3 α, nPoint n bx ∈ Spec.box bx.minPoint bx.maxPoint := fun n =>
    ⟨(corner_mem _ hx).1, (corner_mem _ hx).2, (corner_mem _ hy).1, (corner_mem _ hy).2, (corner_mem _ hz).1, (corner_mem _ hz).2⟩
  have hp : ∀ n : V3 α, pPoint n bx ∈ Spec.box bx.minPoint bx.maxPoint := fun n =>
    ⟨(corner_mem _ hx).1, (corner_mem _ hx).2, (corner_mem _ hy).1, (corner_mem _ hy).2, (corner_mem _ hz).1, (corner_mem _ hz).2⟩
  obtain ⟨k1, k2⟩ := loop_spec (fun q : Plane α => q.signedDistance (nPoint q.normal bx) ≥ 0)
    (fun q => q.signedDistance (pPoint q.normal bx) ≥ 0) (cullAABBLoop bx) (fun r => rfl)
    (fun q qs r h => by rw [cullAABBLoop, if_pos h]) (fun q qs r h h' => by rw [cullAABBLoop, if_neg h, if_pos h'])
    (fun q qs r h h' => by rw [cullAABBLoop, if_neg h, if_neg h']) b.p
  have e1 : b.cullAABB bx = .outside ↔ Spec.SeparatedBy b.planes (Spec.box bx.minPoint bx.maxPoint) := by
    refine k1.trans ⟨?_, ?_⟩
    · rintro ⟨q, hq, h⟩
      refine ⟨(q.normal, q.d), List.mem_map.2 ⟨q, hq, rfl⟩, fun x hx => ?_⟩
      have := (box_bounds q bx x hx).1
      have h' := le_trans h this
      unfold Plane.signedDistance at h'
      exact sub_nonneg.1 h'
    · rintro ⟨h, hh, hs⟩
      obtain ⟨q, hq, rfl⟩ := List.mem_map.1 hh
      exact ⟨q, hq, sub_nonneg.2 (hs _ (hn q.normal))⟩
  refine ⟨e1, fun h => ?_, k2.trans ⟨?_, ?_⟩⟩
  · obtain ⟨g, hg, hs⟩ := e1.1 h
    rw [Set.eq_empty_iff_forall_notMem]
    rintro x ⟨h1, h2⟩
    exact absurd (h2 g hg) (not_lt.2 (hs x h1))
  · intro h x hx g hg
    obtain ⟨q, hq, rfl⟩ := List.mem_map.1 hg
    have := (box_bounds q bx x hx).2
    have h' := lt_of_le_of_lt this (not_le.1 (h q hq).2)
    unfold Plane.signedDistance at h'
    exact sub_neg.1 h'
  · intro h q hq
    have m : (q.normal, q.d) ∈ b.planes := List.mem_map.2 ⟨q, hq, rfl⟩
    exact ⟨not_le.2 (sub_neg.2 (h (hn q.normal) _ m)), not_le.2 (sub_neg.2 (h (hp q.normal) _ m))⟩

example : (⟨⟨0, 0, 0⟩, ⟨1, 1, 1⟩⟩ : AABB ℚ).minPoint.x ≤ 1 ∧
    (⟨[⟨⟨1, 0, 0⟩, 5⟩, ⟨⟨-1, 0, 0⟩, 5⟩]⟩ : PBVolume ℚ).cullAABB ⟨⟨0, 0, 0⟩, ⟨1, 1, 1⟩⟩ = .inside ∧
    (⟨[⟨⟨1, 0, 0⟩, 5⟩, ⟨⟨-1, 0, 0⟩, 5⟩]⟩ : PBVolume ℚ).cullAABB ⟨⟨6, 0, 0⟩, ⟨7, 1, 1⟩⟩ = .outside ∧
    (⟨[⟨⟨1, 0, 0⟩, 5⟩, ⟨⟨-1, 0, 0⟩, 5⟩]⟩ : PBVolume ℚ).cullAABB ⟨⟨4, 0, 0⟩, ⟨7, 1, 1⟩⟩ = .notContained := by decide +kernel

/-- C102: culling a sphere, for planes with unit normals: the same for the points of the ball. -/
theorem C102_cull_sphere (b : PBVolume α) (s : Sphere α) (hu : ∀ q ∈ b.p, lenSq q.normal = 1) (hr : 0 ≤ s.r) :
    (b.cullSphere s = .outside ↔ Spec.SeparatedBy b.planes (Spec.ball s.pos s.r)) ∧
    (b.cullSphere s = .outside → Spec.ball s.pos s.r ∩ Spec.openHalfSpaces b.planes = ∅) ∧
    (b.cullSphere s = .inside ↔ Spec.ball s.pos s.r ⊆ Spec.openHalfSpaces b.planes) := by
  obtain ⟨k1, k2⟩ := loop_spec (fun q : Plane α => q.signedDistance s.pos ≥ s.r)
    (fun q => q.signedDistance s.pos ≥ -s.r) (cullSphereLoop s) (fun r => rfl)
    (fun q qs r h => by rw [cullSphereLoop]; simp only [if_pos h])
    (fun q qs r h h' => by rw [cullSphereLoop]; simp only [if_neg h, if_pos h'])
    (fun q qs r h h' => by rw [cullSphereLoop]; simp only [if_neg h, if_neg h']) b.p
  have far : ∀ q ∈ b.p, ∀ t : α, t * t ≤ s.r * s.r → s.pos + t • q.normal ∈ Spec.ball s.pos s.r ∧
      dot q.normal (s.pos + t • q.normal) = dot q.normal s.pos + t := by
    intro q hq t ht
    have hn := hu q hq
    simp only [lenSq, dot] at hn
    constructor
    · simp only [Spec.ball, Set.mem_ofPred_eq, distSq, lenSq, dot, sub_x, sub_y, sub_z, add_x, add_y, add_z, smul_x, smul_y, smul_z]
      nlinarith [hn]
    · simp only [dot, add_x, add_y, add_z, smul_x, smul_y, smul_z]
      linear_combination t * hn
  have near : ∀ q ∈ b.p, ∀ x ∈ Spec.ball s.pos s.r, dot q.normal s.pos - s.r ≤ dot q.normal x ∧
      dot q.normal x ≤ dot q.normal s.pos + s.r := by
    intro q hq x hx
    have hn := hu q hq
    simp only [Spec.ball, Set.mem_ofPred_eq, distSq] at hx
    have cs : dot q.normal (x - s.pos) * dot q.normal (x - s.pos) ≤ s.r * s.r := by
      have h0 : 0 ≤ lenSq (cross q.normal (x - s.pos)) := by
        simp only [lenSq, dot]; nlinarith [mul_self_nonneg (cross q.normal (x - s.pos)).x,
          mul_self_nonneg (cross q.normal (x - s.pos)).y, mul_self_nonneg (cross q.normal (x - s.pos)).z]
      have hl : lenSq (cross q.normal (x - s.pos)) + dot q.normal (x - s.pos) * dot q.normal (x - s.pos) =
          lenSq q.normal * lenSq (x - s.pos) := by
        simp only [lenSq, dot, cross]; ring
      rw [hn, one_mul] at hl
      linarith
    have e : dot q.normal (x - s.pos) = dot q.normal x - dot q.normal s.pos := by
      simp only [dot, sub_x, sub_y, sub_z]; ring
    rw [e] at cs
    have := abs_le_of_sq_le_sq' (a := dot q.normal x - dot q.normal s.pos) (b := s.r) (by nlinarith) hr
    constructor <;> linarith [this.1, this.2]
  have e1 : b.cullSphere s = .outside ↔ Spec.SeparatedBy b.planes (Spec.ball s.pos s.r) := by
    refine k1.trans ⟨?_, ?_⟩
    · rintro ⟨q, hq, h⟩
      refine ⟨(q.normal, q.d), List.mem_map.2 ⟨q, hq, rfl⟩, fun x hx => ?_⟩
      have := (near q hq x hx).1
      unfold Plane.signedDistance at h
      dsimp only
      linarith
    · rintro ⟨h, hh, hs⟩
      obtain ⟨q, hq, rfl⟩ := List.mem_map.1 hh
      obtain ⟨f1, f2⟩ := far q hq (-s.r) (by nlinarith)
      have := hs _ f1
      rw [f2] at this
      refine ⟨q, hq, ?_⟩
      unfold Plane.signedDistance
      dsimp only at this ⊢
      linarith
  refine ⟨e1, fun h => ?_, k2.trans ⟨?_, ?_⟩⟩
  · obtain ⟨g, hg, hs⟩ := e1.1 h
    rw [Set.eq_empty_iff_forall_notMem]
    rintro x ⟨h1, h2⟩
    exact absurd (h2 g hg) (not_lt.2 (hs x h1))
  · intro h x hx g hg
    obtain ⟨q, hq, rfl⟩ := List.mem_map.1 hg
    have := (near q hq x hx).2
    have h' := not_le.1 (h q hq).2
    unfold Plane.signedDistance at h'
    dsimp only
    linarith
  · intro h q hq
    have m : (q.normal, q.d) ∈ b.planes := List.mem_map.2 ⟨q, hq, rfl⟩
    obtain ⟨f1, f2⟩ := far q hq s.r le_rfl
    have := h f1 _ m
    dsimp only at this
    rw [f2] at this
    unfold Plane.signedDistance
    constructor
    · rw [ge_iff_le, not_le]; linarith
    · rw [ge_iff_le, not_le]; linarith

example : (∀ q ∈ [(⟨⟨3/5, 4/5, 0⟩, 5⟩ : Plane ℚ)], lenSq q.normal = 1) ∧ (0 : ℚ) ≤ 1 ∧
    (⟨[⟨⟨3/5, 4/5, 0⟩, 5⟩]⟩ : PBVolume ℚ).cullSphere ⟨⟨3, 4, 0⟩, 1⟩ = .notContained ∧
    (⟨[⟨⟨3/5, 4/5, 0⟩, 5⟩]⟩ : PBVolume ℚ).cullSphere ⟨⟨6, 8, 0⟩, 1⟩ = .outside := by decide +kernel

/-- C102 fails when the objects only touch: the answers are "fully disjoint" for a box that has a point of the volume, and "not
fully contained" for a box that is contained. -/
theorem C102_cull_violation : ∃ (b : PBVolume ℚ) (x y : AABB ℚ),
    b.cullAABB x = .outside ∧ (Spec.box x.minPoint x.maxPoint ∩ Spec.halfSpaces b.planes).Nonempty ∧
    b.cullAABB y = .notContained ∧ Spec.box y.minPoint y.maxPoint ⊆ Spec.halfSpaces b.planes := by
  refine ⟨⟨[⟨⟨1, 0, 0⟩, 1⟩]⟩, ⟨⟨1, 0, 0⟩, ⟨2, 1, 1⟩⟩, ⟨⟨0, 0, 0⟩, ⟨1, 1, 1⟩⟩, by decide +kernel, ⟨⟨1, 0, 0⟩, ?_, ?_⟩, by decide +kernel,
    fun x hx => ?_⟩
  · refine ⟨?_, ?_, ?_, ?_, ?_, ?_⟩ <;> norm_num
  · rw [mem_half]; intro q hq; simp only [List.mem_singleton] at hq; subst hq; norm_num [Plane.signedDistance, dot]
  · rw [mem_half]; intro q hq; simp only [List.mem_singleton] at hq; subst hq
    have := hx.2.1
    simp only [Plane.signedDistance, dot]
    dsimp only at this
    linarith

end PBVolume
end MGL
