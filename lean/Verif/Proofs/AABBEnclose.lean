import Verif.Model.AABBEnclose
import Verif.Proofs.Scalar
import Verif.Proofs.Vec3

/-! Lemmas for property C16. -/

namespace MGL

open V3 Spec

variable {α : Type*} [Field α] [LinearOrder α]

/-- Coordinate-wise inclusion of corners. -/
def SubB (a b : AABB (Ext α)) : Prop :=
  (b.minPoint.x ≤ a.minPoint.x ∧ b.minPoint.y ≤ a.minPoint.y ∧ b.minPoint.z ≤ a.minPoint.z) ∧
  (a.maxPoint.x ≤ b.maxPoint.x ∧ a.maxPoint.y ≤ b.maxPoint.y ∧ a.maxPoint.z ≤ b.maxPoint.z)

omit [Field α] in
theorem SubB.refl (a : AABB (Ext α)) : SubB a a :=
  ⟨⟨le_rfl, le_rfl, le_rfl⟩, ⟨le_rfl, le_rfl, le_rfl⟩⟩

omit [Field α] in
theorem SubB.negInf (a : AABB (Ext α)) : SubB AABB.negInf a :=
  ⟨⟨le_top, le_top, le_top⟩, ⟨bot_le, bot_le, bot_le⟩⟩

omit [Field α] in
theorem subB_encloseMinMax (b c : AABB (Ext α)) (mn mx : V3 (Ext α)) :
    SubB (b.encloseMinMax mn mx) c ↔ SubB b c ∧ SubB ⟨mn, mx⟩ c := by
  unfold SubB AABB.encloseMinMax f3Min f3Max
  simp only [min2_eq, max2_eq, le_min_iff, max_le_iff]
  tauto

/-- The finite box which an `Enclose` call adds. -/
def EncArg.bounds : EncArg α → AABB α
  | .point p => ⟨p, p⟩
  | .box mn mx => ⟨mn, mx⟩
  | .segment p q => ⟨f3Min p q, f3Max p q⟩
  | .triangle p q r => ⟨f3Min3 p q r, f3Max3 p q r⟩
  | .sphere c r => AABB.ofSphere ⟨c, r⟩
  | .capsule p q r => AABB.ofCapsule p q r
  | .obb c u v w r => AABB.obbExtent c u v w r

omit [Field α] in
theorem toExt_min (a b : V3 α) : f3Min a.toExt b.toExt = (f3Min a b).toExt := by
  simp only [f3Min, V3.toExt, min2_eq, Ext.of, WithTop.coe_min, WithBot.coe_min]

omit [Field α] in
theorem toExt_max (a b : V3 α) : f3Max a.toExt b.toExt = (f3Max a b).toExt := by
  simp only [f3Max, V3.toExt, max2_eq, Ext.of, WithTop.coe_max, WithBot.coe_max]

theorem enclose_eq (b : AABB (Ext α)) (e : EncArg α) :
    e.enclose b = b.encloseMinMax e.bounds.minPoint.toExt e.bounds.maxPoint.toExt := by
  cases e <;>
    simp [EncArg.enclose, EncArg.bounds, AABB.enclosePoint, AABB.encloseMinMax,
      AABB.encloseSegment, AABB.encloseTriangle, f3Min3, f3Max3, toExt_min, toExt_max]

theorem subB_foldl (args : List (EncArg α)) (b c : AABB (Ext α)) :
    SubB (args.foldl EncArg.enclose b) c ↔
      SubB b c ∧ ∀ e ∈ args, SubB ⟨e.bounds.minPoint.toExt, e.bounds.maxPoint.toExt⟩ c := by
  induction args generalizing b with
  | nil => simp
  | cons e args ih =>
    rw [List.foldl_cons, ih, enclose_eq, subB_encloseMinMax]
    simp only [List.forall_mem_cons]
    tauto

/-- `Spec.TightBox` for a box of the model. -/
def Tight (S : Set (V3 α)) (b : AABB α) : Prop := Spec.TightBox S b.minPoint b.maxPoint

variable [IsStrictOrderedRing α]

omit [IsStrictOrderedRing α] in
theorem seg_left (a b : V3 α) [IsStrictOrderedRing α] : a ∈ Spec.seg a b :=
  ⟨0, le_rfl, zero_le_one, by ext <;> simp⟩

theorem seg_right (a b : V3 α) : b ∈ Spec.seg a b :=
  ⟨1, zero_le_one, le_rfl, by ext <;> simp⟩

theorem tight_seg (a b : V3 α) : Tight (Spec.seg a b) ⟨f3Min a b, f3Max a b⟩ := by
  have h := seg_left a b
  have h' := seg_right a b
  have key : ∀ t x y : α, 0 ≤ t → t ≤ 1 → min x y ≤ x + t * (y - x) ∧ x + t * (y - x) ≤ max x y := by
    intro t x y h0 h1
    have a1 := min_le_left x y; have a2 := min_le_right x y
    have b1 := le_max_left x y; have b2 := le_max_right x y
    constructor <;> nlinarith
  refine ⟨?_, ?_, ?_, ?_, ?_, ?_, ?_⟩
  · rintro p ⟨t, h0, h1, rfl⟩
    have k1 := key t a.x b.x h0 h1
    have k2 := key t a.y b.y h0 h1
    have k3 := key t a.z b.z h0 h1
    simp only [Spec.box, f3Min, f3Max, min2_eq, max2_eq, Set.mem_ofPred_eq, add_x, add_y, add_z,
      smul_x, smul_y, smul_z, sub_x, sub_y, sub_z]
    tauto
  all_goals
    simp only [f3Min, f3Max, min2, max2]
    split
    exacts [⟨a, h, rfl⟩, ⟨b, h', rfl⟩]

theorem tight_tri (a b c : V3 α) : Tight (Spec.tri a b c) ⟨f3Min3 a b c, f3Max3 a b c⟩ := by
  have ha : a ∈ Spec.tri a b c := ⟨1, 0, 0, by simp, by simp, by simp, by simp, by ext <;> simp⟩
  have hb : b ∈ Spec.tri a b c := ⟨0, 1, 0, by simp, by simp, by simp, by simp, by ext <;> simp⟩
  have hc : c ∈ Spec.tri a b c := ⟨0, 0, 1, by simp, by simp, by simp, by simp, by ext <;> simp⟩
  have key : ∀ u v w x y z : α, 0 ≤ u → 0 ≤ v → 0 ≤ w → u + v + w = 1 →
      min (min x y) z ≤ u * x + v * y + w * z ∧ u * x + v * y + w * z ≤ max (max x y) z := by
    intro u v w x y z h0 h1 h2 h3
    have a1 : min (min x y) z ≤ x := (min_le_left _ _).trans (min_le_left _ _)
    have a2 : min (min x y) z ≤ y := (min_le_left _ _).trans (min_le_right _ _)
    have a3 : min (min x y) z ≤ z := min_le_right _ _
    have b1 : x ≤ max (max x y) z := (le_max_left _ _).trans (le_max_left _ _)
    have b2 : y ≤ max (max x y) z := (le_max_right _ _).trans (le_max_left _ _)
    have b3 : z ≤ max (max x y) z := le_max_right _ _
    obtain rfl : w = 1 - u - v := by linarith
    constructor
    · nlinarith [mul_le_mul_of_nonneg_left a1 h0, mul_le_mul_of_nonneg_left a2 h1, mul_le_mul_of_nonneg_left a3 h2]
    · nlinarith [mul_le_mul_of_nonneg_left b1 h0, mul_le_mul_of_nonneg_left b2 h1, mul_le_mul_of_nonneg_left b3 h2]
  refine ⟨?_, ?_, ?_, ?_, ?_, ?_, ?_⟩
  · rintro p ⟨u, v, w, h0, h1, h2, h3, rfl⟩
    have k1 := key u v w a.x b.x c.x h0 h1 h2 h3
    have k2 := key u v w a.y b.y c.y h0 h1 h2 h3
    have k3 := key u v w a.z b.z c.z h0 h1 h2 h3
    simp only [Spec.box, f3Min3, f3Max3, f3Min, f3Max, min2_eq, max2_eq, Set.mem_ofPred_eq, add_x, add_y, add_z,
      smul_x, smul_y, smul_z, sub_x, sub_y, sub_z]
    tauto
  all_goals
    simp only [f3Min3, f3Max3, f3Min, f3Max, min2, max2]
    split_ifs
    all_goals first | exact ⟨a, ha, rfl⟩ | exact ⟨b, hb, rfl⟩ | exact ⟨c, hc, rfl⟩

theorem abs_coord_le {p c : V3 α} {r : α} (h0 : 0 ≤ r) (h : distSq p c ≤ r * r) :
    |p.x - c.x| ≤ r ∧ |p.y - c.y| ≤ r ∧ |p.z - c.z| ≤ r := by
  rw [distSq_eq] at h
  refine ⟨?_, ?_, ?_⟩ <;> apply abs_le_of_sq_le_sq _ h0 <;>
    nlinarith [mul_self_nonneg (p.x - c.x), mul_self_nonneg (p.y - c.y), mul_self_nonneg (p.z - c.z)]

theorem tight_ball (c : V3 α) (r : α) (h0 : 0 ≤ r) : Tight (Spec.ball c r) (AABB.ofSphere ⟨c, r⟩) := by
  refine ⟨?_, ⟨c + (-r) • ⟨1, 0, 0⟩, ?_, ?_⟩, ⟨c + (-r) • ⟨0, 1, 0⟩, ?_, ?_⟩, ⟨c + (-r) • ⟨0, 0, 1⟩, ?_, ?_⟩,
    ⟨c + r • ⟨1, 0, 0⟩, ?_, ?_⟩, ⟨c + r • ⟨0, 1, 0⟩, ?_, ?_⟩, ⟨c + r • ⟨0, 0, 1⟩, ?_, ?_⟩⟩
  · intro p hp
    have := abs_coord_le h0 hp
    simp only [abs_le] at this
    simp only [Spec.box, AABB.ofSphere, f3Scalar, Set.mem_ofPred_eq, sub_x, sub_y, sub_z, add_x, add_y, add_z]
    refine ⟨?_, ?_, ?_, ?_, ?_, ?_⟩ <;> linarith [this.1.1, this.1.2, this.2.1.1, this.2.1.2, this.2.2.1, this.2.2.2]
  all_goals simp [Spec.ball, AABB.ofSphere, f3Scalar, distSq_eq]
  all_goals ring

theorem tight_capsule (a b : V3 α) (r : α) (h0 : 0 ≤ r) :
    Tight (Spec.capsule a b r) (AABB.ofCapsule a b r) := by
  obtain ⟨hb, sx, sy, sz, tx, ty, tz⟩ := tight_seg a b
  obtain ⟨hB, -⟩ := tight_ball (0 : V3 α) r h0
  have mk : ∀ q ∈ Spec.seg a b, ∀ v : V3 α, lenSq v ≤ r * r → q + v ∈ Spec.capsule a b r := by
    intro q hq v hv
    refine ⟨q, hq, ?_⟩
    have : distSq (q + v) q = lenSq v := by simp [distSq_eq, lenSq_eq]
    rw [this]; exact hv
  refine ⟨?_, ?_, ?_, ?_, ?_, ?_, ?_⟩
  · rintro p ⟨q, hq, hp⟩
    have h1 := hb q hq
    have := abs_coord_le h0 hp
    simp only [abs_le] at this
    simp only [Spec.box, Set.mem_ofPred_eq] at h1
    simp only [Spec.box, AABB.ofCapsule, f3Scalar, Set.mem_ofPred_eq, sub_x, sub_y, sub_z, add_x, add_y, add_z]
    refine ⟨?_, ?_, ?_, ?_, ?_, ?_⟩ <;>
      linarith [this.1.1, this.1.2, this.2.1.1, this.2.1.2, this.2.2.1, this.2.2.2, h1.1, h1.2.1, h1.2.2.1,
        h1.2.2.2.1, h1.2.2.2.2.1, h1.2.2.2.2.2]
  · obtain ⟨q, hq, e⟩ := sx
    exact ⟨q + ⟨-r, 0, 0⟩, mk q hq _ (by simp [lenSq_eq]), by simp [AABB.ofCapsule, f3Scalar, e]; ring⟩
  · obtain ⟨q, hq, e⟩ := sy
    exact ⟨q + ⟨0, -r, 0⟩, mk q hq _ (by simp [lenSq_eq]), by simp [AABB.ofCapsule, f3Scalar, e]; ring⟩
  · obtain ⟨q, hq, e⟩ := sz
    exact ⟨q + ⟨0, 0, -r⟩, mk q hq _ (by simp [lenSq_eq]), by simp [AABB.ofCapsule, f3Scalar, e]; ring⟩
  · obtain ⟨q, hq, e⟩ := tx
    exact ⟨q + ⟨r, 0, 0⟩, mk q hq _ (by simp [lenSq_eq]), by simp [AABB.ofCapsule, f3Scalar, e]⟩
  · obtain ⟨q, hq, e⟩ := ty
    exact ⟨q + ⟨0, r, 0⟩, mk q hq _ (by simp [lenSq_eq]), by simp [AABB.ofCapsule, f3Scalar, e]⟩
  · obtain ⟨q, hq, e⟩ := tz
    exact ⟨q + ⟨0, 0, r⟩, mk q hq _ (by simp [lenSq_eq]), by simp [AABB.ofCapsule, f3Scalar, e]⟩

theorem tight_obb (c u v w r : V3 α) (h : 0 ≤ r.x ∧ 0 ≤ r.y ∧ 0 ≤ r.z) :
    Tight (Spec.obb c u v w r) (AABB.obbExtent c u v w r) := by
  obtain ⟨hx, hy, hz⟩ := h
  have key : ∀ s x r : α, -r ≤ s → s ≤ r → -(r * |x|) ≤ s * x ∧ s * x ≤ r * |x| := by
    intro s x r h1 h2
    rw [← abs_le, abs_mul]
    exact mul_le_mul_of_nonneg_right (abs_le.2 ⟨h1, h2⟩) (abs_nonneg x)
  -- for every coordinate functional there are parameters attaining the upper and lower bounds
  have att : ∀ x r : α, 0 ≤ r → (∃ s, -r ≤ s ∧ s ≤ r ∧ s * x = r * |x|) ∧ (∃ s, -r ≤ s ∧ s ≤ r ∧ s * x = -(r * |x|)) := by
    intro x r hr
    rcases le_total 0 x with hx | hx
    · rw [abs_of_nonneg hx]
      exact ⟨⟨r, by linarith, le_rfl, rfl⟩, ⟨-r, le_rfl, by linarith, by ring⟩⟩
    · rw [abs_of_nonpos hx]
      exact ⟨⟨-r, le_rfl, by linarith, by ring⟩, ⟨r, by linarith, le_rfl, by ring⟩⟩
  refine ⟨?_, ?_, ?_, ?_, ?_, ?_, ?_⟩
  · rintro p ⟨s, t, k, s1, s2, t1, t2, k1, k2, rfl⟩
    have e1 := key s u.x r.x s1 s2; have e2 := key s u.y r.x s1 s2; have e3 := key s u.z r.x s1 s2
    have f1 := key t v.x r.y t1 t2; have f2 := key t v.y r.y t1 t2; have f3 := key t v.z r.y t1 t2
    have g1 := key k w.x r.z k1 k2; have g2 := key k w.y r.z k1 k2; have g3 := key k w.z r.z k1 k2
    simp only [Spec.box, AABB.obbExtent, f3Abs, absF_eq, Set.mem_ofPred_eq, sub_x, sub_y, sub_z, add_x, add_y,
      add_z, smul_x, smul_y, smul_z]
    refine ⟨?_, ?_, ?_, ?_, ?_, ?_⟩ <;>
      linarith [e1.1, e1.2, e2.1, e2.2, e3.1, e3.2, f1.1, f1.2, f2.1, f2.2, f3.1, f3.2, g1.1, g1.2, g2.1, g2.2,
        g3.1, g3.2]
  · obtain ⟨s, s1, s2, se⟩ := (att u.x r.x hx).2
    obtain ⟨t, t1, t2, te⟩ := (att v.x r.y hy).2
    obtain ⟨k, k1, k2, ke⟩ := (att w.x r.z hz).2
    refine ⟨c + s • u + t • v + k • w, ⟨s, t, k, s1, s2, t1, t2, k1, k2, rfl⟩, ?_⟩
    simp [AABB.obbExtent, f3Abs, absF_eq, se, te, ke]; ring
  · obtain ⟨s, s1, s2, se⟩ := (att u.y r.x hx).2
    obtain ⟨t, t1, t2, te⟩ := (att v.y r.y hy).2
    obtain ⟨k, k1, k2, ke⟩ := (att w.y r.z hz).2
    refine ⟨c + s • u + t • v + k • w, ⟨s, t, k, s1, s2, t1, t2, k1, k2, rfl⟩, ?_⟩
    simp [AABB.obbExtent, f3Abs, absF_eq, se, te, ke]; ring
  · obtain ⟨s, s1, s2, se⟩ := (att u.z r.x hx).2
    obtain ⟨t, t1, t2, te⟩ := (att v.z r.y hy).2
    obtain ⟨k, k1, k2, ke⟩ := (att w.z r.z hz).2
    refine ⟨c + s • u + t • v + k • w, ⟨s, t, k, s1, s2, t1, t2, k1, k2, rfl⟩, ?_⟩
    simp [AABB.obbExtent, f3Abs, absF_eq, se, te, ke]; ring
  · obtain ⟨s, s1, s2, se⟩ := (att u.x r.x hx).1
    obtain ⟨t, t1, t2, te⟩ := (att v.x r.y hy).1
    obtain ⟨k, k1, k2, ke⟩ := (att w.x r.z hz).1
    refine ⟨c + s • u + t • v + k • w, ⟨s, t, k, s1, s2, t1, t2, k1, k2, rfl⟩, ?_⟩
    simp [AABB.obbExtent, f3Abs, absF_eq, se, te, ke]; ring
  · obtain ⟨s, s1, s2, se⟩ := (att u.y r.x hx).1
    obtain ⟨t, t1, t2, te⟩ := (att v.y r.y hy).1
    obtain ⟨k, k1, k2, ke⟩ := (att w.y r.z hz).1
    refine ⟨c + s • u + t • v + k • w, ⟨s, t, k, s1, s2, t1, t2, k1, k2, rfl⟩, ?_⟩
    simp [AABB.obbExtent, f3Abs, absF_eq, se, te, ke]; ring
  · obtain ⟨s, s1, s2, se⟩ := (att u.z r.x hx).1
    obtain ⟨t, t1, t2, te⟩ := (att v.z r.y hy).1
    obtain ⟨k, k1, k2, ke⟩ := (att w.z r.z hz).1
    refine ⟨c + s • u + t • v + k • w, ⟨s, t, k, s1, s2, t1, t2, k1, k2, rfl⟩, ?_⟩
    simp [AABB.obbExtent, f3Abs, absF_eq, se, te, ke]; ring

theorem tight_bounds (e : EncArg α) (h : e.Valid) : Tight e.points e.bounds := by
  cases e with
  | point p => simp [Tight, Spec.TightBox, EncArg.points, EncArg.bounds, Spec.box]
  | box mn mx =>
    obtain ⟨h1, h2, h3⟩ := h
    have a : mn ∈ Spec.box mn mx := ⟨le_rfl, h1, le_rfl, h2, le_rfl, h3⟩
    have b : mx ∈ Spec.box mn mx := ⟨h1, le_rfl, h2, le_rfl, h3, le_rfl⟩
    exact ⟨fun p hp => hp, ⟨mn, a, rfl⟩, ⟨mn, a, rfl⟩, ⟨mn, a, rfl⟩, ⟨mx, b, rfl⟩, ⟨mx, b, rfl⟩, ⟨mx, b, rfl⟩⟩
  | segment a b => exact tight_seg a b
  | triangle a b c => exact tight_tri a b c
  | sphere c r => exact tight_ball c r h
  | capsule a b r => exact tight_capsule a b r h
  | obb c u v w r => exact tight_obb c u v w r h

omit [Field α] [IsStrictOrderedRing α] in
theorem mem_box_ext (p mn mx : V3 α) : p.toExt ∈ Spec.box mn.toExt mx.toExt ↔ p ∈ Spec.box mn mx := by
  simp [Spec.box, V3.toExt, Ext.of]

/-- A box contains all points of the object exactly when it contains the object's bounds. -/
theorem points_subset_iff (e : EncArg α) (h : e.Valid) (c : AABB (Ext α)) :
    (∀ p ∈ e.points, p.toExt ∈ Spec.box c.minPoint c.maxPoint) ↔
      SubB ⟨e.bounds.minPoint.toExt, e.bounds.maxPoint.toExt⟩ c := by
  obtain ⟨hb, ⟨p1, m1, e1⟩, ⟨p2, m2, e2⟩, ⟨p3, m3, e3⟩, ⟨q1, n1, f1⟩, ⟨q2, n2, f2⟩, ⟨q3, n3, f3⟩⟩ :=
    tight_bounds e h
  constructor
  · intro H
    refine ⟨⟨?_, ?_, ?_⟩, ?_, ?_, ?_⟩
    · have := (H _ m1).1; rwa [V3.toExt, e1] at this
    · have := (H _ m2).2.2.1; rwa [V3.toExt, e2] at this
    · have := (H _ m3).2.2.2.2.1; rwa [V3.toExt, e3] at this
    · have := (H _ n1).2.1; rwa [V3.toExt, f1] at this
    · have := (H _ n2).2.2.2.1; rwa [V3.toExt, f2] at this
    · have := (H _ n3).2.2.2.2.2; rwa [V3.toExt, f3] at this
  · rintro ⟨⟨a1, a2, a3⟩, b1, b2, b3⟩ p hp
    have := (mem_box_ext _ _ _).2 (hb p hp)
    exact ⟨a1.trans this.1, this.2.1.trans b1, a2.trans this.2.2.1, this.2.2.2.1.trans b2,
      a3.trans this.2.2.2.2.1, this.2.2.2.2.2.trans b3⟩

end MGL
