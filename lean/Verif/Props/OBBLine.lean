import Verif.Props.OBB
import Verif.Props.AABBLine
import Verif.Props.TriangleAABB
import Verif.Proofs.Float3R

set_option linter.unusedSectionVars false

/-! C65: oriented boxes against lines, rays, segments and triangles. -/

namespace MGL
open V3

section Field
variable {α : Type*} [Field α] [LinearOrder α] [IsStrictOrderedRing α]

theorem OBB.worldToLocal_dir (o : OBB α) (d : V3 α) :
    Mat34.mulDir o.worldToLocal d = ⟨dot d o.axis0, dot d o.axis1, dot d o.axis2⟩ := by
  ext <;> simp [OBB.worldToLocal, Mat34.inverseOrthonormal, Mat34.transpose3, Mat34.setTranslatePart, Mat34.mulDir,
    Mat.swapAt, Mat.setAt, OBB.localToWorld, dot] <;> ring

theorem OBB.worldToLocal_pos (o : OBB α) (hf : Spec.Frame o.axis0 o.axis1 o.axis2) (p : V3 α) :
    Mat34.mulPos o.worldToLocal p = ⟨dot (p - o.pos) o.axis0 + o.r.x, dot (p - o.pos) o.axis1 + o.r.y, dot (p - o.pos) o.axis2 + o.r.z⟩ := by
  obtain ⟨h1, h2, h3, h4, h5, h6⟩ := hf
  simp only [dot] at h1 h2 h3 h4 h5 h6
  ext <;> simp [OBB.worldToLocal, Mat34.inverseOrthonormal, Mat34.transpose3, Mat34.setTranslatePart, Mat34.mulDir, Mat34.mulPos,
    Mat.swapAt, Mat.setAt, OBB.localToWorld, dot]
  · linear_combination o.r.x * h1 + o.r.y * h4 + o.r.z * h5
  · linear_combination o.r.x * h4 + o.r.y * h2 + o.r.z * h6
  · linear_combination o.r.x * h5 + o.r.y * h6 + o.r.z * h3

theorem OBB.worldToLocal_line (o : OBB α) (p d : V3 α) (t : α) :
    Mat34.mulPos o.worldToLocal (p + t • d) = Mat34.mulPos o.worldToLocal p + t • Mat34.mulDir o.worldToLocal d := by
  ext <;> simp [Mat34.mulPos, Mat34.mulDir] <;> ring

theorem OBB.size_proper (o : OBB α) (h : o.Valid) : (0 : V3 α).x ≤ o.size.x ∧ (0 : V3 α).y ≤ o.size.y ∧ (0 : V3 α).z ≤ o.size.z := by
  have := h.rx; have := h.ry; have := h.rz
  simp only [OBB.size, smul_x, smul_y, smul_z, zero_x, zero_y, zero_z]
  refine ⟨?_, ?_, ?_⟩ <;> linarith

/-- `Intersects(Line)`: true exactly when some point of the line is in the oriented box; the returned parameters
delimit exactly the part of the line inside. The components of the direction along the axes of the box must be zero
or at least `1e-4` in magnitude. -/
theorem C65_line_partial (o : OBB α) (h : o.Valid) (l : Line α)
    (hx : ClearDir (dot l.dir o.axis0)) (hy : ClearDir (dot l.dir o.axis1)) (hz : ClearDir (dot l.dir o.axis2)) :
    ((o.intersectsLine l).isSome ↔ (Spec.line l.pos l.dir ∩ o.points).Nonempty) ∧
    (∀ n f, o.intersectsLine l = some (n, f) → ∀ t : α,
      (n ≤ Ext.of t ∧ Ext.of t ≤ f) ↔ l.pos + t • l.dir ∈ o.points) := by
  have hd := o.worldToLocal_dir l.dir
  obtain ⟨H1, H2⟩ := C21_line_partial o.localBox (Mat34.mulPos o.worldToLocal l.pos) (Mat34.mulDir o.worldToLocal l.dir)
    (o.size_proper h) (by rw [hd]; exact hx) (by rw [hd]; exact hy) (by rw [hd]; exact hz)
  have mem : ∀ t : α, Mat34.mulPos o.worldToLocal l.pos + t • Mat34.mulDir o.worldToLocal l.dir ∈
      Spec.box o.localBox.minPoint o.localBox.maxPoint ↔ l.pos + t • l.dir ∈ o.points := by
    intro t
    rw [(C36_local_world o h.frame (l.pos + t • l.dir)).2.2.2, o.worldToLocal_line]; rfl
  refine ⟨?_, fun n f e t => (H2 n f e t).trans (mem t)⟩
  unfold OBB.intersectsLine
  rw [H1]
  constructor
  · rintro ⟨_, ⟨t, rfl⟩, hm⟩; exact ⟨_, ⟨t, rfl⟩, (mem t).1 hm⟩
  · rintro ⟨_, ⟨t, rfl⟩, hm⟩; exact ⟨_, ⟨t, rfl⟩, (mem t).2 hm⟩

example : ClearDir (dot (⟨1, 0, 0⟩ : V3 ℚ) obbExample.axis0) ∧ ClearDir (dot (⟨1, 0, 0⟩ : V3 ℚ) obbExample.axis1) ∧
    ClearDir (dot (⟨1, 0, 0⟩ : V3 ℚ) obbExample.axis2) ∧
    (obbExample.intersectsLine ⟨⟨-5, 2, 3⟩, ⟨1, 0, 0⟩⟩).isSome = true ∧
    (obbExample.intersectsLine ⟨⟨-5, 6, 3⟩, ⟨1, 0, 0⟩⟩).isSome = false := by
  refine ⟨Or.inr ?_, Or.inr ?_, Or.inl ?_, by decide +kernel, by decide +kernel⟩
  · norm_num [obbExample, dot, abs_of_pos]
  · norm_num [obbExample, dot, abs_of_neg]
  · norm_num [obbExample, dot]

theorem worldToLocal_tri (o : OBB α) (a b c x : V3 α) (h : x ∈ Spec.tri a b c) : Mat34.mulPos o.worldToLocal x ∈
    Spec.tri (Mat34.mulPos o.worldToLocal a) (Mat34.mulPos o.worldToLocal b) (Mat34.mulPos o.worldToLocal c) := by
  obtain ⟨u, v, w, hu, hv, hw, hs, rfl⟩ := h
  refine ⟨u, v, w, hu, hv, hw, hs, ?_⟩
  have hu' : u = 1 - v - w := by linarith
  subst hu'
  ext <;> simp [Mat34.mulPos] <;> ring

/-- `Intersects(Triangle)`: true implies a common point of the triangle and the oriented box; false implies, for a
triangle of nonzero area, that no point of the triangle is in the interior of the box. -/
theorem C65_triangle_partial (o : OBB α) (h : o.Valid) (t : Tri α) :
    (o.intersectsTri t = true → (Spec.tri t.a t.b t.c ∩ o.points).Nonempty) ∧
    (cross (t.b - t.a) (t.c - t.a) ≠ 0 → o.intersectsTri t = false → ∀ x ∈ Spec.tri t.a t.b t.c,
      ¬ (|dot (x - o.pos) o.axis0| < o.r.x ∧ |dot (x - o.pos) o.axis1| < o.r.y ∧ |dot (x - o.pos) o.axis2| < o.r.z)) := by
  obtain ⟨q1, q2, q3⟩ := o.size_proper h
  constructor
  · intro ht
    obtain ⟨y, ⟨u, v, w, hu, hv, hw, hs, e⟩, hy⟩ := C34_true _ o.localBox q1 q2 q3 ht
    refine ⟨u • t.a + v • t.b + w • t.c, ⟨u, v, w, hu, hv, hw, hs, rfl⟩, ?_⟩
    rw [(C36_local_world o h.frame _).2.2.2]
    have : Mat34.mulPos o.worldToLocal (u • t.a + v • t.b + w • t.c) = y := by
      have hu' : u = 1 - v - w := by linarith
      subst hu'
      rw [e]
      ext <;> simp [Mat34.mulPos] <;> ring
    rw [this]; exact hy
  · intro hn ht x hx
    rintro ⟨c1, c2, c3⟩
    have hloc := worldToLocal_tri o _ _ _ _ hx
    refine C34_false_partial _ ?_ o.localBox ht _ hloc ?_
    · intro hc
      apply hn
      have hsub : ∀ p q : V3 α, Mat34.mulPos o.worldToLocal p - Mat34.mulPos o.worldToLocal q = Mat34.mulDir o.worldToLocal (p - q) := by
        intro p q; ext <;> simp [Mat34.mulPos, Mat34.mulDir] <;> ring
      simp only [hsub, o.worldToLocal_dir] at hc
      set p := t.b - t.a
      set q := t.c - t.a
      -- the squared length of the cross product is an invariant of the frame
      have l1 : lenSq (cross p q) = dot p p * dot q q - dot p q * dot p q := by
        simp only [lenSq, dot, cross]; ring
      rw [← lenSq_eq_zero, l1, h.frame.dot_eq p p, h.frame.dot_eq q q, h.frame.dot_eq p q]
      have cx := congrArg V3.x hc; have cy := congrArg V3.y hc; have cz := congrArg V3.z hc
      simp only [cross, zero_x, zero_y, zero_z] at cx cy cz
      set a0 := dot p o.axis0; set a1 := dot p o.axis1; set a2 := dot p o.axis2
      set b0 := dot q o.axis0; set b1 := dot q o.axis1; set b2 := dot q o.axis2
      linear_combination (a1 * b2 - a2 * b1) * cx + (a2 * b0 - a0 * b2) * cy + (a0 * b1 - a1 * b0) * cz
    · rw [o.worldToLocal_pos h.frame]
      rw [abs_lt] at c1 c2 c3
      simp only [Spec.openBox, Set.mem_ofPred_eq, OBB.localBox, OBB.size, smul_x, smul_y, smul_z, zero_x, zero_y, zero_z]
      refine ⟨?_, ?_, ?_, ?_, ?_, ?_⟩ <;> linarith [c1.1, c1.2, c2.1, c2.2, c3.1, c3.2]

example : obbExample.intersectsTri ⟨⟨-5, 2, 3⟩, ⟨5, 2, 3⟩, ⟨0, 9, 3⟩⟩ = true ∧
    obbExample.intersectsTri ⟨⟨-5, 6, 3⟩, ⟨5, 6, 3⟩, ⟨0, 9, 3⟩⟩ = false ∧
    cross ((⟨5, 6, 3⟩ : V3 ℚ) - ⟨-5, 6, 3⟩) (⟨0, 9, 3⟩ - ⟨-5, 6, 3⟩) ≠ 0 := by decide +kernel

end Field

/-- `Intersects(Ray)` with a unit direction: true exactly when some point of the ray is in the oriented box; the
returned distances delimit exactly the part of the ray inside. -/
theorem C65_ray_partial (o : OBB ℝ) (h : o.Valid) (l : Ray ℝ) (hl : lenSq l.dir = 1)
    (hx : ClearDir (dot l.dir o.axis0)) (hy : ClearDir (dot l.dir o.axis1)) (hz : ClearDir (dot l.dir o.axis2)) :
    ((o.intersectsRay l).isSome ↔ (Spec.ray l.pos l.dir ∩ o.points).Nonempty) ∧
    (∀ n f, o.intersectsRay l = some (n, f) → ∀ t : ℝ,
      (n ≤ Ext.of t ∧ Ext.of t ≤ f) ↔ 0 ≤ t ∧ l.pos + t • l.dir ∈ o.points) := by
  have hd := o.worldToLocal_dir l.dir
  have hn : f3Normalized (Mat34.mulDir o.worldToLocal l.dir) = Mat34.mulDir o.worldToLocal l.dir := by
    have e : lenSq (Mat34.mulDir o.worldToLocal l.dir) = 1 := by
      have := h.frame.dot_eq l.dir l.dir
      rw [hd]
      simp only [lenSq] at hl ⊢
      rw [hl] at this
      simp only [dot] at this ⊢
      linarith
    unfold f3Normalized f3Normalize f3Length
    rw [e, Real.sqrt_one, if_pos (by norm_num)]
    ext <;> simp
  obtain ⟨H1, H2⟩ := C21_ray_partial o.localBox (Mat34.mulPos o.worldToLocal l.pos) (Mat34.mulDir o.worldToLocal l.dir)
    (o.size_proper h) (by rw [hd]; exact hx) (by rw [hd]; exact hy) (by rw [hd]; exact hz)
  have mem : ∀ t : ℝ, Mat34.mulPos o.worldToLocal l.pos + t • Mat34.mulDir o.worldToLocal l.dir ∈
      Spec.box o.localBox.minPoint o.localBox.maxPoint ↔ l.pos + t • l.dir ∈ o.points := by
    intro t
    rw [(C36_local_world o h.frame (l.pos + t • l.dir)).2.2.2, o.worldToLocal_line]; rfl
  unfold OBB.intersectsRay
  rw [hn]
  refine ⟨?_, fun n f e t => (H2 n f e t).trans (and_congr_right fun _ => mem t)⟩
  rw [H1]
  constructor
  · rintro ⟨_, ⟨t, h0, rfl⟩, hm⟩; exact ⟨_, ⟨t, h0, rfl⟩, (mem t).1 hm⟩
  · rintro ⟨_, ⟨t, h0, rfl⟩, hm⟩; exact ⟨_, ⟨t, h0, rfl⟩, (mem t).2 hm⟩

/-- A concrete valid oriented box and ray. -/
example : (⟨⟨0, 0, 0⟩, ⟨1, 1, 1⟩, ⟨3/5, 4/5, 0⟩, ⟨-4/5, 3/5, 0⟩, ⟨0, 0, 1⟩⟩ : OBB ℝ).Valid ∧ lenSq (⟨1, 0, 0⟩ : V3 ℝ) = 1 := by
  refine ⟨⟨⟨?_, ?_, ?_, ?_, ?_, ?_⟩, ?_, ?_, ?_⟩, ?_⟩ <;> norm_num [dot, lenSq]

/-- `Intersects(LineSegment)`, for segments longer than `1e-4`: true exactly when some point of the segment is in the
oriented box, and the returned values delimit exactly the normalised parameters whose point is inside. The components
of the unit direction along the axes must be zero or at least `1e-4` in magnitude. -/
theorem C65_segment_partial (o : OBB ℝ) (h : o.Valid) (l : LineSeg ℝ) (hlen : 1 / 10000 < len (l.b - l.a))
    (hx : ClearDir (dot (l.b - l.a) o.axis0 / len (l.b - l.a))) (hy : ClearDir (dot (l.b - l.a) o.axis1 / len (l.b - l.a)))
    (hz : ClearDir (dot (l.b - l.a) o.axis2 / len (l.b - l.a))) :
    ((o.intersectsSeg l).isSome ↔ (Spec.seg l.a l.b ∩ o.points).Nonempty) ∧
    (∀ n f, o.intersectsSeg l = some (n, f) → ∀ t : ℝ,
      (n ≤ Ext.of t ∧ Ext.of t ≤ f) ↔ 0 ≤ t ∧ t ≤ 1 ∧ l.a + t • (l.b - l.a) ∈ o.points) := by
  have hd := o.worldToLocal_dir (l.b - l.a)
  have hsub : Mat34.mulPos o.worldToLocal l.b - Mat34.mulPos o.worldToLocal l.a = Mat34.mulDir o.worldToLocal (l.b - l.a) := by
    ext <;> simp [Mat34.mulPos, Mat34.mulDir] <;> ring
  have hl : len (Mat34.mulPos o.worldToLocal l.b - Mat34.mulPos o.worldToLocal l.a) = len (l.b - l.a) := by
    unfold len
    rw [hsub, hd]
    congr 1
    have := h.frame.dot_eq (l.b - l.a) (l.b - l.a)
    simp only [lenSq]
    rw [this]
    simp only [dot]
  have e0 : (Mat34.mulPos o.worldToLocal l.b).x - (Mat34.mulPos o.worldToLocal l.a).x = dot (l.b - l.a) o.axis0 := by
    have := congrArg V3.x (hsub.trans hd); simpa using this
  have e1 : (Mat34.mulPos o.worldToLocal l.b).y - (Mat34.mulPos o.worldToLocal l.a).y = dot (l.b - l.a) o.axis1 := by
    have := congrArg V3.y (hsub.trans hd); simpa using this
  have e2 : (Mat34.mulPos o.worldToLocal l.b).z - (Mat34.mulPos o.worldToLocal l.a).z = dot (l.b - l.a) o.axis2 := by
    have := congrArg V3.z (hsub.trans hd); simpa using this
  obtain ⟨H1, H2⟩ := C21_segment_partial o.localBox (Mat34.mulPos o.worldToLocal l.a) (Mat34.mulPos o.worldToLocal l.b)
    (o.size_proper h) (by rw [hl]; exact hlen) (by rw [e0, hl]; exact hx) (by rw [e1, hl]; exact hy) (by rw [e2, hl]; exact hz)
  have mem : ∀ t : ℝ, Mat34.mulPos o.worldToLocal l.a + t • (Mat34.mulPos o.worldToLocal l.b - Mat34.mulPos o.worldToLocal l.a) ∈
      Spec.box o.localBox.minPoint o.localBox.maxPoint ↔ l.a + t • (l.b - l.a) ∈ o.points := by
    intro t
    rw [(C36_local_world o h.frame (l.a + t • (l.b - l.a))).2.2.2, o.worldToLocal_line, hsub]; rfl
  refine ⟨?_, fun n f e t => (H2 n f e t).trans (and_congr_right fun _ => and_congr_right fun _ => mem t)⟩
  unfold OBB.intersectsSeg
  rw [H1]
  constructor
  · rintro ⟨_, ⟨t, h0, h1, rfl⟩, hm⟩; exact ⟨_, ⟨t, h0, h1, rfl⟩, (mem t).1 hm⟩
  · rintro ⟨_, ⟨t, h0, h1, rfl⟩, hm⟩; exact ⟨_, ⟨t, h0, h1, rfl⟩, (mem t).2 hm⟩

end MGL
