import Verif.Model.OBB
import Verif.Proofs.OBB
import Verif.Proofs.Scalar
import Verif.Proofs.SetDist
import Verif.Props.AABB
import Verif.Props.AABBEnclose
import Verif.Props.Mat34

set_option linter.unusedSectionVars false

/-! C36: queries on oriented boxes. -/

namespace MGL
open V3

section Field
variable {α : Type*} [Field α] [LinearOrder α] [IsStrictOrderedRing α]

/-- The set of points an `OBB` stands for. -/
abbrev OBB.points (o : OBB α) : Set (V3 α) := Spec.obb o.pos o.axis0 o.axis1 o.axis2 o.r

/-- The axes are orthonormal and the half sizes are not negative. -/
structure OBB.Valid (o : OBB α) : Prop where
  frame : Spec.Frame o.axis0 o.axis1 o.axis2
  rx : 0 ≤ o.r.x
  ry : 0 ≤ o.r.y
  rz : 0 ≤ o.r.z

/-- A rotated box used in the examples. -/
def obbExample : OBB ℚ := ⟨⟨1, 2, 3⟩, ⟨2, 3, 1⟩, ⟨3/5, 4/5, 0⟩, ⟨-4/5, 3/5, 0⟩, ⟨0, 0, 1⟩⟩

theorem obbExample_valid : obbExample.Valid := by
  refine ⟨⟨?_, ?_, ?_, ?_, ?_, ?_⟩, ?_, ?_, ?_⟩ <;> simp [obbExample, dot] <;> norm_num

/-- `Contains(p)` is membership of the oriented box. -/
theorem C36_contains (o : OBB α) (hf : Spec.Frame o.axis0 o.axis1 o.axis2) (p : V3 α) :
    o.contains p = true ↔ p ∈ o.points := by
  rw [hf.mem_obb]
  simp [OBB.contains, absF_eq, and_assoc]

example : obbExample.contains ⟨1 + 6/5, 2 + 8/5, 4⟩ = true ∧ obbExample.contains ⟨1 + 6/5, 2 + 8/5 + 1/10, 4⟩ = false := by
  constructor <;> decide +kernel

theorem clamp_eq (v lo hi : α) (h : lo ≤ hi) : clamp v lo hi = max (min v hi) lo := by
  unfold clamp
  split_ifs with h1 h2
  · rw [min_eq_left h1, max_eq_left h2]
  · rw [min_eq_left h1, max_eq_right (not_le.1 h2).le]
  · rw [min_eq_right (not_le.1 h1).le, max_eq_left h]

/-- `ClosestPoint(p)` is the point of the oriented box nearest to `p`. -/
theorem C36_closestPoint (o : OBB α) (h : o.Valid) (p : V3 α) :
    Spec.IsClosestPoint o.points p (o.closestPoint p) := by
  obtain ⟨hf, hx, hy, hz⟩ := h
  have kx := fun s => clamp1 (dot (p - o.pos) o.axis0) (-o.r.x) o.r.x s (by linarith)
  have ky := fun s => clamp1 (dot (p - o.pos) o.axis1) (-o.r.y) o.r.y s (by linarith)
  have kz := fun s => clamp1 (dot (p - o.pos) o.axis2) (-o.r.z) o.r.z s (by linarith)
  have e : o.closestPoint p = o.pos + max (min (dot (p - o.pos) o.axis0) o.r.x) (-o.r.x) • o.axis0
      + max (min (dot (p - o.pos) o.axis1) o.r.y) (-o.r.y) • o.axis1
      + max (min (dot (p - o.pos) o.axis2) o.r.z) (-o.r.z) • o.axis2 := by
    simp only [OBB.closestPoint]
    rw [clamp_eq _ _ _ (by linarith), clamp_eq _ _ _ (by linarith), clamp_eq _ _ _ (by linarith)]
  rw [e]
  refine ⟨⟨_, _, _, ?_, ?_, ?_, ?_, ?_, ?_, rfl⟩, ?_⟩
  · exact (kx 0 (by linarith) hx).1
  · exact (kx 0 (by linarith) hx).2.1
  · exact (ky 0 (by linarith) hy).1
  · exact (ky 0 (by linarith) hy).2.1
  · exact (kz 0 (by linarith) hz).1
  · exact (kz 0 (by linarith) hz).2.1
  · rintro q ⟨s, t, k, s1, s2, t1, t2, k1, k2, rfl⟩
    apply distSq_le_of_dot
    have a := (kx s s1 s2).2.2
    have b := (ky t t1 t2).2.2
    have c := (kz k k1 k2).2.2
    set cx := max (min (dot (p - o.pos) o.axis0) o.r.x) (-o.r.x)
    set cy := max (min (dot (p - o.pos) o.axis1) o.r.y) (-o.r.y)
    set cz := max (min (dot (p - o.pos) o.axis2) o.r.z) (-o.r.z)
    rw [hf.dot_eq]
    have c1 := hf.coords o.pos cx cy cz
    have c2 := hf.coords o.pos s t k
    have sub1 : ∀ (a b c d : V3 α), dot (a - b) d = dot (a - c) d - dot (b - c) d := by
      intro a b c d; simp only [dot, sub_x, sub_y, sub_z]; ring
    have g : ∀ (b : V3 α) (d : V3 α), dot (b - (o.pos + cx • o.axis0 + cy • o.axis1 + cz • o.axis2)) d =
        dot (b - o.pos) d - dot (o.pos + cx • o.axis0 + cy • o.axis1 + cz • o.axis2 - o.pos) d := fun b d => sub1 b _ o.pos d
    simp only [g]
    rw [c1.1, c1.2.1, c1.2.2, c2.1, c2.2.1, c2.2.2]
    linarith

example : obbExample.closestPoint ⟨11, 2, 3⟩ = ⟨1 + 2 * (3/5) - 3 * (-4/5), 2 + 2 * (4/5) - 3 * (3/5), 3⟩ := by decide +kernel

/-- `ExtremePoint(d)` is a point of the box farthest in direction `d` (for any axes). -/
theorem C36_extremePoint (o : OBB α) (hx : 0 ≤ o.r.x) (hy : 0 ≤ o.r.y) (hz : 0 ≤ o.r.z) (d : V3 α) :
    Spec.IsExtreme o.points d (o.extremePoint d) := by
  have sgn : ∀ e r : α, 0 ≤ r → -r ≤ (if e ≥ 0 then r else -r) ∧ (if e ≥ 0 then r else -r) ≤ r ∧
      ∀ s, -r ≤ s → s ≤ r → s * e ≤ (if e ≥ 0 then r else -r) * e := by
    intro e r hr
    split_ifs with he
    · exact ⟨by linarith, le_rfl, fun s a b => by nlinarith⟩
    · push Not at he; exact ⟨le_rfl, by linarith, fun s a b => by nlinarith⟩
  obtain ⟨a1, a2, a3⟩ := sgn (dot d o.axis0) _ hx
  obtain ⟨b1, b2, b3⟩ := sgn (dot d o.axis1) _ hy
  obtain ⟨c1, c2, c3⟩ := sgn (dot d o.axis2) _ hz
  refine ⟨⟨_, _, _, a1, a2, b1, b2, c1, c2, rfl⟩, ?_⟩
  rintro q ⟨s, t, k, s1, s2, t1, t2, k1, k2, rfl⟩
  have := a3 s s1 s2
  have := b3 t t1 t2
  have := c3 k k1 k2
  simp only [OBB.extremePoint, dot_add, dot_smul]
  linarith

example : obbExample.extremePoint ⟨1, 0, 0⟩ = ⟨1 + 6/5 + 12/5, 2 + 8/5 - 9/5, 4⟩ := by decide +kernel

/-- `ProjectToAxis(d)` is exactly the range of `d · p` over the box (for any axes). -/
theorem C36_projectToAxis (o : OBB α) (hx : 0 ≤ o.r.x) (hy : 0 ≤ o.r.y) (hz : 0 ≤ o.r.z) (d : V3 α) :
    Spec.IsProjection o.points d (o.projectToAxis d).1 (o.projectToAxis d).2 := by
  have key : ∀ e r : α, 0 ≤ r → (∀ s, -r ≤ s → s ≤ r → -|e * r| ≤ s * e ∧ s * e ≤ |e * r|) ∧
      (∃ s, -r ≤ s ∧ s ≤ r ∧ s * e = |e * r|) ∧ ∃ s, -r ≤ s ∧ s ≤ r ∧ s * e = -|e * r| := by
    intro e r hr
    rw [abs_mul, abs_of_nonneg hr]
    rcases le_total 0 e with he | he
    · rw [abs_of_nonneg he]
      exact ⟨fun s a b => ⟨by nlinarith, by nlinarith⟩, ⟨r, by linarith, le_rfl, by ring⟩, ⟨-r, le_rfl, by linarith, by ring⟩⟩
    · rw [abs_of_nonpos he]
      exact ⟨fun s a b => ⟨by nlinarith, by nlinarith⟩, ⟨-r, le_rfl, by linarith, by ring⟩, ⟨r, by linarith, le_rfl, by ring⟩⟩
  obtain ⟨a1, ⟨ax, ax1, ax2, ax3⟩, ay, ay1, ay2, ay3⟩ := key (dot d o.axis0) _ hx
  obtain ⟨b1, ⟨bx, bx1, bx2, bx3⟩, by_, by1, by2, by3⟩ := key (dot d o.axis1) _ hy
  obtain ⟨c1, ⟨cx, cx1, cx2, cx3⟩, cy, cy1, cy2, cy3⟩ := key (dot d o.axis2) _ hz
  simp only [OBB.projectToAxis, absF_eq]
  refine ⟨?_, ⟨_, ⟨ay, by_, cy, ay1, ay2, by1, by2, cy1, cy2, rfl⟩, ?_⟩, ⟨_, ⟨ax, bx, cx, ax1, ax2, bx1, bx2, cx1, cx2, rfl⟩, ?_⟩⟩
  · rintro q ⟨s, t, k, s1, s2, t1, t2, k1, k2, rfl⟩
    have := a1 s s1 s2
    have := b1 t t1 t2
    have := c1 k k1 k2
    simp only [dot_add, dot_smul]
    constructor <;> linarith
  · simp only [dot_add, dot_smul]; linarith
  · simp only [dot_add, dot_smul]; linarith

example : obbExample.projectToAxis ⟨1, 0, 0⟩ = (1 - 6/5 - 12/5, 1 + 6/5 + 12/5) := by decide +kernel

/-- `MinimalEnclosingAABB` contains the oriented box and touches it at each of its six faces. -/
theorem C36_minimalEnclosingAABB (o : OBB α) (hx : 0 ≤ o.r.x) (hy : 0 ≤ o.r.y) (hz : 0 ≤ o.r.z) :
    Spec.TightBox o.points o.minimalEnclosingAABB.minPoint o.minimalEnclosingAABB.maxPoint :=
  (C16_setFrom_object o.pos o.axis0 o.axis1 o.axis2 o.r 0 le_rfl ⟨hx, hy, hz⟩).1

example : obbExample.minimalEnclosingAABB.minPoint = ⟨-13/5, -7/5, 2⟩ ∧
    obbExample.minimalEnclosingAABB.maxPoint = ⟨23/5, 27/5, 4⟩ := by decide +kernel

/-- `LocalToWorld` and `WorldToLocal` are inverse affine maps, and `LocalToWorld` maps the box
`[0, Size()]` exactly onto the oriented box. -/
theorem C36_local_world (o : OBB α) (hf : Spec.Frame o.axis0 o.axis1 o.axis2) (p : V3 α) :
    Mat34.mulPos o.worldToLocal (Mat34.mulPos o.localToWorld p) = p ∧
    Mat34.mulPos o.localToWorld (Mat34.mulPos o.worldToLocal p) = p ∧
    (p ∈ Spec.box 0 o.size ↔ Mat34.mulPos o.localToWorld p ∈ o.points) ∧
    (p ∈ o.points ↔ Mat34.mulPos o.worldToLocal p ∈ Spec.box 0 o.size) := by
  have ho : Spec.Orthonormal (Matrix.of fun i j : Fin 3 => o.localToWorld i j.castSucc) := by
    obtain ⟨h1, h2, h3, h4, h5, h6⟩ := hf
    simp only [dot] at *
    unfold Spec.Orthonormal
    ext i j
    fin_cases i <;> fin_cases j <;>
      simp [Matrix.mul_apply, Fin.sum_univ_three, OBB.localToWorld] <;> linarith
  have hinv := fun v => C38_inverseOrthonormal o.localToWorld ho v
  have hbox : ∀ p : V3 α, p ∈ Spec.box 0 o.size ↔ Mat34.mulPos o.localToWorld p ∈ o.points := by
    intro p
    have e : Mat34.mulPos o.localToWorld p = o.pos + (p.x - o.r.x) • o.axis0 + (p.y - o.r.y) • o.axis1 + (p.z - o.r.z) • o.axis2 := by
      ext <;> simp [Mat34.mulPos, OBB.localToWorld] <;> ring
    rw [e, hf.mem_obb]
    obtain ⟨c1, c2, c3⟩ := hf.coords o.pos (p.x - o.r.x) (p.y - o.r.y) (p.z - o.r.z)
    rw [c1, c2, c3]
    simp only [Spec.box, Set.mem_ofPred_eq, abs_le, OBB.size, smul_x, smul_y, smul_z, zero_x, zero_y, zero_z]
    constructor
    · rintro ⟨a, b, c, d, e, f⟩; refine ⟨⟨?_, ?_⟩, ⟨?_, ?_⟩, ?_, ?_⟩ <;> linarith
    · rintro ⟨⟨a, b⟩, ⟨c, d⟩, e, f⟩; refine ⟨?_, ?_, ?_, ?_, ?_, ?_⟩ <;> linarith
  refine ⟨(hinv p).2.2.1, (hinv p).2.2.2, hbox p, ?_⟩
  rw [hbox]
  have e : Mat34.mulPos o.localToWorld (Mat34.mulPos o.worldToLocal p) = p := (hinv p).2.2.2
  rw [e]

example : Mat34.mulPos obbExample.worldToLocal ⟨1, 2, 3⟩ = ⟨2, 3, 1⟩ := by decide +kernel

/-- Every point of an oriented box is a convex combination of its corners. -/
theorem OBB.corner_span (b : OBB α) (hx : 0 ≤ b.r.x) (hy : 0 ≤ b.r.y) (hz : 0 ≤ b.r.z) (p : V3 α) (hp : p ∈ b.points) :
    ∃ w : Fin 8 → α, (∀ i, 0 ≤ w i) ∧ ∑ i, w i = 1 ∧ p = ∑ i, w i • b.cornerPoint i := by
  obtain ⟨s, t, k, s1, s2, t1, t2, k1, k2, rfl⟩ := hp
  obtain ⟨w, hw, hs, e⟩ := (C19_corners_span ⟨-b.r, b.r⟩ (by simp [AABB.Proper]; exact ⟨hx, hy, hz⟩) ⟨s, t, k⟩).1
    (by simp [Spec.box]; exact ⟨s1, s2, t1, t2, k1, k2⟩)
  refine ⟨w, hw, hs, ?_⟩
  simp only [Fin.sum_univ_eight, AABB.cornerPoint] at e hs
  have ex := congrArg V3.x e; have ey := congrArg V3.y e; have ez := congrArg V3.z e
  simp at ex ey ez
  ext <;> simp [Fin.sum_univ_eight, OBB.cornerPoint] <;>
    [linear_combination b.axis0.x * ex + b.axis1.x * ey + b.axis2.x * ez - b.pos.x * hs;
     linear_combination b.axis0.y * ex + b.axis1.y * ey + b.axis2.y * ez - b.pos.y * hs;
     linear_combination b.axis0.z * ex + b.axis1.z * ey + b.axis2.z * ez - b.pos.z * hs]

/-- `Contains` of a segment, a triangle, an axis aligned box, an oriented box or a list of vertices is true exactly
when the whole object (the whole convex hull of the vertices) is in the box. -/
theorem C36_contains_objects (o : OBB α) (hf : Spec.Frame o.axis0 o.axis1 o.axis2) :
    (∀ l : LineSeg α, o.containsSeg l = true ↔ Spec.seg l.a l.b ⊆ o.points) ∧
    (∀ t : Tri α, o.containsTri t = true ↔ Spec.tri t.a t.b t.c ⊆ o.points) ∧
    (∀ b : AABB α, b.Proper → (o.containsAABB b = true ↔ Spec.box b.minPoint b.maxPoint ⊆ o.points)) ∧
    (∀ b : OBB α, 0 ≤ b.r.x → 0 ≤ b.r.y → 0 ≤ b.r.z → (o.containsOBB b = true ↔ b.points ⊆ o.points)) ∧
    (∀ vs : List (V3 α), o.containsVertices vs = true ↔
      {p | ∃ w : Fin vs.length → α, (∀ i, 0 ≤ w i) ∧ ∑ i, w i = 1 ∧ p = ∑ i, w i • vs.get i} ⊆ o.points) := by
  have hc := fun p => C36_contains o hf p
  have hconv : ∀ p ∈ o.points, ∀ q ∈ o.points, ∀ t : α, 0 ≤ t → t ≤ 1 → p + t • (q - p) ∈ o.points :=
    fun p hp q hq t h0 h1 => obb_convex _ _ _ _ _ hp hq t h0 h1
  have corner_span := OBB.corner_span (α := α)
  refine ⟨fun l => ?_, fun t => ?_, fun b hb => ?_, fun b hx hy hz => ?_, fun vs => ?_⟩
  · simp only [OBB.containsSeg, Bool.and_eq_true, hc]
    constructor
    · rintro ⟨ha, hb⟩; exact seg_subset_of_convex hconv ha hb
    · intro H
      exact ⟨H ⟨0, le_rfl, zero_le_one, by ext <;> simp⟩, H ⟨1, zero_le_one, le_rfl, by ext <;> simp⟩⟩
  · simp only [OBB.containsTri, Bool.and_eq_true, hc]
    constructor
    · rintro ⟨⟨ha, hb⟩, h3⟩; exact tri_subset_of_convex hconv ha hb h3
    · intro H
      exact ⟨⟨H ⟨1, 0, 0, by simp, by simp, by simp, by simp, by ext <;> simp⟩,
        H ⟨0, 1, 0, by simp, by simp, by simp, by simp, by ext <;> simp⟩⟩,
        H ⟨0, 0, 1, by simp, by simp, by simp, by simp, by ext <;> simp⟩⟩
  · simp only [OBB.containsAABB, List.all_eq_true, List.mem_finRange, forall_true_left, hc]
    constructor
    · intro H p hp
      obtain ⟨w, hw, hs, rfl⟩ := (C19_corners_span b hb p).1 hp
      exact sum_mem_of_convex hconv _ _ _ (fun i _ => H i) (fun i _ => hw i) hs
    · intro H i
      apply H
      rw [C19_corners_span b hb]
      refine ⟨Pi.single i 1, fun j => ?_, ?_, ?_⟩
      · by_cases e : j = i
        · subst e; simp
        · simp [e]
      · simp
      · rw [Finset.sum_eq_single i]
        · ext <;> simp
        · intro j _ hj; rw [Pi.single_eq_of_ne hj]; ext <;> simp
        · simp
  · simp only [OBB.containsOBB, List.all_eq_true, List.mem_finRange, forall_true_left, hc]
    constructor
    · intro H p hp
      obtain ⟨w, hw, hs, rfl⟩ := corner_span b hx hy hz p hp
      exact sum_mem_of_convex hconv _ _ _ (fun i _ => H i) (fun i _ => hw i) hs
    · intro H i
      apply H
      have m : ∀ s t k : α, (s = b.r.x ∨ s = -b.r.x) → (t = b.r.y ∨ t = -b.r.y) → (k = b.r.z ∨ k = -b.r.z) →
          b.pos + s • b.axis0 + t • b.axis1 + k • b.axis2 ∈ b.points := by
        intro s t k hs ht hk
        refine ⟨s, t, k, ?_, ?_, ?_, ?_, ?_, ?_, rfl⟩ <;> rcases hs with rfl | rfl <;> rcases ht with rfl | rfl <;>
          rcases hk with rfl | rfl <;> linarith
      have neg : ∀ (a v : V3 α) (s : α), a - s • v = a + (-s) • v := by
        intro a v s; ext <;> simp <;> ring
      fin_cases i <;> simp only [OBB.cornerPoint, neg] <;> apply m <;> simp
  · simp only [OBB.containsVertices, List.all_eq_true, hc]
    constructor
    · rintro H p ⟨w, hw, hs, rfl⟩
      exact sum_mem_of_convex hconv _ _ _ (fun i _ => H _ (List.get_mem _ _)) (fun i _ => hw i) hs
    · intro H v hv
      obtain ⟨i, rfl⟩ := List.mem_iff_get.1 hv
      apply H
      refine ⟨Pi.single i 1, fun j => ?_, ?_, ?_⟩
      · by_cases e : j = i
        · subst e; simp
        · simp [e]
      · simp
      · rw [Finset.sum_eq_single i]
        · ext <;> simp
        · intro j _ hj; rw [Pi.single_eq_of_ne hj]; ext <;> simp
        · simp

example : obbExample.containsAABB ⟨⟨0, 1, 2⟩, ⟨2, 3, 4⟩⟩ = true ∧ obbExample.containsAABB ⟨⟨0, 1, 2⟩, ⟨3, 3, 4⟩⟩ = true ∧
    obbExample.containsAABB ⟨⟨0, 1, 2⟩, ⟨3, 4, 4⟩⟩ = false := by
  refine ⟨?_, ?_, ?_⟩ <;> decide +kernel

/-- `Intersects(Sphere)` is true exactly when the closed ball and the box share a point. -/
theorem C36_intersectsSphere (o : OBB α) (h : o.Valid) (s : Sphere α) :
    o.intersectsSphere s = true ↔ (o.points ∩ Spec.ball s.pos s.r).Nonempty := by
  have hp := C36_closestPoint o h s.pos
  simp only [OBB.intersectsSphere, decide_eq_true_eq]
  constructor
  · intro hd; exact ⟨_, hp.1, hd⟩
  · rintro ⟨p, hm, hd⟩
    have := hp.2 p hm
    rw [distSq_comm, distSq_comm s.pos p] at this
    exact this.trans hd

example := C36_intersectsSphere obbExample obbExample_valid ⟨⟨5, 5, 5⟩, 2⟩

/-- `Intersects(Plane)` is true exactly when the plane and the box share a point (for any axes and any
normal). -/
theorem C36_intersectsPlane (o : OBB α) (hx : 0 ≤ o.r.x) (hy : 0 ≤ o.r.y) (hz : 0 ≤ o.r.z) (p : Plane α) :
    o.intersectsPlane p = true ↔ (o.points ∩ Spec.plane p.normal p.d).Nonempty := by
  obtain ⟨h1, ⟨a, ha, ea⟩, b, hb, eb⟩ := C36_projectToAxis o hx hy hz p.normal
  have e : (o.projectToAxis p.normal).2 - dot p.normal o.pos = o.r.x * |dot p.normal o.axis0| +
      o.r.y * |dot p.normal o.axis1| + o.r.z * |dot p.normal o.axis2| := by
    simp only [OBB.projectToAxis, absF_eq, abs_mul, abs_of_nonneg hx, abs_of_nonneg hy, abs_of_nonneg hz]; ring
  have e' : dot p.normal o.pos - (o.projectToAxis p.normal).1 = o.r.x * |dot p.normal o.axis0| +
      o.r.y * |dot p.normal o.axis1| + o.r.z * |dot p.normal o.axis2| := by
    simp only [OBB.projectToAxis, absF_eq, abs_mul, abs_of_nonneg hx, abs_of_nonneg hy, abs_of_nonneg hz]; ring
  simp only [OBB.intersectsPlane, decide_eq_true_eq, absF_eq]
  rw [← e, abs_le]
  constructor
  · rintro ⟨h2, h3⟩
    have k1 : (o.projectToAxis p.normal).1 ≤ p.d := by linarith
    have k2 : p.d ≤ (o.projectToAxis p.normal).2 := by linarith
    rw [← ea] at k1; rw [← eb] at k2
    rcases eq_or_lt_of_le (k1.trans k2) with q | q
    · exact ⟨a, ha, by show dot p.normal a = p.d; linarith⟩
    · have hpos : 0 < dot p.normal b - dot p.normal a := by linarith
      refine ⟨a + ((p.d - dot p.normal a) / (dot p.normal b - dot p.normal a)) • (b - a),
        obb_convex _ _ _ _ _ ha hb _ (div_nonneg (by linarith) hpos.le) (by rw [div_le_one hpos]; linarith), ?_⟩
      show dot _ _ = _
      rw [dot_add, dot_smul, dot_sub, div_mul_cancel₀ _ hpos.ne']; ring
  · rintro ⟨x, hx, hd⟩
    have := h1 x hx
    have hd' : dot p.normal x = p.d := hd
    rw [hd'] at this
    constructor <;> linarith [this.1, this.2]

example : obbExample.intersectsPlane ⟨⟨1, 0, 0⟩, 23/5⟩ = true ∧ obbExample.intersectsPlane ⟨⟨1, 0, 0⟩, 24/5⟩ = false := by
  constructor <;> decide +kernel

end Field

/-- `Distance(p)` is the distance of `p` from the box, zero exactly for the points of the box;
`Distance(Sphere)` is the distance of the box and the closed ball. -/
theorem C36_distance (o : OBB ℝ) (h : o.Valid) (p : V3 ℝ) (s : Sphere ℝ) (hr : 0 ≤ s.r) :
    Spec.IsSetDist o.points {p} (o.distance p) ∧ (o.distance p = 0 ↔ p ∈ o.points) ∧
    Spec.IsSetDist o.points (Spec.ball s.pos s.r) (o.distanceSphere s) := by
  have d : ∀ p, Spec.IsSetDist o.points {p} (o.distance p) := by
    intro p
    have := setDist_of_point (C36_closestPoint o h p)
    rw [V3.dist_comm] at this
    exact this
  refine ⟨d p, ?_, ?_⟩
  · show V3.dist p (o.closestPoint p) = 0 ↔ _
    rw [dist_eq_zero]
    have hp := C36_closestPoint o h p
    constructor
    · intro e; rw [e]; exact hp.1
    · intro hm
      have := hp.2 p hm
      rw [distSq_self] at this
      exact distSq_eq_zero.1 (le_antisymm this (distSq_nonneg _ _))
  · unfold OBB.distanceSphere
    rw [max2_eq, ball_eq_thicken]
    exact setDist_thicken (d s.pos) hr

example := C36_distance (⟨⟨0, 0, 0⟩, ⟨1, 2, 3⟩, ⟨3/5, 4/5, 0⟩, ⟨-4/5, 3/5, 0⟩, ⟨0, 0, 1⟩⟩ : OBB ℝ)
  ⟨⟨by norm_num [dot], by norm_num [dot], by norm_num [dot], by norm_num [dot], by norm_num [dot], by norm_num [dot]⟩,
    by norm_num, by norm_num, by norm_num⟩ ⟨5, 5, 5⟩ ⟨⟨4, 4, 4⟩, 2⟩ (by norm_num)

end MGL
