import Verif.Props.Frustum
import Verif.Props.Quat
import Verif.Proofs.QuadTreeNN

/-! C71, continued: enclosing boxes, closest points, edges, transforms and the aspect ratio of a frustum. -/

set_option linter.unusedSectionVars false
set_option linter.unusedSimpArgs false

namespace MGL
open V3

noncomputable section

namespace Frustum

/-- In every direction some corner lies at least as far as the point. -/
theorem exists_corner_ge (f : Frustum) (h : f.Valid) (d p : V3 ℝ) (hp : p ∈ f.points) : ∃ i, dot d p ≤ dot d (f.cornerPoint i) := by
  obtain ⟨q, -, ⟨i, rfl⟩, -, hq⟩ := C71_extremePoint f h d
  exact ⟨i, hq p hp⟩

/-- The frustum lies in a box iff its corners do. -/
theorem box_iff_corners (f : Frustum) (h : f.Valid) (mn mx : V3 (Ext ℝ)) :
    (∀ p ∈ f.points, p.toExt ∈ Spec.box mn mx) ↔ ∀ i, (f.cornerPoint i).toExt ∈ Spec.box mn mx := by
  constructor
  · intro H i; exact H _ (corner_mem f h i)
  · intro H p hp
    have le : ∀ a b : ℝ, a ≤ b → Ext.of a ≤ Ext.of b := fun a b hab => WithBot.coe_le_coe.2 (WithTop.coe_le_coe.2 hab)
    have up : ∀ d : V3 ℝ, ∃ i, dot d p ≤ dot d (f.cornerPoint i) := fun d => exists_corner_ge f h d p hp
    obtain ⟨i1, h1⟩ := up ⟨-1, 0, 0⟩
    obtain ⟨i2, h2⟩ := up ⟨1, 0, 0⟩
    obtain ⟨i3, h3⟩ := up ⟨0, -1, 0⟩
    obtain ⟨i4, h4⟩ := up ⟨0, 1, 0⟩
    obtain ⟨i5, h5⟩ := up ⟨0, 0, -1⟩
    obtain ⟨i6, h6⟩ := up ⟨0, 0, 1⟩
    simp only [dot] at h1 h2 h3 h4 h5 h6
    refine ⟨(H i1).1.trans (le _ _ (by linarith)), (le _ _ (by linarith)).trans (H i2).2.1,
      (H i3).2.2.1.trans (le _ _ (by linarith)), (le _ _ (by linarith)).trans (H i4).2.2.2.1,
      (H i5).2.2.2.2.1.trans (le _ _ (by linarith)), (le _ _ (by linarith)).trans (H i6).2.2.2.2.2⟩

/-- C71: `MinimalEnclosingAABB` contains the frustum and lies in every box (finite or not) that does. -/
theorem C71_minimalEnclosingAABB (f : Frustum) (h : f.Valid) :
    (∀ p ∈ f.points, p.toExt ∈ Spec.box f.minimalEnclosingAABB.minPoint f.minimalEnclosingAABB.maxPoint) ∧
    ∀ mn mx : V3 (Ext ℝ), (∀ p ∈ f.points, p.toExt ∈ Spec.box mn mx) →
      Spec.box f.minimalEnclosingAABB.minPoint f.minimalEnclosingAABB.maxPoint ⊆ Spec.box mn mx := by
  obtain ⟨h1, h2, -⟩ := C16_enclose_history ((List.finRange 8).map fun i => EncArg.point (f.cornerPoint i)) (by
    intro e he
    obtain ⟨i, -, rfl⟩ := List.mem_map.1 he
    trivial)
  constructor
  · rw [box_iff_corners f h]
    intro i
    exact h1 _ (List.mem_map.2 ⟨i, List.mem_finRange i, rfl⟩) _ rfl
  · intro mn mx H
    rw [box_iff_corners f h] at H
    apply h2
    intro e he p hp
    obtain ⟨i, -, rfl⟩ := List.mem_map.1 he
    rw [show p = f.cornerPoint i from hp]
    exact H i

example := C71_minimalEnclosingAABB exPersp exPersp_valid

theorem encloseAll_obb (cs : List (V3 ℝ)) : ∀ o : OBB ℝ, o.Valid →
    (cs.foldl (fun o c => o.enclose c) o).Valid ∧ o.points ⊆ (cs.foldl (fun o c => o.enclose c) o).points ∧
    (cs.foldl (fun o c => o.enclose c) o).axis0 = o.axis0 ∧ (cs.foldl (fun o c => o.enclose c) o).axis1 = o.axis1 ∧
    (cs.foldl (fun o c => o.enclose c) o).axis2 = o.axis2 ∧
    (∀ c ∈ cs, c ∈ (cs.foldl (fun o c => o.enclose c) o).points) ∧
    ∀ c r : V3 ℝ, o.points ⊆ Spec.obb c o.axis0 o.axis1 o.axis2 r → (∀ p ∈ cs, p ∈ Spec.obb c o.axis0 o.axis1 o.axis2 r) →
      (cs.foldl (fun o c => o.enclose c) o).points ⊆ Spec.obb c o.axis0 o.axis1 o.axis2 r := by
  induction cs with
  | nil => intro o ho; exact ⟨ho, subset_rfl, rfl, rfl, rfl, by simp, fun c r hc _ => hc⟩
  | cons x xs ih =>
    intro o ho
    obtain ⟨v, a0, a1, a2, s, hx, hmin⟩ := C66_enclose o ho x
    obtain ⟨i1, i2, i3, i4, i5, i6, i7⟩ := ih (o.enclose x) v
    rw [List.foldl_cons]
    refine ⟨i1, s.trans i2, i3.trans a0, i4.trans a1, i5.trans a2, ?_, ?_⟩
    · intro c hc
      rcases List.mem_cons.1 hc with rfl | hc
      · exact i2 hx
      · exact i6 c hc
    · intro c r hc hp
      rw [a0, a1, a2] at i7
      exact i7 c r (hmin c r hc (hp x (List.mem_cons_self ..))) fun p hp' => hp p (List.mem_cons_of_mem _ hp')

/-- C71: `MinimalEnclosingOBB(guardband)` for `guardband ≥ 0` is an oriented box along the axes of the frustum that contains
it. With a guard band of 0 it lies in every box with these axes that contains the frustum; with a positive one it is that
box widened by the guard band on all sides. -/
theorem C71_minimalEnclosingOBB (f : Frustum) (h : f.Valid) (g : ℝ) (hg : 0 ≤ g) :
    (f.minimalEnclosingOBB g).Valid ∧ f.points ⊆ (f.minimalEnclosingOBB g).points ∧
    (f.minimalEnclosingOBB g).axis2 = -f.front ∧ (f.minimalEnclosingOBB g).axis1 = f.up ∧
    (f.minimalEnclosingOBB g).pos = (f.minimalEnclosingOBB 0).pos ∧
    (f.minimalEnclosingOBB g).r = (f.minimalEnclosingOBB 0).r + ⟨g, g, g⟩ ∧
    ∀ c r : V3 ℝ, f.points ⊆ Spec.obb c (f.minimalEnclosingOBB 0).axis0 f.up (-f.front) r →
      (f.minimalEnclosingOBB 0).points ⊆ Spec.obb c (f.minimalEnclosingOBB 0).axis0 f.up (-f.front) r := by
  have h1 := h.front; have h2 := h.up; have h3 := h.perp
  simp only [lenSq, dot] at h1 h2 h3
  let start : OBB ℝ := ⟨f.pos + ((f.near + f.far) * (1 / 2)) • f.front, 0, cross f.up (-f.front), f.up, -f.front⟩
  have hs : start.Valid := by
    refine ⟨⟨?_, ?_, ?_, ?_, ?_, ?_⟩, le_rfl, le_rfl, le_rfl⟩ <;> simp [start, dot, cross]
    · linear_combination (f.front.x * f.front.x + f.front.y * f.front.y + f.front.z * f.front.z) * h2 + h1 -
        (f.front.x * f.up.x + f.front.y * f.up.y + f.front.z * f.up.z) * h3
    · linear_combination h2
    · linear_combination h1
    · ring
    · ring
    · linear_combination -h3
  have hc : f.pos + ((f.near + f.far) * (1 / 2)) • f.front ∈ f.points := by
    rw [h.mem]
    have e : dot (f.pos + ((f.near + f.far) * (1 / 2)) • f.front - f.pos) f.front = (f.near + f.far) / 2 := by
      simp [dot]; linear_combination (f.near + f.far) / 2 * h1
    have e2 : dot (f.pos + ((f.near + f.far) * (1 / 2)) • f.front - f.pos) f.up = 0 := by
      simp [dot]; linear_combination (f.near + f.far) / 2 * h3
    have e3 : dot (f.pos + ((f.near + f.far) * (1 / 2)) • f.front - f.pos) f.worldRight = 0 := by
      have := h.frame.uv
      simp only [dot] at this
      simp [dot]; linear_combination (f.near + f.far) / 2 * this
    have hd := h.depth
    rw [e, e2, e3, abs_zero]
    obtain ⟨p1, p2⟩ := h.half_pos (show f.near ≤ (f.near + f.far) / 2 by linarith)
    exact ⟨by linarith, by linarith, p1.le, p2.le⟩
  obtain ⟨i1, i2, i3, i4, i5, i6, i7⟩ := encloseAll_obb ((List.finRange 8).map f.cornerPoint) start hs
  rw [List.foldl_map] at i1 i2 i3 i4 i5 i6 i7
  set b := (List.finRange 8).foldl (fun o i => o.enclose (f.cornerPoint i)) start with hb
  have eb : ∀ g, f.minimalEnclosingOBB g = { b with r := b.r + ⟨g, g, g⟩ } := fun g => rfl
  have e0 : f.minimalEnclosingOBB 0 = b := by
    rw [eb]
    have : b.r + ⟨0, 0, 0⟩ = b.r := by ext <;> simp
    rw [this]
  have hsub : f.points ⊆ b.points := by
    intro p hp
    obtain ⟨w, hw, hs', rfl⟩ := corner_span f h p hp
    unfold OBB.points
    rw [i1.frame.mem_obb]
    have hcor : ∀ i, f.cornerPoint i ∈ b.points := fun i => i6 _ (List.mem_map.2 ⟨i, List.mem_finRange i, rfl⟩)
    have key : ∀ (a : V3 ℝ) (r : ℝ), (∀ i, |dot (f.cornerPoint i - b.pos) a| ≤ r) →
        |dot ((∑ i, w i • f.cornerPoint i) - b.pos) a| ≤ r := by
      intro a r hr
      have e : dot ((∑ i, w i • f.cornerPoint i) - b.pos) a = ∑ i, w i * dot (f.cornerPoint i - b.pos) a := by
        rw [Fin.sum_univ_eight] at hs'
        simp only [Fin.sum_univ_eight, dot, add_x, add_y, add_z, smul_x, smul_y, smul_z, sub_x, sub_y, sub_z]
        linear_combination (b.pos.x * a.x + b.pos.y * a.y + b.pos.z * a.z) * hs'
      rw [e]
      calc |∑ i, w i * dot (f.cornerPoint i - b.pos) a| ≤ ∑ i, |w i * dot (f.cornerPoint i - b.pos) a| :=
            Finset.abs_sum_le_sum_abs _ _
        _ ≤ ∑ i, w i * r := Finset.sum_le_sum fun i _ => by
            rw [abs_mul, abs_of_nonneg (hw i)]; exact mul_le_mul_of_nonneg_left (hr i) (hw i)
        _ = r := by rw [← Finset.sum_mul, hs', one_mul]
    have hco := fun i => (i1.frame.mem_obb _ _ _).1 (hcor i)
    exact ⟨key _ _ fun i => (hco i).1, key _ _ fun i => (hco i).2.1, key _ _ fun i => (hco i).2.2⟩
  refine ⟨?_, ?_, ?_, ?_, ?_, ?_, ?_⟩
  · rw [eb]
    exact ⟨i1.frame, add_nonneg i1.rx hg, add_nonneg i1.ry hg, add_nonneg i1.rz hg⟩
  · intro p hp
    have := (i1.frame.mem_obb _ _ _).1 (hsub hp)
    rw [eb]
    unfold OBB.points
    dsimp only
    rw [i1.frame.mem_obb]
    simp only [add_x, add_y, add_z]
    exact ⟨by linarith [this.1], by linarith [this.2.1], by linarith [this.2.2]⟩
  · rw [eb]; exact i5
  · rw [eb]; exact i4
  · rw [e0, eb]
  · rw [e0, eb]
  · rw [e0]
    intro c r hcr
    rw [i3] at hcr ⊢
    apply i7 c r
    · rintro p ⟨x, y, z, x1, x2, y1, y2, z1, z2, rfl⟩
      have x0 : x = 0 := by simp only [start, zero_x] at x1 x2; linarith
      have y0 : y = 0 := by simp only [start, zero_y] at y1 y2; linarith
      have z0 : z = 0 := by simp only [start, zero_z] at z1 z2; linarith
      have := hcr hc
      convert this using 1
      ext <;> simp [x0, y0, z0, start]
    · intro p hp
      obtain ⟨i, -, rfl⟩ := List.mem_map.1 hp
      exact hcr (corner_mem f h i)

example := C71_minimalEnclosingOBB exPersp exPersp_valid (1 / 10) (by norm_num)

/-- C71: `ClosestPoint` and `Distance` of an orthographic frustum. Missing: perspective frusta, for which the code converts
the frustum to a `Polyhedron` first. -/
theorem C71_closestPoint_partial (f : Frustum) (h : f.Valid) (ht : f.type = .orthographic) (p : V3 ℝ) :
    Spec.IsClosestPoint f.points p (f.closestPointOrtho p) ∧ Spec.IsSetDist {p} f.points (f.distanceOrtho p) := by
  have hn := h.depth
  have hwh : 0 < f.h ∧ 0 < f.v := by
    rcases h.kind with ⟨e, -⟩ | ⟨-, e⟩
    · rw [e] at ht; cases ht
    · exact e
  have hF := h.frame
  obtain ⟨c, hcc, hc⟩ : ∃ c : ℝ, c * c = 1 ∧ cross f.front f.up = c • f.worldRight := by
    by_cases e : f.hand = .right
    · exact ⟨1, by norm_num, by rw [(h.crosses.1 e).2.1]; ext <;> simp⟩
    · exact ⟨-1, by norm_num, by rw [(h.crosses.2 e).2.1]; ext <;> simp⟩
  have hG : Spec.Frame f.front (cross f.front f.up) f.up := by
    have f1 := hF.uu; have f2 := hF.vv; have f3 := hF.ww; have f4 := hF.uv; have f5 := hF.uw; have f6 := hF.vw
    rw [hc]
    simp only [dot] at f1 f2 f3 f4 f5 f6
    refine ⟨hF.uu, ?_, hF.ww, ?_, hF.uw, ?_⟩ <;> simp [dot]
    · linear_combination c * c * f2 + hcc
    · linear_combination c * f4
    · linear_combination c * f6
  have hcabs : |c| = 1 := by
    rcases mul_self_eq_one_iff.1 hcc with e | e <;> rw [e] <;> norm_num
  set m : V3 ℝ := f.pos + ((f.far - f.near) * (1 / 2) + f.near) • f.front with hm
  have hpts : f.points = Spec.obb m f.front (cross f.front f.up) f.up ⟨(f.far - f.near) * (1 / 2), f.h * (1 / 2), f.v * (1 / 2)⟩ := by
    ext x
    rw [h.mem, hG.mem_obb]
    have f1 := hF.uu; have f5 := hF.uw; have f4 := hG.uv
    have e1 : dot (x - m) f.front = dot (x - f.pos) f.front - ((f.far - f.near) * (1 / 2) + f.near) := by
      simp only [dot] at f1; simp [hm, dot]; linear_combination (-(f.far - f.near) * (1 / 2) - f.near) * f1
    have e2 : dot (x - m) (cross f.front f.up) = dot (x - f.pos) (cross f.front f.up) := by
      simp only [dot] at f4; simp only [hm, dot, sub_x, sub_y, sub_z, add_x, add_y, add_z, smul_x, smul_y, smul_z]
      linear_combination (-(f.far - f.near) * (1 / 2) - f.near) * f4
    have e3 : dot (x - m) f.up = dot (x - f.pos) f.up := by
      simp only [dot] at f5; simp [hm, dot]; linear_combination (-(f.far - f.near) * (1 / 2) - f.near) * f5
    have e4 : |dot (x - f.pos) (cross f.front f.up)| = |dot (x - f.pos) f.worldRight| := by
      rw [hc, show dot (x - f.pos) (c • f.worldRight) = c * dot (x - f.pos) f.worldRight by simp [dot]; ring, abs_mul, hcabs, one_mul]
    have e5 : ∀ a d, f.half a d = a * (1 / 2) := by intro a d; unfold half; rw [if_neg (by rw [ht]; decide)]; ring
    rw [e1, e2, e3, e4, e5, e5, abs_le (a := dot (x - f.pos) f.front - _)]
    constructor
    · rintro ⟨a, b, c, d⟩; exact ⟨⟨by linarith, by linarith⟩, c, d⟩
    · rintro ⟨⟨a, b⟩, c, d⟩; exact ⟨by linarith, by linarith, c, d⟩
  have hcl : Spec.IsClosestPoint f.points p (f.closestPointOrtho p) := by
    have hA : -((f.far - f.near) * (1 / 2)) ≤ (f.far - f.near) * (1 / 2) := by linarith
    have hB : -(f.h * (1 / 2)) ≤ f.h * (1 / 2) := by linarith
    have hC : -(f.v * (1 / 2)) ≤ f.v * (1 / 2) := by linarith
    have eq : f.closestPointOrtho p = m + (clamp (dot (p - m) f.front) (-((f.far - f.near) * (1 / 2))) ((f.far - f.near) * (1 / 2))) • f.front
      + (clamp (dot (p - m) (cross f.front f.up)) (-(f.h * (1 / 2))) (f.h * (1 / 2))) • cross f.front f.up
      + (clamp (dot (p - m) f.up) (-(f.v * (1 / 2))) (f.v * (1 / 2))) • f.up := rfl
    rw [hpts]
    have r1 := QuadTree.clamp_range (c := dot (p - m) f.front) hA
    have r2 := QuadTree.clamp_range (c := dot (p - m) (cross f.front f.up)) hB
    have r3 := QuadTree.clamp_range (c := dot (p - m) f.up) hC
    constructor
    · rw [eq]
      exact ⟨_, _, _, r1.1, r1.2, r2.1, r2.2, r3.1, r3.2, rfl⟩
    · intro q hq
      rw [hG.mem_obb] at hq
      obtain ⟨q1, q2, q3⟩ := hq
      obtain ⟨c1, c2, c3⟩ := hG.coords m (clamp (dot (p - m) f.front) (-((f.far - f.near) * (1 / 2))) ((f.far - f.near) * (1 / 2)))
        (clamp (dot (p - m) (cross f.front f.up)) (-(f.h * (1 / 2))) (f.h * (1 / 2))) (clamp (dot (p - m) f.up) (-(f.v * (1 / 2))) (f.v * (1 / 2)))
      rw [← eq] at c1 c2 c3
      have n1 := QuadTree.clamp_near (c := dot (p - m) f.front) hA (abs_le.1 q1).1 (abs_le.1 q1).2
      have n2 := QuadTree.clamp_near (c := dot (p - m) (cross f.front f.up)) hB (abs_le.1 q2).1 (abs_le.1 q2).2
      have n3 := QuadTree.clamp_near (c := dot (p - m) f.up) hC (abs_le.1 q3).1 (abs_le.1 q3).2
      rw [← c1] at n1; rw [← c2] at n2; rw [← c3] at n3
      have sub : ∀ (x a : V3 ℝ), dot (x - m) a - dot (p - m) a = -dot (p - x) a := by intro x a; simp [dot]; ring
      rw [sub, sub, neg_mul_neg, neg_mul_neg] at n1 n2 n3
      show distSq p (f.closestPointOrtho p) ≤ distSq p q
      rw [show distSq p (f.closestPointOrtho p) = dot (p - f.closestPointOrtho p) (p - f.closestPointOrtho p) from rfl,
        show distSq p q = dot (p - q) (p - q) from rfl, hG.dot_eq, hG.dot_eq (p - q)]
      linarith
  refine ⟨hcl, ?_⟩
  exact setDist_symm (setDist_of_point hcl)

example := C71_closestPoint_partial exOrtho exOrtho_valid rfl ⟨5, 6, 7⟩

/-- C71: the twelve edges join, once each, the corners whose numbers differ in exactly one bit. -/
theorem C71_edges (f : Frustum) :
    ∃ e : Fin 12 → Fin 8 × Fin 8, Function.Injective e ∧
      (∀ i, f.edge i = ⟨f.cornerPoint (e i).1, f.cornerPoint (e i).2⟩) ∧
      ∀ a b : Fin 8, (∃ i, e i = (a, b)) ↔ a < b ∧ (a.val ^^^ b.val = 1 ∨ a.val ^^^ b.val = 2 ∨ a.val ^^^ b.val = 4) :=
  ⟨edgeCorners, by unfold Function.Injective; decide, fun _ => rfl, by decide⟩

/-- C71: `UniqueEdgeDirections` lists exactly the directions of the edges, `UniqueFaceNormals` exactly the normals of the
faces, up to sign and length. -/
theorem C71_unique_directions (f : Frustum) (h : f.Valid) :
    (∀ i, ∃ d ∈ f.uniqueEdgeDirections, ∃ c : ℝ, c ≠ 0 ∧ (f.edge i).b - (f.edge i).a = c • d) ∧
    (∀ d ∈ f.uniqueEdgeDirections, ∃ i, ∃ c : ℝ, c ≠ 0 ∧ d = c • ((f.edge i).b - (f.edge i).a)) ∧
    (∀ i, ∃ n ∈ f.uniqueFaceNormals, (f.getPlane i).normal = n ∨ (f.getPlane i).normal = -n) ∧
    (∀ n ∈ f.uniqueFaceNormals, ∃ i, (f.getPlane i).normal = n ∨ (f.getPlane i).normal = -n) := by
  have hd := sub_pos.2 h.depth
  obtain ⟨c, hc, hcr⟩ : ∃ c : ℝ, c ≠ 0 ∧ f.worldRight = c • cross f.front f.up := by
    by_cases e : f.hand = .right
    · exact ⟨1, by norm_num, by rw [(h.crosses.1 e).2.1]; ext <;> simp⟩
    · exact ⟨-1, by norm_num, by rw [(h.crosses.2 e).2.1]; ext <;> simp⟩
  rcases h.kind with ⟨e, hn, -, -, -, -⟩ | ⟨e, hw, hv⟩
  · have hf : 0 < f.far := hn.trans h.depth
    have hnf : f.near ≠ 0 := hn.ne'
    have hff : f.far ≠ 0 := hf.ne'
    have lst : f.uniqueEdgeDirections = [f.nearPlanePos (-1) (-1) - f.nearPlanePos 1 (-1), f.nearPlanePos (-1) (-1) - f.nearPlanePos (-1) 1,
        f.farPlanePos (-1) (-1) - f.nearPlanePos (-1) (-1), f.farPlanePos 1 (-1) - f.nearPlanePos 1 (-1),
        f.farPlanePos (-1) 1 - f.nearPlanePos (-1) 1, f.farPlanePos 1 1 - f.nearPlanePos 1 1] := by
      unfold uniqueEdgeDirections; rw [if_pos e]
    have np : ∀ x y, f.nearPlanePos x y = f.pos + f.near • f.front + (x * (Real.tan (f.h * (1 / 2)) * f.near)) • f.worldRight +
      (y * (Real.tan (f.v * (1 / 2)) * f.near)) • f.up := by intro x y; unfold nearPlanePos; rw [if_pos e]
    have fp : ∀ x y, f.farPlanePos x y = f.pos + f.far • f.front + (x * (Real.tan (f.h * (1 / 2)) * f.far)) • f.worldRight +
      (y * (Real.tan (f.v * (1 / 2)) * f.far)) • f.up := by intro x y; unfold farPlanePos; rw [if_pos e]
    have k : -(f.far / f.near) ≠ 0 := neg_ne_zero.2 (div_ne_zero hff hnf)
    refine ⟨?_, ?_, ?_, ?_⟩
    · intro i
      have m0 : f.nearPlanePos (-1) (-1) - f.nearPlanePos 1 (-1) ∈ f.uniqueEdgeDirections := by rw [lst]; simp
      have m1 : f.nearPlanePos (-1) (-1) - f.nearPlanePos (-1) 1 ∈ f.uniqueEdgeDirections := by rw [lst]; simp
      have m2 : f.farPlanePos (-1) (-1) - f.nearPlanePos (-1) (-1) ∈ f.uniqueEdgeDirections := by rw [lst]; simp
      have m3 : f.farPlanePos 1 (-1) - f.nearPlanePos 1 (-1) ∈ f.uniqueEdgeDirections := by rw [lst]; simp
      have m4 : f.farPlanePos (-1) 1 - f.nearPlanePos (-1) 1 ∈ f.uniqueEdgeDirections := by rw [lst]; simp
      have m5 : f.farPlanePos 1 1 - f.nearPlanePos 1 1 ∈ f.uniqueEdgeDirections := by rw [lst]; simp
      fin_cases i
      · exact ⟨_, m2, 1, one_ne_zero, by ext <;> simp [edge, edgeCorners, cornerPoint]⟩
      · exact ⟨_, m1, -1, by norm_num, by ext <;> simp [edge, edgeCorners, cornerPoint]⟩
      · exact ⟨_, m0, -1, by norm_num, by ext <;> simp [edge, edgeCorners, cornerPoint]⟩
      · refine ⟨_, m1, -(f.far / f.near), k, ?_⟩
        ext <;> simp [edge, edgeCorners, cornerPoint, np, fp] <;> field_simp <;> ring
      · refine ⟨_, m0, -(f.far / f.near), k, ?_⟩
        ext <;> simp [edge, edgeCorners, cornerPoint, np, fp] <;> field_simp <;> ring
      · exact ⟨_, m4, 1, one_ne_zero, by ext <;> simp [edge, edgeCorners, cornerPoint]⟩
      · refine ⟨_, m0, -1, by norm_num, ?_⟩
        ext <;> simp [edge, edgeCorners, cornerPoint, np, fp]
      · refine ⟨_, m0, -(f.far / f.near), k, ?_⟩
        ext <;> simp [edge, edgeCorners, cornerPoint, np, fp] <;> field_simp <;> ring
      · exact ⟨_, m3, 1, one_ne_zero, by ext <;> simp [edge, edgeCorners, cornerPoint]⟩
      · refine ⟨_, m1, -1, by norm_num, ?_⟩
        ext <;> simp [edge, edgeCorners, cornerPoint, np, fp]
      · refine ⟨_, m1, -(f.far / f.near), k, ?_⟩
        ext <;> simp [edge, edgeCorners, cornerPoint, np, fp] <;> field_simp <;> ring
      · exact ⟨_, m5, 1, one_ne_zero, by ext <;> simp [edge, edgeCorners, cornerPoint]⟩
    · rw [lst]
      intro d hd
      simp only [List.mem_cons, List.not_mem_nil, or_false] at hd
      rcases hd with rfl | rfl | rfl | rfl | rfl | rfl
      · exact ⟨2, -1, by norm_num, by ext <;> simp [edge, edgeCorners, cornerPoint]⟩
      · exact ⟨1, -1, by norm_num, by ext <;> simp [edge, edgeCorners, cornerPoint]⟩
      · exact ⟨0, 1, by norm_num, by ext <;> simp [edge, edgeCorners, cornerPoint]⟩
      · exact ⟨8, 1, by norm_num, by ext <;> simp [edge, edgeCorners, cornerPoint]⟩
      · exact ⟨5, 1, by norm_num, by ext <;> simp [edge, edgeCorners, cornerPoint]⟩
      · exact ⟨11, 1, by norm_num, by ext <;> simp [edge, edgeCorners, cornerPoint]⟩
    · unfold uniqueFaceNormals
      rw [if_pos e]
      intro i
      fin_cases i
      · exact ⟨f.front, by simp, Or.inr rfl⟩
      · exact ⟨f.front, by simp, Or.inl rfl⟩
      · exact ⟨f.leftPlane.normal, by simp, Or.inl rfl⟩
      · exact ⟨f.rightPlane.normal, by simp, Or.inl rfl⟩
      · exact ⟨f.topPlane.normal, by simp, Or.inl rfl⟩
      · exact ⟨f.bottomPlane.normal, by simp, Or.inl rfl⟩
    · unfold uniqueFaceNormals
      rw [if_pos e]
      intro n hn
      simp only [List.mem_cons, List.not_mem_nil, or_false] at hn
      rcases hn with rfl | rfl | rfl | rfl | rfl
      · exact ⟨1, Or.inl rfl⟩
      · exact ⟨2, Or.inl rfl⟩
      · exact ⟨3, Or.inl rfl⟩
      · exact ⟨4, Or.inl rfl⟩
      · exact ⟨5, Or.inl rfl⟩
  · have e' : f.type ≠ .perspective := by rw [e]; decide
    have np : ∀ x y, f.nearPlanePos x y = f.pos + f.near • f.front + (x * f.h * (1 / 2)) • f.worldRight +
      (y * f.v * (1 / 2)) • f.up := by intro x y; unfold nearPlanePos; rw [if_neg e']
    have fp : ∀ x y, f.farPlanePos x y = f.pos + f.far • f.front + (x * f.h * (1 / 2)) • f.worldRight +
      (y * f.v * (1 / 2)) • f.up := by intro x y; unfold farPlanePos; rw [if_neg e']
    have lst : f.uniqueEdgeDirections = [f.front, f.up, cross f.front f.up] := by unfold uniqueEdgeDirections; rw [if_neg e']
    have hch : c * f.h ≠ 0 := mul_ne_zero hc hw.ne'
    rw [lst]
    have dz : ∀ x y : ℝ, f.farPlanePos x y - f.nearPlanePos x y = (f.far - f.near) • f.front := by
      intro x y; rw [np, fp]; ext <;> simp <;> ring
    have nx : ∀ y : ℝ, f.nearPlanePos 1 y - f.nearPlanePos (-1) y = (c * f.h) • cross f.front f.up := by
      intro y; rw [np, np, hcr]; ext <;> simp <;> ring
    have fx : ∀ y : ℝ, f.farPlanePos 1 y - f.farPlanePos (-1) y = (c * f.h) • cross f.front f.up := by
      intro y; rw [fp, fp, hcr]; ext <;> simp <;> ring
    have ny : ∀ x : ℝ, f.nearPlanePos x 1 - f.nearPlanePos x (-1) = f.v • f.up := by
      intro x; rw [np, np]; ext <;> simp <;> ring
    have fy : ∀ x : ℝ, f.farPlanePos x 1 - f.farPlanePos x (-1) = f.v • f.up := by
      intro x; rw [fp, fp]; ext <;> simp <;> ring
    have mF : f.front ∈ [f.front, f.up, cross f.front f.up] := by simp
    have mU : f.up ∈ [f.front, f.up, cross f.front f.up] := by simp
    have mR : cross f.front f.up ∈ [f.front, f.up, cross f.front f.up] := by simp
    have nrm : f.leftPlane.normal = -f.worldRight ∧ f.rightPlane.normal = f.worldRight := by
      have hR : lenSq f.worldRight = 1 := h.frame.vv
      have hRn : lenSq (-f.worldRight) = 1 := by rw [← hR]; simp [lenSq, dot]
      constructor
      · unfold leftPlane; rw [if_neg e', f3Normalized_unit hRn]; rfl
      · unfold rightPlane; rw [if_neg e', f3Normalized_unit hR]; rfl
    have nrm2 : f.topPlane.normal = f.up ∧ f.bottomPlane.normal = -f.up := by
      constructor
      · unfold topPlane; rw [if_neg e']; rfl
      · unfold bottomPlane; rw [if_neg e']; rfl
    have hR2 : f.worldRight = cross f.front f.up ∨ f.worldRight = -cross f.front f.up := by
      by_cases e : f.hand = .right
      · exact Or.inl (h.crosses.1 e).2.1.symm
      · right; rw [(h.crosses.2 e).2.1, neg_neg]
    refine ⟨?_, ?_, ?_, ?_⟩
    · intro i
      fin_cases i
      · exact ⟨_, mF, _, hd.ne', dz _ _⟩
      · exact ⟨_, mU, _, hv.ne', ny _⟩
      · exact ⟨_, mR, _, hch, nx _⟩
      · exact ⟨_, mU, _, hv.ne', fy _⟩
      · exact ⟨_, mR, _, hch, fx _⟩
      · exact ⟨_, mF, _, hd.ne', dz _ _⟩
      · exact ⟨_, mR, _, hch, nx _⟩
      · exact ⟨_, mR, _, hch, fx _⟩
      · exact ⟨_, mF, _, hd.ne', dz _ _⟩
      · exact ⟨_, mU, _, hv.ne', ny _⟩
      · exact ⟨_, mU, _, hv.ne', fy _⟩
      · exact ⟨_, mF, _, hd.ne', dz _ _⟩
    · intro d hd'
      have inv : ∀ (k : ℝ) (x y : V3 ℝ), k ≠ 0 → x = k • y → y = (1 / k) • x := by
        intro k x y hk hx; rw [hx]; ext <;> simp <;> field_simp
      simp only [List.mem_cons, List.not_mem_nil, or_false] at hd'
      rcases hd' with rfl | rfl | rfl
      · exact ⟨0, _, one_div_ne_zero hd.ne', inv _ _ _ hd.ne' (dz _ _)⟩
      · exact ⟨1, _, one_div_ne_zero hv.ne', inv _ _ _ hv.ne' (ny _)⟩
      · exact ⟨2, _, one_div_ne_zero hch, inv _ _ _ hch (nx _)⟩
    · unfold uniqueFaceNormals
      rw [if_neg e']
      intro i
      fin_cases i
      · exact ⟨_, mF, Or.inr rfl⟩
      · exact ⟨_, mF, Or.inl rfl⟩
      · refine ⟨_, mR, ?_⟩
        show f.leftPlane.normal = _ ∨ f.leftPlane.normal = _
        rw [nrm.1]; rcases hR2 with r | r <;> rw [r]
        · exact Or.inr rfl
        · left; rw [neg_neg]
      · refine ⟨_, mR, ?_⟩
        show f.rightPlane.normal = _ ∨ f.rightPlane.normal = _
        rw [nrm.2]; exact hR2
      · exact ⟨_, mU, Or.inl nrm2.1⟩
      · exact ⟨_, mU, Or.inr nrm2.2⟩
    · unfold uniqueFaceNormals
      rw [if_neg e']
      intro n hn
      simp only [List.mem_cons, List.not_mem_nil, or_false] at hn
      rcases hn with rfl | rfl | rfl
      · exact ⟨1, Or.inl rfl⟩
      · exact ⟨4, Or.inl nrm2.1⟩
      · refine ⟨3, ?_⟩
        show f.rightPlane.normal = _ ∨ f.rightPlane.normal = _
        rw [nrm.2]; exact hR2

example := C71_unique_directions exPersp exPersp_valid
example := C71_unique_directions exOrtho exOrtho_valid

/-- The common part of the transforms: `M` maps points, `D` directions, and `D` scales all lengths by `k`. -/
theorem transformParams_points (f : Frustum) (h : f.Valid) (M D : V3 ℝ → V3 ℝ) (k : ℝ) (hk : 1 / 1000000 < k)
    (hM : ∀ (p a b c : V3 ℝ) (x y z : ℝ), M (p + x • a + y • b + z • c) = M p + x • D a + y • D b + z • D c)
    (hD : ∀ a b, dot (D a) (D b) = k * k * dot a b) :
    (f.transformParams (M f.pos) (D f.front) (D f.up)).Valid ∧
    M '' f.points = (f.transformParams (M f.pos) (D f.front) (D f.up)).points := by
  have hk0 : 0 < k := lt_trans (by norm_num) hk
  have lenD : ∀ a : V3 ℝ, lenSq a = 1 → len (D a) = k := by
    intro a ha
    unfold len
    rw [show lenSq (D a) = k * k by rw [show lenSq (D a) = dot (D a) (D a) from rfl, hD, show dot a a = 1 from ha, mul_one],
      Real.sqrt_mul_self hk0.le]
  have nf : f3Normalize (D f.front) = ((1 / k) • D f.front, k) := by
    rw [f3Normalize_pos (by rw [lenD _ h.front]; exact hk), lenD _ h.front]
  have nu : f3Normalized (D f.up) = (1 / k) • D f.up := by
    rw [f3Normalized_pos (by rw [lenD _ h.up]; exact hk), lenD _ h.up]
  have dsm : ∀ a b, dot ((1 / k) • D a) ((1 / k) • D b) = dot a b := by
    intro a b
    have : dot ((1 / k) • D a) ((1 / k) • D b) = (1 / k) * (1 / k) * dot (D a) (D b) := by simp [dot]; ring
    rw [this, hD]; field_simp
  set g := f.transformParams (M f.pos) (D f.front) (D f.up) with hg
  have gf : g.front = (1 / k) • D f.front := by show (f3Normalize (D f.front)).1 = _; rw [nf]
  have gu : g.up = (1 / k) • D f.up := nu
  have gn : g.near = f.near * k := by show f.near * (f3Normalize (D f.front)).2 = _; rw [nf]
  have gF : g.far = f.far * k := by show f.far * (f3Normalize (D f.front)).2 = _; rw [nf]
  have gh : g.h = if f.type = .orthographic then f.h * k else f.h := by
    show (if f.type = .orthographic then f.h * (f3Normalize (D f.front)).2 else f.h) = _; rw [nf]
  have gv : g.v = if f.type = .orthographic then f.v * k else f.v := by
    show (if f.type = .orthographic then f.v * (f3Normalize (D f.front)).2 else f.v) = _; rw [nf]
  have gt : g.type = f.type := rfl
  have gV : g.Valid := by
    refine ⟨?_, ?_, ?_, ?_, ?_⟩
    · show dot g.front g.front = 1; rw [gf, dsm]; exact h.front
    · show dot g.up g.up = 1; rw [gu, dsm]; exact h.up
    · rw [gf, gu, dsm]; exact h.perp
    · rw [gn, gF]; exact mul_lt_mul_of_pos_right h.depth hk0
    · rw [gh, gv, gt, gn]
      rcases h.kind with ⟨e, e1, e2⟩ | ⟨e, e1, e2⟩
      · left; rw [e, if_neg (by decide), if_neg (by decide)]; exact ⟨rfl, mul_pos e1 hk0, e2⟩
      · right; rw [e, if_pos rfl, if_pos rfl]; exact ⟨rfl, mul_pos e1 hk0, mul_pos e2 hk0⟩
  refine ⟨gV, ?_⟩
  -- the new right vector is the image of the old one up to sign
  obtain ⟨c, hcc, hc⟩ : ∃ c : ℝ, c * c = 1 ∧ (1 / k) • D f.worldRight = c • g.worldRight := by
    refine ⟨dot ((1 / k) • D f.worldRight) g.worldRight, ?_, ?_⟩
    · have := gV.frame.dot_eq ((1 / k) • D f.worldRight) ((1 / k) • D f.worldRight)
      rw [dsm, gf, gu, dsm, dsm, dot_comm f.worldRight f.front, h.frame.uv, h.frame.vw, h.frame.vv] at this
      linarith
    · have := gV.frame.expand ((1 / k) • D f.worldRight)
      rw [gf, dsm, gu, dsm, dot_comm f.worldRight f.front, h.frame.uv, h.frame.vw] at this
      refine this.trans ?_
      ext <;> simp
  have hcabs : |c| = 1 := by
    rcases mul_self_eq_one_iff.1 hcc with e | e <;> rw [e] <;> norm_num
  have key : ∀ d x y : ℝ, M (f.pos + d • f.front + x • f.worldRight + y • f.up) =
      g.pos + (k * d) • g.front + (c * (k * x)) • g.worldRight + (k * y) • g.up := by
    intro d x y
    rw [hM, gf, gu]
    have hx := congrArg V3.x hc; have hy := congrArg V3.y hc; have hz := congrArg V3.z hc
    simp only [smul_x, smul_y, smul_z] at hx hy hz
    have hkn : k ≠ 0 := hk0.ne'
    ext
    · simp only [add_x, smul_x]
      have : x * (D f.worldRight).x = c * (k * x) * g.worldRight.x := by
        rw [show c * (k * x) * g.worldRight.x = k * x * (c * g.worldRight.x) by ring, ← hx]; field_simp
      rw [this, show k * d * (1 / k * (D f.front).x) = d * (D f.front).x by field_simp,
        show k * y * (1 / k * (D f.up).x) = y * (D f.up).x by field_simp]
      rfl
    · simp only [add_y, smul_y]
      have : x * (D f.worldRight).y = c * (k * x) * g.worldRight.y := by
        rw [show c * (k * x) * g.worldRight.y = k * x * (c * g.worldRight.y) by ring, ← hy]; field_simp
      rw [this, show k * d * (1 / k * (D f.front).y) = d * (D f.front).y by field_simp,
        show k * y * (1 / k * (D f.up).y) = y * (D f.up).y by field_simp]
      rfl
    · simp only [add_z, smul_z]
      have : x * (D f.worldRight).z = c * (k * x) * g.worldRight.z := by
        rw [show c * (k * x) * g.worldRight.z = k * x * (c * g.worldRight.z) by ring, ← hz]; field_simp
      rw [this, show k * d * (1 / k * (D f.front).z) = d * (D f.front).z by field_simp,
        show k * y * (1 / k * (D f.up).z) = y * (D f.up).z by field_simp]
      rfl
  have hhalf : ∀ d, g.half g.h (k * d) = k * f.half f.h d ∧ g.half g.v (k * d) = k * f.half f.v d := by
    intro d
    rw [gh, gv]
    unfold half
    rw [gt]
    rcases h.type_cases with e | e <;> rw [e]
    · constructor <;> simp <;> ring
    · constructor <;> simp <;> ring
  rw [h.points_eq, gV.points_eq]
  ext q
  constructor
  · rintro ⟨_, ⟨d, x, y, d1, d2, x1, y1, rfl⟩, rfl⟩
    refine ⟨k * d, c * (k * x), k * y, ?_, ?_, ?_, ?_, key d x y⟩
    · rw [gn]; nlinarith
    · rw [gF]; nlinarith
    · rw [(hhalf d).1, abs_mul, hcabs, one_mul, abs_mul, abs_of_pos hk0]; exact mul_le_mul_of_nonneg_left x1 hk0.le
    · rw [(hhalf d).2, abs_mul, abs_of_pos hk0]; exact mul_le_mul_of_nonneg_left y1 hk0.le
  · rintro ⟨d, x, y, d1, d2, x1, y1, rfl⟩
    have hkn : k ≠ 0 := hk0.ne'
    have ed : d = k * (d / k) := by field_simp
    have ex : x = c * (k * (c * x / k)) := by
      rw [show c * (k * (c * x / k)) = (c * c) * x by field_simp, hcc, one_mul]
    have ey : y = k * (y / k) := by field_simp
    rw [ed] at d1 d2 x1 y1
    rw [(hhalf _).1] at x1; rw [(hhalf _).2] at y1
    rw [gn] at d1; rw [gF] at d2
    refine ⟨_, ⟨d / k, c * x / k, y / k, ?_, ?_, ?_, ?_, rfl⟩, ?_⟩
    · by_contra hh; push Not at hh; nlinarith
    · by_contra hh; push Not at hh; nlinarith
    · rw [abs_div, abs_mul, hcabs, one_mul, abs_of_pos hk0, div_le_iff₀ hk0]; linarith
    · rw [abs_div, abs_of_pos hk0, div_le_iff₀ hk0]; linarith
    · rw [key, ← ed, ← ex, ← ey]

/-- C71: `Transform` by a matrix with orthogonal columns of the same length `k` (mirroring or not) maps the frustum exactly
onto the new one, and keeps it valid. -/
theorem C71_transform (f : Frustum) (h : f.Valid) (a : Fin 3 → Fin 3 → ℝ) (t : V3 ℝ) (k : ℝ) (hk : 1 / 1000000 < k)
    (ho : ∀ i j, a 0 i * a 0 j + a 1 i * a 1 j + a 2 i * a 2 j = if i = j then k * k else 0) :
    Spec.affineMap a 0 '' f.points = (f.transform3 (Matrix.of a)).points ∧
    Spec.affineMap a t '' f.points =
      (f.transform34 !![a 0 0, a 0 1, a 0 2, t.x; a 1 0, a 1 1, a 1 2, t.y; a 2 0, a 2 1, a 2 2, t.z]).points ∧
    Spec.affineMap a t '' f.points =
      (f.transform4 !![a 0 0, a 0 1, a 0 2, t.x; a 1 0, a 1 1, a 1 2, t.y; a 2 0, a 2 1, a 2 2, t.z; 0, 0, 0, 1]).points ∧
    (f.transform34 !![a 0 0, a 0 1, a 0 2, t.x; a 1 0, a 1 1, a 1 2, t.y; a 2 0, a 2 1, a 2 2, t.z]).Valid := by
  have hM : ∀ (t p u v w : V3 ℝ) (x y z : ℝ), Spec.affineMap a t (p + x • u + y • v + z • w) =
      Spec.affineMap a t p + x • Spec.affineMap a 0 u + y • Spec.affineMap a 0 v + z • Spec.affineMap a 0 w := by
    intro t p u v w x y z; unfold Spec.affineMap; ext <;> simp <;> ring
  have hD : ∀ u v, dot (Spec.affineMap a 0 u) (Spec.affineMap a 0 v) = k * k * dot u v := by
    intro u v
    have h00 := ho 0 0; have h01 := ho 0 1; have h02 := ho 0 2; have h11 := ho 1 1; have h12 := ho 1 2; have h22 := ho 2 2
    simp at h00 h01 h02 h11 h12 h22
    simp [Spec.affineMap, dot]
    linear_combination u.x * v.x * h00 + u.y * v.y * h11 + u.z * v.z * h22 + (u.x * v.y + u.y * v.x) * h01 +
      (u.x * v.z + u.z * v.x) * h02 + (u.y * v.z + u.z * v.y) * h12
  have e3 : ∀ p, Mat3.mulVec (Matrix.of a) p = Spec.affineMap a 0 p := by
    intro p; ext <;> simp [Spec.affineMap, Mat3.mulVec]
  have e34 : ∀ p, Mat34.mulPos !![a 0 0, a 0 1, a 0 2, t.x; a 1 0, a 1 1, a 1 2, t.y; a 2 0, a 2 1, a 2 2, t.z] p = Spec.affineMap a t p := by
    intro p; ext <;> simp [Spec.affineMap, Mat34.mulPos]
  have d34 : ∀ p, Mat34.mulDir !![a 0 0, a 0 1, a 0 2, t.x; a 1 0, a 1 1, a 1 2, t.y; a 2 0, a 2 1, a 2 2, t.z] p = Spec.affineMap a 0 p := by
    intro p; ext <;> simp [Spec.affineMap, Mat34.mulDir]
  have p4 : Mat4.float3x4Part (!![a 0 0, a 0 1, a 0 2, t.x; a 1 0, a 1 1, a 1 2, t.y; a 2 0, a 2 1, a 2 2, t.z; 0, 0, 0, 1] : Mat4 ℝ) =
      !![a 0 0, a 0 1, a 0 2, t.x; a 1 0, a 1 1, a 1 2, t.y; a 2 0, a 2 1, a 2 2, t.z] := by
    ext i j; fin_cases i <;> fin_cases j <;> simp [Mat4.float3x4Part]
  have r34 := transformParams_points f h (Spec.affineMap a t) (Spec.affineMap a 0) k hk (hM t) hD
  have b34 : Spec.affineMap a t '' f.points =
      (f.transform34 !![a 0 0, a 0 1, a 0 2, t.x; a 1 0, a 1 1, a 1 2, t.y; a 2 0, a 2 1, a 2 2, t.z]).points := by
    unfold transform34; rw [e34, d34, d34]; exact r34.2
  refine ⟨?_, b34, ?_, ?_⟩
  · unfold transform3
    rw [e3, e3, e3]
    exact (transformParams_points f h (Spec.affineMap a 0) (Spec.affineMap a 0) k hk (hM 0) hD).2
  · unfold transform4; rw [p4]; exact b34
  · unfold transform34; rw [e34, d34, d34]; exact r34.1

/-- A quarter turn of scale 2. -/
example := C71_transform exPersp exPersp_valid ![![0, -2, 0], ![2, 0, 0], ![0, 0, 2]] ⟨5, 6, 7⟩ 2 (by norm_num) (by
  intro i j
  fin_cases i <;> fin_cases j <;> simp <;> norm_num [Matrix.vecHead, Matrix.vecTail])

/-- C71: `Translate` and rotation by a unit quaternion. -/
theorem C71_rigid (f : Frustum) (h : f.Valid) (o : V3 ℝ) (q : Quat ℝ) (hq : Quat.normSq q = 1) :
    (fun x => x + o) '' f.points = (f.translate o).points ∧ (f.translate o).Valid ∧
    Quat.transform q '' f.points = (f.transformQuat q).points ∧ (f.transformQuat q).Valid := by
  have tV : (f.translate o).Valid := ⟨h.front, h.up, h.perp, h.depth, h.kind⟩
  have hT := transformParams_points f h (Quat.transform q) (Quat.transform q) 1 (by norm_num)
    (by intro p a b c x y z; unfold Quat.transform Mat3.mulVec; ext <;> simp <;> ring)
    (by intro a b; rw [(Quat.C40_isometry q hq a b).1]; ring)
  refine ⟨?_, tV, hT.2, hT.1⟩
  rw [h.points_eq, tV.points_eq]
  ext p
  constructor
  · rintro ⟨_, ⟨d, x, y, d1, d2, x1, y1, rfl⟩, rfl⟩
    exact ⟨d, x, y, d1, d2, x1, y1, by ext <;> simp [translate, worldRight] <;> ring⟩
  · rintro ⟨d, x, y, d1, d2, x1, y1, rfl⟩
    exact ⟨_, ⟨d, x, y, d1, d2, x1, y1, rfl⟩, by ext <;> simp [translate, worldRight] <;> ring⟩

example := C71_rigid exPersp exPersp_valid ⟨5, 6, 7⟩ ⟨0, 4 / 5, 0, 3 / 5⟩ (by norm_num [Quat.normSq])

/-- C71: for a perspective frustum `AspectRatio()` is the ratio of the width to the height of the rectangle at the near
plane, and `SetHorizontalFovAndAspectRatio`, `SetVerticalFovAndAspectRatio` set it to the ratio asked for. Missing:
orthographic frusta, see `C71_aspectRatio_violation`. -/
theorem C71_aspectRatio_partial :
    (∀ f : Frustum, f.Valid → f.type = .perspective → f.aspectRatio = f.nearPlaneWidth / f.nearPlaneHeight) ∧
    (∀ (o : FrustumObj) (fov a : ℝ), 0 < fov → fov < Real.pi → 0 < a → ∀ f : Frustum,
      ((o.setHorizontalFovAndAspectRatio fov a).params = some f → f.aspectRatio = a ∧ f.h = fov ∧ 0 < f.v ∧ f.v < Real.pi) ∧
      ((o.setVerticalFovAndAspectRatio fov a).params = some f → f.aspectRatio = a ∧ f.v = fov ∧ 0 < f.h ∧ f.h < Real.pi)) := by
  constructor
  · intro f h ht
    have hn : 0 < f.near := by
      rcases h.kind with ⟨-, e, -⟩ | ⟨e, -⟩
      · exact e
      · rw [e] at ht; cases ht
    unfold aspectRatio nearPlaneWidth nearPlaneHeight nearPlaneWidthOf
    rw [if_pos ht, if_pos ht, mul_div_mul_right _ _ hn.ne', mul_div_mul_right _ _ two_ne_zero]
  · intro o fov a h0 h1 ha f
    have ht : 0 < Real.tan (fov * (1 / 2)) := by rw [show fov * (1 / 2) = fov / 2 by ring]; exact tan_half_pos h0 h1
    have at0 : ∀ x : ℝ, 0 < x → 0 < 2 * Real.arctan x ∧ 2 * Real.arctan x < Real.pi := fun x hx =>
      ⟨by have := Real.arctan_pos.2 hx; linarith, by linarith [Real.arctan_lt_pi_div_two x]⟩
    have pp : ∀ (o : FrustumObj) (f : Frustum), o.params = some f → f.h = o.h ∧ f.v = o.v := by
      intro o f hf
      unfold FrustumObj.params at hf
      split at hf
      · cases hf; exact ⟨rfl, rfl⟩
      · cases hf
    constructor
    · intro hf
      obtain ⟨e1, e2⟩ := pp _ _ hf
      have e1' : f.h = fov := e1
      have e2' : f.v = 2 * Real.arctan (Real.tan (fov * (1 / 2)) / a) := e2
      refine ⟨?_, e1', ?_⟩
      · unfold aspectRatio
        rw [e1', e2', show 2 * Real.arctan (Real.tan (fov * (1 / 2)) / a) * (1 / 2) = Real.arctan (Real.tan (fov * (1 / 2)) / a) by ring,
          Real.tan_arctan]
        generalize Real.tan (fov * (1 / 2)) = x at ht
        have := ht.ne'
        field_simp
      · rw [e2']; exact at0 _ (div_pos ht ha)
    · intro hf
      obtain ⟨e1, e2⟩ := pp _ _ hf
      have e1' : f.v = fov := e2
      have e2' : f.h = 2 * Real.arctan (Real.tan (fov * (1 / 2)) * a) := e1
      refine ⟨?_, e1', ?_⟩
      · unfold aspectRatio
        rw [e1', e2', show 2 * Real.arctan (Real.tan (fov * (1 / 2)) * a) * (1 / 2) = Real.arctan (Real.tan (fov * (1 / 2)) * a) by ring,
          Real.tan_arctan]
        generalize Real.tan (fov * (1 / 2)) = x at ht
        have := ht.ne'
        field_simp
      · rw [e2']; exact at0 _ (mul_pos ht ha)

example := C71_aspectRatio_partial.1 exPersp exPersp_valid rfl
example : ∃ f, ((FrustumObj.run 0 0 none [.setFrame 0 ⟨0, 0, -1⟩ ⟨0, 1, 0⟩, .setViewPlaneDistances 1 2]).setHorizontalFovAndAspectRatio
    (Real.pi / 2) (16 / 9)).params = some f := ⟨_, rfl⟩

/-- C71 fails: the documentation says that `AspectRatio()` is the ratio of the width of the viewing rectangle to its height,
and that it can also be computed as `horizontalFov / verticalFov`. For an orthographic frustum the function takes tangents of
the width and the height, and for a perspective one the ratio of the angles is another number. -/
theorem C71_aspectRatio_violation :
    (∃ f : Frustum, f.Valid ∧ f.type = .orthographic ∧ f.nearPlaneWidth / f.nearPlaneHeight = 4 ∧ f.aspectRatio = 0) ∧
    (∃ f : Frustum, f.Valid ∧ f.type = .perspective ∧ f.h / f.v = 2 ∧ f.aspectRatio = 3) := by
  have hp := Real.pi_pos
  constructor
  · refine ⟨⟨.orthographic, .gl, .right, 0, ⟨0, 0, -1⟩, ⟨0, 1, 0⟩, 1, 2, 2 * Real.pi, Real.pi / 2⟩, ?_, rfl, ?_, ?_⟩
    · exact ⟨by norm_num [lenSq, dot], by norm_num [lenSq, dot], by norm_num [dot], by norm_num,
        Or.inr ⟨rfl, by show 0 < 2 * Real.pi; linarith, by show 0 < Real.pi / 2; linarith⟩⟩
    · show (2 * Real.pi) / (Real.pi / 2) = 4; field_simp; norm_num
    · simp only [aspectRatio]
      rw [show 2 * Real.pi * (1 / 2) = Real.pi by ring, Real.tan_pi, zero_div]
  · refine ⟨⟨.perspective, .gl, .right, 0, ⟨0, 0, -1⟩, ⟨0, 1, 0⟩, 1, 2, 2 * Real.pi / 3, Real.pi / 3⟩, ?_, rfl, ?_, ?_⟩
    · exact ⟨by norm_num [lenSq, dot], by norm_num [lenSq, dot], by norm_num [dot], by norm_num,
        Or.inl ⟨rfl, by norm_num, by show 0 < 2 * Real.pi / 3; linarith, by show 2 * Real.pi / 3 < _; linarith,
          by show 0 < Real.pi / 3; linarith, by show Real.pi / 3 < _; linarith⟩⟩
    · show 2 * Real.pi / 3 / (Real.pi / 3) = 2; field_simp
    · show Real.tan (2 * Real.pi / 3 * (1 / 2)) / Real.tan (Real.pi / 3 * (1 / 2)) = 3
      rw [show 2 * Real.pi / 3 * (1 / 2) = Real.pi / 3 by ring, show Real.pi / 3 * (1 / 2) = Real.pi / 6 by ring,
        Real.tan_pi_div_three, Real.tan_pi_div_six]
      rw [div_div_eq_mul_div, div_one]
      exact Real.mul_self_sqrt (by norm_num)

end Frustum
end
end MGL
