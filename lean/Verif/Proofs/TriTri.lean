import Verif.Model.TriTri
import Verif.Spec.TriTri
import Verif.Proofs.Exit
import Verif.Proofs.PolyhedronMerge
import Verif.Props.Line
import Verif.Props.PlaneIntersect
import Verif.Props.PlaneClip
import Verif.Props.Triangle

/-! Facts for the triangle-triangle tests. -/

set_option linter.unusedSectionVars false

namespace MGL
open V3 Spec
namespace Tri

/-! ### The section of a triangle with a plane -/

theorem tri_swap (a b c : V3 ℝ) : tri b a c = tri a b c := by
  ext x
  constructor
  · rintro ⟨u, v, w, hu, hv, hw, h, rfl⟩
    exact ⟨v, u, w, hv, hu, hw, by linarith, by ext <;> simp <;> ring⟩
  · rintro ⟨u, v, w, hu, hv, hw, h, rfl⟩
    exact ⟨v, u, w, hv, hu, hw, by linarith, by ext <;> simp <;> ring⟩

theorem seg_sub_tri (a b c : V3 ℝ) {x : V3 ℝ} (h : x ∈ seg a b) : x ∈ tri a b c := by
  obtain ⟨t, h0, h1, rfl⟩ := h
  exact ⟨1 - t, t, 0, by linarith, h0, le_rfl, by ring, by ext <;> simp <;> ring⟩

theorem apex_pos {P Q R n : V3 ℝ} {d : ℝ} (hP : 0 < dot n P - d) (hQ : dot n Q - d ≤ 0) (hR : dot n R - d ≤ 0) {X Y : V3 ℝ}
    (hX : X ∈ seg P Q) (hX0 : dot n X = d) (hY : Y ∈ seg P R) (hY0 : dot n Y = d) : tri P Q R ∩ plane n d = seg X Y := by
  obtain ⟨s, s0, s1, rfl⟩ := hX
  obtain ⟨t, t0, t1, rfl⟩ := hY
  have e1 : dot n (P + s • (Q - P)) = dot n P + s * (dot n Q - dot n P) := by
    simp only [dot, add_x, add_y, add_z, smul_x, smul_y, smul_z, sub_x, sub_y, sub_z]; ring
  have e2 : dot n (P + t • (R - P)) = dot n P + t * (dot n R - dot n P) := by
    simp only [dot, add_x, add_y, add_z, smul_x, smul_y, smul_z, sub_x, sub_y, sub_z]; ring
  rw [e1] at hX0
  rw [e2] at hY0
  have hs : 0 < s := lt_of_le_of_ne s0 fun h => by rw [← h] at hX0; linarith
  have ht : 0 < t := lt_of_le_of_ne t0 fun h => by rw [← h] at hY0; linarith
  ext x
  constructor
  · rintro ⟨⟨u, v, w, hu, hv, hw, h, rfl⟩, hx⟩
    have e3 : dot n (u • P + v • Q + w • R) = u * dot n P + v * dot n Q + w * dot n R := by
      simp only [dot, add_x, add_y, add_z, smul_x, smul_y, smul_z]; ring
    have hx' : u * dot n P + v * dot n Q + w * dot n R = d := e3 ▸ hx
    have hsum : v / s + w / t = 1 := by
      have k1 : dot n Q - dot n P = -(dot n P - d) / s := by field_simp; linarith
      have k2 : dot n R - dot n P = -(dot n P - d) / t := by field_simp; linarith
      have k3 : (dot n P - d) + v * (dot n Q - dot n P) + w * (dot n R - dot n P) = 0 := by
        have : u = 1 - v - w := by linarith
        rw [this] at hx'; linarith
      rw [k1, k2] at k3
      have k4 : (dot n P - d) * (1 - (v / s + w / t)) = 0 := by linear_combination k3
      have := (mul_eq_zero.1 k4).resolve_left hP.ne'
      linarith
    refine ⟨w / t, by positivity, ?_, ?_⟩
    · have : 0 ≤ v / s := by positivity
      linarith
    · have hv' : v = (1 - w / t) * s := by
        have : v / s = 1 - w / t := by linarith
        rw [← this]; field_simp
      have hw' : w = w / t * t := by field_simp
      have hu' : u = 1 - (1 - w / t) * s - w / t * t := by rw [← hv', ← hw']; linarith
      rw [hu']
      generalize w / t = k at *
      rw [hv', hw']
      ext <;> simp <;> ring
  · rintro ⟨k, k0, k1, rfl⟩
    refine ⟨⟨1 - (1 - k) * s - k * t, (1 - k) * s, k * t, ?_, ?_, ?_, by ring, by ext <;> simp <;> ring⟩, ?_⟩
    · nlinarith [mul_nonneg (sub_nonneg.2 k1) (sub_nonneg.2 s1), mul_nonneg k0 (sub_nonneg.2 t1)]
    · exact mul_nonneg (by linarith) s0
    · exact mul_nonneg k0 t0
    · show dot n _ = d
      have : dot n (P + s • (Q - P) + k • (P + t • (R - P) - (P + s • (Q - P)))) =
          (1 - k) * dot n (P + s • (Q - P)) + k * dot n (P + t • (R - P)) := by
        simp only [dot, add_x, add_y, add_z, smul_x, smul_y, smul_z, sub_x, sub_y, sub_z]; ring
      rw [this, e1, e2, hX0, hY0]; ring

theorem plane_neg (n : V3 ℝ) (d : ℝ) : plane (-n) (-d) = plane n d := by
  ext x
  show dot (-n) x = -d ↔ dot n x = d
  have : dot (-n) x = -dot n x := by simp only [dot, neg_x, neg_y, neg_z]; ring
  rw [this]; constructor <;> intro h <;> linarith

/-- The apex is alone on its side. -/
theorem apex {P Q R n : V3 ℝ} {d : ℝ} (h : (0 < dot n P - d ∧ dot n Q - d ≤ 0 ∧ dot n R - d ≤ 0) ∨ (dot n P - d < 0 ∧ 0 ≤ dot n Q - d ∧ 0 ≤ dot n R - d))
    {X Y : V3 ℝ} (hX : X ∈ seg P Q) (hX0 : dot n X = d) (hY : Y ∈ seg P R) (hY0 : dot n Y = d) : tri P Q R ∩ plane n d = seg X Y := by
  have e : ∀ x, dot (-n) x = -dot n x := fun x => by simp only [dot, neg_x, neg_y, neg_z]; ring
  rcases h with ⟨h1, h2, h3⟩ | ⟨h1, h2, h3⟩
  · exact apex_pos h1 h2 h3 hX hX0 hY hY0
  · rw [← plane_neg]
    exact apex_pos (by rw [e]; linarith) (by rw [e]; linarith) (by rw [e]; linarith) hX (by rw [e, hX0]) hY (by rw [e, hY0])

/-- A segment whose end points are not strictly on the same side meets the plane. -/
theorem seg_meets {P Q n : V3 ℝ} {d : ℝ} (h : (dot n P - d) * (dot n Q - d) ≤ 0) : ∃ x ∈ seg P Q, dot n x = d := by
  by_cases h0 : dot n P = dot n Q
  · rw [h0] at h
    have : dot n Q - d = 0 := by nlinarith
    exact ⟨P, ⟨0, le_rfl, zero_le_one, by ext <;> simp⟩, by linarith⟩
  · have hne : dot n Q - dot n P ≠ 0 := fun h => h0 (by linarith)
    refine ⟨P + ((d - dot n P) / (dot n Q - dot n P)) • (Q - P), ⟨_, ?_, ?_, rfl⟩, ?_⟩
    · rw [div_eq_mul_inv]
      rcases lt_or_gt_of_ne hne with hl | hl
      · exact mul_nonneg_of_nonpos_of_nonpos (by nlinarith) (inv_nonpos.2 hl.le)
      · exact mul_nonneg (by nlinarith) (inv_nonneg.2 hl.le)
    · rcases lt_or_gt_of_ne hne with hl | hl
      · rw [div_le_one_of_neg hl]; nlinarith
      · rw [div_le_one hl]; nlinarith
    · have e : dot n (P + ((d - dot n P) / (dot n Q - dot n P)) • (Q - P)) =
          dot n P + (d - dot n P) / (dot n Q - dot n P) * (dot n Q - dot n P) := by
        simp only [dot, add_x, add_y, add_z, smul_x, smul_y, smul_z, sub_x, sub_y, sub_z]; ring
      rw [e, div_mul_cancel₀ _ hne]; ring

/-- The parameter that `Distance(LineSegment, d)` returns for a segment that meets the line. -/
theorem distanceSeg_meet {l : Line ℝ} (hl : lenSq l.dir = 1) {s : LineSeg ℝ} (hs : s.a ≠ s.b) {x : V3 ℝ} (h1 : x ∈ line l.pos l.dir)
    (h2 : x ∈ seg s.a s.b) : l.getPoint (l.distanceSeg s).2.1 ∈ seg s.a s.b := by
  obtain ⟨⟨-, k2, k3⟩, k4, -⟩ := (C23_line l hl).2.2 s hs
  have h0 := k3 x h1 x h2
  have e : distSq x x = 0 := distSq_self x
  rw [e] at h0
  have h3 : (l.closestSeg s).1 = s.getPoint (l.closestSeg s).2.2 := by
    have : lenSq ((l.closestSeg s).1 - s.getPoint (l.closestSeg s).2.2) = 0 := le_antisymm h0 (lenSq_nonneg _)
    exact sub_eq_zero.1 (lenSq_eq_zero.1 this)
  show l.getPoint (l.closestSeg s).2.1 ∈ _
  rw [← k4, h3]
  exact k2

/-- The two segments cut the line of intersection where the triangle begins and ends. -/
theorem section_segs {t : Tri ℝ} {n : V3 ℝ} {d : ℝ} {l : Line ℝ} (hl : lenSq l.dir = 1)
    (hline : ∀ x ∈ tri t.a t.b t.c, dot n x = d → x ∈ line l.pos l.dir) (hin : ∀ x ∈ line l.pos l.dir, dot n x = d)
    (hpos : 0 < dot n t.a - d ∨ 0 < dot n t.b - d ∨ 0 < dot n t.c - d) (hneg : dot n t.a - d < 0 ∨ dot n t.b - d < 0 ∨ dot n t.c - d < 0)
    (hb : dot n t.b - d ≠ 0) :
    tri t.a t.b t.c ∩ plane n d =
      seg (l.getPoint (l.distanceSeg (t.intersectingSegs (dot n t.a - d) (dot n t.b - d) (dot n t.c - d)).1).2.1)
        (l.getPoint (l.distanceSeg (t.intersectingSegs (dot n t.a - d) (dot n t.b - d) (dot n t.c - d)).2).2.1) := by
  have hgp : ∀ k, dot n (l.getPoint k) = d := fun k => hin _ ⟨k, rfl⟩
  have key : ∀ s : LineSeg ℝ, (dot n s.a - d) * (dot n s.b - d) ≤ 0 → s.a ≠ s.b → (∀ x ∈ seg s.a s.b, x ∈ tri t.a t.b t.c) →
      l.getPoint (l.distanceSeg s).2.1 ∈ seg s.a s.b := by
    intro s hs hne hsub
    obtain ⟨x, hx, hx0⟩ := seg_meets hs
    exact distanceSeg_meet hl hne (hline x (hsub x hx) hx0) hx
  have hrev : ∀ (P Q x : V3 ℝ), x ∈ seg P Q → x ∈ seg Q P := by
    rintro P Q x ⟨k, k0, k1, rfl⟩
    exact ⟨1 - k, by linarith, by linarith, by ext <;> simp <;> ring⟩
  have sab : ∀ x ∈ seg t.a t.b, x ∈ tri t.a t.b t.c := fun x hx => seg_sub_tri _ _ _ hx
  have sbc : ∀ x ∈ seg t.b t.c, x ∈ tri t.a t.b t.c := fun x hx => by rw [← tri_cycle]; exact seg_sub_tri _ _ _ hx
  have sac : ∀ x ∈ seg t.a t.c, x ∈ tri t.a t.b t.c := fun x hx => by
    rw [← tri_cycle, ← tri_cycle]; exact seg_sub_tri _ _ _ (hrev _ _ _ hx)
  have hne : ∀ P Q : V3 ℝ, dot n P - d ≠ dot n Q - d → P ≠ Q := fun P Q h e => h (by rw [e])
  unfold intersectingSegs
  by_cases h1 : (dot n t.a - d) * (dot n t.b - d) > 0
  · rw [if_pos h1]
    have hc : (0 < dot n t.a - d ∧ 0 < dot n t.b - d ∧ dot n t.c - d < 0) ∨ (dot n t.a - d < 0 ∧ dot n t.b - d < 0 ∧ 0 < dot n t.c - d) := by
      rcases pos_and_pos_or_neg_and_neg_of_mul_pos h1 with ⟨a, b⟩ | ⟨a, b⟩
      · left; exact ⟨a, b, by rcases hneg with h | h | h <;> linarith⟩
      · right; exact ⟨a, b, by rcases hpos with h | h | h <;> linarith⟩
    have k1 := key ⟨t.a, t.c⟩ (by rcases hc with h | h <;> nlinarith) (hne _ _ (by rcases hc with h | h <;> intro e <;> linarith)) sac
    have k2 := key ⟨t.b, t.c⟩ (by rcases hc with h | h <;> nlinarith) (hne _ _ (by rcases hc with h | h <;> intro e <;> linarith)) sbc
    rw [← tri_cycle t.a t.b t.c, ← tri_cycle t.b t.c t.a]
    refine apex ?_ (hrev _ _ _ k1) (hgp _) (hrev _ _ _ k2) (hgp _)
    rcases hc with ⟨a, b, c⟩ | ⟨a, b, c⟩
    · right; exact ⟨c, a.le, b.le⟩
    · left; exact ⟨c, a.le, b.le⟩
  · rw [if_neg h1]
    by_cases h2 : (dot n t.b - d) * (dot n t.c - d) > 0
    · rw [if_pos h2]
      have hc : (0 < dot n t.b - d ∧ 0 < dot n t.c - d ∧ dot n t.a - d < 0) ∨ (dot n t.b - d < 0 ∧ dot n t.c - d < 0 ∧ 0 < dot n t.a - d) := by
        rcases pos_and_pos_or_neg_and_neg_of_mul_pos h2 with ⟨a, b⟩ | ⟨a, b⟩
        · left; exact ⟨a, b, by rcases hneg with h | h | h <;> linarith⟩
        · right; exact ⟨a, b, by rcases hpos with h | h | h <;> linarith⟩
      have k1 := key ⟨t.a, t.b⟩ (by rcases hc with h | h <;> nlinarith) (hne _ _ (by rcases hc with h | h <;> intro e <;> linarith)) sab
      have k2 := key ⟨t.a, t.c⟩ (by rcases hc with h | h <;> nlinarith) (hne _ _ (by rcases hc with h | h <;> intro e <;> linarith)) sac
      refine apex ?_ k1 (hgp _) k2 (hgp _)
      rcases hc with ⟨a, b, c⟩ | ⟨a, b, c⟩
      · right; exact ⟨c, a.le, b.le⟩
      · left; exact ⟨c, a.le, b.le⟩
    · rw [if_neg h2]
      rw [gt_iff_lt, not_lt] at h1 h2
      have hc : (0 < dot n t.b - d ∧ dot n t.a - d ≤ 0 ∧ dot n t.c - d ≤ 0) ∨ (dot n t.b - d < 0 ∧ 0 ≤ dot n t.a - d ∧ 0 ≤ dot n t.c - d) := by
        rcases lt_or_gt_of_ne hb with b | b
        · right; exact ⟨b, by nlinarith, by nlinarith⟩
        · left; exact ⟨b, by nlinarith, by nlinarith⟩
      have k1 := key ⟨t.a, t.b⟩ h1 (hne _ _ (by rcases hc with h | h <;> intro e <;> linarith)) sab
      have k2 := key ⟨t.b, t.c⟩ h2 (hne _ _ (by rcases hc with h | h <;> intro e <;> linarith)) sbc
      rw [← tri_swap]
      exact apex hc (hrev _ _ _ k1) (hgp _) k2 (hgp _)

/-- The points of a segment on a line, by their parameters. -/
theorem seg_params (l : Line ℝ) (x y : ℝ) (z : V3 ℝ) :
    z ∈ seg (l.getPoint x) (l.getPoint y) ↔ ∃ k, min x y ≤ k ∧ k ≤ max x y ∧ z = l.getPoint k := by
  constructor
  · rintro ⟨s, s0, s1, rfl⟩
    refine ⟨x + s * (y - x), ?_, ?_, by ext <;> simp [Line.getPoint] <;> ring⟩
    · rcases le_total x y with h | h
      · rw [min_eq_left h]; nlinarith
      · rw [min_eq_right h]; nlinarith
    · rcases le_total x y with h | h
      · rw [max_eq_right h]; nlinarith
      · rw [max_eq_left h]; nlinarith
  · rintro ⟨k, k0, k1, rfl⟩
    by_cases h : x = y
    · subst h
      rw [min_self] at k0
      rw [max_self] at k1
      obtain rfl : k = x := le_antisymm k1 k0
      exact ⟨0, le_rfl, zero_le_one, by ext <;> simp⟩
    · have hyx : y - x ≠ 0 := fun e => h (by linarith)
      refine ⟨(k - x) / (y - x), ?_, ?_, ?_⟩
      · rcases lt_or_gt_of_ne h with hl | hl
        · rw [min_eq_left hl.le] at k0
          exact div_nonneg (by linarith) (by linarith)
        · rw [max_eq_left hl.le] at k1
          exact div_nonneg_of_nonpos (by linarith) (by linarith)
      · rcases lt_or_gt_of_ne h with hl | hl
        · rw [max_eq_right hl.le] at k1
          rw [div_le_one (by linarith)]; linarith
        · rw [min_eq_right hl.le] at k0
          rw [div_le_one_of_neg (by linarith)]; linarith
      · have : k = x + (k - x) / (y - x) * (y - x) := by rw [div_mul_cancel₀ _ hyx]; ring
        generalize (k - x) / (y - x) = s at this
        rw [this]
        ext <;> simp [Line.getPoint] <;> ring

theorem getPoint_inj {l : Line ℝ} (hl : lenSq l.dir = 1) {x y : ℝ} (h : l.getPoint x = l.getPoint y) : x = y := by
  have e : ∀ k, dot (l.getPoint k) l.dir = dot l.pos l.dir + k * lenSq l.dir := fun k => by
    simp only [Line.getPoint, lenSq, dot, add_x, add_y, add_z, smul_x, smul_y, smul_z]; ring
  have := congrArg (fun v => dot v l.dir) h
  simp only [e, hl] at this
  linarith

theorem swap_eq (x y : ℝ) : (if x > y then (y, x) else (x, y)) = (min x y, max x y) := by
  by_cases h : x > y
  · rw [if_pos h, min_eq_right h.le, max_eq_left h.le]
  · rw [if_neg h, min_eq_left (not_lt.1 h), max_eq_right (not_lt.1 h)]

/-! ### Planes of triangles -/

theorem mem_planeCCW {t : Tri ℝ} (h : cross (t.b - t.a) (t.c - t.a) ≠ 0) {x : V3 ℝ} (hx : x ∈ tri t.a t.b t.c) :
    x ∈ plane t.planeCCW.normal t.planeCCW.d := by
  obtain ⟨-, ha, hb, hc, -⟩ := C64_setPoints t.a t.b t.c h
  obtain ⟨u, v, w, -, -, -, h1, rfl⟩ := hx
  show dot t.planeCCW.normal _ = t.planeCCW.d
  have e : dot t.planeCCW.normal (u • t.a + v • t.b + w • t.c) =
      u * dot t.planeCCW.normal t.a + v * dot t.planeCCW.normal t.b + w * dot t.planeCCW.normal t.c := by
    simp only [dot, add_x, add_y, add_z, smul_x, smul_y, smul_z]; ring
  rw [e]
  have ha' : dot t.planeCCW.normal t.a = t.planeCCW.d := ha
  have hb' : dot t.planeCCW.normal t.b = t.planeCCW.d := hb
  have hc' : dot t.planeCCW.normal t.c = t.planeCCW.d := hc
  rw [ha', hb', hc']
  linear_combination t.planeCCW.d * h1

/-- `ClearSides` in terms of the signed distances from the plane of a triangle. -/
theorem clearSides_dist {t : Tri ℝ} (h : cross (t.b - t.a) (t.c - t.a) ≠ 0) {a b c : V3 ℝ}
    (hs : ClearSides (cross (t.b - t.a) (t.c - t.a)) t.a a b c) :
    let f := t.planeCCW.signedDistance
    (1 / 10000 < f a ∧ 1 / 10000 < f b ∧ 1 / 10000 < f c) ∨ (f a < -(1 / 10000) ∧ f b < -(1 / 10000) ∧ f c < -(1 / 10000)) ∨
    ((0 < f a ∨ 0 < f b ∨ 0 < f c) ∧ (f a < 0 ∨ f b < 0 ∨ f c < 0) ∧ f b ≠ 0) := by
  intro f
  have hl := V3.len_pos h
  have hf : ∀ x, f x = dot (cross (t.b - t.a) (t.c - t.a)) (x - t.a) / len (cross (t.b - t.a) (t.c - t.a)) := fun x => by
    show (Plane.setPoints t.a t.b t.c).signedDistance x = _
    rw [Polyhedron.signedDistance_setPoints]; ring
  unfold ClearSides at hs
  simp only [List.mem_cons, List.not_mem_nil, or_false, forall_eq_or_imp, forall_eq, exists_eq_or_imp, exists_eq_left] at hs
  simp only [hf]
  generalize cross (t.b - t.a) (t.c - t.a) = n at *
  have p1 : ∀ x, 1 / 10000 * len n < x → 1 / 10000 < x / len n := fun x hx => by rw [lt_div_iff₀ hl]; exact hx
  have p2 : ∀ x, x < -(1 / 10000 * len n) → x / len n < -(1 / 10000) := fun x hx => by rw [div_lt_iff₀ hl]; linarith
  rcases hs with ⟨h1, h2, h3⟩ | ⟨h1, h2, h3⟩ | ⟨h1, h2, h3⟩
  · exact Or.inl ⟨p1 _ h1, p1 _ h2, p1 _ h3⟩
  · exact Or.inr (Or.inl ⟨p2 _ h1, p2 _ h2, p2 _ h3⟩)
  · refine Or.inr (Or.inr ⟨?_, ?_, div_ne_zero h3 hl.ne'⟩)
    · rcases h1 with h | h | h
      · exact Or.inl (div_pos h hl)
      · exact Or.inr (Or.inl (div_pos h hl))
      · exact Or.inr (Or.inr (div_pos h hl))
    · rcases h2 with h | h | h
      · exact Or.inl (div_neg_of_neg_of_pos h hl)
      · exact Or.inr (Or.inl (div_neg_of_neg_of_pos h hl))
      · exact Or.inr (Or.inr (div_neg_of_neg_of_pos h hl))

/-- A triangle on one side of a plane does not meet it. -/
theorem one_side {p : Plane ℝ} {a b c x : V3 ℝ}
    (h : (0 < p.signedDistance a ∧ 0 < p.signedDistance b ∧ 0 < p.signedDistance c) ∨
      (p.signedDistance a < 0 ∧ p.signedDistance b < 0 ∧ p.signedDistance c < 0)) (hx : x ∈ tri a b c) : x ∉ plane p.normal p.d := by
  obtain ⟨u, v, w, hu, hv, hw, h1, rfl⟩ := hx
  intro hp
  have hp' : dot p.normal (u • a + v • b + w • c) = p.d := hp
  have e : dot p.normal (u • a + v • b + w • c) - p.d = u * p.signedDistance a + v * p.signedDistance b + w * p.signedDistance c := by
    simp only [Plane.signedDistance, dot, add_x, add_y, add_z, smul_x, smul_y, smul_z]
    linear_combination p.d * h1
  rw [hp', sub_self] at e
  rcases h with ⟨ha, hb, hc⟩ | ⟨ha, hb, hc⟩
  · rcases hu.lt_or_eq with h | h
    · nlinarith [mul_pos h ha, mul_nonneg hv hb.le, mul_nonneg hw hc.le]
    · rcases hv.lt_or_eq with h' | h'
      · nlinarith [mul_pos h' hb, mul_nonneg hu ha.le, mul_nonneg hw hc.le]
      · have : w = 1 := by linarith
        rw [← h, ← h', this] at e; linarith
  · rcases hu.lt_or_eq with h | h
    · nlinarith [mul_pos_of_neg_of_neg (neg_lt_zero.2 h) ha, mul_nonpos_of_nonneg_of_nonpos hv hb.le, mul_nonpos_of_nonneg_of_nonpos hw hc.le]
    · rcases hv.lt_or_eq with h' | h'
      · nlinarith [mul_pos_of_neg_of_neg (neg_lt_zero.2 h') hb, mul_nonpos_of_nonneg_of_nonpos hu ha.le, mul_nonpos_of_nonneg_of_nonpos hw hc.le]
      · have : w = 1 := by linarith
        rw [← h, ← h', this] at e; linarith

/-- The case of planes that cross, when both triangles straddle the other's plane. -/
theorem intersectsTriLine_exact {t t2 : Tri ℝ} (h1 : cross (t.b - t.a) (t.c - t.a) ≠ 0) (h2 : cross (t2.b - t2.a) (t2.c - t2.a) ≠ 0)
    (hang : 1 / 1000 ≤ len (cross t.planeCCW.normal t2.planeCCW.normal))
    (hs1 : let f := t2.planeCCW.signedDistance
      (0 < f t.a ∨ 0 < f t.b ∨ 0 < f t.c) ∧ (f t.a < 0 ∨ f t.b < 0 ∨ f t.c < 0) ∧ f t.b ≠ 0)
    (hs2 : let f := t.planeCCW.signedDistance
      (0 < f t2.a ∨ 0 < f t2.b ∨ 0 < f t2.c) ∧ (f t2.a < 0 ∨ f t2.b < 0 ∨ f t2.c < 0) ∧ f t2.b ≠ 0) :
    (t.intersectsTriLine t2 t.planeCCW t2.planeCCW = none ∧ tri t.a t.b t.c ∩ tri t2.a t2.b t2.c = ∅) ∨
    ∃ l, t.intersectsTriLine t2 t.planeCCW t2.planeCCW = some (some l) ∧ seg l.a l.b = tri t.a t.b t.c ∩ tri t2.a t2.b t2.c := by
  obtain ⟨l, hl, hu, hline⟩ := (C64_intersects_plane_angle_partial t.planeCCW t2.planeCCW (C64_setPoints t.a t.b t.c h1).1
    (C64_setPoints t2.a t2.b t2.c h2).1 hang).2
  have hm1 : ∀ x ∈ tri t.a t.b t.c, x ∈ plane t.planeCCW.normal t.planeCCW.d := fun x hx => mem_planeCCW h1 hx
  have hm2 : ∀ x ∈ tri t2.a t2.b t2.c, x ∈ plane t2.planeCCW.normal t2.planeCCW.d := fun x hx => mem_planeCCW h2 hx
  have s1 := section_segs (t := t) (n := t2.planeCCW.normal) (d := t2.planeCCW.d) hu
    (fun x hx hx0 => by rw [hline]; exact ⟨hm1 x hx, hx0⟩) (fun x hx => by rw [hline] at hx; exact hx.2) hs1.1 hs1.2.1 hs1.2.2
  have s2 := section_segs (t := t2) (n := t.planeCCW.normal) (d := t.planeCCW.d) hu
    (fun x hx hx0 => by rw [hline]; exact ⟨hx0, hm2 x hx⟩) (fun x hx => by rw [hline] at hx; exact hx.1) hs2.1 hs2.2.1 hs2.2.2
  have hall : tri t.a t.b t.c ∩ tri t2.a t2.b t2.c =
      (tri t.a t.b t.c ∩ plane t2.planeCCW.normal t2.planeCCW.d) ∩ (tri t2.a t2.b t2.c ∩ plane t.planeCCW.normal t.planeCCW.d) := by
    ext x
    constructor
    · rintro ⟨a, b⟩; exact ⟨⟨a, hm2 x b⟩, b, hm1 x a⟩
    · rintro ⟨⟨a, -⟩, b, -⟩; exact ⟨a, b⟩
  rw [hall, s1, s2]
  unfold intersectsTriLine
  rw [hl]
  dsimp only [Plane.signedDistance]
  rw [swap_eq, swap_eq]
  generalize (l.distanceSeg (t.intersectingSegs _ _ _).1).2.1 = x1
  generalize (l.distanceSeg (t.intersectingSegs _ _ _).2).2.1 = y1
  generalize (l.distanceSeg (t2.intersectingSegs _ _ _).1).2.1 = x2
  generalize (l.distanceSeg (t2.intersectingSegs _ _ _).2).2.1 = y2
  dsimp only
  rw [max2_eq, min2_eq]
  have hint : ∀ z, z ∈ seg (l.getPoint x1) (l.getPoint y1) ∩ seg (l.getPoint x2) (l.getPoint y2) ↔
      ∃ k, max (min x1 y1) (min x2 y2) ≤ k ∧ k ≤ min (max x1 y1) (max x2 y2) ∧ z = l.getPoint k := by
    intro z
    rw [Set.mem_inter_iff, seg_params, seg_params]
    constructor
    · rintro ⟨⟨k, a, b, rfl⟩, k', a', b', e⟩
      obtain rfl := getPoint_inj hu e
      exact ⟨k, max_le a a', le_min b b', rfl⟩
    · rintro ⟨k, a, b, rfl⟩
      exact ⟨⟨k, (le_max_left _ _).trans a, b.trans (min_le_left _ _), rfl⟩, k, (le_max_right _ _).trans a, b.trans (min_le_right _ _), rfl⟩
  by_cases hle : max (min x1 y1) (min x2 y2) ≤ min (max x1 y1) (max x2 y2)
  · right
    rw [if_pos hle]
    refine ⟨_, rfl, ?_⟩
    ext z
    rw [hint, seg_params, min_eq_left hle, max_eq_right hle]
  · left
    rw [if_neg hle]
    refine ⟨rfl, ?_⟩
    rw [Set.eq_empty_iff_forall_notMem]
    intro z hz
    obtain ⟨k, a, b, -⟩ := (hint z).1 hz
    exact hle (a.trans b)

/-! ### The closest points -/

theorem seg_comm (p q : V3 ℝ) : seg p q = seg q p := by
  have hrev : ∀ (P Q x : V3 ℝ), x ∈ seg P Q → x ∈ seg Q P := by
    rintro P Q x ⟨k, k0, k1, rfl⟩
    exact ⟨1 - k, by linarith, by linarith, by ext <;> simp <;> ring⟩
  ext x; exact ⟨hrev _ _ x, hrev _ _ x⟩

/-- The pair is in the sets and the number is its squared distance. -/
def Good (S T : Set (V3 ℝ)) (b : V3 ℝ × V3 ℝ × ℝ) : Prop := b.1 ∈ S ∧ b.2.1 ∈ T ∧ b.2.2 = distSq b.1 b.2.1

theorem fold_closer {S T : Set (V3 ℝ)} (cs : List (V3 ℝ × V3 ℝ × ℝ)) (b : V3 ℝ × V3 ℝ × ℝ) (hb : Good S T b) (hc : ∀ c ∈ cs, Good S T c) :
    Good S T (cs.foldl (fun b c => closer b c.1 c.2.1 c.2.2) b) ∧ (cs.foldl (fun b c => closer b c.1 c.2.1 c.2.2) b).2.2 ≤ b.2.2 ∧
    ∀ c ∈ cs, (cs.foldl (fun b c => closer b c.1 c.2.1 c.2.2) b).2.2 ≤ c.2.2 := by
  induction cs generalizing b with
  | nil => exact ⟨hb, le_rfl, by simp⟩
  | cons c cs ih =>
    have hg : Good S T (closer b c.1 c.2.1 c.2.2) := by
      unfold closer; split_ifs
      · exact hc c (by simp)
      · exact hb
    have h1 : (closer b c.1 c.2.1 c.2.2).2.2 ≤ b.2.2 ∧ (closer b c.1 c.2.1 c.2.2).2.2 ≤ c.2.2 := by
      unfold closer; split_ifs with h
      · exact ⟨h.le, le_rfl⟩
      · exact ⟨le_rfl, not_lt.1 h⟩
    obtain ⟨i1, i2, i3⟩ := ih _ hg fun x hx => hc x (by simp [hx])
    refine ⟨i1, i2.trans h1.1, fun x hx => ?_⟩
    rcases List.mem_cons.1 hx with rfl | hx
    · exact i2.trans h1.2
    · exact i3 x hx

/-- The edges of a triangle, in the order of the loops. -/
def edgeSegs (t : Tri ℝ) : List (LineSeg ℝ) := [⟨t.a, t.b⟩, ⟨t.a, t.c⟩, ⟨t.b, t.c⟩]

theorem closestEdges_eq (t t2 : Tri ℝ) (b : V3 ℝ × V3 ℝ × ℝ) :
    closestEdges t t2 b = (t.edgeSegs.flatMap fun x => t2.edgeSegs.map fun y =>
      (x.getPoint (x.distanceSeg y).2.1, y.getPoint (x.distanceSeg y).2.2, (x.distanceSeg y).1 * (x.distanceSeg y).1)).foldl
      (fun b c => closer b c.1 c.2.1 c.2.2) b := rfl

theorem edgeSegs_sub {t : Tri ℝ} {e : LineSeg ℝ} (he : e ∈ t.edgeSegs) : ∀ x ∈ seg e.a e.b, x ∈ tri t.a t.b t.c := by
  simp only [edgeSegs, List.mem_cons, List.not_mem_nil, or_false] at he
  rcases he with rfl | rfl | rfl
  · exact fun x hx => seg_sub_tri _ _ _ hx
  · intro x hx; rw [← tri_cycle, ← tri_cycle]; rw [seg_comm] at hx; exact seg_sub_tri _ _ _ hx
  · intro x hx; rw [← tri_cycle]; exact seg_sub_tri _ _ _ hx

theorem edgeSegs_ne {t : Tri ℝ} (hab : t.a ≠ t.b) (hac : t.a ≠ t.c) (hbc : t.b ≠ t.c) {e : LineSeg ℝ} (he : e ∈ t.edgeSegs) : e.a ≠ e.b := by
  simp only [edgeSegs, List.mem_cons, List.not_mem_nil, or_false] at he
  rcases he with rfl | rfl | rfl <;> assumption

theorem onEdge_edgeSegs {t : Tri ℝ} {x : V3 ℝ} (h : OnEdge t.a t.b t.c x) : ∃ e ∈ t.edgeSegs, x ∈ seg e.a e.b := by
  rcases h with h | h | h
  · exact ⟨⟨t.a, t.b⟩, by simp [edgeSegs], h⟩
  · exact ⟨⟨t.b, t.c⟩, by simp [edgeSegs], h⟩
  · exact ⟨⟨t.a, t.c⟩, by simp [edgeSegs], by rw [seg_comm]; exact h⟩

theorem edgeSegs_end {t : Tri ℝ} {e : LineSeg ℝ} (he : e ∈ t.edgeSegs) : (e.a = t.a ∨ e.a = t.b ∨ e.a = t.c) ∧ (e.b = t.a ∨ e.b = t.b ∨ e.b = t.c) := by
  simp only [edgeSegs, List.mem_cons, List.not_mem_nil, or_false] at he
  rcases he with rfl | rfl | rfl <;> simp

/-- Triangles that are found not to intersect, rightly: the closest pair. -/
theorem closestTri_apart {nz : Bool} {t t2 : Tri ℝ} (hab : t.a ≠ t.b) (hac : t.a ≠ t.c) (hbc : t.b ≠ t.c) (hab' : t2.a ≠ t2.b)
    (hac' : t2.a ≠ t2.c) (hbc' : t2.b ≠ t2.c) (hn : t.intersectsTri nz t2 = none) (hdis : tri t.a t.b t.c ∩ tri t2.a t2.b t2.c = ∅) :
    ∃ r, t.closestTri nz t2 = some r ∧ IsClosestPair (tri t.a t.b t.c) (tri t2.a t2.b t2.c) r.1 r.2 := by
  have c1 := C31_closestPoint t hab hac hbc
  have c2 := C31_closestPoint t2 hab' hac' hbc'
  obtain ⟨q1, e1, m1, n1⟩ := c1 t2.a
  obtain ⟨q2, e2, m2, n2⟩ := c1 t2.b
  obtain ⟨q3, e3, m3, n3⟩ := c1 t2.c
  obtain ⟨r1, f1, k1, l1⟩ := c2 t.a
  obtain ⟨r2, f2, k2, l2⟩ := c2 t.b
  obtain ⟨r3, f3, k3, l3⟩ := c2 t.c
  have va : t.a ∈ tri t.a t.b t.c := ⟨1, 0, 0, by norm_num, le_rfl, le_rfl, by norm_num, by ext <;> simp⟩
  have vb : t.b ∈ tri t.a t.b t.c := ⟨0, 1, 0, le_rfl, by norm_num, le_rfl, by norm_num, by ext <;> simp⟩
  have vc : t.c ∈ tri t.a t.b t.c := ⟨0, 0, 1, le_rfl, le_rfl, by norm_num, by norm_num, by ext <;> simp⟩
  have wa : t2.a ∈ tri t2.a t2.b t2.c := ⟨1, 0, 0, by norm_num, le_rfl, le_rfl, by norm_num, by ext <;> simp⟩
  have wb : t2.b ∈ tri t2.a t2.b t2.c := ⟨0, 1, 0, le_rfl, by norm_num, le_rfl, by norm_num, by ext <;> simp⟩
  have wc : t2.c ∈ tri t2.a t2.b t2.c := ⟨0, 0, 1, le_rfl, le_rfl, by norm_num, by norm_num, by ext <;> simp⟩
  let vs : List (V3 ℝ × V3 ℝ × ℝ) := [(q2, t2.b, distSq q2 t2.b), (q3, t2.c, distSq q3 t2.c), (t.a, r1, distSq r1 t.a),
    (t.b, r2, distSq r2 t.b), (t.c, r3, distSq r3 t.c)]
  let es : List (V3 ℝ × V3 ℝ × ℝ) := t.edgeSegs.flatMap fun x => t2.edgeSegs.map fun y =>
      (x.getPoint (x.distanceSeg y).2.1, y.getPoint (x.distanceSeg y).2.2, (x.distanceSeg y).1 * (x.distanceSeg y).1)
  let res := (vs ++ es).foldl (fun b c => closer b c.1 c.2.1 c.2.2) (q1, t2.a, distSq q1 t2.a)
  have hres : t.closestTri nz t2 = some (res.1, res.2.1) := by
    unfold closestTri
    rw [hn]
    simp only [e1, e2, e3, f1, f2, f3, Option.bind_eq_bind, Option.bind_some, closestEdges_eq]
    show _ = some (((vs ++ es).foldl (fun b c => closer b c.1 c.2.1 c.2.2) (q1, t2.a, distSq q1 t2.a)).1, _)
    rfl
  have hedge : ∀ x ∈ t.edgeSegs, ∀ y ∈ t2.edgeSegs,
      IsClosestPair (seg x.a x.b) (seg y.a y.b) (x.getPoint (x.distanceSeg y).2.1) (y.getPoint (x.distanceSeg y).2.2) ∧
      (x.distanceSeg y).1 * (x.distanceSeg y).1 = distSq (x.getPoint (x.distanceSeg y).2.1) (y.getPoint (x.distanceSeg y).2.2) := by
    intro x hx y hy
    obtain ⟨g1, g2, -⟩ := (C23_segment x (edgeSegs_ne hab hac hbc hx)).2.2 y (edgeSegs_ne hab' hac' hbc' hy)
    have e : (x.closestSeg y).1 = x.getPoint (x.distanceSeg y).2.1 := g2
    exact ⟨e ▸ g1, V3.dist_mul_self (x.getPoint (x.closestSeg y).2.1) (y.getPoint (x.closestSeg y).2.2)⟩
  obtain ⟨⟨i1, i2, i3⟩, i4, i5⟩ := fold_closer (S := tri t.a t.b t.c) (T := tri t2.a t2.b t2.c) (vs ++ es) (q1, t2.a, distSq q1 t2.a)
    ⟨m1, wa, rfl⟩ (by
      intro c hc
      rcases List.mem_append.1 hc with hc | hc
      · simp only [vs, List.mem_cons, List.not_mem_nil, or_false] at hc
        rcases hc with rfl | rfl | rfl | rfl | rfl
        · exact ⟨m2, wb, rfl⟩
        · exact ⟨m3, wc, rfl⟩
        · exact ⟨va, k1, distSq_comm _ _⟩
        · exact ⟨vb, k2, distSq_comm _ _⟩
        · exact ⟨vc, k3, distSq_comm _ _⟩
      · obtain ⟨x, hx, hc⟩ := List.mem_flatMap.1 hc
        obtain ⟨y, hy, rfl⟩ := List.mem_map.1 hc
        obtain ⟨⟨p1, p2, -⟩, p3⟩ := hedge x hx y hy
        exact ⟨edgeSegs_sub hx _ p1, edgeSegs_sub hy _ p2, p3⟩)
  refine ⟨_, hres, i1, i2, ?_⟩
  have low : ∀ x ∈ t.edgeSegs, ∀ y ∈ t2.edgeSegs, ∀ u ∈ seg x.a x.b, ∀ v ∈ seg y.a y.b, res.2.2 ≤ distSq u v := by
    intro x hx y hy u hu v hv
    obtain ⟨⟨-, -, p3⟩, p4⟩ := hedge x hx y hy
    refine (i5 _ (List.mem_append.2 (Or.inr (List.mem_flatMap.2 ⟨x, hx, List.mem_map.2 ⟨y, hy, rfl⟩⟩)))).trans ?_
    show (x.distanceSeg y).1 * (x.distanceSeg y).1 ≤ _
    rw [p4]
    exact p3 u hu v hv
  have lowV : ∀ v, (v = t2.a ∨ v = t2.b ∨ v = t2.c) → ∀ u ∈ tri t.a t.b t.c, res.2.2 ≤ distSq u v := by
    rintro v (rfl | rfl | rfl) u hu
    · exact i4.trans (by rw [distSq_comm q1, distSq_comm u]; exact n1 u hu)
    · exact (i5 (q2, t2.b, distSq q2 t2.b) (by simp [vs])).trans (by show distSq q2 t2.b ≤ _; rw [distSq_comm q2, distSq_comm u]; exact n2 u hu)
    · exact (i5 (q3, t2.c, distSq q3 t2.c) (by simp [vs])).trans (by show distSq q3 t2.c ≤ _; rw [distSq_comm q3, distSq_comm u]; exact n3 u hu)
  have lowW : ∀ v, (v = t.a ∨ v = t.b ∨ v = t.c) → ∀ u ∈ tri t2.a t2.b t2.c, res.2.2 ≤ distSq v u := by
    rintro v (rfl | rfl | rfl) u hu
    · exact (i5 (t.a, r1, distSq r1 t.a) (by simp [vs])).trans (by show distSq r1 t.a ≤ _; rw [distSq_comm r1]; exact l1 u hu)
    · exact (i5 (t.b, r2, distSq r2 t.b) (by simp [vs])).trans (by show distSq r2 t.b ≤ _; rw [distSq_comm r2]; exact l2 u hu)
    · exact (i5 (t.c, r3, distSq r3 t.c) (by simp [vs])).trans (by show distSq r3 t.c ≤ _; rw [distSq_comm r3]; exact l3 u hu)
  have hno : ∀ x, x ∈ tri t.a t.b t.c → x ∈ tri t2.a t2.b t2.c → False := fun x h1 h2 => by
    have : x ∈ tri t.a t.b t.c ∩ tri t2.a t2.b t2.c := ⟨h1, h2⟩
    rw [hdis] at this; exact this
  intro x hx y hy
  show distSq res.1 res.2.1 ≤ _
  have i3' : res.2.2 = distSq res.1 res.2.1 := i3
  rw [← i3']
  obtain ⟨x', hx', y', hy', hd, ho⟩ := tri_tri_boundary _ _ _ _ _ _ x y hx hy
  rw [← hd]
  rcases ho with ho | ho
  · obtain ⟨e, he, hxe⟩ := onEdge_edgeSegs ho
    obtain ⟨y'', hy'', x'', hx'', hd', ho'⟩ := tri_seg_boundary t2.a t2.b t2.c e.a e.b (fun z hz hz' => hno z (edgeSegs_sub he z hz') hz) y' x' hy' hxe
    rw [distSq_comm x' y']
    refine le_trans ?_ hd'
    rw [distSq_comm y'' x'']
    rcases ho' with ho' | rfl | rfl
    · obtain ⟨e', he', hye⟩ := onEdge_edgeSegs ho'
      exact low e he e' he' _ hx'' _ hye
    · exact lowW _ (edgeSegs_end he).1 _ hy''
    · exact lowW _ (edgeSegs_end he).2 _ hy''
  · obtain ⟨e, he, hye⟩ := onEdge_edgeSegs ho
    obtain ⟨x'', hx'', y'', hy'', hd', ho'⟩ := tri_seg_boundary t.a t.b t.c e.a e.b (fun z hz hz' => hno z hz (edgeSegs_sub he z hz')) x' y' hx' hye
    refine le_trans ?_ hd'
    rcases ho' with ho' | rfl | rfl
    · obtain ⟨e', he', hxe⟩ := onEdge_edgeSegs ho'
      exact low e' he' e he _ hxe _ hy''
    · exact lowV _ (edgeSegs_end he).1 _ hx''
    · exact lowV _ (edgeSegs_end he).2 _ hx''

end Tri
end MGL
