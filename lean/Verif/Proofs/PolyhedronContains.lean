import Verif.Model.PolyhedronContains
import Verif.Spec.ClearRay
import Verif.Spec.SharpEdges
import Verif.Props.PolygonContains
import Verif.Props.PolyhedronClosest

/-! Lemmas about the point containment test of polyhedra. -/

set_option linter.unusedSectionVars false

namespace MGL
open V3 Spec
namespace Polyhedron
open Polygon (nudge crosses crossLoop walk walk_cons walk_map xAt evenOdd high loc)

/-! ### One face -/

theorem edgeScan_spec (p0 p1 : V2 ℝ) :
    (edgeScan p0 p1 = none ∧ crosses p0 p1 = false) ∨
    ∃ m b, edgeScan p0 p1 = some (m, b) ∧ 0 ≤ m ∧ (0 < m → b = crosses p0 p1) ∧ (m = 0 → p0.y * p1.y < 0 ∧ xAt p0 p1 = 0) := by
  unfold edgeScan crosses xAt
  simp only [V2.sub_x, V2.sub_y]
  by_cases h : p0.y * p1.y < 0
  · simp only [if_pos h]
    by_cases h1 : min2 p0.x p1.x > 0
    · simp only [if_pos h1]
      exact Or.inr ⟨_, _, rfl, le_of_lt h1, fun _ => rfl, fun h2 => absurd h2 (ne_of_gt h1)⟩
    · simp only [if_neg h1]
      by_cases h2 : max2 p0.x p1.x > 0
      · simp only [if_pos h2]
        by_cases h3 : p1.y - p0.y ≠ 0
        · rw [if_pos h3, if_pos h3]
          generalize -p0.y / (p1.y - p0.y) = t
          generalize p0.x + t * (p1.x - p0.x) = x
          by_cases h4 : t ≥ 0 ∧ t ≤ 1
          · rw [if_pos h4]
            refine Or.inr ⟨_, _, rfl, by rw [absF_eq]; exact abs_nonneg _, fun h5 => ?_, fun h5 => ⟨h, ?_⟩⟩
            · rw [absF_eq, abs_pos] at h5
              have e1 : (x ≥ 0) ↔ x > 0 := ⟨fun h6 => lt_of_le_of_ne h6 (Ne.symm h5), fun h6 => le_of_lt h6⟩
              simp only [e1, h4.1, h4.2, decide_true, Bool.true_and]
            · rw [absF_eq, abs_eq_zero] at h5
              exact h5
          · rw [if_neg h4]
            left
            refine ⟨rfl, ?_⟩
            rw [not_and_or] at h4
            rcases h4 with h4 | h4 <;> simp [h4]
        · simp only [if_neg h3]; simp
      · simp only [if_neg h2]; simp
  · simp only [if_neg h]; simp

theorem faceScan_spec (l : List (V2 ℝ)) : ∀ (p0 : V2 ℝ) (n : ℕ) (d : EReal), 0 ≤ d →
    0 ≤ (faceScan p0 l n d).2 ∧ (faceScan p0 l n d).2 ≤ d ∧ (0 < (faceScan p0 l n d).2 → (faceScan p0 l n d).1 = crossLoop p0 l n) ∧
    ((faceScan p0 l n d).2 = 0 → d = 0 ∨ ∃ e ∈ walk p0 (l.map nudge), e.1.y * e.2.y < 0 ∧ xAt e.1 e.2 = 0) := by
  induction l with
  | nil => intro p0 n d hd; exact ⟨hd, le_refl _, fun _ => rfl, fun h => Or.inl h⟩
  | cons x l ih =>
    intro p0 n d hd
    rw [faceScan, crossLoop, List.map_cons, walk_cons]
    rcases edgeScan_spec p0 (nudge x) with ⟨h1, h2⟩ | ⟨m, b, h1, hm, h2, h3⟩
    · rw [h1, h2]
      obtain ⟨i1, i2, i3, i4⟩ := ih (nudge x) n d hd
      refine ⟨i1, i2, fun h => ?_, fun h => (i4 h).imp id ?_⟩
      · rw [i3 h]; rfl
      · rintro ⟨e, he, h⟩
        exact ⟨e, List.mem_cons_of_mem _ he, h⟩
    · rw [h1]
      dsimp only
      have hm' : (0 : EReal) ≤ (m : EReal) := by exact_mod_cast hm
      obtain ⟨i1, i2, i3, i4⟩ := ih (nudge x) (if b then n + 1 else n) (min d (m : EReal)) (le_min hd hm')
      refine ⟨i1, i2.trans (min_le_left _ _), fun h => ?_, fun h => ?_⟩
      · have h5 : (0 : EReal) < (m : EReal) := lt_of_lt_of_le h (i2.trans (min_le_right _ _))
        rw [i3 h, h2 (by exact_mod_cast h5)]
      · rcases i4 h with h5 | ⟨e, he, h5⟩
        · rcases min_choice d (m : EReal) with h6 | h6
          · rw [h6] at h5; exact Or.inl h5
          · rw [h6] at h5
            have : m = 0 := by exact_mod_cast h5
            exact Or.inr ⟨_, List.mem_cons_self .., h3 this⟩
        · exact Or.inr ⟨e, List.mem_cons_of_mem _ he, h5⟩

/-- The sign of the value computed for a polygon of the plane. -/
theorem faceScan_sign {l : List (V2 ℝ)} {z : V2 ℝ} (hz : l.getLast? = some z) :
    (0 ≤ (if (faceScan (nudge z) l 0 ⊤).1 % 2 = 1 then (faceScan (nudge z) l 0 ⊤).2 else -(faceScan (nudge z) l 0 ⊤).2) →
      ∃ y, (⟨0, y⟩ : V2 ℝ) ∈ hull2 l ∧ |y| ≤ 2 / 10000) ∧
    (evenOdd l = true →
      0 ≤ (if (faceScan (nudge z) l 0 ⊤).1 % 2 = 1 then (faceScan (nudge z) l 0 ⊤).2 else -(faceScan (nudge z) l 0 ⊤).2)) := by
  obtain ⟨i1, -, i3, i4⟩ := faceScan_spec l (nudge z) 0 ⊤ le_top
  set r := faceScan (nudge z) l 0 ⊤ with hr
  rcases eq_or_lt_of_le i1 with h0 | h0
  · constructor
    · intro _
      rcases i4 h0.symm with h | ⟨e, he, h1, h2⟩
      · exact absurd h (by simp)
      · rw [walk_map] at he
        obtain ⟨e', he', rfl⟩ := List.mem_map.1 he
        obtain ⟨t, t0, t1, tx, ty⟩ := Polygon.crossing_near ((Polygon.straddle_iff _ _).1 h1)
        have hh := Polygon.walk_hull hz he' t0 t1
        rw [tx, h2] at hh
        exact ⟨_, hh, ty⟩
    · intro _
      rw [← h0]; simp
  · have hodd : r.1 % 2 = 1 ↔ evenOdd l = true := by
      rw [i3 h0, evenOdd, hz]
      simp only [decide_eq_true_eq]
    constructor
    · intro h
      apply Polygon.evenOdd_near_hull
      rw [← hodd]
      by_contra hn
      rw [if_neg hn] at h
      have : -r.2 < 0 := by simpa using h0
      exact absurd h (not_le.2 this)
    · intro h
      rw [if_pos (hodd.2 h)]
      exact i1

variable {p : Polyhedron ℝ}

/-- The faces the test can judge. -/
structure GoodFace (p : Polyhedron ℝ) (f : List ℤ) (n : V3 ℝ) : Prop where
  convex : ConvexPolygon n (f.map (corner p.v))
  area : HasTriangle (f.map (corner p.v))
  edge : FirstEdge (f.map (corner p.v))
  range : ∀ i ∈ f, 0 ≤ i ∧ i < p.v.length

theorem GoodFace.normal {f : List ℤ} {n : V3 ℝ} (h : GoodFace p f n) : ∃ t : ℝ, 0 < t ∧ cornerNormal (f.map (corner p.v)) = t • n := by
  have hl := h.convex.2.1
  have h3 := h.convex.2.2
  rcases f with _ | ⟨a, _ | ⟨b, _ | ⟨c, r⟩⟩⟩
  · simp at hl
  · simp at hl
  · simp at hl
  · simp only [List.map_cons] at h3 ⊢
    rw [List.triplewise_cons, List.pairwise_cons] at h3
    exact h3.1.1 (corner p.v c) (by simp)

theorem GoodFace.basis {f : List ℤ} {n : V3 ℝ} (h : GoodFace p f n) : Polygon.LocalBasis (f.map (corner p.v)) n := by
  obtain ⟨o, q, r, e, he⟩ := h.edge
  have hc := h.convex
  have ha := h.area
  rw [e] at hc ha ⊢
  exact Polygon.convexBasis hc (Or.inr (Polygon.hasTriangle_iff ha)) he

theorem unit_of_smul {n : V3 ℝ} (hn : dot n n = 1) {t : ℝ} (ht : 0 < t) : (1 / len (t • n)) • (t • n) = n := by
  have h1 : len n = 1 := by
    have : _ = dot n n := len_mul_self n
    rw [hn] at this
    nlinarith [len_nonneg n]
  rw [len_smul, h1, abs_of_pos ht]
  ext <;> simp only [smul_x, smul_y, smul_z] <;> field_simp

theorem GoodFace.plane {f : List ℤ} {n : V3 ℝ} (h : GoodFace p f n) :
    ∃ pl, p.facePlane f = some pl ∧ pl.normal = n ∧ ∀ a ∈ f, ∀ x, pl.signedDistance x = dot n (x - corner p.v a) := by
  obtain ⟨t, ht, hN⟩ := h.normal
  have hl : 3 ≤ f.length := by simpa using h.convex.2.1
  have hne : cornerNormal (f.map (corner p.v)) ≠ 0 := by
    rw [hN]; intro h0
    have hu := h.convex.1
    have : dot (t • n) (t • n) = t * t * dot n n := by simp only [dot, smul_x, smul_y, smul_z]; ring
    rw [h0, hu] at this
    simp [dot] at this
    exact ht.ne' this
  obtain ⟨pl, h1, h2, -, -, h5⟩ := facePlane_data hl h.range hne
  rw [hN, unit_of_smul h.convex.1 ht] at h2
  refine ⟨pl, h1, h2, fun a ha x => ?_⟩
  rcases hf : f with _ | ⟨o, r⟩
  · rw [hf] at ha; cases ha
  · have := h5 o (by rw [hf]; rfl) x
    have e : dot ((1 / len (cornerNormal (f.map (corner p.v)))) • cornerNormal (f.map (corner p.v))) (x - corner p.v o) =
        1 / len (cornerNormal (f.map (corner p.v))) * dot (cornerNormal (f.map (corner p.v))) (x - corner p.v o) := by
      simp only [dot, smul_x, smul_y, smul_z]; ring
    rw [← e, hN, unit_of_smul h.convex.1 ht] at this
    rw [this]
    have h6 := h.convex.plane (x := corner p.v a) (y := corner p.v o) (List.mem_map.2 ⟨a, ha, rfl⟩) (by rw [hf]; simp)
    rw [dot_sub, dot_sub, h6]

/-- The value of `FaceContainmentDistance2D` for a point in the plane of the face. -/
theorem face_value {f : List ℤ} {n : V3 ℝ} (h : GoodFace p f n) {q : V3 ℝ} (hq : ∀ a ∈ f, dot n (q - corner p.v a) = 0) {th : ℝ} (hth : 0 ≤ th) :
    ∃ c, p.faceContainmentDistance2D f q th = some c ∧
      (0 ≤ c → ∃ y ∈ hull3 (f.map (corner p.v)), V3.dist q y ≤ 2 / 10000) ∧
      ((∃ r : ℝ, 2 / 10000 < r ∧ ∀ y, dot n y = dot n q → V3.dist q y ≤ r → y ∈ hull3 (f.map (corner p.v))) → 0 ≤ c) := by
  have hl : 3 ≤ f.length := by simpa using h.convex.2.1
  obtain ⟨pl, h1, h2, h3⟩ := h.plane
  obtain ⟨o, o2, r, e, he⟩ := h.edge
  have B := h.basis
  set poly := f.map (corner p.v) with hpoly
  have hm : f.mapM p.vertex = some poly := QuadTree.mapM_some f fun i hi => vertex_corner (h.range i hi).1 (h.range i hi).2
  have hcc : Polygon.planeCCW poly = some ⟨n, dot n o⟩ :=
    Polygon.planeCCW_convex h.convex (by rw [← hpoly, e]; rfl) (Or.inr (Polygon.hasTriangle_iff h.area))
  have hU : Polygon.basisU poly = f3Normalized (o2 - o) := by rw [e]; rfl
  have hV : Polygon.basisV poly = f3Normalized (cross n (f3Normalized (o2 - o))) := by
    rw [Polygon.basisV, if_neg (by rw [e]; simp), hcc, hU]
  have hd : pl.distance q = 0 := by
    rcases f with _ | ⟨a, f⟩
    · simp at hl
    · rw [Plane.distance, h3 a (by simp), hq a (by simp), absF_eq, abs_zero]
  obtain ⟨z, hz⟩ : ∃ z, (poly.map (loc poly q)).getLast? = some z := by
    cases hz : (poly.map (loc poly q)).getLast? with
    | none => rw [List.getLast?_eq_none_iff] at hz; rw [e] at hz; simp at hz
    | some z => exact ⟨z, rfl⟩
  have hval : p.faceContainmentDistance2D f q th = some (if (faceScan (nudge z) (poly.map (loc poly q)) 0 ⊤).1 % 2 = 1
      then (faceScan (nudge z) (poly.map (loc poly q)) 0 ⊤).2 else -(faceScan (nudge z) (poly.map (loc poly q)) 0 ⊤).2) := by
    rw [faceContainmentDistance2D, if_neg (by omega), h1]
    simp only [Option.bind_eq_bind, Option.bind_some]
    rw [if_neg (by rw [hd]; exact not_lt.2 hth), hm]
    simp only [Option.bind_some]
    have hloc : (fun y => (⟨dot (y - q) (f3Normalized (o2 - o)), dot (y - q) (f3Normalized (cross pl.normal (f3Normalized (o2 - o))))⟩ : V2 ℝ)) =
        loc poly q := by
      funext y; rw [loc, hU, hV, h2]
    conv_lhs => rw [e]
    dsimp only
    rw [hloc, ← e, hz]
  refine ⟨_, hval, fun hc => ?_, fun hdeep => (faceScan_sign hz).2 ?_⟩
  · obtain ⟨y, hy, hy2⟩ := (faceScan_sign hz).1 hc
    have hδ : ∀ x ∈ poly, dot n (x - q) = 0 := by
      intro x hx
      obtain ⟨a, ha, rfl⟩ := List.mem_map.1 hx
      have := hq a ha
      rw [dot_sub] at this ⊢; linarith
    refine ⟨_, Polygon.hull_of_loc B q hδ hy, ?_⟩
    have F := B.frame
    show V3.dist q (q + (0 : ℝ) • Polygon.basisU poly + y • Polygon.basisV poly + (0 : ℝ) • n) ≤ _
    rw [dist_le_iff (by norm_num)]
    have e1 : distSq q (q + (0 : ℝ) • Polygon.basisU poly + y • Polygon.basisV poly + (0 : ℝ) • n) =
        y * y * dot (Polygon.basisV poly) (Polygon.basisV poly) := by
      simp only [distSq, lenSq, dot, sub_x, sub_y, sub_z, add_x, add_y, add_z, smul_x, smul_y, smul_z]; ring
    rw [e1, F.vv]
    have := abs_le.1 hy2
    nlinarith
  · obtain ⟨r', hr', hin⟩ := hdeep
    have hplane : ∀ x ∈ poly, dot n q = dot n x := by
      intro x hx
      obtain ⟨a, ha, rfl⟩ := List.mem_map.1 hx
      have := hq a ha
      rw [dot_sub] at this; linarith
    have h6 := Polygon.C85_contains_inside poly n h.convex (Or.inr h.area) h.edge q hplane r' hr' hin 0 1 (by norm_num)
    have e0 : q + (0 : ℝ) • n = q := by ext <;> simp
    rw [e0, Polygon.contains_eq B h.convex.2.1 (o := o) (by rw [e]; rfl), Bool.and_eq_true] at h6
    exact h6.2

/-! ### Counting the faces that a ray meets -/

theorem countP_le_one {β : Type*} (P : β → Bool) (l : List β)
    (h : ∀ (i j : ℕ) (hi : i < l.length) (hj : j < l.length), P l[i] = true → P l[j] = true → i = j) : l.countP P ≤ 1 := by
  induction l with
  | nil => simp
  | cons a l ih =>
    rw [List.countP_cons]
    by_cases ha : P a = true
    · have h0 : l.countP P = 0 := by
        rw [List.countP_eq_zero]
        intro b hb hPb
        obtain ⟨k, hk, rfl⟩ := List.getElem_of_mem hb
        have := h 0 (k + 1) (by simp) (by simpa using hk) ha (by simpa using hPb)
        omega
      rw [h0, if_pos ha]
    · rw [if_neg ha, Nat.add_zero]
      refine ih fun i j hi hj h1 h2 => ?_
      have := h (i + 1) (j + 1) (by simpa using hi) (by simpa using hj) (by simpa using h1) (by simpa using h2)
      omega

theorem countP_split {β : Type*} (P Q : β → Bool) (l : List β) :
    l.countP P = l.countP (fun b => P b && Q b) + l.countP (fun b => P b && !Q b) := by
  induction l with
  | nil => simp
  | cons a l ih =>
    simp only [List.countP_cons, ih]
    cases P a <;> cases Q a <;> simp <;> omega

theorem small_step {β : Type*} (A k : β → ℝ) (l : List β) (h : ∀ b ∈ l, A b < 0 ∨ A b = 0 ∧ k b < 0) :
    ∃ ε0 : ℝ, 0 < ε0 ∧ ∀ ε, 0 < ε → ε ≤ ε0 → ∀ b ∈ l, A b + ε * k b < 0 := by
  induction l with
  | nil => exact ⟨1, one_pos, by simp⟩
  | cons b l ih =>
    obtain ⟨e, he, hl⟩ := ih fun c hc => h c (by simp [hc])
    rcases h b (by simp) with hb | ⟨hb, hk⟩
    · have hk1 : 0 < |k b| + 1 := by positivity
      refine ⟨min e (-A b / 2 / (|k b| + 1)), lt_min he (by apply div_pos _ hk1; linarith), fun ε h0 h1 c hc => ?_⟩
      rcases List.mem_cons.1 hc with rfl | hc
      · have h2 := h1.trans (min_le_right _ _)
        rw [le_div_iff₀ hk1] at h2
        have h3 := le_abs_self (k c)
        nlinarith [mul_le_mul_of_nonneg_left h3 h0.le]
      · exact hl ε h0 (h1.trans (min_le_left _ _)) c hc
    · refine ⟨e, he, fun ε h0 h1 c hc => ?_⟩
      rcases List.mem_cons.1 hc with rfl | hc
      · rw [hb]; nlinarith
      · exact hl ε h0 h1 c hc

section Parity
variable {V : List (V3 ℝ)} {fs : List (List ℤ)}

/-- The ray from `x` along `w` meets the face. -/
def Hit (V : List (V3 ℝ)) (x w : V3 ℝ) (f : List ℤ) : Prop := ∃ t : ℝ, 0 ≤ t ∧ x + t • w ∈ hull3 (f.map (corner V))

/-- The height of a point above the plane of a face, up to a factor. -/
noncomputable def height (V : List (V3 ℝ)) (f : List ℤ) (y : V3 ℝ) : ℝ :=
  dot (cornerNormal (f.map (corner V))) (y - corner V (f.head?.getD 0))

theorem height_eq (hs : ConvexSurface V fs) {f : List ℤ} (hf : f ∈ fs) {a : ℤ} (ha : a ∈ f) (y : V3 ℝ) :
    height V f y = dot (cornerNormal (f.map (corner V))) (y - corner V a) := by
  obtain ⟨A, B, C, r, e, hn, hP, hpl⟩ := hs.outward f hf
  have hN : cornerNormal (f.map (corner V)) = cross (B - A) (C - A) := by rw [e]; rfl
  have hb : ∀ a ∈ f, ∀ y, dot (cross (B - A) (C - A)) (y - corner V a) = dot (cross (B - A) (C - A)) (y - A) :=
    fun a ha y => dot_sub_base (hpl _ (List.mem_map.2 ⟨a, ha, rfl⟩))
  have ho : f.head?.getD 0 ∈ f := by
    rcases f with _ | ⟨o, f⟩
    · cases ha
    · simp
  rw [height, hN, hb _ ho, hb _ ha]

theorem height_line (V : List (V3 ℝ)) (f : List ℤ) (x w : V3 ℝ) (t : ℝ) :
    height V f (x + t • w) = height V f x + t * dot (cornerNormal (f.map (corner V))) w := by
  simp only [height, dot, sub_x, sub_y, sub_z, add_x, add_y, add_z, smul_x, smul_y, smul_z]; ring

theorem head_mem (hs : ConvexSurface V fs) {f : List ℤ} (hf : f ∈ fs) : ∃ a, a ∈ f := by
  rcases f with _ | ⟨o, f⟩
  · have := (hs.valid _ hf).1; simp at this
  · exact ⟨o, by simp⟩

theorem mem_hull_iff (hs : ConvexSurface V fs) (h0 : fs ≠ []) (y : V3 ℝ) : y ∈ hull3 V ↔ ∀ f ∈ fs, height V f y ≤ 0 := by
  rw [← region_eq_hull hs h0]
  refine forall₂_congr fun f hf => ?_
  obtain ⟨a, ha⟩ := head_mem hs hf
  rw [inFront_iff hs hf ha, height_eq hs hf ha]

theorem face_sub_hull (hs : ConvexSurface V fs) {f : List ℤ} (hf : f ∈ fs) {y : V3 ℝ} (hy : y ∈ hull3 (f.map (corner V))) :
    y ∈ hull3 V :=
  hull_mono (fun v hv => by
    obtain ⟨i, hi, rfl⟩ := List.mem_map.1 hv
    have := (hs.valid f hf).2.2 i hi
    obtain ⟨m, rfl⟩ := Int.eq_ofNat_of_zero_le this.1
    have hm : m < V.length := by exact_mod_cast this.2
    refine mem_hull ?_
    simp [corner, List.getD_eq_getElem?_getD, List.getElem?_eq_getElem hm]) hy

theorem face_height (hs : ConvexSurface V fs) {f : List ℤ} (hf : f ∈ fs) {y : V3 ℝ} (hy : y ∈ hull3 (f.map (corner V))) :
    height V f y = 0 := by
  have hc : ∀ v ∈ f.map (corner V), height V f v = 0 := by
    intro v hv
    obtain ⟨i, hi, rfl⟩ := List.mem_map.1 hv
    rw [height_eq hs hf hi]
    simp [dot]
  refine hy {y | height V f y = 0} ?_ hc
  intro a ha b hb s t hs ht hst
  have ht' : t = 1 - s := by linarith
  subst ht'
  have ha' : height V f a = 0 := ha
  have hb' : height V f b = 0 := hb
  show height V f (s • a + (1 - s) • b) = 0
  have : height V f (s • a + (1 - s) • b) = s * height V f a + (1 - s) * height V f b := by
    simp only [height, dot, sub_x, sub_y, sub_z, add_x, add_y, add_z, smul_x, smul_y, smul_z]; ring
  rw [this, ha', hb']; ring

/-- The disc around `q` in the plane of the face belongs to the face. -/
def Deep (V : List (V3 ℝ)) (f : List ℤ) (q : V3 ℝ) : Prop :=
  ∃ r : ℝ, 0 < r ∧ ∀ y, dot (cornerNormal (f.map (corner V))) (y - q) = 0 → V3.dist q y ≤ r → y ∈ hull3 (f.map (corner V))

/-- A point with a disc of one face around it is on the plane of no other face. -/
theorem deep_unique (hs : ConvexSurface V fs) (h0 : fs ≠ []) (hcop : NoTwoCoplanar V fs) {i j : ℕ} (hi : i < fs.length) (hj : j < fs.length)
    {q : V3 ℝ} (hd : Deep V fs[i] q) (hq : height V fs[i] q = 0) (hg : height V fs[j] q = 0) : i = j := by
  by_contra hij
  obtain ⟨c, hc, hoff⟩ := hcop i j hi hj hij
  have hfi : fs[i] ∈ fs := List.getElem_mem hi
  have hfj : fs[j] ∈ fs := List.getElem_mem hj
  obtain ⟨a, ha⟩ := head_mem hs hfi
  refine hoff a ha ?_
  set M := cornerNormal (fs[i].map (corner V)) with hM
  set N := cornerNormal (fs[j].map (corner V)) with hN
  obtain ⟨r, hr, hdisc⟩ := hd
  have hle : ∀ u, dot M u = 0 → dot N u ≤ 0 := by
    intro u hu
    have hl : 0 < len u + 1 := by have := len_nonneg u; linarith
    have hin := hdisc (q + (r / (len u + 1)) • u) (by
      have : dot M (q + (r / (len u + 1)) • u - q) = r / (len u + 1) * dot M u := by
        simp only [dot, sub_x, sub_y, sub_z, add_x, add_y, add_z, smul_x, smul_y, smul_z]; ring
      rw [this, hu, mul_zero]) (by
      have e : q + (r / (len u + 1)) • u - q = (r / (len u + 1)) • u := by
        ext <;> simp
      rw [V3.dist_comm, dist_eq_len, e, len_smul, abs_of_pos (div_pos hr hl), div_mul_eq_mul_div, div_le_iff₀ hl]
      nlinarith [len_nonneg u])
    have h1 := (mem_hull_iff hs h0 _).1 (face_sub_hull hs hfi hin) _ hfj
    rw [height_line, hg, zero_add] at h1
    by_contra hn
    have := mul_pos (div_pos hr hl) (not_le.1 hn)
    linarith
  have heq : ∀ u, dot M u = 0 → dot N u = 0 := by
    intro u hu
    have h2 := hle (-u) (by rw [show dot M (-u) = -dot M u by simp only [dot, neg_x, neg_y, neg_z]; ring, hu, neg_zero])
    rw [show dot N (-u) = -dot N u by simp only [dot, neg_x, neg_y, neg_z]; ring] at h2
    have h1 := hle u hu
    linarith
  have hcr : cross N M = 0 := by
    have hz : ∀ z, dot z (cross N M) = 0 := by
      intro z
      have := heq (cross M z) (by simp only [dot, cross]; ring)
      rw [← this]; simp only [dot, cross]; ring
    exact lenSq_eq_zero.1 (hz _)
  have hv : dot N (corner V c - q) = 0 := by
    have h1 : height V fs[j] (corner V c) = 0 := by rw [height_eq hs hfj hc]; simp [dot]
    have : dot N (corner V c - q) = height V fs[j] (corner V c) - height V fs[j] q := by
      simp only [height, ← hN, dot, sub_x, sub_y, sub_z]; ring
    rw [this, h1, hg, sub_zero]
  have hNN : dot N N ≠ 0 := by
    intro h
    obtain ⟨A, B, C, r', e, hn, -⟩ := hs.outward _ hfj
    have : N = 0 := lenSq_eq_zero.1 h
    rw [hN, e] at this
    exact hn this
  have hMv : dot M (corner V c - q) = 0 := by
    have h1 : dot (cross N M) (cross N (corner V c - q)) = dot N N * dot M (corner V c - q) - dot N (corner V c - q) * dot M N := by
      simp only [dot, cross]; ring
    rw [hcr, hv, zero_mul, sub_zero] at h1
    have h2 : dot (0 : V3 ℝ) (cross N (corner V c - q)) = 0 := by simp [dot]
    rw [h2] at h1
    exact (mul_eq_zero.1 h1.symm).resolve_left hNN
  have hqa : dot M (q - corner V a) = 0 := by rw [hM, ← height_eq hs hfi ha, hq]
  have : dot M (corner V c - corner V a) = dot M (corner V c - q) + dot M (q - corner V a) := by
    simp only [dot, sub_x, sub_y, sub_z]; ring
  rw [this, hMv, hqa, add_zero]

theorem sharp_of_noTwoCoplanar (hs : ConvexSurface V fs) (hcop : NoTwoCoplanar V fs) : SharpEdges V fs := by
  intro f hf g hg a b hab hba
  obtain ⟨i, hi, rfl⟩ := List.getElem_of_mem hf
  obtain ⟨j, hj, rfl⟩ := List.getElem_of_mem hg
  have ha : a ∈ fs[i] := (List.of_mem_zip hab).1
  by_cases hij : i = j
  · subst hij
    have t1 := hs.turning _ hf (corner V a, corner V b) (by
      rw [zip_rotate_map]; exact List.mem_map.2 ⟨(a, b), hab, rfl⟩)
    have t2 := hs.turning _ hf (corner V b, corner V a) (by
      rw [zip_rotate_map]; exact List.mem_map.2 ⟨(b, a), hba, rfl⟩)
    obtain ⟨-, y, hy, hpos⟩ := t1
    have := t2.1 y hy
    dsimp only at this hpos
    have e : ∀ M A B : V3 ℝ, dot M (cross (A - B) (y - B)) = -dot M (cross (B - A) (y - A)) := by
      intro M A B; simp only [dot, cross, sub_x, sub_y, sub_z]; ring
    rw [e] at this
    linarith
  · obtain ⟨c, hc, h⟩ := hcop i j hi hj hij
    exact ⟨c, hc, h a ha⟩

/-- Along a clear ray, the number of faces met is odd exactly if the ray starts in the solid. -/
theorem parity {p : Polyhedron ℝ} (hs : ConvexSurface p.v p.f) (h0 : p.f ≠ []) (hcop : NoTwoCoplanar p.v p.f)
    (hgood : ∀ f ∈ p.f, ∃ n, GoodFace p f n) {x w : V3 ℝ} (hw : dot w w = 1) (hoff : ∀ f ∈ p.f, height p.v f x ≠ 0)
    (hnear : ∀ y ∈ hull3 p.v, V3.dist x y < 10000) (hclear : ClearRay p.v p.f x w) :
    (p.f.countP fun f => @decide (Hit p.v x w f) (Classical.propDecidable _)) % 2 = 1 ↔ x ∈ hull3 p.v := by
  classical
  have hsharp := sharp_of_noTwoCoplanar hs hcop
  have hsec : ∀ f ∈ p.f, ∀ z ∈ hull3 p.v, (∀ a ∈ f, dot (cornerNormal (f.map (corner p.v))) (z - corner p.v a) = 0) →
      z ∈ hull3 (f.map (corner p.v)) := by
    intro f hf z hz hp
    obtain ⟨n, g⟩ := hgood f hf
    exact face_eq_section hs h0 hsharp hf g.convex g.basis hz hp
  -- hits are deep
  have hdeep : ∀ f ∈ p.f, ∀ t : ℝ, 0 ≤ t → x + t • w ∈ hull3 (f.map (corner p.v)) → Deep p.v f (x + t • w) := by
    intro f hf t ht hin
    rcases hclear f hf t ht (fun a ha => by rw [← height_eq hs hf ha, face_height hs hf hin]) with ⟨r, hr, h⟩ | h
    · exact ⟨r, by linarith, h⟩
    · have := h _ hin
      rw [V3.dist_self] at this
      norm_num at this
  have hhull : ∀ f ∈ p.f, ∀ t : ℝ, x + t • w ∈ hull3 (f.map (corner p.v)) → ∀ g ∈ p.f,
      height p.v g x + t * dot (cornerNormal (g.map (corner p.v))) w ≤ 0 := by
    intro f hf t hin g hg
    rw [← height_line]
    exact (mem_hull_iff hs h0 _).1 (face_sub_hull hs hf hin) g hg
  have hzero : ∀ f ∈ p.f, ∀ t : ℝ, x + t • w ∈ hull3 (f.map (corner p.v)) →
      height p.v f x + t * dot (cornerNormal (f.map (corner p.v))) w = 0 := by
    intro f hf t hin
    rw [← height_line]
    exact face_height hs hf hin
  have hTout : x + (10000 : ℝ) • w ∉ hull3 p.v := by
    intro h
    have := hnear _ h
    have e : x + (10000 : ℝ) • w - x = (10000 : ℝ) • w := by ext <;> simp
    have hl : len w = 1 := by
      have : _ = dot w w := len_mul_self w
      rw [hw] at this
      nlinarith [len_nonneg w]
    rw [V3.dist_comm, dist_eq_len, e, len_smul, hl] at this
    norm_num at this
  -- leaving the solid forwards
  have hexit : ∀ s : ℝ, 0 ≤ s → x + s • w ∈ hull3 p.v → ∃ f ∈ p.f, ∃ t : ℝ, s ≤ t ∧ x + t • w ∈ hull3 (f.map (corner p.v)) := by
    intro s hs0 hin
    obtain ⟨f, hf, t, t0, t1, hz, hp⟩ := exit_face hs h0 hin hTout
    have hs1 : s < 10000 := by
      by_contra hn
      rw [not_lt] at hn
      have := hnear _ hin
      have e : x + s • w - x = s • w := by ext <;> simp
      have hl : len w = 1 := by
        have : _ = dot w w := len_mul_self w
        rw [hw] at this
        nlinarith [len_nonneg w]
      rw [V3.dist_comm, dist_eq_len, e, len_smul, hl, abs_of_nonneg hs0] at this
      linarith
    have e : x + s • w + t • (x + (10000 : ℝ) • w - (x + s • w)) = x + (s + t * (10000 - s)) • w := by
      ext <;> simp only [sub_x, sub_y, sub_z, add_x, add_y, add_z, smul_x, smul_y, smul_z] <;> ring
    rw [e] at hz hp
    exact ⟨f, hf, s + t * (10000 - s), by nlinarith, hsec f hf _ hz hp⟩
  set ent : List ℤ → Bool := fun f => decide (0 < height p.v f x) with hent
  set P : List ℤ → Bool := fun f => decide (Hit p.v x w f) with hP
  have hone : ∀ b : Bool, (p.f.countP fun f => P f && (ent f == b)) ≤ 1 := by
    intro b
    refine countP_le_one _ _ fun i j hi hj h1 h2 => ?_
    have hfi : p.f[i] ∈ p.f := List.getElem_mem hi
    have hfj : p.f[j] ∈ p.f := List.getElem_mem hj
    simp only [Bool.and_eq_true, hP, decide_eq_true_eq, beq_iff_eq] at h1 h2
    obtain ⟨⟨t, t0, ht⟩, e1⟩ := h1
    obtain ⟨⟨u, u0, hu⟩, e2⟩ := h2
    have z1 := hzero _ hfi t ht
    have z2 := hzero _ hfj u hu
    have l1 := hhull _ hfi t ht _ hfj
    have l2 := hhull _ hfj u hu _ hfi
    have o1 := hoff _ hfi
    have o2 := hoff _ hfj
    have htu : t = u := by
      set A := height p.v p.f[i] x
      set k := dot (cornerNormal (p.f[i].map (corner p.v))) w
      set B := height p.v p.f[j] x
      set m := dot (cornerNormal (p.f[j].map (corner p.v))) w
      have htp : t ≠ 0 := by rintro rfl; exact o1 (by linarith)
      have hup : u ≠ 0 := by rintro rfl; exact o2 (by linarith)
      have htp' := lt_of_le_of_ne t0 (Ne.symm htp)
      have hup' := lt_of_le_of_ne u0 (Ne.symm hup)
      cases b
      · have a1 : A < 0 := lt_of_le_of_ne (not_lt.1 (by simpa [hent] using e1)) o1
        have a2 : B < 0 := lt_of_le_of_ne (not_lt.1 (by simpa [hent] using e2)) o2
        have k1 : 0 < k := by by_contra h; nlinarith
        have k2 : 0 < m := by by_contra h; nlinarith
        have q1 : t ≤ u := by by_contra h; nlinarith
        have q2 : u ≤ t := by by_contra h; nlinarith
        linarith
      · have a1 : 0 < A := by simpa [hent] using e1
        have a2 : 0 < B := by simpa [hent] using e2
        have k1 : k < 0 := by by_contra h; nlinarith
        have k2 : m < 0 := by by_contra h; nlinarith
        have q1 : t ≤ u := by by_contra h; nlinarith
        have q2 : u ≤ t := by by_contra h; nlinarith
        linarith
    subst htu
    exact deep_unique hs h0 hcop hi hj (hdeep _ hfi t t0 ht) (face_height hs hfi ht) (face_height hs hfj hu)
  have hsplit : p.f.countP P = (p.f.countP fun f => P f && (ent f == true)) + p.f.countP fun f => P f && (ent f == false) := by
    rw [countP_split P ent]
    congr 1 <;> congr 1 <;> funext f <;> cases ent f <;> simp
  have hpos : ∀ b : Bool, (∃ f ∈ p.f, Hit p.v x w f ∧ ent f = b) → (p.f.countP fun f => P f && (ent f == b)) = 1 := by
    rintro b ⟨f, hf, h1, h2⟩
    have : 0 < p.f.countP fun f => P f && (ent f == b) := by
      rw [List.countP_pos_iff]
      exact ⟨f, hf, by simp [hP, h1, h2]⟩
    have := hone b
    omega
  by_cases hx : x ∈ hull3 p.v
  · simp only [hx, iff_true]
    have hno : ∀ f ∈ p.f, ent f = false := fun f hf => by
      have := (mem_hull_iff hs h0 x).1 hx f hf
      simp [hent, this]
    obtain ⟨f, hf, t, ht, hin⟩ := hexit 0 (le_refl _) (by convert hx using 1; ext <;> simp)
    have h1 := hpos false ⟨f, hf, ⟨t, ht, hin⟩, hno f hf⟩
    have h2 : (p.f.countP fun f => P f && (ent f == true)) = 0 := by
      rw [List.countP_eq_zero]
      intro g hg
      simp [hno g hg]
    rw [hsplit, h1, h2]
  · simp only [hx, iff_false]
    by_cases hany : ∃ f ∈ p.f, Hit p.v x w f
    · obtain ⟨f, hf, t, ht, hin⟩ := hany
      obtain ⟨i, hi, rfl⟩ := List.getElem_of_mem hf
      -- a point of the ray strictly inside
      obtain ⟨s, hs0, hsin⟩ : ∃ s : ℝ, 0 < s ∧ ∀ g ∈ p.f, height p.v g (x + s • w) < 0 := by
        have z1 := hzero _ hf t hin
        have o1 := hoff _ hf
        have tp : 0 < t := lt_of_le_of_ne ht (by rintro rfl; exact o1 (by linarith))
        set k := dot (cornerNormal (p.f[i].map (corner p.v))) w with hk
        have k0 : k ≠ 0 := by intro h; rw [h] at z1; exact o1 (by linarith)
        obtain ⟨σ, hσ1, hσ⟩ : ∃ σ : ℝ, (σ = 1 ∨ σ = -1) ∧ σ * k < 0 := by
          rcases lt_or_gt_of_ne k0 with h | h
          · exact ⟨1, Or.inl rfl, by linarith⟩
          · exact ⟨-1, Or.inr rfl, by linarith⟩
        obtain ⟨ε0, he0, hstep⟩ := small_step (fun g => height p.v g (x + t • w))
          (fun g => σ * dot (cornerNormal (g.map (corner p.v))) w) p.f (by
            intro g hg
            have hle : height p.v g (x + t • w) ≤ 0 := (mem_hull_iff hs h0 _).1 (face_sub_hull hs hf hin) g hg
            rcases lt_or_eq_of_le hle with h | h
            · exact Or.inl h
            · right
              obtain ⟨j, hj, rfl⟩ := List.getElem_of_mem hg
              have := deep_unique hs h0 hcop hi hj (hdeep _ hf t ht hin) (face_height hs hf hin) h
              subst this
              exact ⟨h, hσ⟩)
        refine ⟨t + min ε0 (t / 2) * σ, ?_, fun g hg => ?_⟩
        · have : min ε0 (t / 2) ≤ t / 2 := min_le_right _ _
          have h2 : 0 < min ε0 (t / 2) := lt_min he0 (by linarith)
          rcases hσ1 with rfl | rfl <;> linarith
        · have := hstep (min ε0 (t / 2)) (lt_min he0 (by linarith)) (min_le_left _ _) g hg
          rw [height_line] at this ⊢
          linarith [this]
      have hy : x + s • w ∈ hull3 p.v := (mem_hull_iff hs h0 _).2 fun g hg => (hsin g hg).le
      have hE : ∃ f ∈ p.f, Hit p.v x w f ∧ ent f = false := by
        obtain ⟨g, hg, t', ht', hin'⟩ := hexit s hs0.le hy
        refine ⟨g, hg, ⟨t', by linarith, hin'⟩, ?_⟩
        have z := hzero g hg t' hin'
        have l := hsin g hg
        rw [height_line] at l
        have : height p.v g x < 0 := by
          by_contra hn
          rw [not_lt] at hn
          set m := dot (cornerNormal (g.map (corner p.v))) w
          have hm : m < 0 := by by_contra h; nlinarith
          nlinarith
        simp [hent, this.le]
      have hI : ∃ f ∈ p.f, Hit p.v x w f ∧ ent f = true := by
        obtain ⟨g, hg, u, u0, u1, hz, hp⟩ := exit_face hs h0 hy hx
        have e : x + s • w + u • (x - (x + s • w)) = x + (s * (1 - u)) • w := by
          ext <;> simp only [sub_x, sub_y, sub_z, add_x, add_y, add_z, smul_x, smul_y, smul_z] <;> ring
        rw [e] at hz hp
        have hin' := hsec g hg _ hz hp
        refine ⟨g, hg, ⟨_, mul_nonneg hs0.le (by linarith), hin'⟩, ?_⟩
        have z := hzero g hg _ hin'
        have l := hsin g hg
        have o := hoff g hg
        rw [height_line] at l
        have : 0 < height p.v g x := by
          refine lt_of_le_of_ne ?_ (Ne.symm o)
          by_contra hn
          rw [not_le] at hn
          set m := dot (cornerNormal (g.map (corner p.v))) w
          have h1 : 0 ≤ s * (1 - u) := mul_nonneg hs0.le (by linarith)
          have hm : 0 < m := by by_contra h; nlinarith
          nlinarith [mul_nonneg hs0.le u0, mul_nonneg (mul_nonneg hs0.le u0) hm.le]
        simp [hent, this]
      rw [hsplit, hpos true hI, hpos false hE]
      norm_num
    · have : p.f.countP P = 0 := by
        rw [List.countP_eq_zero]
        intro f hf h
        exact hany ⟨f, hf, by simpa [hP] using h⟩
      rw [this]
      norm_num

end Parity

/-! ### The loops over the faces -/

theorem setPoints_shift (a b c x : V3 ℝ) : Plane.setPoints (a - x) (b - x) (c - x) =
    ⟨(Plane.setPoints a b c).normal, dot (Plane.setPoints a b c).normal (a - x)⟩ := by
  have e : cross (b - x - (a - x)) (c - x - (a - x)) = cross (b - a) (c - a) := by
    congr 1 <;> ext <;> simp
  rw [Plane.setPoints, Plane.setPoints]
  dsimp only
  rw [e]

/-- What a plane says about a ray from the origin whose start is not near the plane. -/
theorem intersectsRay_off (n : V3 ℝ) (d : ℝ) (w : V3 ℝ) (hd : 1 / 1000 < |d|) :
    ((Plane.mk n d).intersectsRay ⟨⟨0, 0, 0⟩, w⟩).1 = true ∧ 0 ≤ ((Plane.mk n d).intersectsRay ⟨⟨0, 0, 0⟩, w⟩).2 ∧ dot n w ≠ 0 ∧
      ((Plane.mk n d).intersectsRay ⟨⟨0, 0, 0⟩, w⟩).2 * dot n w = d ∨
    ((Plane.mk n d).intersectsRay ⟨⟨0, 0, 0⟩, w⟩).1 = false ∧ ∀ t : ℝ, 0 ≤ t → t < 10000 → t * dot n w ≠ d := by
  have hz : dot n (⟨0, 0, 0⟩ : V3 ℝ) = 0 := by simp [dot]
  have hd0 : d ≠ 0 := by intro h; rw [h, abs_zero] at hd; norm_num at hd
  have main : dot n w ≠ 0 → (Plane.mk n d).intersectsRay ⟨⟨0, 0, 0⟩, w⟩ = (decide (d / dot n w ≥ 0), d / dot n w) →
      ((Plane.mk n d).intersectsRay ⟨⟨0, 0, 0⟩, w⟩).1 = true ∧ 0 ≤ ((Plane.mk n d).intersectsRay ⟨⟨0, 0, 0⟩, w⟩).2 ∧ dot n w ≠ 0 ∧
      ((Plane.mk n d).intersectsRay ⟨⟨0, 0, 0⟩, w⟩).2 * dot n w = d ∨
    ((Plane.mk n d).intersectsRay ⟨⟨0, 0, 0⟩, w⟩).1 = false ∧ ∀ t : ℝ, 0 ≤ t → t < 10000 → t * dot n w ≠ d := by
    intro h0 e
    rw [e]
    by_cases h : 0 ≤ d / dot n w
    · exact Or.inl ⟨by simpa using h, h, h0, div_mul_cancel₀ _ h0⟩
    · refine Or.inr ⟨by simpa using h, fun t ht _ h2 => h ?_⟩
      rw [← h2, mul_div_cancel_right₀ _ h0]; exact ht
  by_cases h1 : absF (dot n w) > 1 / 10000
  · refine main (by intro h; rw [h] at h1; norm_num [absF_eq] at h1) ?_
    simp only [Plane.intersectsRay, Plane.intersectLinePlane, hz, sub_zero, if_pos h1, Bool.true_and]
  · by_cases h2 : dot n w ≠ 0 ∧ absF (d / dot n w) < 10000
    · refine main h2.1 ?_
      simp only [Plane.intersectsRay, Plane.intersectLinePlane, hz, sub_zero, if_neg h1, if_pos h2, Bool.true_and]
    · right
      constructor
      · simp only [Plane.intersectsRay, Plane.intersectLinePlane, hz, sub_zero, if_neg h1, if_neg h2]
        rw [equalAbs, zero_sub, absF_eq, abs_neg]
        simp only [Bool.and_eq_false_iff, decide_eq_false_iff_not, not_lt]
        exact Or.inl hd.le
      · intro t ht0 ht h
        apply h2
        have h0 : dot n w ≠ 0 := by intro h3; rw [h3, mul_zero] at h; exact hd0 h.symm
        refine ⟨h0, ?_⟩
        rw [← h, mul_div_cancel_right₀ _ h0, absF_eq, abs_of_nonneg ht0]
        exact ht

theorem rayScan_spec {x w : V3 ℝ} (hw : dot w w = 1)
    (hnear : ∀ y ∈ hull3 p.v, V3.dist x y < 10000) : ∀ (fs : List (List ℤ)),
    (∀ f ∈ fs, ∃ n, GoodFace p f n ∧ (∀ a ∈ f, 1 / 1000 < |dot n (x - corner p.v a)|) ∧ (∀ y ∈ hull3 (f.map (corner p.v)), y ∈ hull3 p.v) ∧
      ∀ t : ℝ, 0 ≤ t → (∀ a ∈ f, dot n (x + t • w - corner p.v a) = 0) →
        (∃ r : ℝ, 2 / 10000 < r ∧ ∀ y, dot n y = dot n (x + t • w) → V3.dist (x + t • w) y ≤ r → y ∈ hull3 (f.map (corner p.v))) ∨
          ∀ y ∈ hull3 (f.map (corner p.v)), 2 / 10000 < V3.dist (x + t • w) y) →
    ∀ (m : ℕ) (d : EReal), 0 ≤ d → ∃ d', 0 ≤ d' ∧
      p.rayScan x w fs m d = some (m + (fs.countP fun f => @decide (Hit p.v x w f) (Classical.propDecidable _)), d') := by
  intro fs
  induction fs with
  | nil => intro _ m d hd; exact ⟨d, hd, rfl⟩
  | cons f fs ih =>
    intro h m d hd
    have ih' := ih fun g hg => h g (by simp [hg])
    obtain ⟨n, g, hoff, hsub, hclear⟩ := h f (by simp)
    have hl : 3 ≤ f.length := by simpa using g.convex.2.1
    have hpl := g.plane
    have hplane : ∀ y ∈ hull3 (f.map (corner p.v)), ∀ a ∈ f, dot n (y - corner p.v a) = 0 := by
      intro y hy a ha
      refine hy {y | dot n (y - corner p.v a) = 0} ?_ ?_
      · intro u hu v hv s t _ _ hst
        have ht' : t = 1 - s := by linarith
        subst ht'
        have hu' : dot n (u - corner p.v a) = 0 := hu
        have hv' : dot n (v - corner p.v a) = 0 := hv
        show dot n (s • u + (1 - s) • v - corner p.v a) = 0
        have : dot n (s • u + (1 - s) • v - corner p.v a) = s * dot n (u - corner p.v a) + (1 - s) * dot n (v - corner p.v a) := by
          simp only [dot, sub_x, sub_y, sub_z, add_x, add_y, add_z, smul_x, smul_y, smul_z]; ring
        rw [this, hu', hv']; ring
      · intro v hv
        show dot n (v - corner p.v a) = 0
        rw [dot_sub, g.convex.plane hv (List.mem_map.2 ⟨a, ha, rfl⟩), sub_self]
    rcases f with _ | ⟨a, _ | ⟨b, _ | ⟨c, r⟩⟩⟩
    · simp at hl
    · simp at hl
    · simp at hl
    have ha := g.range a (by simp)
    have hb := g.range b (by simp)
    have hc := g.range c (by simp)
    obtain ⟨pl, e1, e2, -⟩ := hpl
    have e3 : pl = Plane.setPoints (corner p.v a) (corner p.v b) (corner p.v c) := by
      simp only [facePlane, vertex_corner ha.1 ha.2, vertex_corner hb.1 hb.2, vertex_corner hc.1 hc.2, Option.bind_eq_bind,
        Option.bind_some, Option.some.injEq] at e1
      exact e1.symm
    rw [e3] at e2
    rw [rayScan]
    simp only [vertex_corner ha.1 ha.2, vertex_corner hb.1 hb.2, vertex_corner hc.1 hc.2, Option.bind_eq_bind, Option.bind_some]
    rw [setPoints_shift, e2]
    have hdot : dot n (corner p.v a - x) = -dot n (x - corner p.v a) := by simp only [dot, sub_x, sub_y, sub_z]; ring
    have hoa : 1 / 1000 < |dot n (corner p.v a - x)| := by rw [hdot, abs_neg]; exact hoff a (by simp)
    have hline : ∀ t : ℝ, dot n (x + t • w - corner p.v a) = t * dot n w - dot n (corner p.v a - x) := by
      intro t; simp only [dot, sub_x, sub_y, sub_z, add_x, add_y, add_z, smul_x, smul_y, smul_z]; ring
    have hall : ∀ y, dot n (y - corner p.v a) = 0 → ∀ i ∈ a :: b :: c :: r, dot n (y - corner p.v i) = 0 := by
      intro y hy i hi
      have := g.convex.plane (x := corner p.v i) (y := corner p.v a) (List.mem_map.2 ⟨i, hi, rfl⟩) (by simp)
      rw [dot_sub] at hy ⊢; linarith
    rw [List.countP_cons]
    rcases intersectsRay_off n (dot n (corner p.v a - x)) w hoa with ⟨h1, h2, h3, h4⟩ | ⟨h1, h2⟩
    · rw [if_pos h1]
      set t := ((Plane.mk n (dot n (corner p.v a - x))).intersectsRay ⟨⟨0, 0, 0⟩, w⟩).2 with ht
      have eq : (⟨0, 0, 0⟩ : V3 ℝ) + t • w + x = x + t • w := by
        ext <;> simp only [add_x, add_y, add_z, smul_x, smul_y, smul_z] <;> ring
      rw [eq]
      have hq : ∀ i ∈ a :: b :: c :: r, dot n (x + t • w - corner p.v i) = 0 := hall _ (by rw [hline, h4, sub_self])
      obtain ⟨cv, hcv, hnr, hdp⟩ := face_value g hq (th := 1 / 1000) (by norm_num)
      have hin : (∃ r' : ℝ, 2 / 10000 < r' ∧ ∀ y, dot n y = dot n (x + t • w) → V3.dist (x + t • w) y ≤ r' →
          y ∈ hull3 ((a :: b :: c :: r).map (corner p.v))) → x + t • w ∈ hull3 ((a :: b :: c :: r).map (corner p.v)) := by
        rintro ⟨r', hr', hh⟩
        exact hh _ rfl (by rw [V3.dist_self]; linarith)
      have hiff : 0 ≤ cv ↔ Hit p.v x w (a :: b :: c :: r) := by
        constructor
        · intro h0
          obtain ⟨y, hy, hyd⟩ := hnr h0
          rcases hclear t h2 hq with hD | hF
          · exact ⟨t, h2, hin hD⟩
          · exact absurd hyd (not_le.2 (hF y hy))
        · rintro ⟨u, hu, hu2⟩
          have hut : u = t := by
            have h5 := hplane _ hu2 a (by simp)
            rw [hline, ← h4] at h5
            have : (u - t) * dot n w = 0 := by linarith
            have := (mul_eq_zero.1 this).resolve_right h3
            linarith
          rw [hut] at hu2
          rcases hclear t h2 hq with hD | hF
          · exact hdp hD
          · have := hF _ hu2
            rw [V3.dist_self] at this
            norm_num at this
      rw [hcv]
      simp only [Option.bind_some]
      have hmx : 0 ≤ max cv (-cv) := by
        rcases le_total 0 cv with h5 | h5
        · exact h5.trans (le_max_left _ _)
        · exact (EReal.neg_nonneg.2 h5).trans (le_max_right _ _)
      obtain ⟨d', hd', hres⟩ := ih' (if cv ≥ 0 then m + 1 else m) (min d (max cv (-cv))) (le_min hd hmx)
      refine ⟨d', hd', ?_⟩
      rw [hres]
      by_cases h0 : 0 ≤ cv
      · rw [if_pos h0]
        simp only [hiff.1 h0, decide_true, if_true]
        congr 2; omega
      · rw [if_neg h0]
        have : ¬ Hit p.v x w (a :: b :: c :: r) := fun hh => h0 (hiff.2 hh)
        simp only [this, decide_false, Bool.false_eq_true, if_false, Nat.add_zero]
    · rw [if_neg (by rw [h1]; simp)]
      have : ¬ Hit p.v x w (a :: b :: c :: r) := by
        rintro ⟨u, hu, hu2⟩
        have hl1 : len w = 1 := by
          have : _ = dot w w := len_mul_self w
          rw [hw] at this
          nlinarith [len_nonneg w]
        have hu3 : u < 10000 := by
          have := hnear _ (hsub _ hu2)
          have e : x + u • w - x = u • w := by ext <;> simp
          rwa [V3.dist_comm, dist_eq_len, e, len_smul, hl1, abs_of_nonneg hu, mul_one] at this
        have h5 := hplane _ hu2 a (by simp)
        rw [hline] at h5
        exact h2 u hu hu3 (by linarith)
      obtain ⟨d', hd', hres⟩ := ih' m d hd
      refine ⟨d', hd', ?_⟩
      rw [hres]
      simp only [this, decide_false, Bool.false_eq_true, if_false, Nat.add_zero]

/-- If every test ray yields the right parity, the loop returns it. -/
theorem rayLoop_spec {x : V3 ℝ} {b : Bool} : ∀ (fs : List (List ℤ)),
    (∀ f ∈ fs, 3 ≤ f.length ∧ (∀ i ∈ f, 0 ≤ i ∧ i < p.v.length) ∧
      1 / 1000000 < len (cornerSum oneThird (f.map (corner p.v)) - x) ∧
      ∃ m d, p.rayScan x (f3Normalized (cornerSum oneThird (f.map (corner p.v)) - x)) p.f 0 ⊤ = some (m, d) ∧ 0 ≤ d ∧ (decide (m % 2 = 1) = b)) →
    ∀ (best : ℕ) (bestD : EReal), (decide (best % 2 = 1) = b ∨ fs ≠ [] ∧ bestD ≤ 0) → p.rayLoop x fs best bestD = some b := by
  intro fs
  induction fs with
  | nil =>
    intro _ best bestD hb
    rcases hb with hb | hb
    · rw [rayLoop, hb]
    · exact absurd rfl hb.1
  | cons f fs ih =>
    intro h best bestD hb
    have ih' := ih fun g hg => h g (by simp [hg])
    obtain ⟨hl, hr, hlen, m, d, hscan, hd, hm⟩ := h f (by simp)
    rcases f with _ | ⟨a, _ | ⟨b', _ | ⟨c, r⟩⟩⟩
    · simp at hl
    · simp at hl
    · simp at hl
    have ha := hr a (by simp)
    have hb' := hr b' (by simp)
    have hc := hr c (by simp)
    rw [rayLoop]
    simp only [vertex_corner ha.1 ha.2, vertex_corner hb'.1 hb'.2, vertex_corner hc.1 hc.2, Option.bind_eq_bind, Option.bind_some]
    simp only [List.map_cons, cornerSum] at hlen hscan
    rw [f3Normalized_pos hlen] at hscan
    rw [f3Normalize_pos hlen, if_neg (by dsimp only; linarith), hscan]
    simp only [Option.bind_some]
    split_ifs with h1 h2
    · rw [hm]
    · exact ih' _ _ (Or.inl hm)
    · refine ih' _ _ (Or.inl ?_)
      rcases hb with hb | hb
      · exact hb
      · exact absurd (hb.2.trans hd) h2

end Polyhedron
end MGL
