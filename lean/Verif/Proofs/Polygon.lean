import Verif.Model.Polygon
import Verif.Proofs.PolygonEars
import Verif.Proofs.OBB
import Verif.Proofs.Float3R
import Verif.Proofs.ConvexSurface

/-! Helper lemmas for polygons: plane, basis, maps to and from the plane. -/

namespace MGL
open V3 Spec
namespace Polygon
set_option linter.unusedSectionVars false

/-- The cross product of two vectors of a plane is a multiple of the unit normal. -/
theorem cross_parallel {n x y : V3 ℝ} (hn : dot n n = 1) (hx : dot n x = 0) (hy : dot n y = 0) :
    cross x y = dot n (cross x y) • n := by
  unfold dot at *
  ext <;> simp only [cross, smul_x, smul_y, smul_z]
  · linear_combination (-(x.y * y.z - x.z * y.y)) * hn - (n.y * x.z - n.z * x.y) * hy + (n.y * y.z - n.z * y.y) * hx
  · linear_combination (-(x.z * y.x - x.x * y.z)) * hn - (n.z * x.x - n.x * x.z) * hy + (n.z * y.x - n.x * y.z) * hx
  · linear_combination (-(x.x * y.y - x.y * y.x)) * hn - (n.x * x.y - n.y * x.x) * hy + (n.x * y.y - n.y * y.x) * hx

/-- The oriented plane through three points. -/
noncomputable def triPlane (a b c : V3 ℝ) : Plane ℝ :=
  ⟨(1 / len (cross (b - a) (c - a))) • cross (b - a) (c - a), dot ((1 / len (cross (b - a) (c - a))) • cross (b - a) (c - a)) a⟩

theorem planeScanK_some {a b : V3 ℝ} {r : List (V3 ℝ)} {pl : Plane ℝ} (h : planeScanK a b r = some pl) :
    ∃ c ∈ r, 1 / 100000000 < lenSq (cross (b - a) (c - a)) ∧ pl = triPlane a b c := by
  induction r with
  | nil => cases h
  | cons c r ih =>
    rw [planeScanK] at h
    dsimp only at h
    split_ifs at h with h1
    · cases h
      exact ⟨c, List.mem_cons_self .., h1, rfl⟩
    · obtain ⟨c', h2, h3⟩ := ih h
      exact ⟨c', List.mem_cons_of_mem _ h2, h3⟩

theorem planeScanK_none {a b : V3 ℝ} {r : List (V3 ℝ)} (h : planeScanK a b r = none) :
    ∀ c ∈ r, lenSq (cross (b - a) (c - a)) ≤ 1 / 100000000 := by
  induction r with
  | nil => simp
  | cons c r ih =>
    rw [planeScanK] at h
    dsimp only at h
    split_ifs at h with h1
    intro c' hc'
    rcases List.mem_cons.1 hc' with rfl | hc'
    · exact not_lt.1 h1
    · exact ih h c' hc'

theorem planeScanJ_some {a : V3 ℝ} {r : List (V3 ℝ)} {pl : Plane ℝ} (h : planeScanJ a r = some pl) :
    ∃ b c, [b, c].Sublist r ∧ 1 / 100000000 < lenSq (cross (b - a) (c - a)) ∧ pl = triPlane a b c := by
  induction r with
  | nil => cases h
  | cons b r ih =>
    rw [planeScanJ] at h
    cases hk : planeScanK a b r with
    | some q =>
      rw [hk] at h
      cases h
      obtain ⟨c, h1, h2⟩ := planeScanK_some hk
      exact ⟨b, c, List.Sublist.cons_cons _ (List.singleton_sublist.2 h1), h2⟩
    | none =>
      rw [hk] at h
      obtain ⟨b', c, h1, h2⟩ := ih h
      exact ⟨b', c, List.Sublist.cons _ h1, h2⟩

theorem planeScanJ_none {a : V3 ℝ} {r : List (V3 ℝ)} (h : planeScanJ a r = none) :
    r.Pairwise fun b c => lenSq (cross (b - a) (c - a)) ≤ 1 / 100000000 := by
  induction r with
  | nil => simp
  | cons b r ih =>
    rw [planeScanJ] at h
    cases hk : planeScanK a b r with
    | some q => rw [hk] at h; cases h
    | none =>
      rw [hk] at h
      exact List.pairwise_cons.2 ⟨planeScanK_none hk, ih h⟩

theorem planeScanI_some {r : List (V3 ℝ)} {pl : Plane ℝ} (h : planeScanI r = some pl) :
    ∃ a b c, [a, b, c].Sublist r ∧ 1 / 100000000 < lenSq (cross (b - a) (c - a)) ∧ pl = triPlane a b c := by
  induction r with
  | nil => cases h
  | cons a r ih =>
    rw [planeScanI] at h
    cases hk : planeScanJ a r with
    | some q =>
      rw [hk] at h
      cases h
      obtain ⟨b, c, h1, h2⟩ := planeScanJ_some hk
      exact ⟨a, b, c, List.Sublist.cons_cons _ h1, h2⟩
    | none =>
      rw [hk] at h
      obtain ⟨a', b', c, h1, h2⟩ := ih h
      exact ⟨a', b', c, List.Sublist.cons _ h1, h2⟩

theorem planeScanI_none {r : List (V3 ℝ)} (h : planeScanI r = none) :
    r.Triplewise fun a b c => lenSq (cross (b - a) (c - a)) ≤ 1 / 100000000 := by
  induction r with
  | nil => exact List.Triplewise.nil
  | cons a r ih =>
    rw [planeScanI] at h
    cases hk : planeScanJ a r with
    | some q => rw [hk] at h; cases h
    | none =>
      rw [hk] at h
      exact List.triplewise_cons.2 ⟨planeScanJ_none hk, ih h⟩

/-- A polygon with a large enough triangle of vertices gets the plane of such a triangle. -/
theorem planeCCW_some {p : List (V3 ℝ)} (h : ∃ a b c, [a, b, c].Sublist p ∧ 1 / 100000000 < lenSq (cross (b - a) (c - a))) :
    ∃ a b c, [a, b, c].Sublist p ∧ 1 / 100000000 < lenSq (cross (b - a) (c - a)) ∧ planeCCW p = some (triPlane a b c) := by
  obtain ⟨a, b, c, hs, hl⟩ := h
  rcases p with _ | ⟨p0, _ | ⟨p1, _ | ⟨p2, _ | ⟨p3, r⟩⟩⟩⟩
  · exact absurd hs.length_le (by simp)
  · exact absurd hs.length_le (by simp)
  · exact absurd hs.length_le (by simp)
  · have := hs.eq_of_length_le (by simp)
    simp only [List.cons.injEq, and_true] at this
    obtain ⟨rfl, rfl, rfl⟩ := this
    exact ⟨a, b, c, hs, hl, rfl⟩
  · cases hq : planeScanI (p0 :: p1 :: p2 :: p3 :: r) with
    | none =>
      have := triplewise_sublist hs (planeScanI_none hq)
      rw [List.triplewise_triple] at this
      exact absurd hl (not_lt.2 this)
    | some q =>
      obtain ⟨a', b', c', h1, h2, h3⟩ := planeScanI_some hq
      exact ⟨a', b', c', h1, h2, by
        show some ((planeScanI (p0 :: p1 :: p2 :: p3 :: r)).getD _) = _
        rw [hq, h3]; rfl⟩

theorem triPlane_eq {n : V3 ℝ} {d : ℝ} (hn : dot n n = 1) {a b c : V3 ℝ} (ha : dot n a = d) (hb : dot n b = d) (hc : dot n c = d)
    (hl : 0 < lenSq (cross (b - a) (c - a))) :
    (0 < dot n (cross (b - a) (c - a)) ∧ triPlane a b c = ⟨n, d⟩) ∨ (dot n (cross (b - a) (c - a)) < 0 ∧ triPlane a b c = ⟨-n, -d⟩) := by
  have hx : dot n (b - a) = 0 := by rw [dot_sub]; linarith
  have hy : dot n (c - a) = 0 := by rw [dot_sub]; linarith
  have e := cross_parallel hn hx hy
  set w := cross (b - a) (c - a) with hw
  set t := dot n w with ht
  have hlen : len w = |t| := by
    have h1 : len n = 1 := by unfold len lenSq; rw [hn]; exact Real.sqrt_one
    rw [e, len_smul, h1, mul_one]
  have ht0 : t ≠ 0 := by
    intro h0
    rw [e, h0] at hl
    exact absurd hl (by simp [lenSq, dot])
  have key : ∀ s : ℝ, s * |t| = t → (1 / len w) • w = s • n := by
    intro s hs
    rw [hlen]
    have ht' : |t| ≠ 0 := abs_ne_zero.2 ht0
    rw [e]
    have h3 : t / |t| = s := by rw [div_eq_iff ht', hs]
    ext <;> simp only [smul_x, smul_y, smul_z] <;> rw [← h3] <;> ring
  rcases lt_or_gt_of_ne ht0 with h | h
  · right
    refine ⟨h, ?_⟩
    have := key (-1) (by rw [abs_of_neg h]; ring)
    unfold triPlane
    rw [← hw, this]
    have e2 : (-1 : ℝ) • n = -n := by ext <;> simp
    rw [e2]
    congr 1
    rw [← ha]; simp [dot]; ring
  · left
    refine ⟨h, ?_⟩
    have := key 1 (by rw [abs_of_pos h]; ring)
    unfold triPlane
    rw [← hw, this]
    have e2 : (1 : ℝ) • n = n := by ext <;> simp
    rw [e2, ha]

/-- What is used of the local basis of a polygon. -/
structure LocalBasis (p : List (V3 ℝ)) (m : V3 ℝ) : Prop where
  frame : Frame (basisU p) (basisV p) m
  cross_eq : cross (basisU p) (basisV p) = m

theorem localBasis {o q : V3 ℝ} {r : List (V3 ℝ)} {pl : Plane ℝ} (hpl : planeCCW (o :: q :: r) = some pl) (hm : dot pl.normal pl.normal = 1)
    (ho : dot pl.normal o = dot pl.normal q) (he : 1 / 1000000 < dist o q) : LocalBasis (o :: q :: r) pl.normal := by
  have he' : 1 / 1000000 < len (q - o) := by rw [dist_comm, dist_eq_len] at he; exact he
  set u := basisU (o :: q :: r) with hu
  have hu1 : u = (1 / len (q - o)) • (q - o) := by rw [hu, basisU, f3Normalized_pos he']
  have huu : dot u u = 1 := by
    have := lenSq_normalized (q - o)
    rw [hu, basisU]; exact this
  have hum : dot u pl.normal = 0 := by
    rw [hu1]
    have : dot pl.normal (q - o) = 0 := by rw [dot_sub]; linarith
    have e : dot ((1 / len (q - o)) • (q - o)) pl.normal = (1 / len (q - o)) * dot pl.normal (q - o) := by
      simp only [dot, smul_x, smul_y, smul_z]; ring
    rw [e, this, mul_zero]
  set m := pl.normal with hmm
  have hv : basisV (o :: q :: r) = cross m u := by
    rw [basisV, if_neg (by simp), hpl]
    show f3Normalized (cross m u) = _
    apply f3Normalized_unit
    have e : lenSq (cross m u) = dot m m * dot u u - dot u m * dot u m := by simp only [lenSq, dot, cross]; ring
    rw [e, hm, huu, hum]; ring
  refine ⟨⟨huu, ?_, hm, ?_, hum, ?_⟩, ?_⟩
  · rw [hv]
    have e : dot (cross m u) (cross m u) = dot m m * dot u u - dot u m * dot u m := by simp only [dot, cross]; ring
    rw [e, hm, huu, hum]; ring
  · rw [hv, ← hu]; simp only [dot, cross]; ring
  · rw [hv]; simp only [dot, cross]; ring
  · rw [hv, ← hu]
    have e : cross u (cross m u) = dot u u • m - dot u m • u := by
      ext <;> simp only [cross, dot, sub_x, sub_y, sub_z, smul_x, smul_y, smul_z] <;> ring
    rw [e, huu, hum]; ext <;> simp

section
variable {p : List (V3 ℝ)} {m : V3 ℝ} (B : LocalBasis p m)
include B

/-- Coordinates relative to a point. -/
theorem LocalBasis.from_to (o x : V3 ℝ) (h : dot m (x - o) = 0) : x = o + dot (x - o) (basisU p) • basisU p + dot (x - o) (basisV p) • basisV p := by
  have := B.frame.eq_add o x
  have e : dot (x - o) m = 0 := by rw [← h]; simp only [dot]; ring
  rw [e] at this
  conv_lhs => rw [this]
  ext <;> simp

/-- The doubled signed area in local coordinates is the component of the cross product along the normal. -/
theorem LocalBasis.area_eq (o a b c : V3 ℝ) :
    area2 (⟨dot (a - o) (basisU p), dot (a - o) (basisV p)⟩ : V2 ℝ) ⟨dot (b - o) (basisU p), dot (b - o) (basisV p)⟩
      ⟨dot (c - o) (basisU p), dot (c - o) (basisV p)⟩ = dot m (cross (b - a) (c - a)) := by
  rw [← B.cross_eq]
  unfold area2
  simp only [dot, cross, sub_x, sub_y, sub_z]
  ring

end

/-! Hulls in local coordinates. -/

section
variable {p : List (V3 ℝ)} {m : V3 ℝ}

/-- Local coordinates relative to `c`. -/
noncomputable def loc (p : List (V3 ℝ)) (c y : V3 ℝ) : V2 ℝ := ⟨dot (y - c) (basisU p), dot (y - c) (basisV p)⟩

theorem loc_comb (p : List (V3 ℝ)) (c x y : V3 ℝ) {s t : ℝ} (h : s + t = 1) :
    loc p c (s • x + t • y) = ⟨s * (loc p c x).x + t * (loc p c y).x, s * (loc p c x).y + t * (loc p c y).y⟩ := by
  have ht : t = 1 - s := by linarith
  subst ht
  unfold loc
  simp only [V2.mk.injEq, dot, sub_x, sub_y, sub_z, add_x, add_y, add_z, smul_x, smul_y, smul_z]
  constructor <;> ring

theorem hull_loc (p : List (V3 ℝ)) (c : V3 ℝ) {q : List (V3 ℝ)} {x : V3 ℝ} (h : x ∈ hull3 q) : loc p c x ∈ hull2 (q.map (loc p c)) := by
  intro K hK hS
  refine h {y | loc p c y ∈ K} ?_ fun s hs => hS _ (List.mem_map_of_mem hs)
  intro x hx y hy s t hs ht hst
  show loc p c (s • x + t • y) ∈ K
  rw [loc_comb p c x y hst]
  exact hK _ hx _ hy s t hs ht hst

theorem hull_of_loc (B : LocalBasis p m) (c : V3 ℝ) {q : List (V3 ℝ)} {δ : ℝ} (hq : ∀ y ∈ q, dot m (y - c) = δ) {h : V2 ℝ}
    (hh : h ∈ hull2 (q.map (loc p c))) : c + h.x • basisU p + h.y • basisV p + δ • m ∈ hull3 q := by
  intro K hK hS
  refine hh {h | c + h.x • basisU p + h.y • basisV p + δ • m ∈ K} ?_ ?_
  · intro x hx y hy s t hs ht hst
    show c + (s * x.x + t * y.x) • basisU p + (s * x.y + t * y.y) • basisV p + δ • m ∈ K
    have := hK _ hx _ hy s t hs ht hst
    convert this using 1
    have ht' : t = 1 - s := by linarith
    subst ht'
    ext <;> simp only [add_x, add_y, add_z, smul_x, smul_y, smul_z] <;> ring
  · intro v hv
    obtain ⟨y, hy, rfl⟩ := List.mem_map.1 hv
    show c + dot (y - c) (basisU p) • basisU p + dot (y - c) (basisV p) • basisV p + δ • m ∈ K
    have e := B.frame.eq_add c y
    have e2 : dot (y - c) m = δ := by rw [← hq y hy]; simp only [dot]; ring
    rw [e2] at e
    rw [← e]
    exact hS y hy

theorem loc_of (B : LocalBasis p m) (c : V3 ℝ) (h : V2 ℝ) (δ : ℝ) : loc p c (c + h.x • basisU p + h.y • basisV p + δ • m) = h := by
  have := B.frame.coords c h.x h.y δ
  unfold loc
  rw [this.1, this.2.1]

theorem contains_eq {x : V3 ℝ} {th : ℝ} (B : LocalBasis p m) (hp : 3 ≤ p.length) {o : V3 ℝ} (ho : p.head? = some o) :
    contains p x th = (!decide (dot m (o - x) * dot m (o - x) > th) && evenOdd (p.map (loc p x))) := by
  rcases p with _ | ⟨p0, _ | ⟨p1, _ | ⟨p2, r⟩⟩⟩
  · cases ho
  · simp at hp
  · simp at hp
  · cases ho
    unfold contains
    dsimp only
    rw [B.cross_eq]
    split_ifs with h
    · simp [h]
    · simp only [h, decide_false, Bool.not_false, Bool.true_and]
      rfl

end

/-- The vertices of a convex polygon lie in one plane. -/
theorem _root_.MGL.Spec.ConvexPolygon.plane {n : V3 ℝ} {p : List (V3 ℝ)} (h : ConvexPolygon n p) {x y : V3 ℝ} (hx : x ∈ p) (hy : y ∈ p) :
    dot n x = dot n y := by
  obtain ⟨hn, hl, hT⟩ := h
  have T := List.triplewise_iff_getElem.1 hT
  have key : ∀ a b c : V3 ℝ, (∃ t : ℝ, 0 < t ∧ cross (b - a) (c - a) = t • n) → dot n a = dot n b ∧ dot n a = dot n c := by
    rintro a b c ⟨t, ht, e⟩
    have e1 : t * dot n (b - a) = 0 := by
      have : dot (cross (b - a) (c - a)) (b - a) = 0 := by simp only [dot, cross]; ring
      rw [e] at this
      rw [← this]; simp only [dot, smul_x, smul_y, smul_z]; ring
    have e2 : t * dot n (c - a) = 0 := by
      have : dot (cross (b - a) (c - a)) (c - a) = 0 := by simp only [dot, cross]; ring
      rw [e] at this
      rw [← this]; simp only [dot, smul_x, smul_y, smul_z]; ring
    have e1' := (mul_eq_zero.1 e1).resolve_left ht.ne'
    have e2' := (mul_eq_zero.1 e2).resolve_left ht.ne'
    rw [dot_sub] at e1' e2'
    exact ⟨by linarith, by linarith⟩
  have all : ∀ (i : ℕ) (hi : i < p.length), dot n p[i] = dot n p[0] := by
    intro i hi
    rcases Nat.eq_zero_or_pos i with h0 | h0
    · subst h0; rfl
    · rcases Nat.lt_or_ge (i + 1) p.length with h1 | h1
      · exact (key _ _ _ (T 0 i (i + 1) h0 (by omega) h1)).1.symm
      · exact (key _ _ _ (T 0 1 i (by omega) (by omega) hi)).2.symm
  obtain ⟨i, hi, rfl⟩ := List.mem_iff_getElem.1 hx
  obtain ⟨j, hj, rfl⟩ := List.mem_iff_getElem.1 hy
  rw [all i hi, all j hj]

/-- The plane of a convex polygon. -/
theorem planeCCW_convex {n : V3 ℝ} {p : List (V3 ℝ)} (h : ConvexPolygon n p) {o : V3 ℝ} (ho : p.head? = some o)
    (hb : p.length = 3 ∨ ∃ a b c, [a, b, c].Sublist p ∧ 1 / 100000000 < lenSq (cross (b - a) (c - a))) :
    planeCCW p = some ⟨n, dot n o⟩ := by
  have hom : o ∈ p := List.mem_of_head? ho
  have tri : ∀ a b c, [a, b, c].Sublist p → triPlane a b c = ⟨n, dot n o⟩ := by
    intro a b c hs
    have := triplewise_sublist hs h.2.2
    rw [List.triplewise_triple] at this
    obtain ⟨t, ht, e⟩ := this
    have ha : a ∈ p := hs.subset (by simp)
    have hb : b ∈ p := hs.subset (by simp)
    have hc : c ∈ p := hs.subset (by simp)
    have hd : dot n (cross (b - a) (c - a)) = t := by
      rw [e]; have := h.1; unfold dot at *; simp only [smul_x, smul_y, smul_z]; linear_combination t * this
    have hl : 0 < lenSq (cross (b - a) (c - a)) := by
      have e2 : lenSq (cross (b - a) (c - a)) = t * t * dot n n := by rw [e]; simp only [lenSq, dot, smul_x, smul_y, smul_z]; ring
      rw [e2, h.1]; positivity
    rcases triPlane_eq h.1 (h.plane ha hom) (h.plane hb hom) (h.plane hc hom) hl with ⟨_, h2⟩ | ⟨h1, _⟩
    · exact h2
    · rw [hd] at h1; linarith
  rcases hb with hb | hb
  · rcases p with _ | ⟨p0, _ | ⟨p1, _ | ⟨p2, _ | ⟨p3, r⟩⟩⟩⟩
    · simp at hb
    · simp at hb
    · simp at hb
    · exact congrArg some (tri p0 p1 p2 (List.Sublist.refl _))
    · simp at hb
  · obtain ⟨a, b, c, h1, _, h3⟩ := planeCCW_some hb
    rw [h3, tri a b c h1]

/-- The basis of a convex polygon. -/
theorem convexBasis {n : V3 ℝ} {o q : V3 ℝ} {r : List (V3 ℝ)} (h : ConvexPolygon n (o :: q :: r))
    (hb : (o :: q :: r).length = 3 ∨ ∃ a b c, [a, b, c].Sublist (o :: q :: r) ∧ 1 / 100000000 < lenSq (cross (b - a) (c - a)))
    (he : 1 / 1000000 < dist o q) : LocalBasis (o :: q :: r) n :=
  localBasis (pl := ⟨n, dot n o⟩) (planeCCW_convex h rfl hb) h.1 (h.plane (by simp) (by simp)) he

/-- In local coordinates a convex polygon is counter-clockwise. -/
theorem loc_strict {n : V3 ℝ} {p : List (V3 ℝ)} (h : ConvexPolygon n p) (B : LocalBasis p n) (c : V3 ℝ) :
    (p.map (loc p c)).Triplewise fun a b c => 0 < area2 a b c := by
  rw [List.triplewise_map]
  refine h.2.2.imp ?_
  rintro x y z ⟨t, ht, e⟩
  have := B.area_eq c x y z
  show 0 < area2 (loc p c x) (loc p c y) (loc p c z)
  rw [show area2 (loc p c x) (loc p c y) (loc p c z) = _ from this, e]
  have h1 := h.1
  have e2 : dot n (t • n) = t := by unfold dot at *; simp only [smul_x, smul_y, smul_z]; linear_combination t * h1
  rw [e2]; exact ht

end Polygon
end MGL
