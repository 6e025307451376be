import Verif.Props.PolygonTriangulate
import Verif.Props.AABBEnclose
import Verif.Proofs.ConvexSurface
import Verif.Spec.Mesh

/-! Property C84: plane, basis, shape tests and measures of polygons. -/

set_option linter.unusedSectionVars false

namespace MGL
open V3 Spec
namespace Polygon

theorem dot_neg' (n x : V3 ℝ) : dot (-n) x = -dot n x := by simp only [dot, neg_x, neg_y, neg_z]; ring

/-- C84: `PlaneCCW` of a planar polygon some three of whose vertices span a large enough triangle is the plane of the polygon, with one
or the other orientation, and `PlaneCW` is the same plane turned over. -/
theorem C84_plane (p : List (V3 ℝ)) (n : V3 ℝ) (d : ℝ) (hn : dot n n = 1) (hp : ∀ x ∈ p, dot n x = d) (ht : HasTriangle p) :
    (planeCCW p = some ⟨n, d⟩ ∧ planeCW p = some ⟨-n, -d⟩) ∨ (planeCCW p = some ⟨-n, -d⟩ ∧ planeCW p = some ⟨n, d⟩) := by
  obtain ⟨a, b, c, hs, hl, hpl⟩ := planeCCW_some (hasTriangle_iff ht)
  have hm : ∀ {x}, x ∈ [a, b, c] → dot n x = d := fun hx => hp _ (hs.subset hx)
  unfold planeCW
  rcases triPlane_eq hn (hm (by simp)) (hm (by simp)) (hm (by simp)) (lt_trans (by norm_num) hl) with ⟨_, h2⟩ | ⟨_, h2⟩
  · rw [h2] at hpl
    exact Or.inl ⟨hpl, by rw [hpl]; rfl⟩
  · rw [h2] at hpl
    exact Or.inr ⟨hpl, by rw [hpl]; simp [Plane.reverseNormal]⟩

example := C84_plane exEll ⟨0, 0, 1⟩ 0 (by norm_num [dot]) exEll_plane exEll_big

/-- C84: for a strictly convex polygon the orientation is right: the normal of `PlaneCCW` is the one about which the vertices are listed
counter-clockwise. -/
theorem C84_plane_convex (p : List (V3 ℝ)) (n : V3 ℝ) (hc : ConvexPolygon n p) (ht : p.length = 3 ∨ HasTriangle p) (x : V3 ℝ) (hx : x ∈ p) :
    planeCCW p = some ⟨n, dot n x⟩ ∧ ∀ y ∈ p, dot n y = dot n x := by
  have ho : ∃ o, p.head? = some o := by
    rcases p with _ | ⟨o, r⟩
    · cases hx
    · exact ⟨o, rfl⟩
  obtain ⟨o, ho⟩ := ho
  refine ⟨?_, fun y hy => hc.plane hy hx⟩
  rw [planeCCW_convex hc ho (ht.imp id hasTriangle_iff), hc.plane (List.mem_of_head? ho) hx]

example := C84_plane_convex exSquare ⟨0, 0, 1⟩ exSquare_convex (Or.inr exSquare_big) ⟨0, 0, 0⟩ (by simp [exSquare])

/-- A small square in the plane `y = 0`. -/
noncomputable def exSmall : List (V3 ℝ) := [⟨0, 0, 0⟩, ⟨1 / 200, 0, 0⟩, ⟨1 / 200, 0, 1 / 200⟩, ⟨0, 0, 1 / 200⟩]

/-- C84: for small polygons `PlaneCCW` is not the plane of the polygon: the code finds no three vertices that span enough area and returns
an arbitrary plane through the first edge. The square of side `1/200` in the plane `y = 0` gets the plane `z = 0`, which misses two of
its corners. -/
theorem C84_plane_small_violation : planeCCW exSmall = some ⟨⟨0, 0, 1⟩, 0⟩ ∧ ∃ x ∈ exSmall, dot (⟨0, 0, 1⟩ : V3 ℝ) x ≠ 0 := by
  refine ⟨?_, ⟨0, 0, 1 / 200⟩, by simp [exSmall], by norm_num [dot]⟩
  have h : planeScanI exSmall = none := by
    cases hI : planeScanI exSmall with
    | none => rfl
    | some pl =>
      exfalso
      obtain ⟨a, b, c, hs, hl, -⟩ := planeScanI_some hI
      have hb : ∀ x ∈ exSmall, x.y = 0 ∧ 0 ≤ x.x ∧ x.x ≤ 1 / 200 ∧ 0 ≤ x.z ∧ x.z ≤ 1 / 200 := by
        intro x hx
        simp only [exSmall, List.mem_cons, List.not_mem_nil, or_false] at hx
        rcases hx with rfl | rfl | rfl | rfl <;> norm_num
      obtain ⟨a1, a2, a3, a4, a5⟩ := hb a (hs.subset (by simp))
      obtain ⟨b1, b2, b3, b4, b5⟩ := hb b (hs.subset (by simp))
      obtain ⟨c1, c2, c3, c4, c5⟩ := hb c (hs.subset (by simp))
      simp only [lenSq, dot, cross, sub_x, sub_y, sub_z, a1, b1, c1] at hl
      have m1 : ∀ {u v : ℝ}, |u| ≤ 1 / 200 → |v| ≤ 1 / 200 → |u * v| ≤ 1 / 40000 := by
        intro u v hu hv
        rw [abs_mul]
        calc |u| * |v| ≤ 1 / 200 * (1 / 200) := mul_le_mul hu hv (abs_nonneg _) (by norm_num)
          _ = _ := by norm_num
      have k1 := abs_le.1 (m1 (u := b.z - a.z) (v := c.x - a.x) (abs_le.2 ⟨by linarith, by linarith⟩) (abs_le.2 ⟨by linarith, by linarith⟩))
      have k2 := abs_le.1 (m1 (u := b.x - a.x) (v := c.z - a.z) (abs_le.2 ⟨by linarith, by linarith⟩) (abs_le.2 ⟨by linarith, by linarith⟩))
      have k3 : |(b.z - a.z) * (c.x - a.x) - (b.x - a.x) * (c.z - a.z)| ≤ 2 / 40000 := abs_le.2 ⟨by linarith, by linarith⟩
      have k4 := sq_le_sq' (by linarith [(abs_le.1 k3).1]) (abs_le.1 k3).2
      nlinarith
  show some ((planeScanI exSmall).getD (planeAlong ⟨0, 0, 0⟩ ⟨1 / 200, 0, 0⟩)) = _
  rw [h]
  show some (planeAlong ⟨0, 0, 0⟩ ⟨1 / 200, 0, 0⟩) = _
  congr 1
  have hd : f3Normalized ((⟨1 / 200, 0, 0⟩ : V3 ℝ) - ⟨0, 0, 0⟩) = ⟨1, 0, 0⟩ := by
    have e : (⟨1 / 200, 0, 0⟩ : V3 ℝ) - ⟨0, 0, 0⟩ = ⟨1 / 200, 0, 0⟩ := by ext <;> simp
    have hl : len (⟨1 / 200, 0, 0⟩ : V3 ℝ) = 1 / 200 := by
      unfold len
      rw [show lenSq (⟨1 / 200, 0, 0⟩ : V3 ℝ) = (1 / 200) ^ 2 by norm_num [lenSq, dot], Real.sqrt_sq (by norm_num)]
    rw [e, f3Normalized_pos (by rw [hl]; norm_num), hl]
    ext <;> norm_num
  unfold planeAlong
  rw [hd]
  have hc : cross (⟨1, 0, 0⟩ : V3 ℝ) ⟨0, 1, 0⟩ = ⟨0, 0, 1⟩ := by ext <;> norm_num [cross]
  have hl1 : len (⟨0, 0, 1⟩ : V3 ℝ) = 1 := by norm_num [len, lenSq, dot]
  have hp : f3Perpendicular (⟨1, 0, 0⟩ : V3 ℝ) = ⟨0, 0, 1⟩ := by
    unfold f3Perpendicular
    rw [hc, f3Normalize_pos (by rw [hl1]; norm_num), hl1]
    simp
    ext <;> simp
  dsimp only
  rw [hp]
  unfold Plane.ofRay Plane.setPointNormal
  have e2 : (⟨0, 0, 1⟩ : V3 ℝ) - f3ProjectToNorm ⟨0, 0, 1⟩ ⟨1, 0, 0⟩ = ⟨0, 0, 1⟩ := by
    unfold f3ProjectToNorm
    ext <;> simp [dot]
  rw [e2, f3Normalized_unit (by norm_num [lenSq, dot])]
  norm_num [dot]

/-- C84: for a concave polygon the orientation may be wrong: the L-shape goes round counter-clockwise about `+z` (it encloses an area of
`+3`), but the normal of `PlaneCCW`, taken from the first three vertices, is `-z`. -/
theorem C84_plane_concave_violation : ((closedEdges exEll).map fun e => dot (⟨0, 0, 1⟩ : V3 ℝ) (cross e.1 e.2)).sum = 2 * 3 ∧
    planeCCW exEll = some ⟨⟨0, 0, -1⟩, 0⟩ := by
  refine ⟨?_, exEll_planeCCW⟩
  simp [closedEdges, exEll, dot, cross]
  norm_num

/-- C84: `MapTo2D` and `MapFrom2D` of a planar polygon are inverse to each other between the plane of the polygon and the
two-dimensional plane, and preserve distances. -/
theorem C84_maps (p : List (V3 ℝ)) (n : V3 ℝ) (d : ℝ) (hn : dot n n = 1) (hp : ∀ x ∈ p, dot n x = d) (ht : HasTriangle p) (he : FirstEdge p) :
    (∀ x, dot n x = d → ∃ q, mapTo2D p x = some q ∧ mapFrom2D p q = some x) ∧
    (∀ q, ∃ x, mapFrom2D p q = some x ∧ dot n x = d ∧ mapTo2D p x = some q) ∧
    (∀ x y a b, dot n x = d → dot n y = d → mapTo2D p x = some a → mapTo2D p y = some b →
      distSq x y = (a.x - b.x) ^ 2 + (a.y - b.y) ^ 2) := by
  obtain ⟨m, e, hm, hpl, B, hlen⟩ := planarBasis hn hp ht he
  obtain ⟨o, q, r, hpe, he⟩ := he
  have ho : p.head? = some o := by rw [hpe]; rfl
  have hod : dot n o = d := hp o (by rw [hpe]; simp)
  have hmo : ∀ x, dot n x = d → dot m (x - o) = 0 := by
    intro x hx
    rcases hm with ⟨rfl, -⟩ | ⟨rfl, -⟩
    · rw [dot_sub, hx, hod]; ring
    · rw [dot_neg', dot_sub, hx, hod]; ring
  have hto : ∀ x, mapTo2D p x = some (loc p o x) := fun x => by unfold mapTo2D; rw [ho]; rfl
  have hfrom : ∀ q : V2 ℝ, mapFrom2D p q = some (o + q.x • basisU p + q.y • basisV p) := fun q => by unfold mapFrom2D; rw [ho]; rfl
  have F := B.frame
  refine ⟨fun x hx => ⟨_, hto x, ?_⟩, fun q => ⟨_, hfrom q, ?_, ?_⟩, ?_⟩
  · rw [hfrom]
    congr 1
    exact (B.from_to o x (hmo x hx)).symm
  · have h1 : dot m (o + q.x • basisU p + q.y • basisV p) = dot m o := by
      have k1 := F.uw
      have k2 := F.vw
      unfold dot at *; simp only [add_x, add_y, add_z, smul_x, smul_y, smul_z]; linear_combination q.x * k1 + q.y * k2
    rcases hm with ⟨rfl, -⟩ | ⟨rfl, -⟩
    · rw [h1, hod]
    · rw [dot_neg', dot_neg', hod] at h1; linarith
  · rw [hto]
    have := loc_of B o q 0
    have e : o + q.x • basisU p + q.y • basisV p + (0 : ℝ) • m = o + q.x • basisU p + q.y • basisV p := by ext <;> simp
    rw [e] at this
    rw [this]
  · intro x y a b hx hy ha hb
    rw [hto] at ha hb
    cases ha; cases hb
    have k1 := B.from_to o x (hmo x hx)
    have k2 := B.from_to o y (hmo y hy)
    have e1 : x - y = ((loc p o x).x - (loc p o y).x) • basisU p + ((loc p o x).y - (loc p o y).y) • basisV p := by
      conv_lhs => rw [k1, k2]
      unfold loc
      ext <;> simp only [add_x, add_y, add_z, sub_x, sub_y, sub_z, smul_x, smul_y, smul_z] <;> ring
    unfold distSq
    rw [e1]
    have f1 := F.uu
    have f2 := F.vv
    have f3 := F.uv
    generalize (loc p o x).x - (loc p o y).x = s
    generalize (loc p o x).y - (loc p o y).y = t
    unfold lenSq dot at *
    simp only [add_x, add_y, add_z, smul_x, smul_y, smul_z]
    linear_combination s ^ 2 * f1 + t ^ 2 * f2 + 2 * s * t * f3

example := C84_maps exEll ⟨0, 0, 1⟩ 0 (by norm_num [dot]) exEll_plane exEll_big ⟨_, _, _, rfl, by rw [exEll_dist]; norm_num⟩

/-- C84: when the first three vertices are not on a line, `IsPlanar(epsilonSq)` decides whether all other vertices have a squared distance of
at most `epsilonSq` from the plane through the first three. -/
theorem C84_isPlanar_partial (a b c : V3 ℝ) (r : List (V3 ℝ)) (h : cross (b - a) (c - a) ≠ 0) (eps : ℝ) :
    isPlanar (a :: b :: c :: r) eps = true ↔
      ∀ x ∈ r, (dot ((1 / len (cross (b - a) (c - a))) • cross (b - a) (c - a)) (x - a)) ^ 2 ≤ eps := by
  have hl := lenSq_pos h
  have hL := len_mul_self (cross (b - a) (c - a))
  have hL0 : len (cross (b - a) (c - a)) ≠ 0 := by intro h0; rw [h0] at hL; linarith
  unfold isPlanar
  simp only [List.all_eq_true, Bool.not_eq_true', decide_eq_false_iff_not, gt_iff_lt, not_lt]
  refine forall₂_congr fun x _ => ?_
  have e : dot ((1 / len (cross (b - a) (c - a))) • cross (b - a) (c - a)) (x - a) = dot (cross (b - a) (c - a)) (x - a) / len (cross (b - a) (c - a)) := by
    generalize len (cross (b - a) (c - a)) = L
    simp only [dot, smul_x, smul_y, smul_z]; ring
  rw [e, div_pow, sq (len _), hL, div_le_iff₀ hl, sq]

example := C84_isPlanar_partial ⟨0, 0, 0⟩ ⟨1, 0, 0⟩ ⟨1, 1, 0⟩ [⟨0, 1, 0⟩]
  (by intro h; have := congrArg V3.z h; norm_num [cross] at this) (1 / 10000)

/-- C84: when the first three vertices are on a line, `IsPlanar` is true whatever the rest: here for five points that span space. -/
theorem C84_isPlanar_violation : isPlanar [⟨0, 0, 0⟩, ⟨1, 0, 0⟩, ⟨2, 0, 0⟩, ⟨0, 1, 0⟩, ⟨0, 0, 1⟩] = true ∧
    ¬ ∃ (n : V3 ℝ) (d : ℝ), dot n n = 1 ∧ ∀ x ∈ ([⟨0, 0, 0⟩, ⟨1, 0, 0⟩, ⟨2, 0, 0⟩, ⟨0, 1, 0⟩, ⟨0, 0, 1⟩] : List (V3 ℝ)), dot n x = d := by
  constructor
  · norm_num [isPlanar, cross, dot, lenSq]
  · rintro ⟨n, d, h1, h2⟩
    have e0 := h2 ⟨0, 0, 0⟩ (by simp)
    have ex := h2 ⟨1, 0, 0⟩ (by simp)
    have ey := h2 ⟨0, 1, 0⟩ (by simp)
    have ez := h2 ⟨0, 0, 1⟩ (by simp)
    simp only [dot, mul_zero, mul_one, add_zero, zero_add] at e0 ex ey ez h1
    rw [ex, ey, ez, ← e0] at h1
    norm_num at h1

theorem isConvexLoop_iff : ∀ (l : List (V2 ℝ)) (a b : V2 ℝ), isConvexLoop a b l = true ↔
    ∀ k x y z, (a :: b :: l)[k]? = some x → (a :: b :: l)[k + 1]? = some y → (a :: b :: l)[k + 2]? = some z → 0 ≤ area2 x y z
  | [], a, b => by
    simp [isConvexLoop]
  | c :: l, a, b => by
    rw [isConvexLoop]
    have ih := isConvexLoop_iff l b c
    have hor : orientedCCW a b c = true ↔ 0 ≤ area2 a b c := orientedCCW_iff a b c
    constructor
    · intro h
      split_ifs at h with h1
      rintro (_ | k) x y z hx hy hz
      · simp at hx hy hz
        subst hx hy hz
        exact hor.1 h1
      · exact ih.1 h k x y z (by simpa using hx) (by simpa using hy) (by simpa using hz)
    · intro h
      rw [if_pos (hor.2 (h 0 a b c rfl rfl rfl))]
      exact ih.2 fun k x y z hx hy hz => h (k + 1) x y z (by simpa using hx) (by simpa using hy) (by simpa using hz)

/-- C84: `IsConvex` of a planar polygon with four or more vertices decides whether, seen from the tip of the normal `m` of `PlaneCCW`, the
polygon turns left or goes straight on at every vertex. -/
theorem C84_isConvex_turns (p : List (V3 ℝ)) (n : V3 ℝ) (d : ℝ) (hn : dot n n = 1) (hp : ∀ x ∈ p, dot n x = d) (ht : HasTriangle p)
    (he : FirstEdge p) (h4 : 4 ≤ p.length) (m : V3 ℝ) (e : ℝ) (hpl : planeCCW p = some ⟨m, e⟩) :
    isConvex p = true ↔ ∀ i x y z, p[i]? = some x → p[(i + 1) % p.length]? = some y → p[(i + 2) % p.length]? = some z →
      0 ≤ dot m (cross (y - x) (z - x)) := by
  obtain ⟨m', e', hm, hpl', B, hlen⟩ := planarBasis hn hp ht he
  rw [hpl] at hpl'
  obtain ⟨rfl, rfl⟩ : m = m' ∧ e = e' := by simpa using hpl'
  obtain ⟨o, q, r, hpe, he⟩ := he
  have ho : p.head? = some o := by rw [hpe]; rfl
  have hl : p.filterMap (mapTo2D p) = p.map (loc p o) := by
    have : mapTo2D p = some ∘ loc p o := by funext x; unfold mapTo2D; rw [ho]; rfl
    rw [this, List.filterMap_eq_map]
  unfold isConvex
  rw [if_neg (by rw [hpe]; simp), if_neg (by omega)]
  dsimp only
  rw [hl, isConvexLoop_iff]
  set l := p.map (loc p o) with hld
  have hll : l.length = p.length := by rw [hld, List.length_map]
  have harea : ∀ x y z, area2 (loc p o x) (loc p o y) (loc p o z) = dot m (cross (y - x) (z - x)) := fun x y z => B.area_eq o x y z
  -- the entries of the extended list
  have hidx : ∀ k x, (l.getD (l.length - 2) 0 :: l.getD (l.length - 1) 0 :: l)[k]? = some x ↔
      k < p.length + 2 ∧ ∃ x', p[(k + p.length - 2) % p.length]? = some x' ∧ loc p o x' = x := by
    intro k x
    rcases k with _ | _ | k
    · rw [List.getElem?_cons_zero, Option.some.injEq, List.getD_eq_getElem?_getD, hld, List.length_map, List.getElem?_map,
        show (0 + p.length - 2) % p.length = p.length - 2 by rw [Nat.zero_add]; exact Nat.mod_eq_of_lt (by omega),
        List.getElem?_eq_getElem (by omega)]
      simp
    · rw [List.getElem?_cons_succ, List.getElem?_cons_zero, Option.some.injEq, List.getD_eq_getElem?_getD, hld, List.length_map, List.getElem?_map,
        show (0 + 1 + p.length - 2) % p.length = p.length - 1 by rw [show 0 + 1 + p.length - 2 = p.length - 1 by omega]; exact Nat.mod_eq_of_lt (by omega),
        List.getElem?_eq_getElem (by omega)]
      simp
    · rw [List.getElem?_cons_succ, List.getElem?_cons_succ, hld, List.getElem?_map, show k + 1 + 1 + p.length - 2 = k + p.length by omega, Nat.add_mod_right]
      by_cases hk : k < p.length
      · rw [Nat.mod_eq_of_lt hk]
        simp
        intro x' _ _; omega
      · rw [List.getElem?_eq_none (by omega)]
        simp
        intro h; omega
  constructor
  · intro h i x y z hx hy hz
    have hi : i < p.length := by
      by_contra hcon
      rw [List.getElem?_eq_none (by omega)] at hx; cases hx
    rw [← harea]
    by_cases h2 : i + 2 < p.length
    · rw [Nat.mod_eq_of_lt (by omega)] at hy hz
      refine h (i + 2) _ _ _ ((hidx _ _).2 ⟨by omega, x, ?_, rfl⟩) ((hidx _ _).2 ⟨by omega, y, ?_, rfl⟩) ((hidx _ _).2 ⟨by omega, z, ?_, rfl⟩)
      · rw [show i + 2 + p.length - 2 = i + p.length by omega, Nat.add_mod_right, Nat.mod_eq_of_lt hi]; exact hx
      · rw [show i + 2 + 1 + p.length - 2 = i + 1 + p.length by omega, Nat.add_mod_right, Nat.mod_eq_of_lt (by omega)]; exact hy
      · rw [show i + 2 + 2 + p.length - 2 = i + 2 + p.length by omega, Nat.add_mod_right, Nat.mod_eq_of_lt (by omega)]; exact hz
    · have hik : ∃ k, i + 2 = p.length + k ∧ k < 2 := ⟨i + 2 - p.length, by omega, by omega⟩
      obtain ⟨k, hk, hk2⟩ := hik
      refine h k _ _ _ ((hidx _ _).2 ⟨by omega, x, ?_, rfl⟩) ((hidx _ _).2 ⟨by omega, y, ?_, rfl⟩) ((hidx _ _).2 ⟨by omega, z, ?_, rfl⟩)
      · rw [show k + p.length - 2 = i by omega, Nat.mod_eq_of_lt hi]; exact hx
      · rw [show k + 1 + p.length - 2 = i + 1 by omega]; exact hy
      · rw [show k + 2 + p.length - 2 = i + 2 by omega]; exact hz
  · intro h k x y z hx hy hz
    obtain ⟨k1, x', hx', rfl⟩ := (hidx _ _).1 hx
    obtain ⟨k2, y', hy', rfl⟩ := (hidx _ _).1 hy
    obtain ⟨k3, z', hz', rfl⟩ := (hidx _ _).1 hz
    rw [harea]
    refine h ((k + p.length - 2) % p.length) x' y' z' hx' ?_ ?_
    · rw [← hy', Nat.mod_add_mod]; congr 2; omega
    · rw [← hz', Nat.mod_add_mod]; congr 2; omega

example := C84_isConvex_turns exEll ⟨0, 0, 1⟩ 0 (by norm_num [dot]) exEll_plane exEll_big ⟨_, _, _, rfl, by rw [exEll_dist]; norm_num⟩
  (by simp [exEll]) _ _ exEll_planeCCW

/-- C84: `IsConvex` is true for every strictly convex polygon. -/
theorem C84_isConvex_partial (p : List (V3 ℝ)) (n : V3 ℝ) (hc : ConvexPolygon n p) (ht : p.length = 3 ∨ HasTriangle p) (he : FirstEdge p) :
    isConvex p = true := by
  by_cases h4 : 4 ≤ p.length
  · have ht : HasTriangle p := ht.resolve_left (by omega)
    have hom : ∃ o, o ∈ p := by
      obtain ⟨o, q, r, rfl, -⟩ := he
      exact ⟨o, by simp⟩
    obtain ⟨o, hom⟩ := hom
    have hpl := C84_plane_convex p n hc (Or.inr ht) o hom
    rw [C84_isConvex_turns p n (dot n o) hc.1 hpl.2 ht he h4 n _ hpl.1]
    have T := List.triplewise_iff_getElem.1 hc.2.2
    have key : ∀ i j k (hij : i < j) (hjk : j < k) (hk : k < p.length), 0 ≤ dot n (cross (p[j] - p[i]) (p[k] - p[i])) := by
      intro i j k hij hjk hk
      obtain ⟨t, ht, e⟩ := T i j k hij hjk hk
      rw [e]
      have := hc.1
      have e2 : dot n (t • n) = t := by
        unfold dot at *; simp only [smul_x, smul_y, smul_z]; linear_combination t * this
      rw [e2]; exact ht.le
    have cyc : ∀ x y z : V3 ℝ, dot n (cross (y - x) (z - x)) = dot n (cross (z - y) (x - y)) := by
      intro x y z; simp only [dot, cross, sub_x, sub_y, sub_z]; ring
    intro i x y z hx hy hz
    obtain ⟨hi, rfl⟩ := List.getElem?_eq_some_iff.1 hx
    obtain ⟨hj, rfl⟩ := List.getElem?_eq_some_iff.1 hy
    obtain ⟨hk, rfl⟩ := List.getElem?_eq_some_iff.1 hz
    by_cases h2 : i + 2 < p.length
    · have e1 : (i + 1) % p.length = i + 1 := Nat.mod_eq_of_lt (by omega)
      have e2 : (i + 2) % p.length = i + 2 := Nat.mod_eq_of_lt (by omega)
      exact key _ _ _ (by omega) (by omega) hk
    · by_cases h1 : i + 1 < p.length
      · have e1 : (i + 1) % p.length = i + 1 := Nat.mod_eq_of_lt (by omega)
        have e2 : (i + 2) % p.length = 0 := by rw [show i + 2 = p.length by omega, Nat.mod_self]
        rw [cyc, cyc]
        exact key _ _ _ (by omega) (by omega) hj
      · have e1 : (i + 1) % p.length = 0 := by rw [show i + 1 = p.length by omega, Nat.mod_self]
        have e2 : (i + 2) % p.length = 1 := by
          rw [show i + 2 = 1 + p.length by omega, Nat.add_mod_right]; exact Nat.mod_eq_of_lt (by omega)
        rw [cyc]
        exact key _ _ _ (by omega) (by omega) hi
  · have := hc.2.1
    unfold isConvex
    rw [if_neg (by rw [List.isEmpty_iff_length_eq_zero]; omega), if_pos (by omega)]

example := C84_isConvex_partial exSquare ⟨0, 0, 1⟩ exSquare_convex (Or.inr exSquare_big) exSquare_edge

/-- A five-pointed star, drawn in one stroke. -/
def exStar : List (V3 ℝ) := [⟨0, 0, 0⟩, ⟨4, 0, 0⟩, ⟨1, 3, 0⟩, ⟨2, -2, 0⟩, ⟨3, 3, 0⟩]

theorem exStar_planeCCW : planeCCW exStar = some ⟨⟨0, 0, 1⟩, 0⟩ := by
  have e : cross ((⟨4, 0, 0⟩ : V3 ℝ) - ⟨0, 0, 0⟩) (⟨1, 3, 0⟩ - ⟨0, 0, 0⟩) = ⟨0, 0, 12⟩ := by ext <;> norm_num [cross]
  have e1 : lenSq (⟨0, 0, 12⟩ : V3 ℝ) = 12 ^ 2 := by norm_num [lenSq, dot]
  have h1 : planeScanI exStar = some ⟨⟨0, 0, 1⟩, 0⟩ := by
    have h2 : planeScanK (⟨0, 0, 0⟩ : V3 ℝ) ⟨4, 0, 0⟩ (⟨1, 3, 0⟩ :: [⟨2, -2, 0⟩, ⟨3, 3, 0⟩]) = some ⟨⟨0, 0, 1⟩, 0⟩ := by
      rw [planeScanK]
      simp only [e, e1]
      rw [if_pos (by norm_num), Real.sqrt_sq (by norm_num)]
      norm_num
      constructor
      · ext <;> norm_num
      · norm_num [dot]
    unfold exStar
    rw [planeScanI, planeScanJ, h2]
    rfl
  show some ((planeScanI exStar).getD (planeAlong _ _)) = _
  rw [h1]
  rfl

/-- C84: `IsConvex` is also true for the five-pointed star: it turns left at every vertex, but is not convex, whatever the normal. -/
theorem C84_isConvex_violation : isConvex exStar = true ∧ ¬ ∃ n, ConvexPolygon n exStar := by
  constructor
  · refine (C84_isConvex_turns exStar ⟨0, 0, 1⟩ 0 (by norm_num [dot]) ?_ ⟨⟨0, 0, 0⟩, ⟨4, 0, 0⟩, ⟨1, 3, 0⟩, by simp [exStar], ?_⟩ ⟨_, _, _, rfl, ?_⟩
      (by simp [exStar]) _ _ exStar_planeCCW).2 ?_
    · intro x hx
      simp only [exStar, List.mem_cons, List.not_mem_nil, or_false] at hx
      rcases hx with rfl | rfl | rfl | rfl | rfl <;> simp [dot]
    · have e : cross ((⟨4, 0, 0⟩ : V3 ℝ) - ⟨0, 0, 0⟩) (⟨1, 3, 0⟩ - ⟨0, 0, 0⟩) = ⟨0, 0, 12⟩ := by ext <;> norm_num [cross]
      rw [e]
      unfold len
      rw [show lenSq (⟨0, 0, 12⟩ : V3 ℝ) = 12 ^ 2 by norm_num [lenSq, dot], Real.sqrt_sq (by norm_num)]
      norm_num
    · rw [dist_eq_len]
      unfold len
      rw [show lenSq ((⟨0, 0, 0⟩ : V3 ℝ) - ⟨4, 0, 0⟩) = 4 ^ 2 by norm_num [lenSq, dot], Real.sqrt_sq (by norm_num)]
      norm_num
    · have hlen : exStar.length = 5 := rfl
      rw [hlen]
      intro i x y z hx hy hz
      have hi : i < 5 := by
        by_contra hcon
        rw [List.getElem?_eq_none (by rw [hlen]; omega)] at hx; cases hx
      interval_cases i <;> simp [exStar] at hx hy hz <;> subst hx <;> subst hy <;> subst hz <;> norm_num [dot, cross]
  · rintro ⟨n, hn, -, hT⟩
    have T := List.triplewise_iff_getElem.1 hT
    obtain ⟨t, ht, e⟩ := T 0 1 2 (by norm_num) (by norm_num) (by simp [exStar])
    obtain ⟨s, hs, e'⟩ := T 0 2 3 (by norm_num) (by norm_num) (by simp [exStar])
    have h1 := congrArg V3.z e
    have h2 := congrArg V3.z e'
    simp [exStar, cross] at h1 h2
    have h3 : 0 < n.z := by
      by_contra hcon
      nlinarith
    nlinarith

theorem foldl_min_le {c : Ext ℝ} : ∀ (l : List (Ext ℝ)) (m : Ext ℝ), l.foldl min2 m ≤ c ↔ m ≤ c ∨ ∃ x ∈ l, x ≤ c
  | [], m => by simp
  | x :: l, m => by
    rw [List.foldl_cons, foldl_min_le l, min2_eq, min_le_iff]
    simp only [List.mem_cons, exists_eq_or_imp]
    tauto

theorem le_foldl_max {c : Ext ℝ} : ∀ (l : List (Ext ℝ)) (m : Ext ℝ), c ≤ l.foldl max2 m ↔ c ≤ m ∨ ∃ x ∈ l, c ≤ x
  | [], m => by simp
  | x :: l, m => by
    rw [List.foldl_cons, le_foldl_max l, max2_eq, le_max_iff]
    simp only [List.mem_cons, exists_eq_or_imp]
    tauto

/-- C84: `Intersects(Plane)` decides whether some point of the convex hull of the vertices is within `1e-4` of the plane: for any list of
vertices at all. -/
theorem C84_intersectsPlane (p : List (V3 ℝ)) (pl : Plane ℝ) :
    intersectsPlane p pl = true ↔ ∃ x ∈ hull3 p, |dot pl.normal x - pl.d| ≤ 1 / 10000 := by
  unfold intersectsPlane
  simp only [Bool.and_eq_true, decide_eq_true_eq, ge_iff_le]
  rw [foldl_min_le, le_foldl_max]
  have e1 : ¬ ((⊤ : Ext ℝ) ≤ ((1 / 10000 : ℝ) : Ext ℝ)) := by rw [top_le_iff]; exact fun h => by cases h
  have e2 : ¬ (((-(1 / 10000) : ℝ) : Ext ℝ) ≤ (⊥ : Ext ℝ)) := by rw [le_bot_iff]; exact fun h => by cases h
  have e3 : ∀ a b : ℝ, ((a : Ext ℝ) ≤ (b : Ext ℝ)) ↔ a ≤ b := fun a b => by
    rw [WithBot.coe_le_coe, WithTop.coe_le_coe]
  have m1 : (∃ x ∈ p.map fun x => ((pl.signedDistance x : ℝ) : Ext ℝ), x ≤ ((1 / 10000 : ℝ) : Ext ℝ)) ↔ ∃ x ∈ p, dot pl.normal x - pl.d ≤ 1 / 10000 := by
    constructor
    · rintro ⟨_, h, h'⟩
      obtain ⟨x, hx, rfl⟩ := List.mem_map.1 h
      exact ⟨x, hx, (e3 _ _).1 h'⟩
    · rintro ⟨x, hx, h⟩
      exact ⟨_, List.mem_map_of_mem hx, (e3 _ _).2 h⟩
  have m2 : (∃ x ∈ p.map fun x => ((pl.signedDistance x : ℝ) : Ext ℝ), ((-(1 / 10000) : ℝ) : Ext ℝ) ≤ x) ↔ ∃ x ∈ p, -(1 / 10000) ≤ dot pl.normal x - pl.d := by
    constructor
    · rintro ⟨_, h, h'⟩
      obtain ⟨x, hx, rfl⟩ := List.mem_map.1 h
      exact ⟨x, hx, (e3 _ _).1 h'⟩
    · rintro ⟨x, hx, h⟩
      exact ⟨_, List.mem_map_of_mem hx, (e3 _ _).2 h⟩
  rw [m1, m2]
  simp only [e1, e2, false_or]
  constructor
  · rintro ⟨⟨a, ha, h1⟩, b, hb, h2⟩
    by_cases h3 : -(1 / 10000) ≤ dot pl.normal a - pl.d
    · exact ⟨a, Polyhedron.mem_hull ha, abs_le.2 ⟨h3, h1⟩⟩
    · by_cases h4 : dot pl.normal b - pl.d ≤ 1 / 10000
      · exact ⟨b, Polyhedron.mem_hull hb, abs_le.2 ⟨h2, h4⟩⟩
      · push Not at h3 h4
        set A := dot pl.normal a - pl.d with hA
        set C := dot pl.normal b - pl.d with hC
        have hpos : 0 < C - A := by linarith
        refine ⟨(C / (C - A)) • a + (-A / (C - A)) • b, ?_, ?_⟩
        · intro K hK hS
          exact hK _ (hS a ha) _ (hS b hb) _ _ (div_nonneg (by linarith) hpos.le) (div_nonneg (by linarith) hpos.le) (by field_simp; ring)
        · have e : dot pl.normal ((C / (C - A)) • a + (-A / (C - A)) • b) - pl.d = 0 := by
            have e5 : dot pl.normal ((C / (C - A)) • a + (-A / (C - A)) • b) = C / (C - A) * dot pl.normal a + -A / (C - A) * dot pl.normal b := by
              simp only [dot, add_x, add_y, add_z, smul_x, smul_y, smul_z]; ring
            have ea : dot pl.normal a = A + pl.d := by rw [hA]; ring
            have eb : dot pl.normal b = C + pl.d := by rw [hC]; ring
            rw [e5, ea, eb]
            field_simp
            ring
          rw [e, abs_zero]; norm_num
  · rintro ⟨x, hx, h⟩
    obtain ⟨h1, h2⟩ := abs_le.1 h
    constructor
    · by_contra hcon
      push Not at hcon
      have : dot pl.normal x - pl.d > 1 / 10000 := by
        refine hx {y | dot pl.normal y - pl.d > 1 / 10000} ?_ hcon
        intro a ha b hb s t hs ht hst
        have ha : dot pl.normal a - pl.d > 1 / 10000 := ha
        have hb : dot pl.normal b - pl.d > 1 / 10000 := hb
        show dot pl.normal (s • a + t • b) - pl.d > 1 / 10000
        have e : dot pl.normal (s • a + t • b) = s * dot pl.normal a + t * dot pl.normal b := by
          simp only [dot, add_x, add_y, add_z, smul_x, smul_y, smul_z]; ring
        rw [e]
        have ht' : t = 1 - s := by linarith
        subst ht'
        rcases eq_or_lt_of_le hs with h0 | h0
        · rw [← h0]; linarith
        · nlinarith [mul_pos h0 (sub_pos.2 ha), mul_nonneg ht (sub_pos.2 hb).le]
      linarith
    · by_contra hcon
      push Not at hcon
      have : dot pl.normal x - pl.d < -(1 / 10000) := by
        refine hx {y | dot pl.normal y - pl.d < -(1 / 10000)} ?_ hcon
        intro a ha b hb s t hs ht hst
        have ha : dot pl.normal a - pl.d < -(1 / 10000) := ha
        have hb : dot pl.normal b - pl.d < -(1 / 10000) := hb
        show dot pl.normal (s • a + t • b) - pl.d < -(1 / 10000)
        have e : dot pl.normal (s • a + t • b) = s * dot pl.normal a + t * dot pl.normal b := by
          simp only [dot, add_x, add_y, add_z, smul_x, smul_y, smul_z]; ring
        rw [e]
        have ht' : t = 1 - s := by linarith
        subst ht'
        rcases eq_or_lt_of_le hs with h0 | h0
        · rw [← h0]; linarith
        · nlinarith [mul_pos h0 (sub_pos.2 ha), mul_nonneg ht (sub_pos.2 hb).le]
      linarith

theorem extremeLoop_spec (dir : V3 ℝ) : ∀ (l : List (V3 ℝ)) (b : V3 ℝ), ∃ q, (q = b ∨ q ∈ l) ∧
    extremeLoop dir l (some b) ((dot dir b : ℝ) : Ext ℝ) = (some q, ((dot dir q : ℝ) : Ext ℝ)) ∧ dot dir b ≤ dot dir q ∧ ∀ x ∈ l, dot dir x ≤ dot dir q
  | [], b => ⟨b, Or.inl rfl, rfl, le_refl _, by simp⟩
  | x :: l, b => by
    have e3 : ((dot dir x : ℝ) : Ext ℝ) > ((dot dir b : ℝ) : Ext ℝ) ↔ dot dir b < dot dir x := by
      rw [gt_iff_lt, WithBot.coe_lt_coe, WithTop.coe_lt_coe]
    rw [extremeLoop]
    by_cases h : dot dir b < dot dir x
    · rw [if_pos (e3.2 h)]
      obtain ⟨q, h1, h2, h3, h4⟩ := extremeLoop_spec dir l x
      refine ⟨q, Or.inr ?_, h2, h.le.trans h3, ?_⟩
      · rcases h1 with rfl | h1 <;> simp [*]
      · intro y hy
        rcases List.mem_cons.1 hy with rfl | hy
        · exact h3
        · exact h4 y hy
    · rw [if_neg (fun h' => h (e3.1 h'))]
      obtain ⟨q, h1, h2, h3, h4⟩ := extremeLoop_spec dir l b
      refine ⟨q, h1.imp id (List.mem_cons_of_mem _), h2, h3, ?_⟩
      intro y hy
      rcases List.mem_cons.1 hy with rfl | hy
      · exact (not_lt.1 h).trans h3
      · exact h4 y hy

/-- C84: `ExtremePoint` returns a vertex that is extreme in the direction among all points of the convex hull, with its projection
distance; `ProjectToAxis` returns the range of the hull on the axis. -/
theorem C84_extremePoint (p : List (V3 ℝ)) (hp : p ≠ []) (dir : V3 ℝ) :
    (∃ q ∈ p, extremePoint p dir = (some q, Ext.of (dot dir q)) ∧ IsExtreme (hull3 p) dir q) ∧
    ∃ lo hi, projectToAxis p dir = some (lo, hi) ∧ IsProjection (hull3 p) dir lo hi := by
  have key : ∀ dir : V3 ℝ, ∃ q ∈ p, extremePoint p dir = (some q, Ext.of (dot dir q)) ∧ IsExtreme (hull3 p) dir q := by
    intro dir
    rcases p with _ | ⟨o, r⟩
    · exact absurd rfl hp
    · obtain ⟨q, h1, h2, h3, h4⟩ := extremeLoop_spec dir r o
      have hm : q ∈ o :: r := by rcases h1 with rfl | h1 <;> simp [*]
      refine ⟨q, hm, ?_, Polyhedron.mem_hull hm, fun s hs => Polyhedron.hull_le dir (fun v hv => ?_) hs⟩
      · unfold extremePoint
        rw [extremeLoop, if_pos (by exact WithBot.bot_lt_coe _), h2]
      · rcases List.mem_cons.1 hv with rfl | hv
        · exact h3
        · exact h4 v hv
  refine ⟨key dir, ?_⟩
  obtain ⟨a, ha, e1, h1⟩ := key dir
  obtain ⟨b, hb, e2, h2⟩ := key (-dir)
  refine ⟨dot b dir, dot a dir, ?_, ?_, ⟨b, h2.1, dot_comm _ _⟩, ⟨a, h1.1, dot_comm _ _⟩⟩
  · unfold projectToAxis
    rw [e1, e2]
    rfl
  · intro s hs
    have k1 := h1.2 s hs
    have k2 := h2.2 s hs
    rw [dot_neg', dot_neg'] at k2
    rw [dot_comm b, dot_comm a]
    exact ⟨by linarith, k1⟩

example := C84_extremePoint exSquare (by simp [exSquare]) ⟨1, 2, 3⟩

/-- C84: `MinimalEnclosingAABB` contains all vertices, and is contained in every other box that does. -/
theorem C84_minimalEnclosingAABB (p : List (V3 ℝ)) :
    (∀ x ∈ p, x.toExt ∈ box (minimalEnclosingAABB p).minPoint (minimalEnclosingAABB p).maxPoint) ∧
    ∀ mn mx, (∀ x ∈ p, x.toExt ∈ box mn mx) → box (minimalEnclosingAABB p).minPoint (minimalEnclosingAABB p).maxPoint ⊆ box mn mx := by
  obtain ⟨h1, h2, -⟩ := C16_setFrom_points (p.map fun x : V3 ℝ => x.toExt) []
  refine ⟨fun x hx => h1 _ (List.mem_map_of_mem hx), fun mn mx h => h2 mn mx ?_⟩
  intro q hq
  obtain ⟨x, hx, rfl⟩ := List.mem_map.1 hq
  exact h x hx

theorem areaLoop_eq (m : V3 ℝ) : ∀ (l : List (V3 ℝ)) (z acc : V3 ℝ), dot m (areaLoop z l acc) = dot m acc + ((walk z l).map fun e => dot m (cross e.1 e.2)).sum
  | [], z, acc => by simp [areaLoop, walk]
  | x :: l, z, acc => by
    rw [areaLoop, areaLoop_eq m l x, walk_cons, List.map_cons, List.sum_cons]
    have : dot m (acc + cross z x) = dot m acc + dot m (cross z x) := by simp only [dot, add_x, add_y, add_z]; ring
    rw [this]; ring

/-- C84: `Area` of a planar polygon, of whatever shape, is the absolute value of the signed area that it encloses. -/
theorem C84_area (p : List (V3 ℝ)) (n : V3 ℝ) (d : ℝ) (hn : dot n n = 1) (hp : ∀ x ∈ p, dot n x = d) (ht : HasTriangle p) :
    area p = 1 / 2 * |((closedEdges p).map fun e => dot n (cross e.1 e.2)).sum| := by
  have h3 : 3 ≤ p.length := by obtain ⟨a, b, c, hs, -⟩ := ht; exact hs.length_le
  have hz : ∃ z, p.getLast? = some z := by
    cases hz : p.getLast? with
    | none => rw [List.getLast?_eq_none_iff] at hz; rw [hz] at h3; simp at h3
    | some z => exact ⟨z, rfl⟩
  obtain ⟨z, hz⟩ := hz
  have hce : closedEdges p = walk z p := by rw [closedEdges, hz]; rfl
  have h0 : ∀ m : V3 ℝ, dot m 0 = 0 := fun m => by simp [dot]
  unfold area
  rw [if_neg (by omega), hz, hce]
  rcases C84_plane p n d hn hp ht with ⟨h, -⟩ | ⟨h, -⟩ <;> rw [h] <;> simp only [absF_eq, areaLoop_eq, h0, zero_add]
  congr 1
  simp only [dot_neg']
  rw [sum_map_neg', abs_neg]

example := C84_area exEll ⟨0, 0, 1⟩ 0 (by norm_num [dot]) exEll_plane exEll_big

theorem fan_sum (n a : V3 ℝ) : ∀ (r : List (V3 ℝ)) (b : V3 ℝ), ((walk b r).map fun e => dot n (cross (e.1 - a) (e.2 - a))).sum =
    ((fan a (b :: r)).map fun t => dot n (cross (t.2.1 - t.1) (t.2.2 - t.1))).sum
  | [], b => by simp [walk, fan]
  | c :: r, b => by
    rw [walk_cons, List.map_cons, List.sum_cons, fan_sum n a r c, fan, List.map_cons, List.sum_cons]

/-- C84: `Area` of a strictly convex polygon is the sum of the areas of the triangles of the fan around its first vertex. -/
theorem C84_area_convex (a : V3 ℝ) (r : List (V3 ℝ)) (n : V3 ℝ) (hc : ConvexPolygon n (a :: r)) (ht : HasTriangle (a :: r)) :
    area (a :: r) = ((fan a r).map fun t => 1 / 2 * len (cross (t.2.1 - t.1) (t.2.2 - t.1))).sum := by
  rw [C84_area (a :: r) n (dot n a) hc.1 (fun x hx => hc.plane hx (by simp)) ht]
  have key : ((closedEdges (a :: r)).map fun e => dot n (cross e.1 e.2)).sum = ((fan a r).map fun t => dot n (cross (t.2.1 - t.1) (t.2.2 - t.1))).sum := by
    rcases r with _ | ⟨b, r⟩
    · have := hc.2.1; simp at this
    · have hz : (a :: b :: r).getLast? = some (r.getLastD b) := by
        rw [List.getLast?_cons_cons, List.getLast?_cons, List.getLastD_eq_getLast?]
      have hce : closedEdges (a :: b :: r) = walk (r.getLastD b) (a :: b :: r) := by rw [closedEdges, hz]; rfl
      rw [hce, ← fan_sum]
      have e2 := walk_telescope (fun y => dot n (cross a y)) (a :: b :: r) (r.getLastD b)
      have hd : (a :: b :: r).getLastD (r.getLastD b) = r.getLastD b := by rw [List.getLastD_eq_getLast?, hz]; rfl
      rw [hd, sub_self] at e2
      have e3 : ∀ e : V3 ℝ × V3 ℝ, dot n (cross (e.1 - a) (e.2 - a)) = dot n (cross e.1 e.2) + (dot n (cross a e.1) - dot n (cross a e.2)) := by
        intro e; simp only [dot, cross, sub_x, sub_y, sub_z]; ring
      have e4 : ((walk (r.getLastD b) (a :: b :: r)).map fun e => dot n (cross (e.1 - a) (e.2 - a))).sum =
          ((walk (r.getLastD b) (a :: b :: r)).map fun e => dot n (cross e.1 e.2)).sum := by
        rw [show (fun e : V3 ℝ × V3 ℝ => dot n (cross (e.1 - a) (e.2 - a))) = fun e => dot n (cross e.1 e.2) + (dot n (cross a e.1) - dot n (cross a e.2))
          from funext e3, List.sum_map_add, e2, add_zero]
      rw [← e4, walk_cons, walk_cons, List.map_cons, List.map_cons, List.sum_cons, List.sum_cons]
      have z1 : dot n (cross (r.getLastD b - a) (a - a)) = 0 := by simp [dot, cross]
      have z2 : dot n (cross (a - a) (b - a)) = 0 := by simp [dot, cross]
      dsimp only
      rw [z1, z2]; ring
  have hlen : ∀ t ∈ fan a r, dot n (cross (t.2.1 - t.1) (t.2.2 - t.1)) = len (cross (t.2.1 - t.1) (t.2.2 - t.1)) := by
    intro t h
    obtain ⟨k, hk, e⟩ := fan_tri hc h
    have h1 := hc.1
    rw [e]
    have e2 : dot n (k • n) = k := by
      unfold dot at *; simp only [smul_x, smul_y, smul_z]; linear_combination k * h1
    have e3 : lenSq (k • n) = k ^ 2 := by
      unfold lenSq dot at *; simp only [smul_x, smul_y, smul_z]; linear_combination k ^ 2 * h1
    rw [e2, len, e3, Real.sqrt_sq hk.le]
  rw [key, List.map_congr_left hlen]
  have hnn : 0 ≤ ((fan a r).map fun t => len (cross (t.2.1 - t.1) (t.2.2 - t.1))).sum := by
    apply List.sum_nonneg
    intro x hx
    obtain ⟨t, -, rfl⟩ := List.mem_map.1 hx
    exact len_nonneg _
  rw [abs_of_nonneg hnn, List.sum_map_mul_left]

example := C84_area_convex ⟨0, 0, 0⟩ _ ⟨0, 0, 1⟩ exSquare_convex exSquare_big

/-- C84: `Centroid` is the mean of the vertices, and lies in their convex hull. -/
theorem C84_centroid (p : List (V3 ℝ)) (hp : p ≠ []) : ∃ c, centroid p = some c ∧ (p.length : ℝ) • c = p.foldr (· + ·) 0 ∧ c ∈ hull3 p := by
  have hl : 0 < p.length := List.length_pos_iff.2 hp
  have hL : (p.length : ℝ) ≠ 0 := by positivity
  have hcomm : ∀ (l : List (V3 ℝ)) (a : V3 ℝ), l.foldl (· + ·) a = a + l.foldr (· + ·) 0 := by
    intro l
    induction l with
    | nil => intro a; ext <;> simp
    | cons x l ih => intro a; rw [List.foldl_cons, ih, List.foldr_cons]; ext <;> simp <;> ring
  have hc : centroid p = some ((1 / (p.length : ℝ)) • p.foldr (· + ·) 0) := by
    unfold centroid
    rw [if_neg (by omega), hcomm]
    congr 2
    ext <;> simp
  refine ⟨_, hc, ?_, ?_⟩
  · ext <;> simp only [smul_x, smul_y, smul_z] <;> field_simp
  · have mean : ∀ (l : List (V3 ℝ)), l ≠ [] → (1 / (l.length : ℝ)) • l.foldr (· + ·) 0 ∈ hull3 l := by
      intro l
      induction l with
      | nil => intro h; exact absurd rfl h
      | cons x l ih =>
        intro _
        by_cases h : l = []
        · subst h
          have e : (1 / (([x] : List (V3 ℝ)).length : ℝ)) • [x].foldr (· + ·) 0 = x := by ext <;> simp
          rw [e]; exact Polyhedron.mem_hull (by simp)
        · have hl : 0 < l.length := List.length_pos_iff.2 h
          have hl' : (0 : ℝ) < l.length := by positivity
          intro K hK hS
          have h1 := ih h K hK (fun s hs => hS s (by simp [hs]))
          have h2 := hK _ (hS x (by simp)) _ h1 (1 / (l.length + 1 : ℝ)) (l.length / (l.length + 1 : ℝ)) (by positivity) (by positivity) (by field_simp; ring)
          have e : (1 / ((x :: l).length : ℝ)) • (x :: l).foldr (· + ·) 0 =
              (1 / (l.length + 1 : ℝ)) • x + (l.length / (l.length + 1 : ℝ)) • ((1 / (l.length : ℝ)) • l.foldr (· + ·) 0) := by
            rw [List.foldr_cons, List.length_cons]
            push_cast
            ext <;> simp only [add_x, add_y, add_z, smul_x, smul_y, smul_z] <;> field_simp
          rw [e]; exact h2
    exact mean p hp

example := C84_centroid exSquare (by simp [exSquare])

theorem edge_eq {p : List (V3 ℝ)} (hp : 2 ≤ p.length) {i : ℕ} (hi : i < (p.zip (p.rotate 1)).length) :
    edge p i = some ⟨(p.zip (p.rotate 1))[i].1, (p.zip (p.rotate 1))[i].2⟩ := by
  have hi' : i < p.length := by rw [List.length_zip] at hi; omega
  have hm : (i + 1) % p.length < p.length := Nat.mod_lt _ (by omega)
  rcases p with _ | ⟨p0, _ | ⟨p1, r⟩⟩
  · simp at hp
  · simp at hp
  · rw [List.getElem_zip]
    simp only [edge, List.getElem?_eq_getElem hi', List.getElem?_eq_getElem hm, Option.bind_eq_bind, Option.bind_some]
    rw [List.getElem_rotate]

theorem edges_forall {p : List (V3 ℝ)} (hp : 2 ≤ p.length) :
    List.Forall₂ (fun i (e : V3 ℝ × V3 ℝ) => edge p i = some ⟨e.1, e.2⟩) (List.range p.length) (p.zip (p.rotate 1)) := by
  have hl : (p.zip (p.rotate 1)).length = p.length := by rw [List.length_zip, List.length_rotate]; omega
  rw [List.forall₂_iff_get]
  refine ⟨by rw [List.length_range, hl], fun i h1 h2 => ?_⟩
  simp only [List.get_eq_getElem, List.getElem_range]
  exact edge_eq hp h2

theorem perimeter_fold {p : List (V3 ℝ)} {is : List ℕ} {es : List (V3 ℝ × V3 ℝ)}
    (h : List.Forall₂ (fun i (e : V3 ℝ × V3 ℝ) => edge p i = some ⟨e.1, e.2⟩) is es) : ∀ acc : ℝ,
    is.foldlM (fun acc i => do some (acc + (← edge p i).length)) acc = some (acc + (es.map fun e => V3.dist e.1 e.2).sum) := by
  induction h with
  | nil => intro acc; simp
  | cons h _ ih =>
    intro acc
    rw [List.foldlM_cons]
    simp only [h, Option.bind_eq_bind, Option.bind_some] at ih ⊢
    rw [ih, List.map_cons, List.sum_cons]
    unfold LineSeg.length
    rw [add_assoc]

/-- C84: `Perimeter` is the sum of the lengths of the edges from every vertex to the next and from the last to the first. -/
theorem C84_perimeter (p : List (V3 ℝ)) (hp : 2 ≤ p.length) : perimeter p = some (((p.zip (p.rotate 1)).map fun e => V3.dist e.1 e.2).sum) := by
  unfold perimeter
  rw [perimeter_fold (edges_forall hp), zero_add]

example := C84_perimeter exSquare (by simp [exSquare])

theorem pointOnEdgeLoop_spec {p : List (V3 ℝ)} {is : List ℕ} {es : List (V3 ℝ × V3 ℝ)}
    (h : List.Forall₂ (fun i (e : V3 ℝ × V3 ℝ) => edge p i = some ⟨e.1, e.2⟩) is es) : ∀ d : ℝ, es ≠ [] → (∀ e ∈ es, e.1 ≠ e.2) → 0 ≤ d →
    d ≤ (es.map fun e => V3.dist e.1 e.2).sum → ∃ (k : ℕ) (e : V3 ℝ × V3 ℝ) (t : ℝ), es[k]? = some e ∧ 0 ≤ t ∧ t ≤ 1 ∧
      pointOnEdgeLoop p is d = some (e.1 + t • (e.2 - e.1)) ∧ ((es.take k).map fun e => V3.dist e.1 e.2).sum + t * V3.dist e.1 e.2 = d := by
  induction h with
  | nil => intro d h; exact absurd rfl h
  | @cons i e is es h hf ih =>
    intro d _ hne h0 h1
    have hs : 0 < V3.dist e.1 e.2 := Real.sqrt_pos.2 (lenSq_pos (sub_ne_zero.2 (hne e (by simp))))
    rw [List.map_cons, List.sum_cons] at h1
    rw [pointOnEdgeLoop, h]
    simp only [Option.bind_eq_bind, Option.bind_some]
    have hlen : LineSeg.length ⟨e.1, e.2⟩ = V3.dist e.1 e.2 := rfl
    rw [hlen]
    by_cases hd : d ≤ V3.dist e.1 e.2
    · refine ⟨0, e, d / V3.dist e.1 e.2, rfl, div_nonneg h0 hs.le, (div_le_one hs).2 hd, ?_, ?_⟩
      · rw [if_pos hd, if_neg hs.ne', seg_getPoint]
      · simp only [List.take_zero, List.map_nil, List.sum_nil, zero_add]
        rw [div_mul_cancel₀ _ hs.ne']
    · rw [if_neg hd]
      push Not at hd
      have hes : es ≠ [] := by
        rintro rfl
        simp at h1
        linarith
      obtain ⟨k, e', t, k1, k2, k3, k4, k5⟩ := ih (d - V3.dist e.1 e.2) hes (fun e he => hne e (by simp [he])) (by linarith) (by linarith)
      refine ⟨k + 1, e', t, by simpa using k1, k2, k3, k4, ?_⟩
      rw [List.take_succ_cons, List.map_cons, List.sum_cons]
      linarith

/-- C84: `PointOnEdge(t)` of a polygon without zero-length edges is the point reached by walking the fractional part of `t` of the
perimeter along the edges, from the first vertex on: it lies on the edge `e`, number `k`, and the lengths of the edges before it and
the part walked on `e` add up to that distance. -/
theorem C84_pointOnEdge_partial (p : List (V3 ℝ)) (hp : 2 ≤ p.length) (hne : ∀ e ∈ p.zip (p.rotate 1), e.1 ≠ e.2) (t : ℝ) :
    ∃ (k : ℕ) (e : V3 ℝ × V3 ℝ) (s : ℝ), (p.zip (p.rotate 1))[k]? = some e ∧ 0 ≤ s ∧ s ≤ 1 ∧ pointOnEdge p t = some (e.1 + s • (e.2 - e.1)) ∧
      (((p.zip (p.rotate 1)).take k).map fun e => V3.dist e.1 e.2).sum + s * V3.dist e.1 e.2 =
        Int.fract t * ((p.zip (p.rotate 1)).map fun e => V3.dist e.1 e.2).sum := by
  set S := ((p.zip (p.rotate 1)).map fun e => V3.dist e.1 e.2).sum with hS
  have hS0 : 0 ≤ S := by
    apply List.sum_nonneg
    intro x hx
    obtain ⟨e, -, rfl⟩ := List.mem_map.1 hx
    exact V3.dist_nonneg _ _
  have hf : frac t = Int.fract t := rfl
  have hes : p.zip (p.rotate 1) ≠ [] := by
    intro h
    have : (p.zip (p.rotate 1)).length = p.length := by rw [List.length_zip, List.length_rotate]; omega
    rw [h] at this; simp at this; omega
  obtain ⟨k, e, s, k1, k2, k3, k4, k5⟩ := pointOnEdgeLoop_spec (edges_forall hp) (Int.fract t * S) hes hne
    (mul_nonneg (Int.fract_nonneg t) hS0) (by nlinarith [Int.fract_lt_one t])
  refine ⟨k, e, s, k1, k2, k3, ?_, k5⟩
  have hper := C84_perimeter p hp
  rw [← k4]
  rcases p with _ | ⟨p0, _ | ⟨p1, r⟩⟩
  · simp at hp
  · simp at hp
  · simp only [pointOnEdge, hper, Option.bind_eq_bind, Option.bind_some, hf]
    rfl

example := C84_pointOnEdge_partial exSquare (by simp [exSquare]) (by
  intro e he
  simp only [exSquare, List.rotate_cons_succ, List.rotate_zero, List.cons_append, List.nil_append, List.zip_cons_cons, List.zip_nil_right,
    List.mem_cons, List.not_mem_nil, or_false] at he
  rcases he with rfl | rfl | rfl | rfl <;> simp) (7 / 3)

/-- C84: with a repeated first vertex, `PointOnEdge(0)` divides zero by zero. -/
theorem C84_pointOnEdge_violation : pointOnEdge [⟨0, 0, 0⟩, ⟨0, 0, 0⟩, ⟨1, 0, 0⟩] 0 = none := by
  have hper := C84_perimeter [⟨0, 0, 0⟩, ⟨0, 0, 0⟩, ⟨1, 0, 0⟩] (by simp)
  have hd : V3.dist (0 : V3 ℝ) 0 = 0 := by simp [V3.dist, distSq, lenSq, dot, len]
  have hd' : V3.dist (⟨0, 0, 0⟩ : V3 ℝ) ⟨0, 0, 0⟩ = 0 := hd
  simp only [pointOnEdge, hper, Option.bind_eq_bind, Option.bind_some]
  simp [pointOnEdgeLoop, List.range_succ, edge, LineSeg.length, hd', frac, floorF]

theorem faceEdges_mem {n : ℕ} (g : ℕ → ℤ) (a b : ℤ) :
    (a, b) ∈ faceEdges ((List.range n).map g) ↔ ∃ i, i < n ∧ a = g i ∧ b = g ((i + 1) % n) := by
  unfold faceEdges
  rw [List.mem_iff_getElem]
  constructor
  · rintro ⟨i, hi, e⟩
    have hi' : i < n := by
      rw [List.length_zip, List.length_map, List.length_range] at hi; omega
    rw [List.getElem_zip, List.getElem_rotate] at e
    simp only [List.getElem_map, List.getElem_range, List.length_map, List.length_range, Prod.mk.injEq] at e
    exact ⟨i, hi', e.1.symm, e.2.symm⟩
  · rintro ⟨i, hi, rfl, rfl⟩
    refine ⟨i, by rw [List.length_zip, List.length_rotate, List.length_map, List.length_range]; omega, ?_⟩
    rw [List.getElem_zip, List.getElem_rotate]
    simp only [List.getElem_map, List.getElem_range, List.length_map, List.length_range]

theorem faceEdges_nodup {f : List ℤ} (h : f.Nodup) : (faceEdges f).Nodup := by
  apply List.Nodup.of_map Prod.fst
  unfold faceEdges
  rw [List.map_fst_zip (by rw [List.length_rotate])]
  exact h

/-- C84: `ToPolyhedron` of a polygon with three or more vertices is a closed polyhedron over the same vertices, with two faces: the
polygon, and the polygon listed backwards. -/
theorem C84_toPolyhedron (p : List (V3 ℝ)) (hp : 3 ≤ p.length) :
    (toPolyhedron p).v = p ∧ ClosedMesh (toPolyhedron p).f ∧ ValidFaces p.length (toPolyhedron p).f ∧
    ∃ f, (toPolyhedron p).f = [f, f.reverse] ∧ f.map (fun i => p[i.toNat]?) = p.map some := by
  set n := p.length with hn
  have hf : (toPolyhedron p).f = [(List.range n).map fun i : ℕ => (i : ℤ), (List.range n).map fun i : ℕ => (n : ℤ) - 1 - i] := rfl
  have nd1 : ((List.range n).map fun i : ℕ => (i : ℤ)).Nodup := List.nodup_range.map fun a b h => by simpa using h
  have nd2 : ((List.range n).map fun i : ℕ => (n : ℤ) - 1 - i).Nodup := List.nodup_range.map fun a b h => by
    have : (n : ℤ) - 1 - a = (n : ℤ) - 1 - b := h
    omega
  have hme : meshEdges (toPolyhedron p).f = faceEdges ((List.range n).map fun i : ℕ => (i : ℤ)) ++ faceEdges ((List.range n).map fun i : ℕ => (n : ℤ) - 1 - i) := by
    rw [hf, meshEdges, List.filter_cons_of_pos (by simp; omega), List.filter_cons_of_pos (by simp; omega)]
    simp
  have hmod : ∀ i, i < n → ((i + 1) % n = i + 1 ∧ i + 1 < n ∨ (i + 1) % n = 0 ∧ i + 1 = n) := by
    intro i hi
    rcases Nat.lt_or_ge (i + 1) n with h | h
    · exact Or.inl ⟨Nat.mod_eq_of_lt h, h⟩
    · have : i + 1 = n := by omega
      exact Or.inr ⟨by rw [this, Nat.mod_self], this⟩
  refine ⟨rfl, ⟨?_, ?_⟩, ?_, ?_⟩
  · rw [hme, List.nodup_append]
    refine ⟨faceEdges_nodup nd1, faceEdges_nodup nd2, ?_⟩
    rintro ⟨a, b⟩ h1 ⟨a', b'⟩ h2 h
    obtain ⟨rfl, rfl⟩ : a = a' ∧ b = b' := by simpa using h
    obtain ⟨i, hi, e1, e2⟩ := (faceEdges_mem _ _ _).1 h1
    obtain ⟨j, hj, e3, e4⟩ := (faceEdges_mem _ _ _).1 h2
    rcases hmod i hi with ⟨h3, h4⟩ | ⟨h3, h4⟩ <;> rcases hmod j hj with ⟨h5, h6⟩ | ⟨h5, h6⟩ <;> rw [h3] at e2 <;> rw [h5] at e4 <;> omega
  · intro a b h
    rw [hme, List.mem_append] at h ⊢
    rcases h with h | h
    · right
      obtain ⟨i, hi, e1, e2⟩ := (faceEdges_mem _ _ _).1 h
      refine (faceEdges_mem _ _ _).2 ?_
      rcases hmod i hi with ⟨h3, h4⟩ | ⟨h3, h4⟩
      · refine ⟨n - 1 - (i + 1), by omega, ?_, ?_⟩
        · rw [e2, h3]; omega
        · rw [e1, Nat.mod_eq_of_lt (by omega)]; omega
      · refine ⟨n - 1, by omega, ?_, ?_⟩
        · rw [e2, h3]; omega
        · rw [e1, show n - 1 + 1 = n by omega, Nat.mod_self]; omega
    · left
      obtain ⟨i, hi, e1, e2⟩ := (faceEdges_mem _ _ _).1 h
      refine (faceEdges_mem _ _ _).2 ?_
      rcases hmod i hi with ⟨h3, h4⟩ | ⟨h3, h4⟩
      · refine ⟨n - 1 - (i + 1), by omega, ?_, ?_⟩
        · rw [e2, h3]; omega
        · rw [e1, Nat.mod_eq_of_lt (by omega)]; omega
      · refine ⟨n - 1, by omega, ?_, ?_⟩
        · rw [e2, h3]; omega
        · rw [e1, show n - 1 + 1 = n by omega, Nat.mod_self]; omega
  · rw [hf]
    intro f h
    rw [List.mem_cons, List.mem_singleton] at h
    rcases h with rfl | rfl
    · refine ⟨by simpa using hp, nd1, ?_⟩
      intro i hi
      obtain ⟨k, hk, rfl⟩ := List.mem_map.1 hi
      rw [List.mem_range] at hk
      omega
    · refine ⟨by simpa using hp, nd2, ?_⟩
      intro i hi
      obtain ⟨k, hk, rfl⟩ := List.mem_map.1 hi
      rw [List.mem_range] at hk
      omega
  · refine ⟨(List.range n).map fun i : ℕ => (i : ℤ), ?_, ?_⟩
    · rw [hf]
      congr 2
      apply List.ext_getElem
      · simp
      · intro i h1 h2
        simp only [List.getElem_map, List.getElem_range, List.getElem_reverse, List.length_map, List.length_range]
        have : i < n := by simpa using h1
        omega
    · apply List.ext_getElem
      · simp [hn]
      · intro i h1 h2
        have : i < p.length := by simpa using h2
        simp [this]

example := C84_toPolyhedron exSquare (by simp [exSquare])

end Polygon
end MGL
