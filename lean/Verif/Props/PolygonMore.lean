import Verif.Proofs.PolygonMore

/-! C106: the predicates of polygons on diagonals, self-intersection and contained segments and triangles. -/

set_option linter.unusedSectionVars false

namespace MGL
open V3 Spec
namespace Polygon

/-- C106, the violation: `DiagonalExists` answers that there is no diagonal between any two different vertices of any planar polygon: the
loop over the edges leaves out the edge that ends in the vertex `i`, but not the one that ends in `j`, which touches the diagonal. -/
theorem C106_diagonal_never (p : List (V3 ℝ)) (n : V3 ℝ) (d : ℝ) (hn : dot n n = 1) (hp : ∀ x ∈ p, dot n x = d) (ht : HasTriangle p)
    (hne : ∀ e ∈ closedEdges p, e.1 ≠ e.2) (i j : ℕ) (a b : V3 ℝ) (hi : p[i]? = some a) (hj : p[j]? = some b) (hab : a ≠ b) :
    diagonalExists p i j = some false := by
  obtain ⟨pl, hpl, hproj, -⟩ := plane_spec hn hp ht
  have hid : ∀ x ∈ p, pl.project x = x := fun x hx => by rw [hproj, on_plane (hp x hx)]
  have key : ∀ (i j : ℕ) (a b : V3 ℝ), p[i]? = some a → p[j]? = some b → a ≠ b → i + 1 < j →
      diagonalLoop pl p i j (pl.projectSeg ⟨a, b⟩) (List.range p.length) = some false := by
    intro i j a b hi hj hab hij
    have hjl : j < p.length := (List.getElem?_eq_some_iff.1 hj).1
    obtain ⟨e, he, -, h1, h2⟩ := edge_get (by omega) (show j - 1 < p.length by omega)
    have e1 : j - 1 + 1 = j := by omega
    rw [e1, Nat.mod_eq_of_lt hjl, hj] at h2
    cases h2
    have hr : List.range p.length = List.range (j - 1) ++ (j - 1) :: List.range' j (p.length - j) := by
      have : p.length = (j - 1) + (1 + (p.length - j)) := by omega
      conv_lhs => rw [this]
      rw [List.range_add, List.range'_eq_map_range, Nat.add_comm 1, List.range_succ_eq_map]
      simp only [List.map_cons, List.map_map, Nat.add_zero]
      congr 3
      funext x
      simp only [Function.comp]; omega
    rw [hr]
    refine diagonalLoop_false pl p i j (j - 1) _ (by omega) (by omega) (by omega) h1 (by rw [e1]; exact hj) ?_ _ _ ?_
    · have m := edge_mem he
      have ma : a ∈ p := List.mem_of_getElem? hi
      unfold Plane.projectSeg
      simp only [hid _ m.1, hid _ m.2, hid _ ma]
      rw [C23_intersects _ _ (hne _ he) hab]
      refine ⟨e.2, ⟨1, zero_le_one, le_rfl, ?_⟩, e.2, ⟨1, zero_le_one, le_rfl, ?_⟩, ?_⟩
      · ext <;> simp
      · ext <;> simp
      · rw [dist_le_iff (by norm_num)]; simp [distSq, lenSq, dot]; 
    · intro m hm
      rw [List.mem_range] at hm
      omega
  unfold diagonalExists
  split
  · rfl
  · next hij =>
    by_cases hgt : i > j
    · simp only [if_pos hgt]
      split
      · rfl
      · rw [hpl, hi, hj]
        exact key j i b a hj hi hab.symm (by omega)
    · simp only [if_neg hgt]
      split
      · rfl
      · rw [hpl, hi, hj]
        exact key i j a b hi hj hab (by omega)

theorem exSquare_edges : ∀ e ∈ closedEdges exSquare, e.1 ≠ e.2 := by
  intro e he
  simp only [closedEdges, exSquare, List.getLast?_cons_cons, List.getLast?_singleton, List.zip_cons_cons, List.zip_nil_right, List.mem_cons,
    List.not_mem_nil, or_false] at he
  rcases he with rfl | rfl | rfl | rfl <;> simp

/-- C106, the violation: the square has no diagonal between opposite corners, although it is convex and the diagonal lies in it. -/
theorem C106_diagonal_violation : diagonalExists exSquare 0 2 = some false ∧ ConvexPolygon ⟨0, 0, 1⟩ exSquare ∧
    ∀ x ∈ seg (⟨0, 0, 0⟩ : V3 ℝ) ⟨1, 1, 0⟩, x ∈ hull3 exSquare := by
  refine ⟨C106_diagonal_never exSquare ⟨0, 0, 1⟩ 0 (by norm_num [dot]) exSquare_plane exSquare_big exSquare_edges 0 2 ⟨0, 0, 0⟩ ⟨1, 1, 0⟩ rfl rfl
    (by simp), exSquare_convex, ?_⟩
  rintro x ⟨t, t0, t1, rfl⟩
  have e : (⟨0, 0, 0⟩ : V3 ℝ) + t • (⟨1, 1, 0⟩ - ⟨0, 0, 0⟩) = ⟨t, t, 0⟩ := by ext <;> simp
  rw [e]
  exact exSquare_hull t0 t1 t0 t1

/-- C106: `IsSimple` of a planar polygon with different consecutive vertices answers whether every two edges without a common vertex stay
more than `1e-3` away from each other. -/
theorem C106_isSimple_partial (p : List (V3 ℝ)) (n : V3 ℝ) (d : ℝ) (hn : dot n n = 1) (hp : ∀ x ∈ p, dot n x = d) (ht : HasTriangle p)
    (hne : ∀ e ∈ closedEdges p, e.1 ≠ e.2) :
    ∃ r, isSimple p = some r ∧ (r = true ↔ ∀ i j a b c e, i + 2 ≤ j → ¬(i = 0 ∧ j = p.length - 1) → p[i]? = some a → p[i + 1]? = some b →
      p[j]? = some c → p[(j + 1) % p.length]? = some e → ∀ x ∈ seg a b, ∀ y ∈ seg c e, 1 / 1000 < V3.dist x y) := by
  obtain ⟨pl, hpl, hproj, -⟩ := plane_spec hn hp ht
  have hid : ∀ x ∈ p, pl.project x = x := fun x hx => by rw [hproj, on_plane (hp x hx)]
  have hlen : 3 ≤ p.length := by obtain ⟨_, _, _, hs, -⟩ := ht; exact hs.length_le
  have hnil : p ≠ [] := by rintro rfl; simp at hlen
  unfold isSimple
  rw [if_neg hnil, hpl]
  refine ⟨_, rfl, ?_⟩
  rw [List.all_eq_true]
  have one : ∀ e ∈ closedEdges p, ∀ f ∈ closedEdges p, ((pl.projectSeg ⟨e.1, e.2⟩).intersectsSeg (pl.projectSeg ⟨f.1, f.2⟩) (1 / 1000) = true ↔
      ∃ x ∈ seg e.1 e.2, ∃ y ∈ seg f.1 f.2, V3.dist x y ≤ 1 / 1000) := by
    intro e he f hf
    have m := edge_mem he
    have m' := edge_mem hf
    unfold Plane.projectSeg
    simp only [hid _ m.1, hid _ m.2, hid _ m'.1, hid _ m'.2]
    rw [C23_intersects _ _ (hne _ he) (hne _ hf)]
  constructor
  · intro h i j a b c e hij hc ha hb hc' he x hx y hy
    have hj : j < p.length := (List.getElem?_eq_some_iff.1 hc').1
    have := h i (by rw [List.mem_range]; omega)
    rw [List.all_eq_true] at this
    have := this j (by rw [List.mem_range]; omega)
    rw [if_neg (by omega), if_neg hc] at this
    obtain ⟨ei, hei, h1, h2, h3⟩ := edge_get (by omega) (show i < p.length by omega)
    obtain ⟨ej, hej, h4, h5, h6⟩ := edge_get (by omega) hj
    rw [Nat.mod_eq_of_lt (by omega), hb] at h3
    rw [ha] at h2
    rw [hc'] at h5
    rw [he] at h6
    cases h2; cases h3; cases h5; cases h6
    rw [h1, h4] at this
    simp only [Bool.not_eq_true', Bool.eq_false_iff, ne_eq, one _ hei _ hej] at this
    by_contra hcon
    exact this ⟨x, hx, y, hy, not_lt.1 hcon⟩
  · intro h i hi
    rw [List.all_eq_true]
    intro j hj
    rw [List.mem_range] at hi hj
    split
    · rfl
    · split
      · rfl
      · next hij hc =>
        obtain ⟨ei, hei, h1, h2, h3⟩ := edge_get (by omega) hi
        obtain ⟨ej, hej, h4, h5, h6⟩ := edge_get (by omega) hj
        rw [Nat.mod_eq_of_lt (by omega)] at h3
        rw [h1, h4]
        simp only [Bool.not_eq_true', Bool.eq_false_iff, ne_eq, one _ hei _ hej]
        rintro ⟨x, hx, y, hy, hd⟩
        exact absurd hd (not_le.2 (h i j _ _ _ _ (by omega) hc h2 h3 h5 h6 x hx y hy))

example := C106_isSimple_partial exSquare ⟨0, 0, 1⟩ 0 (by norm_num [dot]) exSquare_plane exSquare_big exSquare_edges

/-- C106: `IsSimple` answers that a polygon is simple only if it is. -/
theorem C106_isSimple_sound (p : List (V3 ℝ)) (n : V3 ℝ) (d : ℝ) (hn : dot n n = 1) (hp : ∀ x ∈ p, dot n x = d) (ht : HasTriangle p)
    (hne : ∀ e ∈ closedEdges p, e.1 ≠ e.2) (h : isSimple p = some true) : SimplePolygon p := by
  obtain ⟨r, hr, H⟩ := C106_isSimple_partial p n d hn hp ht hne
  rw [h] at hr
  cases hr
  replace H := H.1 rfl
  have hlen : 3 ≤ p.length := by obtain ⟨_, _, _, hs, -⟩ := ht; exact hs.length_le
  have modeq : ∀ i < p.length, (i + 1 = p.length ∧ (i + 1) % p.length = 0) ∨ (i + 1 < p.length ∧ (i + 1) % p.length = i + 1) := by
    intro i hi
    rcases Nat.lt_or_ge (i + 1) p.length with h | h
    · exact Or.inr ⟨h, Nat.mod_eq_of_lt h⟩
    · have : i + 1 = p.length := by omega
      exact Or.inl ⟨this, by rw [this, Nat.mod_self]⟩
  have disj : ∀ i j a b c e, i ≠ j → j ≠ (i + 1) % p.length → i ≠ (j + 1) % p.length → p[i]? = some a → p[(i + 1) % p.length]? = some b →
      p[j]? = some c → p[(j + 1) % p.length]? = some e → ∀ x, x ∈ seg a b → x ∈ seg c e → False := by
    have wlog : ∀ i j a b c e, i < j → j ≠ (i + 1) % p.length → i ≠ (j + 1) % p.length → p[i]? = some a → p[(i + 1) % p.length]? = some b →
        p[j]? = some c → p[(j + 1) % p.length]? = some e → ∀ x, x ∈ seg a b → x ∈ seg c e → False := by
      intro i j a b c e hij h1 h2 ha hb hc he x hx hx'
      have hj : j < p.length := (List.getElem?_eq_some_iff.1 hc).1
      have mi := modeq i (by omega)
      have mj := modeq j hj
      have ei : (i + 1) % p.length = i + 1 := by omega
      rw [ei] at hb
      have := H i j a b c e (by omega) (by omega) ha hb hc he x hx x hx'
      have h0 : V3.dist x x = 0 := by simp [V3.dist, len, lenSq, dot]
      rw [h0] at this
      norm_num at this
    intro i j a b c e hij h1 h2 ha hb hc he x hx hx'
    rcases Nat.lt_or_ge i j with h | h
    · exact wlog i j a b c e h h1 h2 ha hb hc he x hx hx'
    · exact wlog j i c e a b (by omega) h2 h1 hc he ha hb x hx' hx
  -- edges that follow each other share their common vertex only
  have adj : ∀ i j a b e, j = (i + 1) % p.length → p[i]? = some a → p[j]? = some b → p[(j + 1) % p.length]? = some e →
      ∀ x, x ∈ seg a b → x ∈ seg b e → x = b := by
    intro i j a b e hij ha hb he x hx hx'
    have hi : i < p.length := (List.getElem?_eq_some_iff.1 ha).1
    have hj : j < p.length := (List.getElem?_eq_some_iff.1 hb).1
    have hk : (j + 1) % p.length < p.length := Nat.mod_lt _ (by omega)
    obtain ⟨s, s0, s1, rfl⟩ := hx
    obtain ⟨t, t0, t1, ht'⟩ := hx'
    by_contra hxb
    have hs : s < 1 := by
      rcases s1.lt_or_eq with h | rfl
      · exact h
      · exact absurd (by ext <;> simp) hxb
    have htp : 0 < t := by
      rcases t0.lt_or_eq with h | rfl
      · exact h
      · refine absurd (ht'.trans ?_) hxb
        ext <;> simp
    have hx := congrArg V3.x ht'
    have hy := congrArg V3.y ht'
    have hz := congrArg V3.z ht'
    simp only [add_x, add_y, add_z, sub_x, sub_y, sub_z, smul_x, smul_y, smul_z] at hx hy hz
    have mi := modeq i hi
    have mj := modeq j hj
    rcases Nat.lt_or_ge 3 p.length with h4 | h4
    · rcases le_total t (1 - s) with h5 | h5
      · -- `e` on the other side of `a`: `a` lies on the second edge or the reverse
        -- (1-s) (a-b) = t (e-b), t ≤ 1-s : a = b + t/(1-s) (e - b) lies on the edge from b to e
        have hpos : 0 < 1 - s := by linarith
        have hin : a ∈ seg b e := by
          refine ⟨t / (1 - s), by positivity, by rw [div_le_one hpos]; exact h5, ?_⟩
          ext <;> simp only [add_x, add_y, add_z, sub_x, sub_y, sub_z, smul_x, smul_y, smul_z] <;> field_simp
          · linear_combination hx
          · linear_combination hy
          · linear_combination hz
        -- the edge before the first one ends in `a`
        have hm : ∃ m < p.length, (m + 1) % p.length = i := by
          rcases Nat.eq_zero_or_pos i with h0 | h0
          · exact ⟨p.length - 1, by omega, by rw [show p.length - 1 + 1 = p.length by omega, Nat.mod_self, h0]⟩
          · exact ⟨i - 1, by omega, by rw [show i - 1 + 1 = i by omega, Nat.mod_eq_of_lt hi]⟩
        obtain ⟨m, hm, hmi⟩ := hm
        have mm := modeq m hm
        refine disj m j p[m] a b e (by omega) (by omega) (by omega) (List.getElem?_eq_getElem hm) (by rw [hmi]; exact ha) hb he a
          ⟨1, zero_le_one, le_rfl, by ext <;> simp⟩ hin
      · have hin : e ∈ seg a b := by
          refine ⟨1 - (1 - s) / t, by rw [sub_nonneg, div_le_one htp]; exact h5, by
            have : 0 ≤ (1 - s) / t := div_nonneg (by linarith) htp.le
            linarith, ?_⟩
          ext <;> simp only [add_x, add_y, add_z, sub_x, sub_y, sub_z, smul_x, smul_y, smul_z] <;> field_simp
          · linear_combination -hx
          · linear_combination -hy
          · linear_combination -hz
        have mk := modeq ((j + 1) % p.length) hk
        have hk2 : ((j + 1) % p.length + 1) % p.length < p.length := Nat.mod_lt _ (by omega)
        refine disj i ((j + 1) % p.length) a b e p[((j + 1) % p.length + 1) % p.length] (by omega) (by omega) (by omega) ha (by rw [← hij]; exact hb) he
          (List.getElem?_eq_getElem hk2) e hin ⟨0, le_rfl, zero_le_one, by ext <;> simp⟩
    · -- a triangle would have no area
      obtain ⟨u, v, w, hsub, hbig⟩ := ht
      have hpe : p = [u, v, w] := (hsub.eq_of_length_le (by simpa using h4)).symm
      have hcr : cross (b - a) (e - a) = 0 := by
        have c1 : t * ((b.y - a.y) * (e.z - a.z) - (b.z - a.z) * (e.y - a.y)) = 0 := by
          linear_combination (-(b.y - a.y)) * hz + (b.z - a.z) * hy
        have c2 : t * ((b.z - a.z) * (e.x - a.x) - (b.x - a.x) * (e.z - a.z)) = 0 := by
          linear_combination (-(b.z - a.z)) * hx + (b.x - a.x) * hz
        have c3 : t * ((b.x - a.x) * (e.y - a.y) - (b.y - a.y) * (e.x - a.x)) = 0 := by
          linear_combination (-(b.x - a.x)) * hy + (b.y - a.y) * hx
        have d1 := (mul_eq_zero.1 c1).resolve_left htp.ne'
        have d2 := (mul_eq_zero.1 c2).resolve_left htp.ne'
        have d3 := (mul_eq_zero.1 c3).resolve_left htp.ne'
        ext
        · simp only [cross, sub_x, sub_y, sub_z, zero_x]; linear_combination d1
        · simp only [cross, sub_x, sub_y, sub_z, zero_y]; linear_combination d2
        · simp only [cross, sub_x, sub_y, sub_z, zero_z]; linear_combination d3
      have hzero : cross (v - u) (w - u) = 0 := by
        subst hpe
        simp only [List.length_cons, List.length_nil] at hi
        have hx0 := congrArg V3.x hcr
        have hy0 := congrArg V3.y hcr
        have hz0 := congrArg V3.z hcr
        simp only [cross, sub_x, sub_y, sub_z, zero_x, zero_y, zero_z] at hx0 hy0 hz0
        have hi' : i = 0 ∨ i = 1 ∨ i = 2 := by omega
        rcases hi' with rfl | rfl | rfl
        · subst hij
          simp only [List.length_cons, List.length_nil, List.getElem?_cons_zero, List.getElem?_cons_succ, Option.some.injEq, Nat.reduceAdd, Nat.reduceMod] at ha hb he
          subst ha hb he
          exact hcr
        · subst hij
          simp only [List.length_cons, List.length_nil, List.getElem?_cons_zero, List.getElem?_cons_succ, Option.some.injEq, Nat.reduceAdd, Nat.reduceMod] at ha hb he
          subst ha hb he
          ext <;> simp only [cross, sub_x, sub_y, sub_z, zero_x, zero_y, zero_z]
          · linear_combination hx0
          · linear_combination hy0
          · linear_combination hz0
        · subst hij
          simp only [List.length_cons, List.length_nil, List.getElem?_cons_zero, List.getElem?_cons_succ, Option.some.injEq, Nat.reduceAdd, Nat.reduceMod] at ha hb he
          subst ha hb he
          ext <;> simp only [cross, sub_x, sub_y, sub_z, zero_x, zero_y, zero_z]
          · linear_combination hx0
          · linear_combination hy0
          · linear_combination hz0
      rw [hzero] at hbig
      have h0 : len (0 : V3 ℝ) = 0 := by simp [len, lenSq, dot]
      rw [h0] at hbig
      norm_num at hbig
  intro i j a b c e hij ha hb hc he x hx hx'
  by_cases h1 : j = (i + 1) % p.length
  · left
    refine ⟨h1, ?_⟩
    rw [← h1, hc] at hb
    cases hb
    exact adj i j a _ e h1 ha hc he x hx hx'
  · by_cases h2 : i = (j + 1) % p.length
    · right
      refine ⟨h2, ?_⟩
      rw [← h2, ha] at he
      cases he
      exact adj j i c _ b h2 hc ha hb x hx' hx
    · exact (disj i j a b c e hij h1 h2 ha hb hc he x hx hx').elim

/-- The square is answered to be simple. -/
theorem exSquare_simple : isSimple exSquare = some true := by
  obtain ⟨r, hr, H⟩ := C106_isSimple_partial exSquare ⟨0, 0, 1⟩ 0 (by norm_num [dot]) exSquare_plane exSquare_big exSquare_edges
  rw [hr, H.2]
  intro i j a b c e hij hc ha hb hc' he x hx y hy
  have hj : j < 4 := (List.getElem?_eq_some_iff.1 hc').1
  have hl : exSquare.length = 4 := rfl
  rw [hl] at hc he
  have cases : i = 0 ∧ j = 2 ∨ i = 1 ∧ j = 3 := by omega
  rw [← not_le, dist_le_iff (by norm_num)]
  obtain ⟨s, s0, s1, rfl⟩ := hx
  obtain ⟨t, t0, t1, rfl⟩ := hy
  rcases cases with ⟨rfl, rfl⟩ | ⟨rfl, rfl⟩
  · simp only [exSquare, List.getElem?_cons_zero, List.getElem?_cons_succ, Option.some.injEq, Nat.reduceAdd, Nat.reduceMod] at ha hb hc' he
    subst ha hb hc' he
    simp only [distSq, lenSq, dot, add_x, add_y, add_z, sub_x, sub_y, sub_z, smul_x, smul_y, smul_z]
    nlinarith [mul_self_nonneg (0 + s * (1 - 0) - (1 + t * (0 - 1)))]
  · simp only [exSquare, List.getElem?_cons_zero, List.getElem?_cons_succ, Option.some.injEq, Nat.reduceAdd, Nat.reduceMod] at ha hb hc' he
    subst ha hb hc' he
    simp only [distSq, lenSq, dot, add_x, add_y, add_z, sub_x, sub_y, sub_z, smul_x, smul_y, smul_z]
    nlinarith [mul_self_nonneg (0 + s * (1 - 0) - (1 + t * (0 - 1)))]

example : SimplePolygon exSquare :=
  C106_isSimple_sound exSquare ⟨0, 0, 1⟩ 0 (by norm_num [dot]) exSquare_plane exSquare_big exSquare_edges exSquare_simple

/-- A rectangle of the size 1 × 1/2000. -/
noncomputable def exThin : List (V3 ℝ) := [⟨0, 0, 0⟩, ⟨1, 0, 0⟩, ⟨1, 1 / 2000, 0⟩, ⟨0, 1 / 2000, 0⟩]

theorem exThin_convex : ConvexPolygon ⟨0, 0, 1⟩ exThin := by
  refine ⟨by norm_num [dot], by simp [exThin], ?_⟩
  simp only [exThin, List.triplewise_cons, List.pairwise_cons, List.mem_cons, List.not_mem_nil, or_false, forall_eq_or_imp, forall_eq]
  refine ⟨⟨⟨?_, ?_⟩, ?_, ?_⟩, ?_⟩
  · exact ⟨1 / 2000, by norm_num, by ext <;> norm_num [cross]⟩
  · exact ⟨1 / 2000, by norm_num, by ext <;> norm_num [cross]⟩
  · exact ⟨1 / 2000, by norm_num, by ext <;> norm_num [cross]⟩
  · simp
  · simp
    exact ⟨1 / 2000, by norm_num, by ext <;> norm_num [cross]⟩

/-- C106, the violation: a convex polygon that is not answered to be simple, because two opposite edges come within `1e-3`. -/
theorem C106_isSimple_violation : ConvexPolygon ⟨0, 0, 1⟩ exThin ∧ isSimple exThin = some false := by
  refine ⟨exThin_convex, ?_⟩
  have hpl : ∀ x ∈ exThin, dot (⟨0, 0, 1⟩ : V3 ℝ) x = 0 := by
    intro x hx
    simp only [exThin, List.mem_cons, List.not_mem_nil, or_false] at hx
    rcases hx with rfl | rfl | rfl | rfl <;> norm_num [dot]
  have hbig : HasTriangle exThin := by
    refine ⟨⟨0, 0, 0⟩, ⟨1, 0, 0⟩, ⟨1, 1 / 2000, 0⟩, by simp [exThin], ?_⟩
    unfold len
    apply Real.lt_sqrt_of_sq_lt
    norm_num [lenSq, dot, cross]
  have hne : ∀ e ∈ closedEdges exThin, e.1 ≠ e.2 := by
    intro e he
    simp only [closedEdges, exThin, List.getLast?_cons_cons, List.getLast?_singleton, List.zip_cons_cons, List.zip_nil_right, List.mem_cons,
      List.not_mem_nil, or_false] at he
    rcases he with rfl | rfl | rfl | rfl <;> simp
  obtain ⟨r, hr, H⟩ := C106_isSimple_partial exThin ⟨0, 0, 1⟩ 0 (by norm_num [dot]) hpl hbig hne
  rw [hr]
  cases r with
  | false => rfl
  | true =>
    exfalso
    have := H.1 rfl 0 2 ⟨0, 0, 0⟩ ⟨1, 0, 0⟩ ⟨1, 1 / 2000, 0⟩ ⟨0, 1 / 2000, 0⟩ le_rfl (by simp [exThin]) rfl rfl rfl rfl ⟨0, 0, 0⟩
      ⟨0, le_rfl, zero_le_one, by ext <;> simp⟩ ⟨0, 1 / 2000, 0⟩ ⟨1, zero_le_one, le_rfl, by ext <;> simp⟩
    rw [← not_le] at this
    apply this
    rw [dist_le_iff (by norm_num)]
    norm_num [distSq, lenSq, dot]

theorem dist_param {x y : V3 ℝ} {t r : ℝ} (h0 : 0 ≤ t) (h1 : t ≤ 1) (h : V3.dist x y ≤ r) : V3.dist x (x + t • (y - x)) ≤ r := by
  have hr : 0 ≤ r := le_trans (Real.sqrt_nonneg _) h
  rw [dist_le_iff hr] at h ⊢
  have e : distSq x (x + t • (y - x)) = t ^ 2 * distSq x y := by
    simp only [distSq, lenSq, dot, add_x, add_y, add_z, sub_x, sub_y, sub_z, smul_x, smul_y, smul_z]; ring
  rw [e]
  have : 0 ≤ distSq x y := by
    simp only [distSq, lenSq, dot]; nlinarith [mul_self_nonneg (x - y).x, mul_self_nonneg (x - y).y, mul_self_nonneg (x - y).z]
  nlinarith [mul_le_one₀ h1 h0 h1]

/-- C106: `Contains(LineSegment, thickness)` of a convex polygon answers true exactly if every point of the segment is within `thickness` of
the plane of the polygon, and its projection on the plane is in the polygon and more than `1e-3` away from each edge. -/
theorem C106_containsSeg_partial (p : List (V3 ℝ)) (n : V3 ℝ) (d : ℝ) (hc : ConvexPolygon n p) (hp : ∀ x ∈ p, dot n x = d) (ht : HasTriangle p)
    (hf : FirstEdge p) (s : LineSeg ℝ) (hs : s.a - (dot n s.a - d) • n ≠ s.b - (dot n s.b - d) • n) (th : ℝ) :
    ∃ r, containsSeg p s th = some r ∧ (r = true ↔ ∀ x ∈ seg s.a s.b, |dot n x - d| ≤ th ∧ x - (dot n x - d) • n ∈ hull3 p ∧
      ∀ e ∈ closedEdges p, ∀ y ∈ seg e.1 e.2, 1 / 1000 < V3.dist (x - (dot n x - d) • n) y) := by
  have hn := hc.1
  obtain ⟨pl, hpl, hproj, hdist⟩ := plane_spec hn hp ht
  have hid : ∀ x ∈ p, pl.project x = x := fun x hx => by rw [hproj, on_plane (hp x hx)]
  obtain ⟨o, q', r', hpe, he⟩ := hf
  have B : LocalBasis p n := by
    subst hpe
    exact convexBasis hc (Or.inr (hasTriangle_iff ht)) he
  have hne := convex_edges hc B
  have hlen := hc.2.1
  have near : ∀ x, dot n x = d → contains p x = true → (∀ e ∈ closedEdges p, ∀ y ∈ seg e.1 e.2, 1 / 1000 < V3.dist x y) → x ∈ hull3 p := by
    intro x hx hcon hedge
    obtain ⟨-, y, hy, hd⟩ := C85_contains_near p n d hn hp ht ⟨o, q', r', hpe, he⟩ x _ hcon
    by_contra hnot
    obtain ⟨e, hee, t, t0, t1, hz⟩ := leaves3 hc B hp hy hnot hx
    have hd' : V3.dist x y ≤ 2 / 10000 := by
      rw [dist_le_iff (by norm_num)]
      rw [hx] at hd
      linarith
    have h1 := hedge e hee _ hz
    have e1 : y + t • (x - y) = x + (1 - t) • (y - x) := by
      ext <;> simp only [add_x, add_y, add_z, sub_x, sub_y, sub_z, smul_x, smul_y, smul_z] <;> ring
    rw [e1] at h1
    have := dist_param (t := 1 - t) (by linarith) (by linarith) hd'
    linarith
  have inside : ∀ x, dot n x = d → x ∈ hull3 p → (∀ e ∈ closedEdges p, ∀ y ∈ seg e.1 e.2, 1 / 1000 < V3.dist x y) → contains p x = true := by
    intro x hx hxh hedge
    have := C85_contains_inside p n hc (Or.inr ht) ⟨o, q', r', hpe, he⟩ x (fun y hy => by rw [hx, hp y hy]) (1 / 1000) (by norm_num) ?_ 0 (1 / 100000) (by norm_num)
    · have e0 : x + (0 : ℝ) • n = x := by ext <;> simp
      rw [e0] at this
      exact this
    · intro y hy hd
      by_contra hnot
      obtain ⟨e, hee, t, t0, t1, hz⟩ := leaves3 hc B hp hxh hnot (hy.trans hx)
      have h1 := hedge e hee _ hz
      have := dist_param t0 t1 hd
      linarith
  have one : ∀ e ∈ closedEdges p, ((pl.projectSeg ⟨e.1, e.2⟩).intersectsSeg (pl.projectSeg s) (1 / 1000) = true ↔
      ∃ y ∈ seg e.1 e.2, ∃ x ∈ seg s.a s.b, V3.dist y (x - (dot n x - d) • n) ≤ 1 / 1000) := by
    intro e he
    have m := edge_mem he
    unfold Plane.projectSeg
    simp only [hid _ m.1, hid _ m.2]
    rw [C23_intersects _ _ (hne _ he) (by simp only [hproj]; exact hs)]
    simp only [hproj]
    constructor
    · rintro ⟨y, hy, x, ⟨t, t0, t1, rfl⟩, hd⟩
      refine ⟨y, hy, s.a + t • (s.b - s.a), ⟨t, t0, t1, rfl⟩, ?_⟩
      rw [project_seg]; exact hd
    · rintro ⟨y, hy, x, ⟨t, t0, t1, rfl⟩, hd⟩
      rw [project_seg] at hd
      exact ⟨y, hy, _, ⟨t, t0, t1, rfl⟩, hd⟩
  have ma : s.a ∈ seg s.a s.b := ⟨0, le_rfl, zero_le_one, by ext <;> simp⟩
  have mb : s.b ∈ seg s.a s.b := ⟨1, zero_le_one, le_rfl, by ext <;> simp⟩
  have dcomm : ∀ x y : V3 ℝ, V3.dist x y = V3.dist y x := by
    intro x y; unfold V3.dist; congr 1
    simp only [distSq, lenSq, dot, sub_x, sub_y, sub_z]; ring
  unfold containsSeg
  rw [if_neg (by omega), hpl]
  refine ⟨_, rfl, ?_⟩
  simp only [hdist]
  constructor
  · intro h
    split_ifs at h with h1 h2
    rw [not_or, not_lt, not_lt] at h1
    rw [Bool.or_eq_true, Bool.not_eq_true', Bool.not_eq_true', not_or, Bool.not_eq_false, Bool.not_eq_false] at h2
    rw [Bool.not_eq_true', List.any_eq_false] at h
    have hedge : ∀ x ∈ seg s.a s.b, ∀ e ∈ closedEdges p, ∀ y ∈ seg e.1 e.2, 1 / 1000 < V3.dist (x - (dot n x - d) • n) y := by
      intro x hx e hee y hy
      obtain ⟨i, hi, hei⟩ := get_edge (by omega) hee
      have := h i (List.mem_range.2 hi)
      rw [hei] at this
      simp only [one e hee] at this
      by_contra hcon
      exact this ⟨y, hy, x, hx, by rw [dcomm]; exact not_lt.1 hcon⟩
    have ha := near _ (dot_project hn s.a d) (by have := h2.1; rw [Plane.projectSeg] at this; simp only [hproj] at this; exact this) (hedge _ ma)
    intro x hx
    refine ⟨?_, ?_, hedge x hx⟩
    · obtain ⟨t, t0, t1, rfl⟩ := hx
      have e : dot n (s.a + t • (s.b - s.a)) - d = (1 - t) * (dot n s.a - d) + t * (dot n s.b - d) := by
        simp only [dot, add_x, add_y, add_z, sub_x, sub_y, sub_z, smul_x, smul_y, smul_z]; ring
      rw [e, abs_le]
      have a1 := abs_le.1 h1.1
      have a2 := abs_le.1 h1.2
      constructor <;> nlinarith
    · by_contra hnot
      obtain ⟨e, hee, t, t0, t1, hz⟩ := leaves3 hc B hp ha hnot (dot_project hn x d)
      obtain ⟨u, u0, u1, rfl⟩ := hx
      have := hedge (s.a + (t * u) • (s.b - s.a)) ⟨t * u, by positivity, by nlinarith, rfl⟩ e hee _ hz
      rw [project_seg, project_seg] at this
      have e0 : s.a - (dot n s.a - d) • n + (t * u) • (s.b - (dot n s.b - d) • n - (s.a - (dot n s.a - d) • n)) =
          s.a - (dot n s.a - d) • n + t • (s.a - (dot n s.a - d) • n + u • (s.b - (dot n s.b - d) • n - (s.a - (dot n s.a - d) • n)) - (s.a - (dot n s.a - d) • n)) := by
        ext <;> simp only [add_x, add_y, add_z, sub_x, sub_y, sub_z, smul_x, smul_y, smul_z] <;> ring
      rw [e0] at this
      have h0 : ∀ x : V3 ℝ, V3.dist x x = 0 := fun x => by simp [V3.dist, len, lenSq, dot]
      rw [h0] at this
      norm_num at this
  · intro h
    obtain ⟨a1, a2, a3⟩ := h _ ma
    obtain ⟨b1, b2, b3⟩ := h _ mb
    rw [if_neg (by rw [not_or, not_lt, not_lt]; exact ⟨a1, b1⟩), if_neg]
    · rw [Bool.not_eq_true', List.any_eq_false]
      intro i hi
      obtain ⟨e, hee, hei, -, -⟩ := edge_get (p := p) (by omega) (List.mem_range.1 hi)
      rw [hei]
      simp only [one e hee]
      rintro ⟨y, hy, x, hx, hd⟩
      have := (h x hx).2.2 e hee y hy
      rw [dcomm] at this
      linarith
    · rw [Bool.or_eq_true, Bool.not_eq_true', Bool.not_eq_true', not_or, Bool.not_eq_false, Bool.not_eq_false]
      unfold Plane.projectSeg
      simp only [hproj]
      exact ⟨inside _ (dot_project hn _ _) a2 a3, inside _ (dot_project hn _ _) b2 b3⟩

example := C106_containsSeg_partial exSquare ⟨0, 0, 1⟩ 0 exSquare_convex exSquare_plane exSquare_big exSquare_edge ⟨⟨1 / 4, 1 / 2, 0⟩, ⟨3 / 4, 1 / 2, 0⟩⟩
  (by intro h; have := congrArg V3.x h; norm_num [dot] at this) (1 / 1000)

/-- C106, the violation: a segment of the square that ends on its boundary is not answered to be contained. -/
theorem C106_containsSeg_violation : (∀ x ∈ seg (⟨1 / 2, 1 / 2, 0⟩ : V3 ℝ) ⟨1, 1 / 2, 0⟩, x ∈ hull3 exSquare) ∧
    containsSeg exSquare ⟨⟨1 / 2, 1 / 2, 0⟩, ⟨1, 1 / 2, 0⟩⟩ = some false := by
  constructor
  · rintro x ⟨t, t0, t1, rfl⟩
    have e : (⟨1 / 2, 1 / 2, 0⟩ : V3 ℝ) + t • (⟨1, 1 / 2, 0⟩ - ⟨1 / 2, 1 / 2, 0⟩) = ⟨1 / 2 + t / 2, 1 / 2, 0⟩ := by
      ext
      · simp only [add_x, smul_x, sub_x]; ring
      · simp
      · simp
    rw [e]
    exact exSquare_hull (by linarith) (by linarith) (by norm_num) (by norm_num)
  · obtain ⟨r, hr, H⟩ := C106_containsSeg_partial exSquare ⟨0, 0, 1⟩ 0 exSquare_convex exSquare_plane exSquare_big exSquare_edge
      ⟨⟨1 / 2, 1 / 2, 0⟩, ⟨1, 1 / 2, 0⟩⟩ (by intro h; have := congrArg V3.x h; norm_num [dot] at this) (1 / 1000)
    rw [hr]
    cases r with
    | false => rfl
    | true =>
      exfalso
      have := (H.1 rfl ⟨1, 1 / 2, 0⟩ ⟨1, zero_le_one, le_rfl, by ext <;> simp⟩).2.2 (⟨1, 0, 0⟩, ⟨1, 1, 0⟩)
        (by simp [closedEdges, exSquare]) ⟨1, 1 / 2, 0⟩ ⟨1 / 2, by norm_num, by norm_num, by ext <;> norm_num⟩
      have e : (⟨1, 1 / 2, 0⟩ : V3 ℝ) - (dot (⟨0, 0, 1⟩ : V3 ℝ) ⟨1, 1 / 2, 0⟩ - 0) • (⟨0, 0, 1⟩ : V3 ℝ) = ⟨1, 1 / 2, 0⟩ := by ext <;> simp [dot]
      rw [e] at this
      have h0 : ∀ x : V3 ℝ, V3.dist x x = 0 := fun x => by simp [V3.dist, len, lenSq, dot]
      rw [h0] at this
      norm_num at this

/-- C106: `Contains(Triangle, thickness)` of a convex polygon answers true exactly if each of the three sides of the triangle satisfies the
condition of `Contains(LineSegment)`; then the projections of all points of the triangle are in the polygon. -/
theorem C106_containsTri_partial (p : List (V3 ℝ)) (n : V3 ℝ) (d : ℝ) (hc : ConvexPolygon n p) (hp : ∀ x ∈ p, dot n x = d) (ht : HasTriangle p)
    (hf : FirstEdge p) (t : Tri ℝ) (h1 : t.a - (dot n t.a - d) • n ≠ t.b - (dot n t.b - d) • n)
    (h2 : t.b - (dot n t.b - d) • n ≠ t.c - (dot n t.c - d) • n) (h3 : t.c - (dot n t.c - d) • n ≠ t.a - (dot n t.a - d) • n) (th : ℝ) :
    ∃ r, containsTri p t th = some r ∧
      (r = true ↔ ∀ x, x ∈ seg t.a t.b ∨ x ∈ seg t.b t.c ∨ x ∈ seg t.c t.a → |dot n x - d| ≤ th ∧ x - (dot n x - d) • n ∈ hull3 p ∧
        ∀ e ∈ closedEdges p, ∀ y ∈ seg e.1 e.2, 1 / 1000 < V3.dist (x - (dot n x - d) • n) y) ∧
      (r = true → ∀ x ∈ tri t.a t.b t.c, |dot n x - d| ≤ th ∧ x - (dot n x - d) • n ∈ hull3 p) := by
  obtain ⟨r1, e1, H1⟩ := C106_containsSeg_partial p n d hc hp ht hf ⟨t.a, t.b⟩ h1 th
  obtain ⟨r2, e2, H2⟩ := C106_containsSeg_partial p n d hc hp ht hf ⟨t.b, t.c⟩ h2 th
  obtain ⟨r3, e3, H3⟩ := C106_containsSeg_partial p n d hc hp ht hf ⟨t.c, t.a⟩ h3 th
  have er : containsTri p t th = some (r1 && r2 && r3) := by
    unfold containsTri
    simp only [e1, e2, e3, Option.bind_eq_bind, Option.bind_some]
    cases r1 <;> cases r2 <;> simp
  have iff1 : (r1 && r2 && r3) = true ↔ ∀ x, x ∈ seg t.a t.b ∨ x ∈ seg t.b t.c ∨ x ∈ seg t.c t.a → |dot n x - d| ≤ th ∧ x - (dot n x - d) • n ∈ hull3 p ∧
        ∀ e ∈ closedEdges p, ∀ y ∈ seg e.1 e.2, 1 / 1000 < V3.dist (x - (dot n x - d) • n) y := by
    rw [Bool.and_eq_true, Bool.and_eq_true, H1, H2, H3]
    constructor
    · rintro ⟨⟨a, b⟩, c⟩ x (h | h | h)
      · exact a x h
      · exact b x h
      · exact c x h
    · intro h
      exact ⟨⟨fun x hx => h x (Or.inl hx), fun x hx => h x (Or.inr (Or.inl hx))⟩, fun x hx => h x (Or.inr (Or.inr hx))⟩
  refine ⟨_, er, iff1, fun hr x hx => ?_⟩
  have H := iff1.1 hr
  have A := H t.a (Or.inl ⟨0, le_rfl, zero_le_one, by ext <;> simp⟩)
  have Bp := H t.b (Or.inl ⟨1, zero_le_one, le_rfl, by ext <;> simp⟩)
  have C := H t.c (Or.inr (Or.inl ⟨1, zero_le_one, le_rfl, by ext <;> simp⟩))
  obtain ⟨u, v, w, u0, v0, w0, huvw, rfl⟩ := hx
  have e : dot n (u • t.a + v • t.b + w • t.c) - d = u * (dot n t.a - d) + v * (dot n t.b - d) + w * (dot n t.c - d) := by
    simp only [dot, add_x, add_y, add_z, smul_x, smul_y, smul_z]; linear_combination d * huvw
  constructor
  · rw [e, abs_le]
    have a1 := abs_le.1 A.1
    have a2 := abs_le.1 Bp.1
    have a3 := abs_le.1 C.1
    have hw : w = 1 - u - v := by linarith
    constructor
    · have := mul_le_mul_of_nonneg_left a1.1 u0
      have := mul_le_mul_of_nonneg_left a2.1 v0
      have := mul_le_mul_of_nonneg_left a3.1 w0
      have : u * -th + v * -th + w * -th = -th := by rw [hw]; ring
      linarith
    · have := mul_le_mul_of_nonneg_left a1.2 u0
      have := mul_le_mul_of_nonneg_left a2.2 v0
      have := mul_le_mul_of_nonneg_left a3.2 w0
      have : u * th + v * th + w * th = th := by rw [hw]; ring
      linarith
  · rw [e]
    intro K hK hS
    have ka := A.2.1 K hK hS
    have kb := Bp.2.1 K hK hS
    have kc := C.2.1 K hK hS
    rcases eq_or_lt_of_le (by linarith : w ≤ 1) with hw | hw
    · have : u = 0 := by linarith
      have : v = 0 := by linarith
      subst hw
      simp only [*]
      convert kc using 1
      ext <;> simp
    · have hpos : 0 < 1 - w := by linarith
      have k1 := hK _ ka _ kb (u / (1 - w)) (v / (1 - w)) (by positivity) (by positivity) (by rw [← add_div, div_eq_one_iff_eq hpos.ne']; linarith)
      have k2 := hK _ k1 _ kc (1 - w) w hpos.le w0 (by ring)
      convert k2 using 1
      ext <;> simp only [add_x, add_y, add_z, sub_x, sub_y, sub_z, smul_x, smul_y, smul_z] <;> field_simp <;> ring

example := C106_containsTri_partial exSquare ⟨0, 0, 1⟩ 0 exSquare_convex exSquare_plane exSquare_big exSquare_edge
  ⟨⟨1 / 4, 1 / 2, 0⟩, ⟨3 / 4, 1 / 2, 0⟩, ⟨1 / 2, 3 / 4, 0⟩⟩ (by intro h; have := congrArg V3.x h; norm_num [dot] at this)
  (by intro h; have := congrArg V3.x h; norm_num [dot] at this) (by intro h; have := congrArg V3.x h; norm_num [dot] at this) (1 / 1000)

/-- C106, the violation: `Contains2D` accepts a segment (in the local plane coordinates of the polygon) that leaves the polygon: the edges are mapped without
subtracting the origin of the local coordinates. -/
theorem C106_contains2D_violation : contains2D exFar ⟨⟨1 / 2, 1 / 2, 0⟩, ⟨5, 1 / 2, 0⟩⟩ = true ∧
    mapFrom2D exFar ⟨5, 1 / 2⟩ = some ⟨15, 1 / 2, 0⟩ ∧ (⟨15, 1 / 2, 0⟩ : V3 ℝ) ∉ hull3 exFar := by
  have hpl : planeCCW exFar = some ⟨⟨0, 0, 1⟩, 0⟩ := by
    have := planeCCW_convex exFar_convex (o := ⟨10, 0, 0⟩) rfl (Or.inr (hasTriangle_iff exFar_big))
    rw [this]
    norm_num [dot]
  have hu : basisU exFar = ⟨1, 0, 0⟩ := by
    show f3Normalized ((⟨11, 0, 0⟩ : V3 ℝ) - ⟨10, 0, 0⟩) = _
    have e : (⟨11, 0, 0⟩ : V3 ℝ) - ⟨10, 0, 0⟩ = ⟨1, 0, 0⟩ := by ext <;> norm_num
    rw [e, f3Normalized_unit (by norm_num [lenSq, dot])]
  have hv : basisV exFar = ⟨0, 1, 0⟩ := by
    unfold basisV
    rw [hpl, hu, if_neg (by simp [exFar])]
    have e : cross (⟨0, 0, 1⟩ : V3 ℝ) ⟨1, 0, 0⟩ = ⟨0, 1, 0⟩ := by ext <;> norm_num [cross]
    show f3Normalized (cross (⟨0, 0, 1⟩ : V3 ℝ) ⟨1, 0, 0⟩) = _
    rw [e, f3Normalized_unit (by norm_num [lenSq, dot])]
  have hfrom : ∀ a b : ℝ, mapFrom2D exFar ⟨a, b⟩ = some ⟨10 + a, b, 0⟩ := by
    intro a b
    unfold mapFrom2D
    rw [hu, hv]
    simp only [exFar, List.head?_cons, Option.map_some, Option.some.injEq]
    ext <;> simp
  refine ⟨?_, ?_, ?_⟩
  · unfold contains2D
    rw [if_neg (by simp [exFar]), hu, hv]
    have hmap : (exFar.map fun y => (⟨dot y ⟨1, 0, 0⟩, dot y ⟨0, 1, 0⟩, 0⟩ : V3 ℝ)) = exFar := by
      simp [exFar, dot]
    simp only [hmap]
    have hlast : exFar.getLast? = some ⟨10, 1, 0⟩ := rfl
    rw [hlast]
    simp only
    rw [if_neg, hfrom]
    · simp only
      have := C85_contains_inside exFar ⟨0, 0, 1⟩ exFar_convex (Or.inr exFar_big) exFar_edge ⟨21 / 2, 1 / 2, 0⟩
        (fun x hx => by rw [exFar_plane x hx]; norm_num [dot]) (1 / 1000) (by norm_num) ?_ 0 (1 / 100000) (by norm_num)
      · have e0 : (⟨21 / 2, 1 / 2, 0⟩ : V3 ℝ) + (0 : ℝ) • ⟨0, 0, 1⟩ = ⟨10 + 1 / 2, 1 / 2, 0⟩ := by ext <;> norm_num
        rw [e0] at this
        exact this
      · intro y hy hd
        have hz : y.z = 0 := by simp [dot] at hy; exact hy
        rw [dist_le_iff (by norm_num)] at hd
        simp only [distSq, lenSq, dot, sub_x, sub_y, sub_z] at hd
        have x1 : 10 ≤ y.x := by nlinarith [mul_self_nonneg (1 / 2 - y.y), mul_self_nonneg (0 - y.z)]
        have x2 : y.x ≤ 11 := by nlinarith [mul_self_nonneg (1 / 2 - y.y), mul_self_nonneg (0 - y.z)]
        have y1 : 0 ≤ y.y := by nlinarith [mul_self_nonneg (21 / 2 - y.x), mul_self_nonneg (0 - y.z)]
        have y2 : y.y ≤ 1 := by nlinarith [mul_self_nonneg (21 / 2 - y.x), mul_self_nonneg (0 - y.z)]
        intro K hK hS
        have c00 := hS ⟨10, 0, 0⟩ (by simp [exFar])
        have c10 := hS ⟨11, 0, 0⟩ (by simp [exFar])
        have c11 := hS ⟨11, 1, 0⟩ (by simp [exFar])
        have c01 := hS ⟨10, 1, 0⟩ (by simp [exFar])
        have l := hK _ c00 _ c01 (1 - y.y) y.y (by linarith) y1 (by ring)
        have r := hK _ c10 _ c11 (1 - y.y) y.y (by linarith) y1 (by ring)
        have m := hK _ l _ r (11 - y.x) (y.x - 10) (by linarith) (by linarith) (by ring)
        convert m using 1
        ext
        · simp only [add_x, smul_x]; ring
        · simp only [add_y, smul_y]; ring
        · simp only [add_z, smul_z, hz]; ring
    · rw [Bool.not_eq_true, List.any_eq_false]
      intro e he
      have hxs : ∀ x : V3 ℝ, x ∈ (⟨10, 1, 0⟩ : V3 ℝ) :: exFar → 10 ≤ x.x := by
        intro x hx
        simp only [exFar, List.mem_cons, List.not_mem_nil, or_false] at hx
        rcases hx with rfl | rfl | rfl | rfl | rfl <;> norm_num
      have hne : e.1 ≠ e.2 := by
        simp only [exFar, List.zip_cons_cons, List.zip_nil_right, List.mem_cons, List.not_mem_nil, or_false] at he
        rcases he with rfl | rfl | rfl | rfl <;> simp
      have h1 := hxs _ (List.of_mem_zip he).1
      have h2 := hxs _ (List.mem_cons_of_mem _ (List.of_mem_zip he).2)
      rw [C23_intersects _ _ hne (by simp; norm_num)]
      rintro ⟨x, ⟨s, s0, s1, rfl⟩, y, ⟨t, t0, t1, rfl⟩, hd⟩
      rw [dist_le_iff (by norm_num)] at hd
      simp only [distSq, lenSq, dot, add_x, add_y, add_z, sub_x, sub_y, sub_z, smul_x, smul_y, smul_z] at hd
      have h3 : (10 : ℝ) ≤ e.1.x + s * (e.2.x - e.1.x) := by nlinarith
      nlinarith [mul_self_nonneg (e.1.y + s * (e.2.y - e.1.y) - (1 / 2 + t * (1 / 2 - 1 / 2))),
        mul_self_nonneg (e.1.z + s * (e.2.z - e.1.z) - (0 + t * (0 - 0)))]
  · rw [hfrom]; norm_num
  · intro h
    have := h {y | y.x ≤ 11} (by
      intro a ha b hb s t hs ht hst
      have ha' : a.x ≤ 11 := ha
      have hb' : b.x ≤ 11 := hb
      show (s • a + t • b).x ≤ 11
      simp only [add_x, smul_x]
      nlinarith) (by
      intro x hx
      simp only [exFar, List.mem_cons, List.not_mem_nil, or_false] at hx
      rcases hx with rfl | rfl | rfl | rfl <;> simp <;> norm_num)
    simp at this
    norm_num at this

end Polygon
end MGL
