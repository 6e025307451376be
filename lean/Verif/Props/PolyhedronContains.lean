import Verif.Proofs.PolyhedronContains

/-! Property C98: point containment in polyhedra of any shape. -/

set_option linter.unusedSectionVars false

namespace MGL
open V3 Spec
namespace Polyhedron

theorem dist_lt_hull {V : List (V3 ℝ)} {x : V3 ℝ} {R : ℝ} (h : ∀ v ∈ V, V3.dist x v < R) {y : V3 ℝ} (hy : y ∈ hull3 V) : V3.dist x y < R := by
  refine hy {y | V3.dist x y < R} ?_ h
  intro a ha b hb s t hs ht hst
  have ha' : len (a - x) < R := by rw [← dist_eq_len, V3.dist_comm]; exact ha
  have hb' : len (b - x) < R := by rw [← dist_eq_len, V3.dist_comm]; exact hb
  show V3.dist x (s • a + t • b) < R
  have e : s • a + t • b - x = s • (a - x) + t • (b - x) := by
    have ht' : t = 1 - s := by linarith
    subst ht'
    ext <;> simp only [sub_x, sub_y, sub_z, add_x, add_y, add_z, smul_x, smul_y, smul_z] <;> ring
  rw [V3.dist_comm, dist_eq_len, e]
  refine lt_of_le_of_lt (len_add_le _ _) ?_
  rw [len_smul, len_smul, abs_of_nonneg hs, abs_of_nonneg ht]
  rcases eq_or_lt_of_le hs with h0 | h0
  · have : t = 1 := by linarith
    rw [← h0, this]; linarith
  · have h1 := mul_lt_mul_of_pos_left ha' h0
    have h2 := mul_le_mul_of_nonneg_left hb'.le ht
    have h3 : s * R + t * R = R := by rw [← add_mul, hst, one_mul]
    linarith

/-- C98: on a convex polyhedron no two faces of which lie in one plane, whose faces are strictly convex and not too small,
`Contains(point)` tells the points of the convex hull of the vertices from the others, for every point that is off the planes of
the faces by more than `1e-3`, nearer than `1e4` to all vertices, and such that none of the rays which the function may choose
(from the point towards `0.33333333333f` times the sum of the first three corners of a face) passes within `2e-4` of the border of a
face. Missing: rays near the border of a face, for which the answer can be wrong (`C98_contains_violation`), points near the planes
of faces, and polyhedra that are not convex. -/
theorem C98_contains_partial (p : Polyhedron ℝ) (hs : ConvexSurface p.v p.f) (h4 : 4 ≤ p.v.length) (h0 : p.f ≠ [])
    (hcop : NoTwoCoplanar p.v p.f)
    (hf : ∀ f ∈ p.f, (∃ n, ConvexPolygon n (f.map (corner p.v))) ∧ HasTriangle (f.map (corner p.v)) ∧ FirstEdge (f.map (corner p.v)))
    (x : V3 ℝ) (hx : ClearPoint (11184811 / 33554432) p.v p.f x) :
    ∃ b, p.contains x = some b ∧ (b = true ↔ x ∈ hull3 p.v) := by
  classical
  obtain ⟨hoff, hnear, hray⟩ := hx
  have hgood : ∀ f ∈ p.f, ∃ n, GoodFace p f n := fun f hm => by
    obtain ⟨⟨n, h1⟩, h2, h3⟩ := hf f hm
    exact ⟨n, h1, h2, h3, (hs.valid f hm).2.2⟩
  have hnear' : ∀ y ∈ hull3 p.v, V3.dist x y < 10000 := fun y hy => dist_lt_hull hnear hy
  have hoff' : ∀ f ∈ p.f, height p.v f x ≠ 0 := by
    intro f hm h
    obtain ⟨a, ha⟩ := head_mem hs hm
    have := hoff f hm a ha
    rw [← height_eq hs hm ha, h, abs_zero] at this
    have := len_nonneg (cornerNormal (f.map (corner p.v)))
    linarith
  have hcall : p.contains x = p.rayLoop x p.f 0 0 := by
    rw [contains]
    rcases hv : p.v with _ | ⟨a, _ | ⟨b, _ | ⟨c, _ | ⟨d, r⟩⟩⟩⟩ <;> rw [hv] at h4 <;> first | (exfalso; simp at h4; done) | rfl
  refine ⟨decide (x ∈ hull3 p.v), ?_, by simp⟩
  rw [hcall]
  refine rayLoop_spec p.f (fun f hm => ?_) 0 0 (Or.inr ⟨h0, le_refl _⟩)
  obtain ⟨w, hwe, hwl, hclear⟩ := hray f hm
  have hwe' : cornerSum oneThird (f.map (corner p.v)) - x = w := hwe.symm
  rw [hwe']
  set u := f3Normalized w with hu
  have huw : u = (1 / len w) • w := by rw [hu, f3Normalized_pos hwl]
  have huu : dot u u = 1 := lenSq_normalized w
  have hl0 : 0 < len w := by linarith
  have hclear' : ClearRay p.v p.f x u := by
    intro g hg t ht hp
    have e : x + t • u = x + (t / len w) • w := by
      rw [huw]; ext <;> simp only [add_x, add_y, add_z, smul_x, smul_y, smul_z] <;> ring
    rw [e] at hp ⊢
    exact hclear g hg _ (div_nonneg ht hl0.le) hp
  have hscan : ∀ g ∈ p.f, ∃ n, GoodFace p g n ∧ (∀ a ∈ g, 1 / 1000 < |dot n (x - corner p.v a)|) ∧
      (∀ y ∈ hull3 (g.map (corner p.v)), y ∈ hull3 p.v) ∧
      ∀ t : ℝ, 0 ≤ t → (∀ a ∈ g, dot n (x + t • u - corner p.v a) = 0) →
        (∃ r : ℝ, 2 / 10000 < r ∧ ∀ y, dot n y = dot n (x + t • u) → V3.dist (x + t • u) y ≤ r → y ∈ hull3 (g.map (corner p.v))) ∨
          ∀ y ∈ hull3 (g.map (corner p.v)), 2 / 10000 < V3.dist (x + t • u) y := by
    intro g hg
    obtain ⟨n, G⟩ := hgood g hg
    obtain ⟨k, hk, hN⟩ := G.normal
    have hdot : ∀ v, dot (cornerNormal (g.map (corner p.v))) v = k * dot n v := by
      intro v; rw [hN]; simp only [dot, smul_x, smul_y, smul_z]; ring
    have hlen : len (cornerNormal (g.map (corner p.v))) = k := by
      have h1 : len n = 1 := by
        have : _ = dot n n := len_mul_self n
        rw [G.convex.1] at this
        nlinarith [len_nonneg n]
      rw [hN, len_smul, h1, abs_of_pos hk, mul_one]
    refine ⟨n, G, fun a ha => ?_, fun y hy => face_sub_hull hs hg hy, fun t ht hp => ?_⟩
    · have := hoff g hg a ha
      rw [hdot, hlen, abs_mul, abs_of_pos hk] at this
      by_contra hn
      rw [not_lt] at hn
      nlinarith
    · rcases hclear' g hg t ht (fun a ha => by rw [hdot, hp a ha, mul_zero]) with ⟨r, hr, h⟩ | h
      · refine Or.inl ⟨r, hr, fun y hy hd => h y ?_ hd⟩
        rw [hdot, dot_sub, hy, sub_self, mul_zero]
      · exact Or.inr h
  obtain ⟨d', hd', hres⟩ := rayScan_spec huu hnear' p.f hscan 0 ⊤ le_top
  refine ⟨(hs.valid f hm).1, (hs.valid f hm).2.2, hwl, _, d', hres, hd', ?_⟩
  have := parity hs h0 hcop hgood huu hoff' hnear' hclear'
  rw [Nat.zero_add]
  exact decide_eq_decide.2 this

/-! ### A case that meets the hypotheses -/

theorem mem_hull_tri {a b c y : V3 ℝ} (u v w : ℝ) (hu : 0 ≤ u) (hv : 0 ≤ v) (hw : 0 < w) (h : u + v + w = 1)
    (e : y = u • a + v • b + w • c) : y ∈ hull3 [a, b, c] := by
  intro K hK hS
  have hb := hS b (by simp)
  have hc := hS c (by simp)
  have ha := hS a (by simp)
  have hvw : 0 < v + w := by linarith
  have h1 := hK b hb c hc (v / (v + w)) (w / (v + w)) (div_nonneg hv hvw.le) (div_nonneg hw.le hvw.le) (by field_simp)
  have h2 := hK a ha _ h1 u (v + w) hu hvw.le (by linarith)
  convert h2 using 1
  rw [e]
  ext <;> simp only [add_x, add_y, add_z, smul_x, smul_y, smul_z] <;> field_simp <;> ring

theorem coord_near {q y : V3 ℝ} {r : ℝ} (hr : 0 ≤ r) (h : V3.dist q y ≤ r) : |y.x - q.x| ≤ r ∧ |y.y - q.y| ≤ r ∧ |y.z - q.z| ≤ r := by
  rw [dist_le_iff hr, distSq_eq] at h
  refine ⟨abs_le_of_sq_le_sq ?_ hr, abs_le_of_sq_le_sq ?_ hr, abs_le_of_sq_le_sq ?_ hr⟩ <;> nlinarith [sq_nonneg (y.x - q.x), sq_nonneg (y.y - q.y), sq_nonneg (y.z - q.z)]

theorem exCorner_noTwoCoplanar : NoTwoCoplanar exCorner.v exCorner.f := by
  obtain ⟨c0, c1, c2, c3⟩ := exCorner_corners
  have hlen : exCorner.f.length = 4 := rfl
  intro i j hi hj hij
  rw [hlen] at hi hj
  have h0 : exCorner.f = [[0, 2, 1], [0, 1, 3], [0, 3, 2], [1, 2, 3]] := rfl
  simp only [h0]
  interval_cases i <;> interval_cases j <;> first | exact absurd rfl hij |
    (simp only [List.getElem_cons_zero, List.getElem_cons_succ, List.map_cons, List.map_nil, List.mem_cons, List.not_mem_nil, or_false,
      exists_eq_or_imp, forall_eq_or_imp, forall_eq, exists_eq_left, c0, c1, c2, c3, cornerNormal]; norm_num [dot, cross])

/-- A ray that is clear of the borders of the faces of the corner tetrahedron, in barycentric coordinates. -/
theorem exCorner_clear {x w : V3 ℝ}
    (h : ∀ t : ℝ, 0 ≤ t → ∀ q, q = x + t • w → q.x = 0 ∨ q.y = 0 ∨ q.z = 0 ∨ 1 - q.x - q.y - q.z = 0 →
      (∀ c ∈ [q.x, q.y, q.z, 1 - q.x - q.y - q.z], c = 0 ∨ 1 / 100 ≤ c) ∧ [q.x, q.y, q.z, 1 - q.x - q.y - q.z].count 0 = 1 ∨
      ∃ c ∈ [q.x, q.y, q.z, 1 - q.x - q.y - q.z], c ≤ -(1 / 1000)) : ClearRay exCorner.v exCorner.f x w := by
  obtain ⟨c0, c1, c2, c3⟩ := exCorner_corners
  intro f hf t ht hp
  have h2 := h t ht _ rfl
  generalize x + t • w = q at hp h2 ⊢
  have hf' : f = [0, 2, 1] ∨ f = [0, 1, 3] ∨ f = [0, 3, 2] ∨ f = [1, 2, 3] := by simpa [exCorner] using hf
  have hbd : ∀ y ∈ hull3 (f.map (corner exCorner.v)), 0 ≤ y.x ∧ 0 ≤ y.y ∧ 0 ≤ y.z ∧ y.x + y.y + y.z ≤ 1 := by
    intro y hy
    refine hy {y | 0 ≤ y.x ∧ 0 ≤ y.y ∧ 0 ≤ y.z ∧ y.x + y.y + y.z ≤ 1} ?_ ?_
    · rintro a ⟨a1, a2, a3, a4⟩ b ⟨b1, b2, b3, b4⟩ s t hs ht hst
      refine ⟨?_, ?_, ?_, ?_⟩ <;> simp only [add_x, add_y, add_z, smul_x, smul_y, smul_z]
      · positivity
      · positivity
      · positivity
      · nlinarith
    · intro v hv
      show 0 ≤ v.x ∧ 0 ≤ v.y ∧ 0 ≤ v.z ∧ v.x + v.y + v.z ≤ 1
      rcases hf' with rfl | rfl | rfl | rfl <;> simp only [List.map_cons, List.map_nil, c0, c1, c2, c3, List.mem_cons, List.not_mem_nil, or_false] at hv <;>
        rcases hv with rfl | rfl | rfl <;> norm_num
  have hzero : q.x = 0 ∧ f = [0, 3, 2] ∨ q.y = 0 ∧ f = [0, 1, 3] ∨ q.z = 0 ∧ f = [0, 2, 1] ∨ 1 - q.x - q.y - q.z = 0 ∧ f = [1, 2, 3] := by
    rcases hf' with rfl | rfl | rfl | rfl
    · have := hp 0 (by simp)
      simp only [List.map_cons, List.map_nil, c0, c1, c2, cornerNormal] at this
      norm_num [dot, cross] at this
      simp [this]
    · have := hp 0 (by simp)
      simp only [List.map_cons, List.map_nil, c0, c1, c3, cornerNormal] at this
      norm_num [dot, cross] at this
      simp [this]
    · have := hp 0 (by simp)
      simp only [List.map_cons, List.map_nil, c0, c2, c3, cornerNormal] at this
      norm_num [dot, cross] at this
      simp [this]
    · have := hp 1 (by simp)
      simp only [List.map_cons, List.map_nil, c1, c2, c3, cornerNormal] at this
      norm_num [dot, cross] at this
      have e : 1 - q.x - q.y - q.z = 0 := by linarith
      simp [e]
  rcases h2 (by rcases hzero with h | h | h | h <;> simp [h.1]) with ⟨hge, hcount⟩ | ⟨c, hc, hneg⟩
  · left
    refine ⟨1 / 1000, by norm_num, fun y hy hd => ?_⟩
    obtain ⟨n1, n2, n3⟩ := coord_near (by norm_num) hd
    rw [abs_le] at n1 n2 n3
    have g1 := hge q.x (by simp)
    have g2 := hge q.y (by simp)
    have g3 := hge q.z (by simp)
    have g4 := hge (1 - q.x - q.y - q.z) (by simp)
    simp only [List.count_cons, List.count_nil, beq_iff_eq] at hcount
    rcases hzero with ⟨hz, rfl⟩ | ⟨hz, rfl⟩ | ⟨hz, rfl⟩ | ⟨hz, rfl⟩ <;>
      simp only [List.map_cons, List.map_nil, c0, c1, c2, c3, cornerNormal] at hy ⊢ <;> norm_num [dot, cross] at hy
    · have m2 : ¬ q.y = 0 := fun h => by rw [if_pos h, if_pos hz] at hcount; omega
      have m3 : ¬ q.z = 0 := fun h => by rw [if_pos h, if_pos hz] at hcount; omega
      have m4 : ¬ 1 - q.x - q.y - q.z = 0 := fun h => by rw [if_pos h, if_pos hz] at hcount; omega
      have l2 := g2.resolve_left m2
      have l3 := g3.resolve_left m3
      have l4 := g4.resolve_left m4
      have hy0 : y.x = 0 := by linarith
      refine mem_hull_tri (1 - y.x - y.y - y.z) y.z y.y (by linarith) (by linarith) (by linarith) (by rw [hy0]; ring) ?_
      ext <;> simp [hy0]
    · have m1 : ¬ q.x = 0 := fun h => by rw [if_pos h, if_pos hz] at hcount; omega
      have m3 : ¬ q.z = 0 := fun h => by rw [if_pos h, if_pos hz] at hcount; omega
      have m4 : ¬ 1 - q.x - q.y - q.z = 0 := fun h => by rw [if_pos h, if_pos hz] at hcount; omega
      have l1 := g1.resolve_left m1
      have l3 := g3.resolve_left m3
      have l4 := g4.resolve_left m4
      have hy0 : y.y = 0 := by linarith
      refine mem_hull_tri (1 - y.x - y.y - y.z) y.x y.z (by linarith) (by linarith) (by linarith) (by rw [hy0]; ring) ?_
      ext <;> simp [hy0]
    · have m1 : ¬ q.x = 0 := fun h => by rw [if_pos h, if_pos hz] at hcount; omega
      have m2 : ¬ q.y = 0 := fun h => by rw [if_pos h, if_pos hz] at hcount; omega
      have m4 : ¬ 1 - q.x - q.y - q.z = 0 := fun h => by rw [if_pos h, if_pos hz] at hcount; omega
      have l1 := g1.resolve_left m1
      have l2 := g2.resolve_left m2
      have l4 := g4.resolve_left m4
      have hy0 : y.z = 0 := by linarith
      refine mem_hull_tri (1 - y.x - y.y - y.z) y.y y.x (by linarith) (by linarith) (by linarith) (by rw [hy0]; ring) ?_
      ext <;> simp [hy0]
    · have m1 : ¬ q.x = 0 := fun h => by rw [if_pos h, if_pos hz] at hcount; omega
      have m2 : ¬ q.y = 0 := fun h => by rw [if_pos h, if_pos hz] at hcount; omega
      have m3 : ¬ q.z = 0 := fun h => by rw [if_pos h, if_pos hz] at hcount; omega
      have l1 := g1.resolve_left m1
      have l2 := g2.resolve_left m2
      have l3 := g3.resolve_left m3
      refine mem_hull_tri y.x y.y y.z (by linarith) (by linarith) (by linarith) (by linarith) ?_
      ext <;> simp
  · right
    intro y hy
    by_contra hn
    obtain ⟨n1, n2, n3⟩ := coord_near (by norm_num) (not_lt.1 hn)
    rw [abs_le] at n1 n2 n3
    obtain ⟨b1, b2, b3, b4⟩ := hbd y hy
    simp only [List.mem_cons, List.not_mem_nil, or_false] at hc
    rcases hc with rfl | rfl | rfl | rfl <;> linarith

theorem exCorner_faces : ∀ f ∈ exCorner.f, (∃ n, ConvexPolygon n (f.map (corner exCorner.v))) ∧ HasTriangle (f.map (corner exCorner.v)) ∧
    FirstEdge (f.map (corner exCorner.v)) := by
  obtain ⟨c0, c1, c2, c3⟩ := exCorner_corners
  intro f hf
  obtain ⟨⟨n, h1, -⟩, h2⟩ := exCorner_proper f hf
  refine ⟨⟨n, h1⟩, ?_, h2⟩
  have hd : ∀ a : V3 ℝ, 1 ≤ lenSq a → 1 / 10000 < len a := by
    intro a h
    have := len_mul_self a
    have := len_nonneg a
    by_contra hn
    rw [not_lt] at hn
    nlinarith
  have hf' : f = [0, 2, 1] ∨ f = [0, 1, 3] ∨ f = [0, 3, 2] ∨ f = [1, 2, 3] := by simpa [exCorner] using hf
  rcases hf' with rfl | rfl | rfl | rfl <;> simp only [List.map_cons, List.map_nil, c0, c1, c2, c3] <;>
    exact ⟨_, _, _, List.Sublist.refl _, hd _ (by norm_num [cross, lenSq, dot])⟩

theorem exCorner_len {a : V3 ℝ} (h : 1 / 100 ≤ lenSq a) : 1 / 1000000 < len a := by
  have := len_mul_self a
  have := len_nonneg a
  by_contra hn
  rw [not_lt] at hn
  nlinarith

/-- The lengths of the normals of the faces of the corner tetrahedron are at most 2. -/
theorem exCorner_off {x : V3 ℝ} (h1 : 2 / 1000 < |x.x|) (h2 : 2 / 1000 < |x.y|) (h3 : 2 / 1000 < |x.z|)
    (h4 : 2 / 1000 < |x.x + x.y + x.z - 1|) : ∀ f ∈ exCorner.f, ∀ a ∈ f,
      1 / 1000 * len (cornerNormal (f.map (corner exCorner.v))) < |dot (cornerNormal (f.map (corner exCorner.v))) (x - corner exCorner.v a)| := by
  obtain ⟨c0, c1, c2, c3⟩ := exCorner_corners
  intro f hf a ha
  have hl : ∀ n : V3 ℝ, lenSq n ≤ 4 → 1 / 1000 * len n ≤ 2 / 1000 := by
    intro n hn
    have := len_mul_self n
    have := len_nonneg n
    have : len n ≤ 2 := by nlinarith
    linarith
  have hf' : f = [0, 2, 1] ∨ f = [0, 1, 3] ∨ f = [0, 3, 2] ∨ f = [1, 2, 3] := by simpa [exCorner] using hf
  rcases hf' with rfl | rfl | rfl | rfl <;> simp only [List.mem_cons, List.not_mem_nil, or_false] at ha <;>
    rcases ha with rfl | rfl | rfl <;>
    simp only [List.map_cons, List.map_nil, c0, c1, c2, c3] <;>
    refine lt_of_le_of_lt (hl _ (by norm_num [cornerNormal, cross, lenSq, dot])) ?_ <;>
    clear hl <;> simp only [cornerNormal, cross, dot, sub_x, sub_y, sub_z] <;>
    first
      | exact lt_of_lt_of_eq h1 ((abs_neg _).symm.trans (congrArg _ (by ring1)))
      | exact lt_of_lt_of_eq h2 ((abs_neg _).symm.trans (congrArg _ (by ring1)))
      | exact lt_of_lt_of_eq h3 ((abs_neg _).symm.trans (congrArg _ (by ring1)))
      | exact lt_of_lt_of_eq h4 (congrArg _ (by ring1))

theorem exCorner_clearPoint : ClearPoint (11184811 / 33554432) exCorner.v exCorner.f ⟨1 / 4, 1 / 4, 1 / 4⟩ := by
  obtain ⟨c0, c1, c2, c3⟩ := exCorner_corners
  exact ⟨(exCorner_off (by norm_num [abs_lt]) (by norm_num) (by norm_num) (by norm_num)), (by
      intro v hv
      have : lenSq ((⟨1 / 4, 1 / 4, 1 / 4⟩ : V3 ℝ) - v) ≤ 1 := by
        simp only [exCorner, List.mem_cons, List.not_mem_nil, or_false] at hv
        rcases hv with rfl | rfl | rfl | rfl <;> norm_num [lenSq, dot]
      have h3 := len_mul_self ((⟨1 / 4, 1 / 4, 1 / 4⟩ : V3 ℝ) - v)
      have h4 := len_nonneg ((⟨1 / 4, 1 / 4, 1 / 4⟩ : V3 ℝ) - v)
      have h5 : V3.dist (⟨1 / 4, 1 / 4, 1 / 4⟩ : V3 ℝ) v = len ((⟨1 / 4, 1 / 4, 1 / 4⟩ : V3 ℝ) - v) := rfl
      rw [h5]
      nlinarith), (by
      intro f hf
      refine ⟨_, rfl, ?_, exCorner_clear ?_⟩
      · refine exCorner_len ?_
        have hf' : f = [0, 2, 1] ∨ f = [0, 1, 3] ∨ f = [0, 3, 2] ∨ f = [1, 2, 3] := by simpa [exCorner] using hf
        rcases hf' with rfl | rfl | rfl | rfl <;> simp only [List.map_cons, List.map_nil, c0, c1, c2, c3] <;>
          norm_num [cornerSum, lenSq, dot]
      · intro t ht q hq hz
        left
        have hf' : f = [0, 2, 1] ∨ f = [0, 1, 3] ∨ f = [0, 3, 2] ∨ f = [1, 2, 3] := by simpa [exCorner] using hf
        rcases hf' with rfl | rfl | rfl | rfl <;> simp only [List.map_cons, List.map_nil, c0, c1, c2, c3, cornerSum] at hq <;>
          have qx := congrArg V3.x hq <;> have qy := congrArg V3.y hq <;> have qz := congrArg V3.z hq <;>
          simp only [add_x, add_y, add_z, sub_x, sub_y, sub_z, smul_x, smul_y, smul_z] at qx qy qz <;>
          rcases hz with h | h | h | h <;> first | (exfalso; linarith) | skip
        · obtain rfl : t = 1 := by linarith
          rw [qx, qy, qz]; norm_num [List.count_cons]
        · obtain rfl : t = 1 := by linarith
          rw [qx, qy, qz]; norm_num [List.count_cons]
        · obtain rfl : t = 1 := by linarith
          rw [qx, qy, qz]; norm_num [List.count_cons]
        · obtain rfl : t = 1 / (12 * (11184811 / 33554432) - 3) := by
            rw [eq_div_iff (by norm_num)]
            rw [qx, qy, qz] at h
            linarith
          rw [qx, qy, qz]; norm_num [List.count_cons])⟩

theorem exCorner_inside : (⟨1 / 4, 1 / 4, 1 / 4⟩ : V3 ℝ) ∈ hull3 exCorner.v := by
  obtain ⟨c0, c1, c2, c3⟩ := exCorner_corners
  rw [mem_hull_iff exCorner_convex (by simp [exCorner])]
  intro f hf
  have hf' : f = [0, 2, 1] ∨ f = [0, 1, 3] ∨ f = [0, 3, 2] ∨ f = [1, 2, 3] := by simpa [exCorner] using hf
  rcases hf' with rfl | rfl | rfl | rfl <;> simp only [height, List.map_cons, List.map_nil, c0, c1, c2, c3] <;>
    norm_num [cornerNormal, cross, dot, c0, c1]

/-- A point inside the corner tetrahedron meets the hypotheses of `C98_contains_partial`, and is contained. -/
example : exCorner.contains ⟨1 / 4, 1 / 4, 1 / 4⟩ = some true := by
  obtain ⟨b, h1, h2⟩ := C98_contains_partial exCorner exCorner_convex (by simp [exCorner]) (by simp [exCorner]) exCorner_noTwoCoplanar
    exCorner_faces ⟨1 / 4, 1 / 4, 1 / 4⟩ exCorner_clearPoint
  rw [h1, h2.2 exCorner_inside]

/-! ### Objects with vertices, and the closest point -/

theorem containsAll_spec (p : Polyhedron ℝ) : ∀ l : List (V3 ℝ), (∀ x ∈ l, ∃ b, p.contains x = some b ∧ (b = true ↔ x ∈ hull3 p.v)) →
    ∃ b, p.containsAll l = some b ∧ (b = true ↔ ∀ y ∈ hull3 l, y ∈ hull3 p.v)
  | [], _ => ⟨true, rfl, by
      simp only [true_iff]
      intro y hy
      exact absurd (hy ∅ (fun a ha => absurd ha (Set.notMem_empty a)) (by simp)) (Set.notMem_empty y)⟩
  | x :: l, h => by
    obtain ⟨b, h1, h2⟩ := h x (by simp)
    obtain ⟨b', h3, h4⟩ := containsAll_spec p l fun y hy => h y (by simp [hy])
    rw [containsAll, h1]
    simp only [Option.bind_eq_bind, Option.bind_some]
    have key : (x ∈ hull3 p.v ∧ ∀ y ∈ hull3 l, y ∈ hull3 p.v) ↔ ∀ y ∈ hull3 (x :: l), y ∈ hull3 p.v := by
      constructor
      · rintro ⟨hx, hl⟩ y hy
        refine hull_mono (fun v hv => ?_) hy
        rcases List.mem_cons.1 hv with rfl | hv
        · exact hx
        · exact hl v (mem_hull hv)
      · intro hh
        exact ⟨hh x (mem_hull (by simp)), fun y hy => hh y (hull_mono (fun v hv => mem_hull (by simp [hv])) hy)⟩
    rcases b with _ | _
    · refine ⟨false, rfl, ?_⟩
      rw [← key, ← h2]; simp
    · refine ⟨b', by rw [if_pos rfl, h3], ?_⟩
      rw [← key, ← h2, h4]; simp

/-- C98: on such a polyhedron, the tests whether a line segment, a triangle, a polygon, a polyhedron or a box is contained tell whether
the convex hull of its vertices belongs to the convex hull of the vertices of the polyhedron, if all vertices of the object meet the
conditions of `C98_contains_partial`. Missing: as there. -/
theorem C98_objects_partial (p : Polyhedron ℝ) (hs : ConvexSurface p.v p.f) (h4 : 4 ≤ p.v.length) (h0 : p.f ≠ [])
    (hcop : NoTwoCoplanar p.v p.f)
    (hf : ∀ f ∈ p.f, (∃ n, ConvexPolygon n (f.map (corner p.v))) ∧ HasTriangle (f.map (corner p.v)) ∧ FirstEdge (f.map (corner p.v)))
    (clear : V3 ℝ → Prop) (hclear : ∀ x, clear x ↔ ClearPoint (11184811 / 33554432) p.v p.f x) :
    (∀ s : LineSeg ℝ, clear s.a → clear s.b →
      ∃ b, p.containsSeg s = some b ∧ (b = true ↔ ∀ y ∈ hull3 [s.a, s.b], y ∈ hull3 p.v)) ∧
    (∀ t : Tri ℝ, clear t.a → clear t.b → clear t.c →
      ∃ b, p.containsTri t = some b ∧ (b = true ↔ ∀ y ∈ hull3 [t.a, t.b, t.c], y ∈ hull3 p.v)) ∧
    (∀ vs : List (V3 ℝ), (∀ v ∈ vs, clear v) →
      ∃ b, p.containsVertices vs = some b ∧ (b = true ↔ ∀ y ∈ hull3 vs, y ∈ hull3 p.v)) ∧
    (∀ o : AABB ℝ, (∀ i, clear (o.cornerPoint i)) →
      ∃ b, p.containsAABB o = some b ∧ (b = true ↔ ∀ y ∈ hull3 ((List.finRange 8).map o.cornerPoint), y ∈ hull3 p.v)) ∧
    ∀ o : OBB ℝ, (∀ i, clear (o.cornerPoint i)) →
      ∃ b, p.containsOBB o = some b ∧ (b = true ↔ ∀ y ∈ hull3 ((List.finRange 8).map o.cornerPoint), y ∈ hull3 p.v) := by
  have H : ∀ l : List (V3 ℝ), (∀ v ∈ l, clear v) → ∃ b, p.containsAll l = some b ∧ (b = true ↔ ∀ y ∈ hull3 l, y ∈ hull3 p.v) :=
    fun l hl => containsAll_spec p l fun x hx => C98_contains_partial p hs h4 h0 hcop hf x ((hclear x).1 (hl x hx))
  refine ⟨fun s h1 h2 => H _ (by simp [h1, h2]), fun t h1 h2 h3 => H _ (by simp [h1, h2, h3]), fun vs h => H _ h,
    fun o h => H _ (by intro v hv; obtain ⟨i, -, rfl⟩ := List.mem_map.1 hv; exact h i),
    fun o h => H _ (by intro v hv; obtain ⟨i, -, rfl⟩ := List.mem_map.1 hv; exact h i)⟩

example := C98_objects_partial exCorner exCorner_convex (by simp [exCorner]) (by simp [exCorner]) exCorner_noTwoCoplanar exCorner_faces
  _ fun _ => Iff.rfl

/-- C98: on such a polyhedron, and under the same conditions on the point, `ClosestPoint(point)` returns the point of the convex hull of
the vertices that is closest to the given point, and `Distance(point)` its distance. Missing: as in `C98_contains_partial`. -/
theorem C98_closestPoint_partial (p : Polyhedron ℝ) (hs : ConvexSurface p.v p.f) (h4 : 4 ≤ p.v.length) (h0 : p.f ≠ [])
    (hcop : NoTwoCoplanar p.v p.f)
    (hf : ∀ f ∈ p.f, (∃ n, ConvexPolygon n (f.map (corner p.v))) ∧ HasTriangle (f.map (corner p.v)) ∧ FirstEdge (f.map (corner p.v)))
    (x : V3 ℝ) (hx : ClearPoint (11184811 / 33554432) p.v p.f x) :
    ∃ q, p.closestPoint x = some (some q) ∧ IsClosestPoint (hull3 p.v) x q ∧ p.distance x = some (some (V3.dist x q)) := by
  obtain ⟨b, h1, h2⟩ := C98_contains_partial p hs h4 h0 hcop hf x hx
  have hd : ∀ q, p.closestPoint x = some (some q) → p.distance x = some (some (V3.dist x q)) := by
    intro q hq
    rw [distance, hq, dist_comm x q]; rfl
  rcases b with _ | _
  · have hout : x ∉ hull3 p.v := fun h => by have := h2.2 h; cases this
    obtain ⟨q, e, hq⟩ := closestConvexLoop_out p hs h0 (sharp_of_noTwoCoplanar hs hcop)
      (fun f hm => by
        obtain ⟨⟨n, a1⟩, a2, a3⟩ := hf f hm
        exact ⟨⟨n, a1, Or.inr a2⟩, a3⟩) x (fun v hv => by
          have a1 := hx.near v hv
          have a2 : V3.dist x v * V3.dist x v = distSq x v := len_mul_self (x - v)
          have a3 : 0 ≤ V3.dist x v := len_nonneg (x - v)
          rw [distSq_comm, ← a2]
          have a4 : (10000 * 10000 : ℝ) < fltMax := by norm_num [fltMax]
          nlinarith) hout
    have : p.closestPoint x = some (some q) := by rw [closestPoint, h1]; exact e
    exact ⟨q, this, hq, hd q this⟩
  · have : p.closestPoint x = some (some x) := by rw [closestPoint, h1]; rfl
    exact ⟨x, this, ⟨h2.1 rfl, fun s _ => by rw [distSq_self]; exact distSq_nonneg _ _⟩, hd x this⟩

example := C98_closestPoint_partial exCorner exCorner_convex (by simp [exCorner]) (by simp [exCorner]) exCorner_noTwoCoplanar exCorner_faces
  _ exCorner_clearPoint

/-! ### A point outside a box that the test takes for inside -/

/-- A face that the ray misses does not change the scan. -/
theorem scan_miss {p : Polyhedron ℝ} {x w n A B C : V3 ℝ} {L s : ℝ} {a b c : ℤ} {r : List ℤ} (hL : 0 < L) (hn : dot n n = 1) (hs : 0 < s)
    (ha : p.vertex a = some A) (hb : p.vertex b = some B) (hc : p.vertex c = some C) (hN : cross (B - A) (C - A) = s • n)
    (hd : 1 / 1000 < |dot n (A - x)|) (hu : ∀ u : ℝ, 0 ≤ u → u * dot n w ≠ dot n (A - x)) (fs : List (List ℤ)) (m : ℕ) (D : EReal) :
    p.rayScan x ((1 / L) • w) ((a :: b :: c :: r) :: fs) m D = p.rayScan x ((1 / L) • w) fs m D := by
  have e : (Plane.setPoints A B C).normal = n := by
    rw [Plane.setPoints]; dsimp only; rw [hN]; exact unit_of_smul hn hs
  rw [rayScan]
  simp only [ha, hb, hc, Option.bind_eq_bind, Option.bind_some]
  rw [setPoints_shift, e]
  rcases intersectsRay_off n (dot n (A - x)) ((1 / L) • w) hd with ⟨-, h2, -, h4⟩ | ⟨h1, -⟩
  · generalize ((Plane.mk n (dot n (A - x))).intersectsRay ⟨⟨0, 0, 0⟩, (1 / L) • w⟩).2 = t at h2 h4
    refine absurd ?_ (hu _ (mul_nonneg h2 (one_div_pos.2 hL).le))
    rw [← h4]
    simp only [dot, smul_x, smul_y, smul_z]; ring
  · rw [if_neg (by rw [h1]; simp)]

/-- A face whose plane the ray meets after `u` steps of `w`. -/
theorem scan_hit {p : Polyhedron ℝ} {x w n A B C : V3 ℝ} {L s u : ℝ} {a b c : ℤ} {r : List ℤ} (hL : 0 < L) (hn : dot n n = 1) (hs : 0 < s)
    (ha : p.vertex a = some A) (hb : p.vertex b = some B) (hc : p.vertex c = some C) (hN : cross (B - A) (C - A) = s • n)
    (hd : 1 / 1000 < |dot n (A - x)|) (hu : 0 ≤ u) (huw : u * dot n w = dot n (A - x)) (hfar : u * L < 10000) {cv : EReal}
    (hcv : p.faceContainmentDistance2D (a :: b :: c :: r) (x + u • w) = some cv) (fs : List (List ℤ)) (m : ℕ) (D : EReal) :
    p.rayScan x ((1 / L) • w) ((a :: b :: c :: r) :: fs) m D =
      p.rayScan x ((1 / L) • w) fs (if cv ≥ 0 then m + 1 else m) (min D (max cv (-cv))) := by
  have e : (Plane.setPoints A B C).normal = n := by
    rw [Plane.setPoints]; dsimp only; rw [hN]; exact unit_of_smul hn hs
  have hdw : dot n ((1 / L) • w) = 1 / L * dot n w := by simp only [dot, smul_x, smul_y, smul_z]; ring
  rw [rayScan]
  simp only [ha, hb, hc, Option.bind_eq_bind, Option.bind_some]
  rw [setPoints_shift, e]
  rcases intersectsRay_off n (dot n (A - x)) ((1 / L) • w) hd with ⟨h1, h2, h3, h4⟩ | ⟨-, h2⟩
  · rw [if_pos h1]
    generalize ((Plane.mk n (dot n (A - x))).intersectsRay ⟨⟨0, 0, 0⟩, (1 / L) • w⟩).2 = t at h2 h4 ⊢
    have hw0 : dot n w ≠ 0 := fun h => h3 (by rw [hdw, h, mul_zero])
    have ht : t * (1 / L) = u := by
      apply mul_right_cancel₀ hw0
      rw [huw, ← h4, hdw]; ring
    have eq : (⟨0, 0, 0⟩ : V3 ℝ) + t • ((1 / L) • w) + x = x + u • w := by
      rw [← ht]
      ext <;> simp only [add_x, add_y, add_z, smul_x, smul_y, smul_z] <;> ring
    rw [eq, hcv]
    rfl
  · refine absurd ?_ (h2 (u * L) (mul_nonneg hu hL.le) hfar)
    rw [hdw, ← huw]; field_simp

/-- The value of `FaceContainmentDistance2D` for a face with four corners whose first edge goes along the unit vector `U`. -/
theorem fcd_quad {p : Polyhedron ℝ} {q n U V A B C E : V3 ℝ} {s s' : ℝ} {a b c e : ℤ} (hn : dot n n = 1) (hs : 0 < s) (hs' : 1 ≤ s')
    (ha : p.vertex a = some A) (hb : p.vertex b = some B) (hc : p.vertex c = some C) (he : p.vertex e = some E)
    (hN : cross (B - A) (C - A) = s • n) (hU : dot U U = 1) (hBA : B - A = s' • U) (hVV : dot V V = 1) (hV : cross n U = V)
    (hq : dot n q = dot n A) {r : ℕ × EReal}
    (hr : faceScan (Polygon.nudge ⟨dot (E - q) U, dot (E - q) V⟩)
      [⟨dot (A - q) U, dot (A - q) V⟩, ⟨dot (B - q) U, dot (B - q) V⟩, ⟨dot (C - q) U, dot (C - q) V⟩, ⟨dot (E - q) U, dot (E - q) V⟩] 0 ⊤ = r) :
    p.faceContainmentDistance2D [a, b, c, e] q = some (if r.1 % 2 = 1 then r.2 else -r.2) := by
  have hlen : ∀ X : V3 ℝ, dot X X = 1 → ∀ t : ℝ, 1 ≤ t → f3Normalized (t • X) = X := by
    intro X hX t ht
    have hX' : len X = 1 := by
      have : _ = dot X X := len_mul_self X
      rw [hX] at this
      nlinarith [len_nonneg X]
    have hl : len (t • X) = t := by rw [len_smul, hX', abs_of_pos (by linarith), mul_one]
    rw [f3Normalized, f3Normalize, if_pos (show f3Length (t • X) > 1 / 1000000 by
      show 1 / 1000000 < len (t • X); rw [hl]; norm_num; linarith)]
    exact unit_of_smul hX (by linarith)
  have e1 : Plane.setPoints A B C = ⟨n, dot n A⟩ := by
    rw [Plane.setPoints, hN]
    have := unit_of_smul hn hs
    exact congrArg (fun n => (⟨n, dot n A⟩ : Plane ℝ)) this
  have eU : f3Normalized (B - A) = U := by rw [hBA]; exact hlen U hU s' hs'
  have eV : f3Normalized (cross n U) = V := by
    rw [hV]
    have := hlen V hVV 1 le_rfl
    rwa [show (1 : ℝ) • V = V by ext <;> simp] at this
  rw [faceContainmentDistance2D, if_neg (by simp)]
  simp only [facePlane, ha, hb, hc, Option.bind_eq_bind, Option.bind_some, e1]
  rw [if_neg (by rw [Plane.distance, Plane.signedDistance]; simp only; rw [hq, sub_self, absF_eq, abs_zero]; norm_num)]
  simp only [List.mapM_cons, List.mapM_nil, ha, hb, hc, he, Option.bind_eq_bind, Option.bind_some, Option.pure_def, eU, eV, List.map_cons,
    List.map_nil, List.getLast?_cons_cons, List.getLast?_singleton]
  rw [hr]

/-- A box of size 6, as a polyhedron. -/
def exBox6 : Polyhedron ℝ :=
  ⟨[⟨0, 0, 0⟩, ⟨0, 0, 6⟩, ⟨0, 6, 0⟩, ⟨0, 6, 6⟩, ⟨6, 0, 0⟩, ⟨6, 0, 6⟩, ⟨6, 6, 0⟩, ⟨6, 6, 6⟩], boxFaces⟩

theorem exBox6_eq : ofAABB (⟨⟨0, 0, 0⟩, ⟨6, 6, 6⟩⟩ : AABB ℝ) = exBox6 := by
  simp [ofAABB, exBox6, List.finRange_succ, AABB.cornerPoint]

theorem exBox6_vertex : exBox6.vertex 0 = some ⟨0, 0, 0⟩ ∧ exBox6.vertex 1 = some ⟨0, 0, 6⟩ ∧ exBox6.vertex 2 = some ⟨0, 6, 0⟩ ∧
    exBox6.vertex 3 = some ⟨0, 6, 6⟩ ∧ exBox6.vertex 4 = some ⟨6, 0, 0⟩ ∧ exBox6.vertex 5 = some ⟨6, 0, 6⟩ ∧
    exBox6.vertex 6 = some ⟨6, 6, 0⟩ ∧ exBox6.vertex 7 = some ⟨6, 6, 6⟩ := by
  refine ⟨?_, ?_, ?_, ?_, ?_, ?_, ?_, ?_⟩ <;> simp [vertex, exBox6]

/-- The point of `C98_contains_violation`. -/
noncomputable def exOutside : V3 ℝ := ⟨-6, 6 * oneThird, 12 * oneThird - 199995 / 100000⟩

set_option maxHeartbeats 1000000 in
theorem exBox6_scan {L : ℝ} (hL : 0 < L) (hL2 : L < 100) :
    exBox6.rayScan exOutside ((1 / L) • ⟨6, 0, 199995 / 100000⟩) boxFaces 0 ⊤ = some (1, ((6 - 12 * oneThird : ℝ) : EReal)) := by
  obtain ⟨v0, v1, v2, v3, v4, v5, v6, v7⟩ := exBox6_vertex
  have f0 : exBox6.faceContainmentDistance2D [0, 1, 3, 2] (exOutside + (1 : ℝ) • ⟨6, 0, 199995 / 100000⟩) =
      some ((6 - 12 * oneThird : ℝ) : EReal) := by
    rw [fcd_quad (n := ⟨-1, 0, 0⟩) (U := ⟨0, 0, 1⟩) (V := ⟨0, 1, 0⟩) (s := 36) (s' := 6) (r := (1, ((6 - 12 * oneThird : ℝ) : EReal)))
      (by norm_num [dot]) (by norm_num) (by norm_num) v0 v1 v3 v2 (by ext <;> norm_num [cross]) (by norm_num [dot])
      (by ext <;> norm_num) (by norm_num [dot]) (by ext <;> norm_num [cross]) (by norm_num [dot, exOutside])]
    · rfl
    · norm_num [dot, exOutside, oneThird, faceScan, edgeScan, Polygon.nudge, absF, min2, max2]
  have f1 : exBox6.faceContainmentDistance2D [4, 6, 7, 5] (exOutside + (2 : ℝ) • ⟨6, 0, 199995 / 100000⟩) = some ⊥ := by
    rw [fcd_quad (n := ⟨1, 0, 0⟩) (U := ⟨0, 1, 0⟩) (V := ⟨0, 0, 1⟩) (s := 36) (s' := 6) (r := (0, ⊤))
      (by norm_num [dot]) (by norm_num) (by norm_num) v4 v6 v7 v5 (by ext <;> norm_num [cross]) (by norm_num [dot])
      (by ext <;> norm_num) (by norm_num [dot]) (by ext <;> norm_num [cross]) (by norm_num [dot, exOutside])]
    · simp
    · norm_num [dot, exOutside, oneThird, faceScan, edgeScan, Polygon.nudge, absF, min2, max2]
  have f5 : exBox6.faceContainmentDistance2D [1, 5, 7, 3] (exOutside + ((6 - 12 * oneThird + 199995 / 100000) / (199995 / 100000)) • ⟨6, 0, 199995 / 100000⟩) =
      some ⊥ := by
    rw [fcd_quad (n := ⟨0, 0, 1⟩) (U := ⟨1, 0, 0⟩) (V := ⟨0, 1, 0⟩) (s := 36) (s' := 6) (r := (0, ⊤))
      (by norm_num [dot]) (by norm_num) (by norm_num) v1 v5 v7 v3 (by ext <;> norm_num [cross]) (by norm_num [dot])
      (by ext <;> norm_num) (by norm_num [dot]) (by ext <;> norm_num [cross]) (by norm_num [dot, exOutside, oneThird])]
    · simp
    · norm_num [dot, exOutside, oneThird, faceScan, edgeScan, Polygon.nudge, absF, min2, max2]
  rw [boxFaces, scan_hit (n := ⟨-1, 0, 0⟩) (s := 36) hL (by norm_num [dot]) (by norm_num) v0 v1 v3 (by ext <;> norm_num [cross])
      (by norm_num [dot, exOutside]) (by norm_num) (by norm_num [dot, exOutside]) (by linarith) f0,
    scan_hit (n := ⟨1, 0, 0⟩) (s := 36) hL (by norm_num [dot]) (by norm_num) v4 v6 v7 (by ext <;> norm_num [cross])
      (by norm_num [dot, exOutside]) (by norm_num) (by norm_num [dot, exOutside]) (by linarith) f1,
    scan_miss (n := ⟨0, -1, 0⟩) (s := 36) hL (by norm_num [dot]) (by norm_num) v0 v4 v5 (by ext <;> norm_num [cross])
      (by norm_num [dot, exOutside, oneThird]) (by intro u hu; norm_num [dot, exOutside, oneThird]),
    scan_miss (n := ⟨0, 1, 0⟩) (s := 36) hL (by norm_num [dot]) (by norm_num) v7 v6 v2 (by ext <;> norm_num [cross])
      (by norm_num [dot, exOutside, oneThird]) (by intro u hu; norm_num [dot, exOutside, oneThird]),
    scan_miss (n := ⟨0, 0, -1⟩) (s := 36) hL (by norm_num [dot]) (by norm_num) v0 v2 v6 (by ext <;> norm_num [cross])
      (by norm_num [dot, exOutside, oneThird]) (by intro u hu h; norm_num [dot, exOutside, oneThird] at h; linarith),
    scan_hit (n := ⟨0, 0, 1⟩) (s := 36) hL (by norm_num [dot]) (by norm_num) v1 v5 v7 (by ext <;> norm_num [cross])
      (by norm_num [dot, exOutside, oneThird]) (by norm_num [oneThird]) (by norm_num [dot, exOutside, oneThird]) (by norm_num [oneThird]; linarith) f5]
  have h0 : (0 : ℝ) ≤ 6 - 12 * oneThird := by norm_num [oneThird]
  have h1 : ((6 - 12 * oneThird : ℝ) : EReal) ≥ 0 := by exact_mod_cast h0
  rw [rayScan]
  rw [if_pos h1]
  have h2 : -((6 - 12 * oneThird : ℝ) : EReal) ≤ ((6 - 12 * oneThird : ℝ) : EReal) := by
    rw [← EReal.coe_neg, EReal.coe_le_coe_iff]; linarith
  rw [max_eq_left h2]
  simp

/-- C98 does not hold without the condition on the ray: a point six units away from a cube of size 6 is contained in it according to
`Contains(point)`. The ray through the centre of the first face leaves the cube within `1e-4` of an edge of the opposite face; it
passes this face for outside, but is not thought to be near its border, so no other ray is tried. -/
theorem C98_contains_violation : ∃ x : V3 ℝ, (ofAABB ⟨⟨0, 0, 0⟩, ⟨6, 6, 6⟩⟩ : Polyhedron ℝ).contains x = some true ∧
    ∀ y ∈ box (⟨0, 0, 0⟩ : V3 ℝ) ⟨6, 6, 6⟩, 6 ≤ V3.dist x y := by
  obtain ⟨v0, v1, v2, v3, v4, v5, v6, v7⟩ := exBox6_vertex
  refine ⟨exOutside, ?_, ?_⟩
  · rw [exBox6_eq]
    show exBox6.rayLoop exOutside boxFaces 0 0 = _
    rw [boxFaces, rayLoop]
    simp only [v0, v1, v3, Option.bind_eq_bind, Option.bind_some]
    have e : oneThird • ((⟨0, 0, 0⟩ : V3 ℝ) + ⟨0, 0, 6⟩ + ⟨0, 6, 6⟩) - exOutside = ⟨6, 0, 199995 / 100000⟩ := by
      ext <;> simp [exOutside] <;> ring
    have hq : len (⟨6, 0, 199995 / 100000⟩ : V3 ℝ) * len (⟨6, 0, 199995 / 100000⟩ : V3 ℝ) = 6 * 6 + 199995 / 100000 * (199995 / 100000) := by
      rw [len_mul_self]; norm_num [lenSq, dot]
    have h0 := len_nonneg (⟨6, 0, 199995 / 100000⟩ : V3 ℝ)
    have h1 : 1 < len (⟨6, 0, 199995 / 100000⟩ : V3 ℝ) := by nlinarith
    have h2 : len (⟨6, 0, 199995 / 100000⟩ : V3 ℝ) < 100 := by nlinarith
    have e2 : f3Normalize ⟨6, 0, 199995 / 100000⟩ = ((1 / len (⟨6, 0, 199995 / 100000⟩ : V3 ℝ)) • (⟨6, 0, 199995 / 100000⟩ : V3 ℝ), len ⟨6, 0, 199995 / 100000⟩) := by
      rw [f3Normalize, if_pos (show f3Length ⟨6, 0, 199995 / 100000⟩ > 1 / 1000000 by
        show 1 / 1000000 < len (⟨6, 0, 199995 / 100000⟩ : V3 ℝ); linarith)]
      rfl
    rw [e, e2]
    dsimp only
    rw [if_neg (by linarith), show exBox6.f = boxFaces from rfl, exBox6_scan (by linarith) h2]
    simp only [Option.bind_some]
    rw [if_pos]
    · rfl
    · have : (1 / 100 : ℝ) < 6 - 12 * oneThird := by norm_num [oneThird]
      exact_mod_cast this
  · rintro y ⟨hy, -⟩
    rw [dist_eq_len]
    have h1 := len_mul_self (exOutside - y)
    have h0 := len_nonneg (exOutside - y)
    have h2 : lenSq (exOutside - y) = (-6 - y.x) * (-6 - y.x) + (exOutside - y).y * (exOutside - y).y + (exOutside - y).z * (exOutside - y).z := by
      simp only [lenSq, dot, exOutside, sub_x]
    have h3 : 0 ≤ y.x := hy
    by_contra hn
    rw [not_le] at hn
    nlinarith [mul_self_nonneg (exOutside - y).y, mul_self_nonneg (exOutside - y).z]

end Polyhedron
end MGL
