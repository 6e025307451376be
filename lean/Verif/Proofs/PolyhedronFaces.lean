import Verif.Spec.FaceNormal
import Verif.Model.PolyhedronFaces
import Verif.Proofs.PolygonMore
import Verif.Proofs.PolyhedronContains
import Verif.Props.PolygonTriangulate

/-! Lemmas on the normals of faces (`Props/PolyhedronFaces`). -/

namespace MGL
open V3 Spec Polygon
namespace Polyhedron

/-- Differences cancel around a closed polygon. -/
theorem closed_sum (g : V3 ℝ → ℝ) (p : List (V3 ℝ)) : ((closedEdges p).map fun e => g e.1 - g e.2).sum = 0 := by
  cases hz : p.getLast? with
  | none => rw [List.getLast?_eq_none_iff] at hz; subst hz; simp [closedEdges]
  | some z =>
    have e1 : closedEdges p = walk z p := by rw [closedEdges, hz]; rfl
    have hd : p.getLastD z = z := by rw [List.getLastD_eq_getLast?, hz]; rfl
    have := walk_telescope g p z
    rw [hd, sub_self] at this
    rw [e1, this]

/-- The enclosed area does not depend on the reference point. -/
theorem area_shift (m a : V3 ℝ) (p : List (V3 ℝ)) :
    ((closedEdges p).map fun e => dot m (cross (e.1 - a) (e.2 - a))).sum = area2Seen m p := by
  have e3 : ∀ e : V3 ℝ × V3 ℝ, dot m (cross (e.1 - a) (e.2 - a)) = dot m (cross e.1 e.2) + (dot m (cross a e.1) - dot m (cross a e.2)) := by
    intro e; simp only [dot, cross, sub_x, sub_y, sub_z]; ring
  rw [show (fun e : V3 ℝ × V3 ℝ => dot m (cross (e.1 - a) (e.2 - a))) = fun e => dot m (cross e.1 e.2) + (dot m (cross a e.1) - dot m (cross a e.2))
    from funext e3, List.sum_map_add, closed_sum fun y => dot m (cross a y), add_zero]
  rfl

/-- The cross product of two vectors in the plane perpendicular to the unit vector `n`. -/
theorem cross_in_plane {n u v : V3 ℝ} (hn : dot n n = 1) (hu : dot n u = 0) (hv : dot n v = 0) (m : V3 ℝ) :
    dot m (cross u v) = dot n (cross u v) * dot m n := by
  have e : cross u v = dot n (cross u v) • n := by
    have hx : cross n (cross u v) = ⟨0, 0, 0⟩ := by
      have : cross n (cross u v) = dot n v • u - dot n u • v := by
        ext <;> simp only [cross, dot, sub_x, sub_y, sub_z, smul_x, smul_y, smul_z] <;> ring
      rw [this, hu, hv]; ext <;> simp
    have h1 : (cross n (cross u v)).x = 0 := by rw [hx]
    have h2 : (cross n (cross u v)).y = 0 := by rw [hx]
    have h3 : (cross n (cross u v)).z = 0 := by rw [hx]
    generalize cross u v = w at *
    simp only [cross] at h1 h2 h3
    unfold dot at hn
    ext <;> simp only [dot, smul_x, smul_y, smul_z]
    · linear_combination (-w.x) * hn - n.y * h3 + n.z * h2
    · linear_combination (-w.y) * hn - n.z * h1 + n.x * h3
    · linear_combination (-w.z) * hn - n.x * h2 + n.y * h1
  have h4 : dot m (dot n (cross u v) • n) = dot n (cross u v) * dot m n := by
    simp only [dot, smul_x, smul_y, smul_z]; ring
  rw [← h4, ← e]

theorem dot_diff (n x y : V3 ℝ) : dot n (x - y) = dot n x - dot n y := by simp only [dot, sub_x, sub_y, sub_z]; ring

/-- The area of a planar polygon seen against any vector. -/
theorem area_planar {n : V3 ℝ} (hn : dot n n = 1) {p : List (V3 ℝ)} (hp : ∀ x ∈ p, ∀ y ∈ p, dot n (x - y) = 0) (m : V3 ℝ) :
    area2Seen m p = area2Seen n p * dot m n := by
  rcases p with _ | ⟨a, r⟩
  · simp [area2Seen, closedEdges]
  · rw [← area_shift m a, ← area_shift n a, ← List.sum_map_mul_right]
    refine congrArg List.sum (List.map_congr_left fun e he => ?_)
    obtain ⟨h1, h2⟩ := edge_mem he
    exact cross_in_plane hn (hp _ h1 _ (by simp)) (hp _ h2 _ (by simp)) m

/-- What the loop of Newell's method adds up. -/
theorem newell_walk (m : V3 ℝ) : ∀ (l : List (V3 ℝ)) (i acc : V3 ℝ), dot m (newellLoop i l acc) = dot m acc +
    ((walk i l).map fun e => dot m (cross e.1 e.2) + (dot m ⟨e.1.y * e.1.z, e.1.z * e.1.x, e.1.x * e.1.y⟩ -
      dot m ⟨e.2.y * e.2.z, e.2.z * e.2.x, e.2.x * e.2.y⟩)).sum
  | [], i, acc => by simp [newellLoop, walk]
  | j :: r, i, acc => by
    rw [newellLoop, newell_walk m r j, walk_cons, List.map_cons, List.sum_cons, ← add_assoc]
    congr 1
    simp only [dot, cross]; ring

/-- Newell's method sums up the areas seen along the axes. -/
theorem newell_sum (m : V3 ℝ) {p : List (V3 ℝ)} {z : V3 ℝ} (hz : p.getLast? = some z) :
    dot m (newellLoop z p ⟨0, 0, 0⟩) = area2Seen m p := by
  have e1 : closedEdges p = walk z p := by rw [closedEdges, hz]; rfl
  rw [newell_walk, ← e1, List.sum_map_add, closed_sum fun v => dot m ⟨v.y * v.z, v.z * v.x, v.x * v.y⟩, add_zero]
  simp [dot, area2Seen]

theorem eq_of_dots {u v : V3 ℝ} (h : ∀ m, dot m u = dot m v) : u = v := by
  have h1 := h ⟨1, 0, 0⟩
  have h2 := h ⟨0, 1, 0⟩
  have h3 := h ⟨0, 0, 1⟩
  simp only [dot] at h1 h2 h3
  ext <;> linarith

theorem newell_planar {n : V3 ℝ} (hn : dot n n = 1) {p : List (V3 ℝ)} (hp : ∀ x ∈ p, ∀ y ∈ p, dot n (x - y) = 0) {z : V3 ℝ}
    (hz : p.getLast? = some z) : newellLoop z p ⟨0, 0, 0⟩ = area2Seen n p • n := by
  refine eq_of_dots fun m => ?_
  rw [newell_sum m hz, area_planar hn hp m]
  simp only [dot, smul_x, smul_y, smul_z]; ring

theorem normalizeD_pos {n : V3 ℝ} (hn : dot n n = 1) {t : ℝ} (ht : 0 < t) : normalizeD (t • n) = some n := by
  have h := unit_of_smul hn ht
  have hl : len (t • n) ≠ 0 := by
    have h1 : len n = 1 := by
      have : _ = dot n n := len_mul_self n
      rw [hn] at this
      nlinarith [len_nonneg n]
    rw [len_smul, h1, mul_one]
    exact abs_ne_zero.2 ht.ne'
  have e : f3Length (t • n) = len (t • n) := rfl
  rw [normalizeD, e, if_neg hl, h]

theorem cornersNormal_eq {n : V3 ℝ} {p : List (V3 ℝ)} (hl : 3 ≤ p.length) (h : IsNormalOf n p) : cornersNormal p = some n := by
  obtain ⟨hn, hp, ha⟩ := h
  rcases p with _ | ⟨a, _ | ⟨b, _ | ⟨c, _ | ⟨d, r⟩⟩⟩⟩
  · simp at hl
  · simp at hl
  · simp at hl
  · have e : cross (b - a) (c - a) = area2Seen n [a, b, c] • n := by
      refine eq_of_dots fun m => ?_
      have := area_planar hn hp m
      have e2 : dot m (cross (b - a) (c - a)) = area2Seen m [a, b, c] := by
        simp only [area2Seen, closedEdges, dot, cross, sub_x, sub_y, sub_z, List.getLast?_cons_cons, List.getLast?_singleton, List.zip_cons_cons,
          List.zip_nil_right, List.map_cons, List.map_nil, List.sum_cons, List.sum_nil]
        ring
      rw [e2, this]
      simp only [dot, smul_x, smul_y, smul_z]; ring
    rw [cornersNormal, e, normalizeD_pos hn ha]
  · have hz : (a :: b :: c :: d :: r).getLast? = some ((b :: c :: d :: r).getLastD a) := by
      rw [List.getLast?_cons, List.getLastD_eq_getLast?]
    rw [cornersNormal, newell_planar hn hp hz, normalizeD_pos hn ha]
    all_goals simp

/-- The area of a polygon whose edges all leave its first corner to the left. -/
theorem area_pos_of_left {n a : V3 ℝ} {p : List (V3 ℝ)} (h : ∀ e ∈ closedEdges p, 0 ≤ dot n (cross (e.2 - e.1) (a - e.1)))
    (h2 : ∃ e ∈ closedEdges p, 0 < dot n (cross (e.2 - e.1) (a - e.1))) : 0 < area2Seen n p := by
  have e3 : ∀ e : V3 ℝ × V3 ℝ, dot n (cross (e.1 - a) (e.2 - a)) = dot n (cross (e.2 - e.1) (a - e.1)) := by
    intro e; simp only [dot, cross, sub_x, sub_y, sub_z]; ring
  rw [← area_shift n a, show (fun e : V3 ℝ × V3 ℝ => dot n (cross (e.1 - a) (e.2 - a))) = fun e => dot n (cross (e.2 - e.1) (a - e.1)) from funext e3]
  obtain ⟨e, he, hpos⟩ := h2
  have := List.single_le_sum (l := (closedEdges p).map fun e => dot n (cross (e.2 - e.1) (a - e.1)))
    (fun x hx => by obtain ⟨y, hy, rfl⟩ := List.mem_map.1 hx; exact h y hy) _ (List.mem_map_of_mem he)
  linarith

/-- A convex face that looks outward has a normal. -/
theorem normal_of_turning {V poly : List (V3 ℝ)} (ho : FaceOutward V poly) (ht : LeftTurning poly) :
    ∃ t : ℝ, 0 < t ∧ IsNormalOf (t • cornerNormal poly) poly := by
  obtain ⟨a, b, c, rest, rfl, hne, -, hpl⟩ := ho
  set N := cross (b - a) (c - a) with hN
  have hcn : cornerNormal (a :: b :: c :: rest) = N := rfl
  have hL : 0 < len N := by
    have h0 := len_nonneg N
    rcases h0.lt_or_eq with h | h
    · exact h
    · exfalso
      have h2 : _ = dot N N := len_mul_self N
      rw [← h, mul_zero] at h2
      unfold dot at h2
      apply hne
      ext <;> simp only [zero_x, zero_y, zero_z] <;> nlinarith [mul_self_nonneg N.x, mul_self_nonneg N.y, mul_self_nonneg N.z]
  have hNN : dot N N = len N * len N := (len_mul_self N).symm
  have hs : ∀ x : V3 ℝ, dot ((1 / len N) • N) x = 1 / len N * dot N x := fun x => by simp only [dot, smul_x, smul_y, smul_z]; ring
  refine ⟨1 / len N, by positivity, ?_, ?_, ?_⟩
  · rw [hcn, hs]
    have : dot N ((1 / len N) • N) = 1 / len N * dot N N := by simp only [dot, smul_x, smul_y, smul_z]; ring
    rw [this, hNN]; field_simp
  · intro x hx y hy
    have h1 := hpl x hx
    have h2 := hpl y hy
    rw [hcn, hs, dot_diff]
    rw [dot_diff] at h1 h2
    have : dot N x - dot N y = 0 := by linarith
    rw [this, mul_zero]
  · rw [hcn]
    refine area_pos_of_left (a := a) (fun e he => ?_) ⟨(b, c), ?_, ?_⟩
    · rw [hs]
      have := (ht e ((edges_mem_iff _ _).2 he)).1 a (by simp)
      rw [hcn] at this
      positivity
    · rw [← edges_mem_iff]; simp
    · rw [hs]
      have : dot N (cross (c - b) (a - b)) = dot N N := by
        rw [hN]; simp only [dot, cross, sub_x, sub_y, sub_z]; ring
      rw [this, hNN]; positivity

/-- The area of a polygon is the sum of those of its fan. -/
theorem area_fan (n a b : V3 ℝ) (r : List (V3 ℝ)) :
    area2Seen n (a :: b :: r) = ((Spec.fan a (b :: r)).map fun t => dot n (cross (t.2.1 - t.1) (t.2.2 - t.1))).sum := by
  have hz : (a :: b :: r).getLast? = some (r.getLastD b) := by
    rw [List.getLast?_cons_cons, List.getLast?_cons, List.getLastD_eq_getLast?]
  have hce : closedEdges (a :: b :: r) = walk (r.getLastD b) (a :: b :: r) := by rw [closedEdges, hz]; rfl
  rw [← area_shift n a, hce, ← fan_sum, walk_cons, walk_cons, List.map_cons, List.map_cons, List.sum_cons, List.sum_cons]
  have z1 : dot n (cross (r.getLastD b - a) (a - a)) = 0 := by simp [dot, cross]
  have z2 : dot n (cross (a - a) (b - a)) = 0 := by simp [dot, cross]
  dsimp only
  rw [z1, z2]; ring

/-- The direction of a strictly convex polygon is its normal. -/
theorem normal_of_convex {n : V3 ℝ} {p : List (V3 ℝ)} (h : ConvexPolygon n p) : IsNormalOf n p := by
  refine ⟨h.1, fun x hx y hy => by rw [dot_diff, h.plane hx hy, sub_self], ?_⟩
  have hl := h.2.1
  rcases p with _ | ⟨a, _ | ⟨b, _ | ⟨c, r⟩⟩⟩
  · simp at hl
  · simp at hl
  · simp at hl
  · rw [area_fan]
    have key : ∀ t ∈ Spec.fan a (b :: c :: r), 0 < dot n (cross (t.2.1 - t.1) (t.2.2 - t.1)) := by
      intro t ht
      obtain ⟨k, hk, e⟩ := fan_tri h ht
      have : dot n (k • n) = k * dot n n := by simp only [dot, smul_x, smul_y, smul_z]; ring
      rw [e, this, h.1, mul_one]; exact hk
    have hm : (a, b, c) ∈ Spec.fan a (b :: c :: r) := by simp [Spec.fan]
    have := List.single_le_sum (l := (Spec.fan a (b :: c :: r)).map fun t => dot n (cross (t.2.1 - t.1) (t.2.2 - t.1)))
      (fun x hx => by obtain ⟨y, hy, rfl⟩ := List.mem_map.1 hx; exact (key y hy).le) _ (List.mem_map_of_mem hm)
    have h2 := key _ hm
    dsimp only at this h2
    linarith

/-- `Area` of a strictly convex polygon is not zero. -/
theorem area_convex_pos {n : V3 ℝ} {p : List (V3 ℝ)} (h : ConvexPolygon n p) (ht : p.length = 3 ∨ HasTriangle p) : 0 < Polygon.area p := by
  have hl := h.2.1
  have hN := normal_of_convex h
  obtain ⟨o, ho⟩ : ∃ o, p.head? = some o := by
    rcases p with _ | ⟨o, r⟩
    · simp at hl
    · exact ⟨o, rfl⟩
  obtain ⟨z, hz⟩ : ∃ z, p.getLast? = some z := by
    cases hz : p.getLast? with
    | none => rw [List.getLast?_eq_none_iff] at hz; rw [hz] at hl; simp at hl
    | some z => exact ⟨z, rfl⟩
  have hc := (C84_plane_convex p n h ht o (List.mem_of_head? ho)).1
  have hce : closedEdges p = walk z p := by rw [closedEdges, hz]; rfl
  unfold Polygon.area
  rw [if_neg (by omega), hz, hc]
  dsimp only
  rw [areaLoop_eq, ← hce, absF_eq]
  have h0 : dot n 0 = 0 := by simp [dot]
  rw [h0, zero_add]
  have := hN.2.2
  unfold area2Seen at this
  rw [abs_of_pos this]
  positivity

end Polyhedron
end MGL
