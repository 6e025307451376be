import Verif.Proofs.PolygonEars
import Verif.Props.PolygonContains
import Verif.Props.Triangle
import Verif.Proofs.QuadTreePairs

/-! Property C86: triangulation of polygons, and the queries built on it. -/

set_option linter.unusedSectionVars false

namespace MGL
open V3 Spec
namespace Polygon

/-- `Triangulate` of four or more vertices. -/
theorem triangulate_eq {p : List (V3 ℝ)} {o : V3 ℝ} (ho : p.head? = some o) (hp : 4 ≤ p.length) :
    triangulate p = (clipEars (p.map fun x => (loc p o x, x)) 0 1 2 0).bind fun r =>
      if r.2.length > 3 then some (r.1.map fun t => (⟨t.1, t.2.1, t.2.2⟩ : Tri ℝ))
      else (r.2[0]?).bind fun a => (r.2[1]?).bind fun b => (r.2[2]?).bind fun c =>
        some ((r.1.map fun t => (⟨t.1, t.2.1, t.2.2⟩ : Tri ℝ)) ++ [⟨a.2, b.2, c.2⟩]) := by
  have hm : p.mapM (fun x => (mapTo2D p x).map fun q => (q, x)) = some (p.map fun x => (loc p o x, x)) := by
    apply QuadTree.mapM_some
    intro x _
    unfold mapTo2D
    rw [ho]
    rfl
  rcases p with _ | ⟨p0, _ | ⟨p1, _ | ⟨p2, _ | ⟨p3, r⟩⟩⟩⟩
  · simp at hp
  · simp at hp
  · simp at hp
  · simp at hp
  · simp only [triangulate, hm, Option.bind_eq_bind, Option.bind_some]

/-- C86: `Triangulate` of any polygon whatsoever ends, reads no vertex out of range, and returns at most `n - 2` triangles, whose
corners are vertices of the polygon. -/
theorem C86_triangulate_safe (p : List (V3 ℝ)) : ∃ ts, triangulate p = some ts ∧ ts.length ≤ p.length - 2 ∧
    ∀ t ∈ ts, t.a ∈ p ∧ t.b ∈ p ∧ t.c ∈ p := by
  by_cases hp : 4 ≤ p.length
  · have ho : ∃ o, p.head? = some o := by
      rcases p with _ | ⟨o, r⟩
      · simp at hp
      · exact ⟨o, rfl⟩
    obtain ⟨o, ho⟩ := ho
    rw [triangulate_eq ho hp]
    set l := p.map fun x => (loc p o x, x) with hl
    have hlen : l.length = p.length := by rw [hl, List.length_map]
    have hsnd : l.map Prod.snd = p := by rw [hl, List.map_map]; exact List.map_id _
    obtain ⟨ts, r, e, h1, h2, h3, h4⟩ := clipEars_total l 0 1 2 0 (by omega) (by unfold State; omega)
    rw [hsnd] at h3
    rw [e, Option.bind_some]
    have hr : ∀ x ∈ r, x.2 ∈ p := fun x hx => by
      rw [← hsnd]; exact List.mem_map_of_mem (h4.subset hx)
    dsimp only
    by_cases h5 : r.length > 3
    · rw [if_pos h5]
      refine ⟨_, rfl, by rw [List.length_map]; omega, ?_⟩
      intro t ht
      obtain ⟨t', ht', rfl⟩ := List.mem_map.1 ht
      exact h3 t' ht'
    · rw [if_neg h5]
      have h6 : r.length = 3 := by omega
      obtain ⟨a, b, c, rfl⟩ := List.length_eq_three.1 h6
      refine ⟨_, rfl, by rw [List.length_append, List.length_map]; simp at h1 ⊢; omega, ?_⟩
      intro t ht
      rcases List.mem_append.1 ht with ht | ht
      · obtain ⟨t', ht', rfl⟩ := List.mem_map.1 ht
        exact h3 t' ht'
      · rw [List.mem_singleton] at ht
        subst ht
        exact ⟨hr _ (by simp), hr _ (by simp), hr _ (by simp)⟩
  · rcases p with _ | ⟨p0, _ | ⟨p1, _ | ⟨p2, _ | ⟨p3, r⟩⟩⟩⟩
    · exact ⟨[], rfl, by simp, by simp⟩
    · exact ⟨[], rfl, by simp, by simp⟩
    · exact ⟨[], rfl, by simp, by simp⟩
    · exact ⟨[⟨p0, p1, p2⟩], rfl, by simp, by simp⟩
    · simp at hp

/-- C86: a strictly convex polygon listed counter-clockwise is cut into the fan of triangles around its first vertex. -/
theorem C86_triangulate_convex (a : V3 ℝ) (r : List (V3 ℝ)) (n : V3 ℝ) (hc : ConvexPolygon n (a :: r)) (ht : (a :: r).length = 3 ∨ HasTriangle (a :: r))
    (he : FirstEdge (a :: r)) : triangulate (a :: r) = some ((fan a r).map fun t => ⟨t.1, t.2.1, t.2.2⟩) := by
  obtain ⟨o, b, r', hpe, he⟩ := he
  rcases r with _ | ⟨b', _ | ⟨c, _ | ⟨d, r⟩⟩⟩
  · simp at hpe
  · have := hc.2.1; simp at this
  · rfl
  · cases hpe
    have B := convexBasis hc (ht.imp id hasTriangle_iff) he
    rw [triangulate_eq (o := a) rfl (by simp)]
    set p := a :: b :: c :: d :: r with hp
    have hT : ((p.map fun x => (loc p a x, x)).map Prod.fst).Triplewise fun a b c => 0 < area2 a b c := by
      rw [List.map_map]; exact loc_strict hc B a
    obtain ⟨ts, x, y, z, e1, e2⟩ := clipEars_convex ((d :: r).map fun x => (loc p a x, x)) (loc p a a, a) (loc p a b, b) (loc p a c, c) hT
    have e3 : (p.map fun x => (loc p a x, x)) = (loc p a a, a) :: (loc p a b, b) :: (loc p a c, c) :: ((d :: r).map fun x => (loc p a x, x)) := by
      rw [hp]; simp only [List.map_cons]
    rw [e3, e1, Option.bind_some, if_neg (by simp)]
    have e4 : ((loc p a b, b) :: (loc p a c, c) :: ((d :: r).map fun x => (loc p a x, x))).map Prod.snd = b :: c :: d :: r := by
      simp [List.map_map, Function.comp_def]
    rw [e4] at e2
    simp only at e2
    rw [← e2, List.map_append]
    rfl

example := C86_triangulate_convex ⟨0, 0, 0⟩ _ ⟨0, 0, 1⟩ exSquare_convex (Or.inr exSquare_big) exSquare_edge

theorem fan_sublist {a : V3 ℝ} : ∀ {r : List (V3 ℝ)} {t : V3 ℝ × V3 ℝ × V3 ℝ}, t ∈ fan a r → [t.1, t.2.1, t.2.2].Sublist (a :: r)
  | [], _, h => by cases h
  | [_], _, h => by cases h
  | b :: c :: r, t, h => by
    rw [fan, List.mem_cons] at h
    rcases h with rfl | h
    · simp
    · have := fan_sublist h
      cases this with
      | cons _ h1 => exact List.Sublist.cons _ (List.Sublist.cons _ h1)
      | cons_cons _ h1 => exact List.Sublist.cons_cons _ (List.Sublist.cons _ h1)

theorem fan_map {β γ : Type*} (f : β → γ) (a : β) : ∀ r : List β, fan (f a) (r.map f) = (fan a r).map fun t => (f t.1, f t.2.1, f t.2.2)
  | [] => rfl
  | [_] => rfl
  | b :: c :: r => by
    have := fan_map f a (c :: r)
    rw [List.map_cons] at this
    simp only [fan, List.map_cons, this]

theorem fan_length {β : Type*} (a : β) : ∀ r : List β, (fan a r).length = r.length - 1
  | [] => rfl
  | [_] => rfl
  | b :: c :: r => by
    have := fan_length a (c :: r)
    simp only [fan, List.length_cons] at this ⊢
    omega

theorem tri_hull {q : List (V3 ℝ)} {a b c x : V3 ℝ} (ha : a ∈ q) (hb : b ∈ q) (hc : c ∈ q) (hx : x ∈ tri a b c) : x ∈ hull3 q := by
  obtain ⟨u, v, w, hu, hv, hw, hs, rfl⟩ := hx
  intro K hK hS
  have ha := hS a ha
  have hb := hS b hb
  have hc := hS c hc
  rcases eq_or_lt_of_le (add_nonneg hu hv) with h | h
  · have h1 : u = 0 := by linarith
    have h2 : v = 0 := by linarith
    have h3 : w = 1 := by linarith
    have e : u • a + v • b + w • c = c := by rw [h1, h2, h3]; ext <;> simp
    rw [e]; exact hc
  · have h1 := hK _ ha _ hb (u / (u + v)) (v / (u + v)) (by positivity) (by positivity) (by field_simp)
    have h2 := hK _ h1 _ hc (u + v) w h.le hw hs
    have e : u • a + v • b + w • c = (u + v) • ((u / (u + v)) • a + (v / (u + v)) • b) + w • c := by
      ext <;> simp only [add_x, add_y, add_z, smul_x, smul_y, smul_z] <;> field_simp
    rw [e]; exact h2

theorem hull_plane {p : List (V3 ℝ)} {n : V3 ℝ} {d : ℝ} (h : ∀ x ∈ p, dot n x = d) {x : V3 ℝ} (hx : x ∈ hull3 p) : dot n x = d := by
  refine hx {x | dot n x = d} ?_ h
  intro a ha b hb s t _ _ hst
  have h1 : dot n a = d := ha
  have h2 : dot n b = d := hb
  show dot n (s • a + t • b) = d
  have e : dot n (s • a + t • b) = s * dot n a + t * dot n b := by simp only [dot, add_x, add_y, add_z, smul_x, smul_y, smul_z]; ring
  rw [e, h1, h2]
  linear_combination d * hst

/-- The fan of a strictly convex polygon covers its hull. -/
theorem fan_hull {a : V3 ℝ} {r : List (V3 ℝ)} {n : V3 ℝ} (hc : ConvexPolygon n (a :: r)) (ht : (a :: r).length = 3 ∨ HasTriangle (a :: r))
    (he : FirstEdge (a :: r)) (x : V3 ℝ) : x ∈ hull3 (a :: r) ↔ ∃ t ∈ fan a r, x ∈ tri t.1 t.2.1 t.2.2 := by
  constructor
  · intro hx
    obtain ⟨o, b, r', hpe, he⟩ := he
    rcases r with _ | ⟨b', _ | ⟨c, r⟩⟩
    · simp at hpe
    · have := hc.2.1; simp at this
    · cases hpe
      have B := convexBasis hc (ht.imp id hasTriangle_iff) he
      set p := a :: b :: c :: r with hp
      have hT := loc_strict hc B a
      have h1 := hull_loc p a hx
      obtain ⟨t, h2, h3⟩ := hull_fan (a := loc p a a) (b := loc p a b) (c := loc p a c) (r := r.map (loc p a)) hT h1
      have e : fan (loc p a a) (loc p a b :: loc p a c :: r.map (loc p a)) = (fan a (b :: c :: r)).map fun t => (loc p a t.1, loc p a t.2.1, loc p a t.2.2) :=
        fan_map (loc p a) a (b :: c :: r)
      rw [e] at h2
      obtain ⟨t, h4, rfl⟩ := List.mem_map.1 h2
      have hs := (fan_sublist h4).subset
      obtain ⟨u, v, w, hu, hv, hw, hs1, hx1, hy1⟩ := h3
      refine ⟨t, h4, u, v, w, hu, hv, hw, hs1, ?_⟩
      have hpl : ∀ y ∈ p, dot n y = dot n a := fun y hy => hc.plane hy (by simp [hp])
      have k0 : ∀ y, dot n y = dot n a → y = a + (loc p a y).x • basisU p + (loc p a y).y • basisV p := fun y hy =>
        B.from_to a y (by rw [dot_sub, hy]; ring)
      have kx := k0 x (hull_plane hpl hx)
      have k1 := k0 t.1 (hpl _ (hs (by simp)))
      have k2 := k0 t.2.1 (hpl _ (hs (by simp)))
      have k3 := k0 t.2.2 (hpl _ (hs (by simp)))
      rw [hx1, hy1] at kx
      dsimp only at kx
      generalize loc p a t.1 = A at kx k1
      generalize loc p a t.2.1 = A2 at kx k2
      generalize loc p a t.2.2 = A3 at kx k3
      rw [kx, k1, k2, k3]
      ext <;> simp only [add_x, add_y, add_z, smul_x, smul_y, smul_z]
      · linear_combination (-a.x) * hs1
      · linear_combination (-a.y) * hs1
      · linear_combination (-a.z) * hs1
  · rintro ⟨t, h1, h2⟩
    have hs := (fan_sublist h1).subset
    exact tri_hull (hs (by simp)) (hs (by simp)) (hs (by simp)) h2

theorem fan_tri {a : V3 ℝ} {r : List (V3 ℝ)} {n : V3 ℝ} (hc : ConvexPolygon n (a :: r)) {t : V3 ℝ × V3 ℝ × V3 ℝ} (h : t ∈ fan a r) :
    ∃ k : ℝ, 0 < k ∧ cross (t.2.1 - t.1) (t.2.2 - t.1) = k • n := by
  have := triplewise_sublist (fan_sublist h) hc.2.2
  simpa using this

theorem fan_distinct {a : V3 ℝ} {r : List (V3 ℝ)} {n : V3 ℝ} (hc : ConvexPolygon n (a :: r)) {t : V3 ℝ × V3 ℝ × V3 ℝ} (h : t ∈ fan a r) :
    t.1 ≠ t.2.1 ∧ t.1 ≠ t.2.2 ∧ t.2.1 ≠ t.2.2 := by
  obtain ⟨k, hk, e⟩ := fan_tri hc h
  have hd : dot (cross (t.2.1 - t.1) (t.2.2 - t.1)) n = k := by
    rw [e]
    have := hc.1
    unfold dot at *; simp only [smul_x, smul_y, smul_z]; linear_combination k * this
  refine ⟨fun h => ?_, fun h => ?_, fun h => ?_⟩ <;> rw [h] at hd <;>
    simp only [dot, cross, sub_x, sub_y, sub_z] at hd <;> ring_nf at hd <;> linarith

/-- C86: the triangles of a strictly convex polygon are `n - 2` in number, are all counter-clockwise about `n`, and together cover the
convex hull of the vertices and nothing else. -/
theorem C86_triangulate_covers (p : List (V3 ℝ)) (n : V3 ℝ) (hc : ConvexPolygon n p) (ht : p.length = 3 ∨ HasTriangle p) (he : FirstEdge p) :
    ∃ ts, triangulate p = some ts ∧ ts.length = p.length - 2 ∧
      (∀ t ∈ ts, ∃ k : ℝ, 0 < k ∧ cross (t.b - t.a) (t.c - t.a) = k • n) ∧ ∀ x, x ∈ hull3 p ↔ ∃ t ∈ ts, x ∈ tri t.a t.b t.c := by
  rcases p with _ | ⟨a, r⟩
  · have := hc.2.1; simp at this
  · refine ⟨_, C86_triangulate_convex a r n hc ht he, ?_, ?_, ?_⟩
    · rw [List.length_map, fan_length]; simp
    · intro t h
      obtain ⟨t', h', rfl⟩ := List.mem_map.1 h
      exact fan_tri hc h'
    · intro x
      rw [fan_hull hc ht he x]
      constructor
      · rintro ⟨t, h1, h2⟩
        exact ⟨_, List.mem_map_of_mem h1, h2⟩
      · rintro ⟨t, h1, h2⟩
        obtain ⟨t', h', rfl⟩ := List.mem_map.1 h1
        exact ⟨t', h', h2⟩

example := C86_triangulate_covers exSquare ⟨0, 0, 1⟩ exSquare_convex (Or.inr exSquare_big) exSquare_edge

theorem closestLoop_spec (x : V3 ℝ) (S : Tri ℝ → Set (V3 ℝ)) : ∀ (ts : List (Tri ℝ)) (best : Option (V3 ℝ)) (d : ℝ),
    (∀ t ∈ ts, ∃ q, t.closestPoint x = some q ∧ IsClosestPoint (S t) x q) →
    (closestLoop x ts best d = best ∧ ∀ t ∈ ts, ∀ y ∈ S t, d ≤ distSq y x) ∨
    ∃ q, closestLoop x ts best d = some q ∧ (∃ t ∈ ts, q ∈ S t) ∧ distSq q x < d ∧ ∀ t ∈ ts, ∀ y ∈ S t, distSq q x ≤ distSq y x := by
  intro ts
  induction ts with
  | nil => intro best d _; exact Or.inl ⟨rfl, by simp⟩
  | cons t ts ih =>
    intro best d h
    obtain ⟨q, hq, hqc⟩ := h t (by simp)
    have hts : ∀ t ∈ ts, ∃ q, t.closestPoint x = some q ∧ IsClosestPoint (S t) x q := fun t' h' => h t' (by simp [h'])
    rw [closestLoop, hq]
    dsimp only
    have hmin : ∀ y ∈ S t, distSq q x ≤ distSq y x := by
      intro y hy
      have := hqc.2 y hy
      rw [distSq_comm q, distSq_comm y]; exact this
    split_ifs with h1
    · rcases ih (some q) (distSq q x) hts with ⟨e, h2⟩ | ⟨q', e, ⟨t', h3, h4⟩, h5, h6⟩
      · refine Or.inr ⟨q, e, ⟨t, by simp, hqc.1⟩, h1, ?_⟩
        intro t' h' y hy
        rcases List.mem_cons.1 h' with rfl | h'
        · exact hmin y hy
        · exact h2 t' h' y hy
      · refine Or.inr ⟨q', e, ⟨t', by simp [h3], h4⟩, h5.trans h1, ?_⟩
        intro t' h' y hy
        rcases List.mem_cons.1 h' with rfl | h'
        · exact h5.le.trans (hmin y hy)
        · exact h6 t' h' y hy
    · rcases ih best d hts with ⟨e, h2⟩ | ⟨q', e, ⟨t', h3, h4⟩, h5, h6⟩
      · refine Or.inl ⟨e, ?_⟩
        intro t' h' y hy
        rcases List.mem_cons.1 h' with rfl | h'
        · exact (not_lt.1 h1).trans (hmin y hy)
        · exact h2 t' h' y hy
      · refine Or.inr ⟨q', e, ⟨t', by simp [h3], h4⟩, h5, ?_⟩
        intro t' h' y hy
        rcases List.mem_cons.1 h' with rfl | h'
        · exact (h5.le.trans (not_lt.1 h1)).trans (hmin y hy)
        · exact h6 t' h' y hy

/-- C86: `ClosestPoint(point)` on a strictly convex polygon returns the nearest of all its points, as long as some point of it has a
squared distance below `FLT_MAX`. -/
theorem C86_closestPoint (p : List (V3 ℝ)) (n : V3 ℝ) (hc : ConvexPolygon n p) (ht : p.length = 3 ∨ HasTriangle p) (he : FirstEdge p)
    (x : V3 ℝ) (hx : ∃ y ∈ hull3 p, distSq y x < Polyhedron.fltMax) :
    ∃ q, closestPoint p x = some (some q) ∧ IsClosestPoint (hull3 p) x q := by
  rcases p with _ | ⟨a, r⟩
  · have := hc.2.1; simp at this
  · unfold closestPoint
    rw [C86_triangulate_convex a r n hc ht he, Option.map_some]
    obtain ⟨y, hy, hy2⟩ := hx
    rcases closestLoop_spec x (fun t => tri t.a t.b t.c) ((fan a r).map fun t => ⟨t.1, t.2.1, t.2.2⟩) none Polyhedron.fltMax (by
      intro t h
      obtain ⟨t', h', rfl⟩ := List.mem_map.1 h
      have := fan_distinct hc h'
      exact C31_closestPoint _ this.1 this.2.1 this.2.2 x) with ⟨-, h⟩ | ⟨q, e, ⟨t, h1, h2⟩, -, h3⟩
    · obtain ⟨t, h1, h2⟩ := (fan_hull hc ht he y).1 hy
      exact absurd hy2 (not_lt.2 (h _ (List.mem_map_of_mem h1) y h2))
    · refine ⟨q, by rw [e], ?_, ?_⟩
      · obtain ⟨t', h', rfl⟩ := List.mem_map.1 h1
        exact (fan_hull hc ht he q).2 ⟨t', h', h2⟩
      · intro s hs
        obtain ⟨t, h4, h5⟩ := (fan_hull hc ht he s).1 hs
        have := h3 _ (List.mem_map_of_mem h4) s h5
        rw [distSq_comm x, distSq_comm x]; exact this

example := C86_closestPoint exSquare ⟨0, 0, 1⟩ exSquare_convex (Or.inr exSquare_big) exSquare_edge ⟨3, 0, 4⟩
  ⟨⟨0, 0, 0⟩, exSquare_hull (by norm_num) (by norm_num) (by norm_num) (by norm_num), by norm_num [distSq, lenSq, dot, Polyhedron.fltMax]⟩

/-- C86: `Intersects(Sphere)` on a strictly convex polygon decides whether it has a point in the ball. -/
theorem C86_intersectsSphere (p : List (V3 ℝ)) (n : V3 ℝ) (hc : ConvexPolygon n p) (ht : p.length = 3 ∨ HasTriangle p) (he : FirstEdge p)
    (c : V3 ℝ) (rad : ℝ) (hr : 0 ≤ rad) : ∃ b, intersectsSphere p ⟨c, rad⟩ = some b ∧ (b = true ↔ ∃ x ∈ hull3 p, x ∈ ball c rad) := by
  rcases p with _ | ⟨a, r⟩
  · have := hc.2.1; simp at this
  · unfold intersectsSphere
    rw [C86_triangulate_convex a r n hc ht he, Option.map_some]
    refine ⟨_, rfl, ?_⟩
    rw [List.any_eq_true]
    have key : ∀ t ∈ fan a r, (((⟨t.1, t.2.1, t.2.2⟩ : Tri ℝ).intersectsSphere ⟨c, rad⟩).getD false = true ↔ ∃ x ∈ tri t.1 t.2.1 t.2.2, x ∈ ball c rad) := by
      intro t h
      have hd := fan_distinct hc h
      obtain ⟨b, e, hb⟩ := ((C31_distance ⟨t.1, t.2.1, t.2.2⟩ hd.1 hd.2.1 hd.2.2 c).2 rad hr).2
      rw [e]
      exact hb
    constructor
    · rintro ⟨t, h1, h2⟩
      obtain ⟨t', h', rfl⟩ := List.mem_map.1 h1
      obtain ⟨x, hx, hb⟩ := (key t' h').1 h2
      exact ⟨x, (fan_hull hc ht he x).2 ⟨t', h', hx⟩, hb⟩
    · rintro ⟨x, hx, hb⟩
      obtain ⟨t, h1, h2⟩ := (fan_hull hc ht he x).1 hx
      exact ⟨_, List.mem_map_of_mem h1, (key t h1).2 ⟨x, h2, hb⟩⟩

example := C86_intersectsSphere exSquare ⟨0, 0, 1⟩ exSquare_convex (Or.inr exSquare_big) exSquare_edge ⟨3, 0, 4⟩ 5 (by norm_num)

theorem sum_map_neg' {β : Type*} (f : β → ℝ) : ∀ l : List β, (l.map fun x => -f x).sum = -(l.map f).sum
  | [] => by simp
  | x :: l => by
    rw [List.map_cons, List.sum_cons, sum_map_neg' f l, List.map_cons, List.sum_cons]
    ring

/-- Differences add up along a path. -/
theorem walk_telescope (f : V3 ℝ → ℝ) : ∀ (l : List (V3 ℝ)) (p0 : V3 ℝ), ((walk p0 l).map fun e => f e.1 - f e.2).sum = f p0 - f (l.getLastD p0)
  | [], p0 => by simp [walk]
  | x :: l, p0 => by
    rw [walk_cons, List.map_cons, List.sum_cons, walk_telescope f l x]
    simp only [List.getLastD_cons]
    ring

/-- The shoelace sum in local coordinates. -/
theorem shoelace_loc {p : List (V3 ℝ)} {m : V3 ℝ} (B : LocalBasis p m) (o : V3 ℝ) :
    shoelace (p.map (loc p o)) = ((closedEdges p).map fun e => dot m (cross e.1 e.2)).sum := by
  cases hz : p.getLast? with
  | none => rw [List.getLast?_eq_none_iff] at hz; subst hz; simp [shoelace, closedEdges]
  | some z =>
    have hz' : (p.map (loc p o)).getLast? = some (loc p o z) := by rw [List.getLast?_map, hz]; rfl
    have e1 : closedEdges p = walk z p := by rw [closedEdges, hz]; rfl
    rw [shoelace_eq hz', pathSum, walk_map, List.map_map, e1]
    have hd : p.getLastD z = z := by rw [List.getLastD_eq_getLast?, hz]; rfl
    have e2 := walk_telescope (fun y => dot m (cross o y)) p z
    rw [hd, sub_self] at e2
    have e3 : ∀ e : V3 ℝ × V3 ℝ, (loc p o e.1).x * (loc p o e.2).y - (loc p o e.1).y * (loc p o e.2).x =
        dot m (cross e.1 e.2) + (dot m (cross o e.1) - dot m (cross o e.2)) := by
      intro e
      unfold loc
      rw [← B.cross_eq]
      simp only [dot, cross, sub_x, sub_y, sub_z]
      ring
    have e4 : (fun e : V2 ℝ × V2 ℝ => e.1.x * e.2.y - e.1.y * e.2.x) ∘ (fun e : V3 ℝ × V3 ℝ => (loc p o e.1, loc p o e.2)) =
        fun e => dot m (cross e.1 e.2) + (dot m (cross o e.1) - dot m (cross o e.2)) := funext e3
    rw [e4, List.sum_map_add, e2, add_zero]

/-- C86: for a planar polygon of any shape in which no three vertices are nearly collinear (twice the area of their triangle is at least
`1e-4`): if `Triangulate` returns the full number of `n - 2` triangles, their signed areas add up to the signed area enclosed by the
polygon, and all but the last have the same orientation. -/
theorem C86_triangulate_area_partial (p : List (V3 ℝ)) (n : V3 ℝ) (d : ℝ) (hn : dot n n = 1) (hp : ∀ x ∈ p, dot n x = d) (ht : HasTriangle p)
    (he : FirstEdge p) (hT : p.Triplewise fun a b c => 1 / 10000 ≤ |dot n (cross (b - a) (c - a))|) (ts : List (Tri ℝ))
    (hts : triangulate p = some ts) (hlen : ts.length = p.length - 2) :
    (ts.map fun t => dot n (cross (t.b - t.a) (t.c - t.a))).sum = ((closedEdges p).map fun e => dot n (cross e.1 e.2)).sum ∧
    ((∀ t ∈ ts.dropLast, 0 < dot n (cross (t.b - t.a) (t.c - t.a))) ∨ (∀ t ∈ ts.dropLast, dot n (cross (t.b - t.a) (t.c - t.a)) < 0)) := by
  obtain ⟨m, e, hm, hpl, B, h3⟩ := planarBasis hn hp ht he
  obtain ⟨o, q, r', hpe, he⟩ := he
  have ho : p.head? = some o := by rw [hpe]; rfl
  have hneg : ∀ x, dot (-n) x = -dot n x := fun x => by simp only [dot, neg_x, neg_y, neg_z]; ring
  -- it is enough to prove it for the normal of the plane
  suffices h : (ts.map fun t => dot m (cross (t.b - t.a) (t.c - t.a))).sum = ((closedEdges p).map fun e => dot m (cross e.1 e.2)).sum ∧
      ∀ t ∈ ts.dropLast, 0 < dot m (cross (t.b - t.a) (t.c - t.a)) by
    rcases hm with ⟨rfl, -⟩ | ⟨rfl, -⟩
    · exact ⟨h.1, Or.inl h.2⟩
    · obtain ⟨h1, h2⟩ := h
      simp only [hneg] at h1
      rw [sum_map_neg', sum_map_neg'] at h1
      refine ⟨neg_inj.1 h1, Or.inr fun t h => ?_⟩
      have := h2 t h
      rw [hneg] at this
      linarith
  have hT' : p.Triplewise fun a b c => 1 / 10000 ≤ |dot m (cross (b - a) (c - a))| := by
    refine hT.imp fun {a b c} h => ?_
    rcases hm with ⟨rfl, -⟩ | ⟨rfl, -⟩
    · exact h
    · rw [hneg, abs_neg]; exact h
  by_cases h4 : 4 ≤ p.length
  · rw [triangulate_eq ho h4] at hts
    set l := p.map fun x => (loc p o x, x) with hl
    have hll : l.length = p.length := by rw [hl, List.length_map]
    have hfst : l.map Prod.fst = p.map (loc p o) := by rw [hl, List.map_map]; rfl
    obtain ⟨cs, r, e, h1, h2, -, h5⟩ := clipEars_total l 0 1 2 0 (by omega) (by unfold State; omega)
    have hg : ∀ a ∈ l, a.1 = loc p o a.2 := by
      intro a ha
      obtain ⟨x, _, rfl⟩ := List.mem_map.1 ha
      rfl
    obtain ⟨k1, k2⟩ := clipEars_area (loc p o) l 0 1 2 0 (by omega) (by unfold State3; omega) hg (by
      rw [hfst, List.triplewise_map]
      refine hT'.imp fun {a b c} h => ?_
      have := B.area_eq o a b c
      show 1 / 10000 ≤ |area2 (loc p o a) (loc p o b) (loc p o c)|
      unfold loc
      rw [this]; exact h) e
    rw [e, Option.bind_some] at hts
    dsimp only at hts
    by_cases h6 : r.length > 3
    · rw [if_pos h6] at hts
      have := Option.some.inj hts
      rw [← this, List.length_map] at hlen
      omega
    · rw [if_neg h6] at hts
      obtain ⟨a, b, c, rfl⟩ := List.length_eq_three.1 (show r.length = 3 by omega)
      have e5 := Option.some.inj hts
      have harea : ∀ a b c, area2 (loc p o a) (loc p o b) (loc p o c) = dot m (cross (b - a) (c - a)) := fun a b c => B.area_eq o a b c
      have hga := hg a (h5.subset (by simp))
      have hgb := hg b (h5.subset (by simp))
      have hgc := hg c (h5.subset (by simp))
      have e6 : shoelace ([a, b, c].map Prod.fst) = dot m (cross (b.2 - a.2) (c.2 - a.2)) := by
        rw [← harea, ← hga, ← hgb, ← hgc]
        simp [shoelace, closedEdges, area2]
        ring
      rw [e6, hfst, shoelace_loc B] at k1
      rw [← e5]
      constructor
      · rw [List.map_append, List.sum_append, ← k1, List.map_map]
        simp only [triSum, harea]
        simp [Function.comp_def]
      · rw [List.dropLast_concat]
        intro t ht
        obtain ⟨t', h', rfl⟩ := List.mem_map.1 ht
        have := k2 t' h'
        rw [harea] at this
        exact this
  · obtain ⟨a, b, c, rfl⟩ := List.length_eq_three.1 (show p.length = 3 by omega)
    have : ts = [⟨a, b, c⟩] := (Option.some.inj hts).symm
    subst this
    constructor
    · simp [closedEdges, dot, cross]
      ring
    · simp

/-- The square has no three nearly collinear vertices, and its four vertices give two triangles. -/
theorem exSquare_generic : exSquare.Triplewise fun a b c => 1 / 10000 ≤ |dot (⟨0, 0, 1⟩ : V3 ℝ) (cross (b - a) (c - a))| := by
  simp only [exSquare, List.triplewise_cons, List.pairwise_cons, List.mem_cons, List.not_mem_nil]
  refine ⟨⟨?_, ?_, ?_, ?_⟩, ⟨?_, ?_, ?_⟩, ⟨?_, ?_⟩, ?_, List.Triplewise.nil⟩
  · rintro c (rfl | rfl | h) <;> first | exact h.elim | norm_num [dot, cross]
  · rintro c (rfl | h) <;> first | exact h.elim | norm_num [dot, cross]
  · rintro c h; exact h.elim
  · exact List.Pairwise.nil
  · rintro c (rfl | h) <;> first | exact h.elim | norm_num [dot, cross]
  · rintro c h; exact h.elim
  · exact List.Pairwise.nil
  · rintro c h; exact h.elim
  · exact List.Pairwise.nil
  · exact List.Pairwise.nil

example := C86_triangulate_area_partial exSquare ⟨0, 0, 1⟩ 0 (by norm_num [dot]) exSquare_plane exSquare_big exSquare_edge exSquare_generic _
  (C86_triangulate_convex ⟨0, 0, 0⟩ _ ⟨0, 0, 1⟩ exSquare_convex (Or.inr exSquare_big) exSquare_edge) rfl

theorem exEll_planeCCW : planeCCW exEll = some ⟨⟨0, 0, -1⟩, 0⟩ := by
  have e : cross ((⟨1, 1, 0⟩ : V3 ℝ) - ⟨2, 1, 0⟩) (⟨1, 2, 0⟩ - ⟨2, 1, 0⟩) = ⟨0, 0, -1⟩ := by ext <;> norm_num [cross]
  have e1 : lenSq (⟨0, 0, -1⟩ : V3 ℝ) = 1 := by norm_num [lenSq, dot]
  have h1 : planeScanI exEll = some ⟨⟨0, 0, -1⟩, 0⟩ := by
    have h2 : planeScanK (⟨2, 1, 0⟩ : V3 ℝ) ⟨1, 1, 0⟩ (⟨1, 2, 0⟩ :: [⟨0, 2, 0⟩, ⟨0, 0, 0⟩, ⟨2, 0, 0⟩]) = some ⟨⟨0, 0, -1⟩, 0⟩ := by
      rw [planeScanK]
      simp only [e, e1]
      rw [if_pos (by norm_num)]
      norm_num
      constructor
      · ext <;> norm_num
      · norm_num [dot]
    unfold exEll
    rw [planeScanI, planeScanJ, h2]
    rfl
  show some ((planeScanI exEll).getD (planeAlong _ _)) = _
  rw [h1]
  rfl

/-- C86: a concave polygon may be triangulated wrongly although it is listed counter-clockwise about `+z`: `PlaneCCW` takes its normal
from the first three vertices, here around the notch, and so points down. The L-shape of area 3 is "triangulated" by the one triangle
`(2, 1), (1, 1), (1, 2)`, which lies in the notch: its centroid `(4/3, 4/3, 0)` is not in the L (it is beyond `x = 1` and `y = 1`). -/
theorem C86_concave_violation : triangulate exEll = some [⟨⟨2, 1, 0⟩, ⟨1, 1, 0⟩, ⟨1, 2, 0⟩⟩] := by
  have hpl := exEll_planeCCW
  have hu : basisU exEll = ⟨-1, 0, 0⟩ := by
    show f3Normalized ((⟨1, 1, 0⟩ : V3 ℝ) - ⟨2, 1, 0⟩) = _
    have e : (⟨1, 1, 0⟩ : V3 ℝ) - ⟨2, 1, 0⟩ = ⟨-1, 0, 0⟩ := by ext <;> norm_num
    rw [e, f3Normalized_unit (by norm_num [lenSq, dot])]
  have hv : basisV exEll = ⟨0, 1, 0⟩ := by
    unfold basisV
    rw [hpl, hu, if_neg (by simp [exEll])]
    have e : cross (⟨0, 0, -1⟩ : V3 ℝ) ⟨-1, 0, 0⟩ = ⟨0, 1, 0⟩ := by ext <;> norm_num [cross]
    show f3Normalized (cross (⟨0, 0, -1⟩ : V3 ℝ) ⟨-1, 0, 0⟩) = _
    rw [e, f3Normalized_unit (by norm_num [lenSq, dot])]
  have hl : (exEll.map fun x => (loc exEll ⟨2, 1, 0⟩ x, x)) = [((⟨0, 0⟩ : V2 ℝ), (⟨2, 1, 0⟩ : V3 ℝ)), (⟨1, 0⟩, ⟨1, 1, 0⟩), (⟨1, 1⟩, ⟨1, 2, 0⟩),
      (⟨2, 1⟩, ⟨0, 2, 0⟩), (⟨2, -1⟩, ⟨0, 0, 0⟩), (⟨0, -1⟩, ⟨2, 0, 0⟩)] := by
    unfold loc
    rw [hu, hv]
    simp only [exEll, List.map_cons, List.map_nil]
    norm_num [dot]
  rw [triangulate_eq (o := ⟨2, 1, 0⟩) rfl (by simp [exEll]), hl]
  rw [clipEars_clip (by simp) rfl rfl rfl (by
    rw [Bool.and_eq_true]
    constructor
    · norm_num [orientedCCW]
    · simp [isAnEar, List.range', intersectSegSeg2D, intersectLineLine2D, absF]
      norm_num)]
  simp only [gt_iff_lt, lt_irrefl, if_false, List.eraseIdx_cons_succ, List.eraseIdx_cons_zero]
  rw [clipEars_skip (by simp) rfl rfl rfl (by norm_num [orientedCCW])]
  simp only [List.length_cons, List.length_nil]
  rw [clipEars_skip (by simp) rfl rfl rfl (by norm_num [orientedCCW])]
  simp only [List.length_cons, List.length_nil]
  rw [clipEars_skip (by simp) rfl rfl rfl (by norm_num [orientedCCW])]
  simp only [List.length_cons, List.length_nil]
  rw [clipEars_skip (by simp) rfl rfl rfl (by norm_num [orientedCCW])]
  simp only [List.length_cons, List.length_nil]
  rw [clipEars_skip (by simp) rfl rfl rfl (by norm_num [orientedCCW])]
  simp only [List.length_cons, List.length_nil]
  rw [clipEars_stop (by simp)]
  simp

end Polygon
end MGL
