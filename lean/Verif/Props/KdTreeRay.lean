import Verif.Proofs.KdTreeHit
import Verif.Props.KdTree
import Verif.Props.AABBLine
import Verif.Props.TriangleLine

/-! C49: following a ray through the kd-tree. -/

set_option linter.unusedSectionVars false

namespace MGL
namespace KdTree
variable {T α : Type*} [Field α] [LinearOrder α] [IsStrictOrderedRing α]

theorem get_rayAt (pos dir : V3 α) (t : α) (ax : Fin 3) : (pos + t • dir).get ax = rayAt pos dir t ax := by
  unfold rayAt; fin_cases ax <;> simp [V3.get]

theorem generic_of_clear {pos dir : V3 α} (hd : ∀ ax, dir.get ax ≠ 0) {S : List (Fin 3 × α)} (h : Spec.CrossingsClear pos dir S) :
    Generic pos dir S := by
  intro a ha b hb
  have := h a ha b hb (crossing pos dir a.1 a.2) (by rw [get_rayAt, rayAt_crossing _ (hd a.1)])
  rwa [get_rayAt] at this

theorem consecutive_of_covers {l : List (ℕ × α × Option α)} {te : α} (h : Covers l te none) : Spec.Consecutive (l.map fun c => c.2) te := by
  induction l generalizing te with
  | nil => exact absurd h (by simp [Covers])
  | cons x l ih =>
    cases l with
    | nil => exact ⟨h.1, h.2.1⟩
    | cons y l =>
      obtain ⟨a1, m, a2, a3, a4⟩ := h
      exact ⟨a1, m, a2, a3, ih a4⟩

/-- C49, for a ray with no component of the direction zero, which does not cross two splits within the tolerance: after any
history that ends with `Build`, a ray that meets the box around all the objects is cut into consecutive parts that start at the
origin of the ray and have no end. `RayQuery` calls the callback with a leaf for each part, from the nearest to the farthest,
until the callback asks to stop, and it ends without leaving its stack. Each part lies in the region of its leaf: on the side of
each split that leads to the leaf. -/
theorem C49_rayQuery_partial (box : T → AABB α) (hbox : ∀ t ax, (box t).minPoint.get ax ≤ (box t).maxPoint.get ax)
    (g : Option (AABB α)) (ops : List (KdOp T)) (s : KdTree T α) (hs : run box g (ops ++ [.build]) = s) (t : KdT α) (ht : s.Shows 1 t)
    (pos dir : V3 α) (hd : ∀ ax, dir.get ax ≠ 0) (hg : Spec.CrossingsClear pos dir t.splits) (hm : s.rayMeetsRoot pos dir = true) :
    ∃ parts : List (ℕ × α × Option α), Spec.Consecutive (parts.map fun c => c.2) 0 ∧
      (∀ c ∈ parts, ∃ w os, t.LeafAt w c.1 os ∧ ∀ d, Spec.InInterval c.2 d → ∀ st ∈ w,
        (st.right = false → (pos + d • dir).get st.axis ≤ st.pos) ∧ (st.right = true → st.pos ≤ (pos + d • dir).get st.axis)) ∧
      ∀ (σ : Type) (cb : σ → RayCall α → σ × Bool) (x : σ) (junk : ℕ → RayElem α), ∀ f ≥ s.size,
        s.rayQuery pos dir junk cb f x =
          some (Spec.runCalls cb x (parts.map fun c => ⟨c.1, .fin c.2.1, c.2.2.elim .posInf .fin⟩)) := by
  subst hs
  obtain ⟨ho, t', h⟩ := run_build g hbox ops
  have e := shows_unique t t' 1 ht (shows_of_rep h.size_bound h.rep)
  subst e
  refine ⟨trav pos dir t 0 none, consecutive_of_covers (trav_covers hd t 0 none (by simp)), ?_, ?_⟩
  · intro c hc
    obtain ⟨_, w, os, h1, h2⟩ := trav_inside hd t 0 none (by simp) c hc
    refine ⟨w, os, h1, fun d hin st hst => ?_⟩
    have := h2 d hin st hst
    rw [get_rayAt]; exact this
  · intro σ cb x junk f hf
    rw [rayQuery_spec hd h (generic_of_clear hd hg) hm junk cb f hf x]
    congr 2
    refine List.map_congr_left fun c _ => ?_
    unfold toCall toFX
    rcases c with ⟨n, a, _ | b⟩ <;> rfl

/-- C49: when the ray does not meet the box around all the objects, the callback is not called. -/
theorem C49_rayQuery_missed (s : KdTree T α) (pos dir : V3 α) (hm : s.rayMeetsRoot pos dir = false) (σ : Type*)
    (cb : σ → RayCall α → σ × Bool) (x : σ) (junk : ℕ → RayElem α) (f : ℕ) : s.rayQuery pos dir junk cb f x = some x := by
  unfold rayQuery; rw [hm]; rfl

theorem clearDir_of {d : α} (h : 1 / 10000 ≤ |d|) : ClearDir d := Or.inr h

theorem box_get {b : AABB α} {x : V3 α} (h : x ∈ Spec.box b.minPoint b.maxPoint) (ax : Fin 3) :
    b.minPoint.get ax ≤ x.get ax ∧ x.get ax ≤ b.maxPoint.get ax := by
  obtain ⟨h1, h2, h3, h4, h5, h6⟩ := h
  fin_cases ax <;> simp [V3.get, *]

theorem leafAt_splits {t : KdT α} {w : List (KdStep α)} {n : ℕ} {os : List ℕ} (h : t.LeafAt w n os) :
    ∀ st ∈ w, (st.axis, st.pos) ∈ t.splits := by
  induction h with
  | leaf => intro st hst; cases hst
  | left ax p l r w i os _ ih =>
    intro st hst
    rcases List.mem_cons.1 hst with rfl | hst
    · simp [KdT.splits]
    · simp [KdT.splits, ih st hst]
  | right ax p l r w i os _ ih =>
    intro st hst
    rcases List.mem_cons.1 hst with rfl | hst
    · simp [KdT.splits]
    · simp [KdT.splits, ih st hst]

/-- C49, the nearest hit, for objects of any type. `hit o` is the distance at which the ray hits the object `o`. For a ray with every
component of the direction at least 1/10000 in size that does not cross two splits within the tolerance, the visitor for the
nearest hit reports a hit at a distance that is not negative, and it is at least as near as every hit that is inside the box of its
object and not exactly on a split. -/
theorem C49_nearest_partial (box : T → AABB α) (hbox : ∀ t ax, (box t).minPoint.get ax ≤ (box t).maxPoint.get ax)
    (g : Option (AABB α)) (ops : List (KdOp T)) (s : KdTree T α) (hs : run box g (ops ++ [.build]) = s) (t : KdT α) (ht : s.Shows 1 t)
    (pos dir : V3 α) (hd : ∀ ax, 1 / 10000 ≤ |dir.get ax|) (hg : Spec.CrossingsClear pos dir t.splits) (hit : ℕ → Option α)
    (junk : ℕ → RayElem α) (f : ℕ) (hf : s.size ≤ f) :
    ∃ r, s.rayQuery pos dir junk (s.nearestVisitor hit) f none = some r ∧
      (∀ d o, r = some (d, o) → hit o = some d ∧ 0 ≤ d ∧ o < (Spec.kdContent ops).length) ∧
      ∀ o x d, (Spec.kdContent ops)[o]? = some x → hit o = some d → 0 ≤ d →
        pos + d • dir ∈ Spec.box (box x).minPoint (box x).maxPoint → (∀ a ∈ t.splits, (pos + d • dir).get a.1 ≠ a.2) →
        ∃ d' o', r = some (d', o') ∧ d' ≤ d := by
  subst hs
  obtain ⟨ho, t', h⟩ := run_build g hbox ops
  have hok : BoxesOk box (run box g (ops ++ [.build])).objects := fun t _ => hbox t
  generalize run box g (ops ++ [.build]) = s at *
  have e := shows_unique t t' 1 ht (shows_of_rep h.size_bound h.rep)
  subst e
  have e0 : (0 : α) < 1 / 10000 := by positivity
  have hd0 : ∀ ax, dir.get ax ≠ 0 := fun ax hz => by
    have := hd ax; rw [hz, abs_zero] at this; exact absurd this (not_le.2 e0)
  by_cases hm : s.rayMeetsRoot pos dir = true
  · refine ⟨_, rayQuery_spec hd0 h (generic_of_clear hd0 hg) hm junk _ f hf none, ?_, ?_⟩
    · intro d o hr
      obtain ⟨c, hc, h1, h2, h3⟩ := (visitor_spec (s := s) hit _ 0 none (Or.inr (trav_covers hd0 t 0 none (by simp)))).2 _ hr
      obtain ⟨h4, w, os, h5, _⟩ := trav_inside hd0 t 0 none (by simp) c hc
      rw [shows_leaf h5 1 ht] at h1
      have := h.good.sub w c.1 os h5 h1
      rw [List.mem_range, ho] at this
      exact ⟨h2, (h4 d h3).1, this⟩
    · intro o x d hx hh h0 hb hs
      rw [← ho] at hx
      have hlt : o < s.objects.length := by rw [List.getElem?_eq_some_iff] at hx; exact hx.1
      have hbx : objectBox box s.objects o = some (box x) := by simp [objectBox, hx]
      have hcov := trav_covers (pos := pos) hd0 t 0 none (by simp)
      obtain ⟨c, hc, hin⟩ := covers_mem hcov (t := d) ⟨h0, by simp⟩
      obtain ⟨_, w, os, h5, h6⟩ := trav_inside hd0 t 0 none (by simp) c hc
      have hmem : o ∈ os := by
        refine leaf_object h.good (x := fun ax => (pos + d • dir).get ax) w c.1 os h5 ?_ o (List.mem_range.2 hlt) _ hbx (box_get hb)
        intro st hst
        have h7 := h6 d hin st hst
        have h8 := hs _ (leafAt_splits h5 st hst)
        rw [get_rayAt] at h8
        simp only [get_rayAt]
        exact ⟨fun hr => lt_of_le_of_ne (h7.1 hr) h8, fun hr => lt_of_le_of_ne (h7.2 hr) h8.symm⟩
      obtain ⟨b, h9, h10⟩ := (visitor_spec (s := s) hit _ 0 none (Or.inr hcov)).1 c hc o (by rw [shows_leaf h5 1 ht]; exact hmem) d hh hin
      exact ⟨b.1, b.2, h9, h10⟩
  · rw [Bool.not_eq_true] at hm
    refine ⟨none, C49_rayQuery_missed s pos dir hm _ _ _ junk f, by simp, ?_⟩
    intro o x d hx hh h0 hb hs
    exfalso
    rw [← ho] at hx
    have hlt : o < s.objects.length := by rw [List.getElem?_eq_some_iff] at hx; exact hx.1
    have hbx : objectBox box s.objects o = some (box x) := by simp [objectBox, hx]
    obtain ⟨c, hc, hcok, hcin⟩ := bounding_spec (box := box) hok (bucket := List.range s.objects.length) (fun o ho => List.mem_range.1 ho)
      (fun he => by rw [List.range_eq_nil] at he; omega)
    have hcb := hcin o (List.mem_range.2 hlt) _ hbx
    unfold rayMeetsRoot at hm
    rw [h.bounding, hc] at hm
    dsimp only at hm
    have hx := (C21_ray_partial c pos dir ⟨hcok 0, hcok 1, hcok 2⟩ (clearDir_of (hd 0)) (clearDir_of (hd 1)) (clearDir_of (hd 2))).1.2
    rw [hm] at hx
    refine absurd (hx ⟨pos + d • dir, ⟨d, h0, rfl⟩, ?_⟩) (by simp)
    have k := fun ax => box_get hb ax
    have k' := fun ax => (show _ ∧ _ from hcb ax)
    exact ⟨(k' 0).1.trans (k 0).1, (k 0).2.trans (k' 0).2, (k' 1).1.trans (k 1).1, (k 1).2.trans (k' 1).2,
      (k' 2).1.trans (k 2).1, (k 2).2.trans (k' 2).2⟩

theorem tri_in_box (tr : Tri α) {x : V3 α} (h : x ∈ Spec.tri tr.a tr.b tr.c) :
    x ∈ Spec.box (Tri.boundingAABB tr).minPoint (Tri.boundingAABB tr).maxPoint := by
  obtain ⟨u, v, w, hu, hv, hw, h1, rfl⟩ := h
  have key : ∀ a b c : α, min (min a b) c ≤ u * a + v * b + w * c ∧ u * a + v * b + w * c ≤ max (max a b) c := by
    intro a b c
    have m1 : min (min a b) c ≤ a := (min_le_left _ _).trans (min_le_left _ _)
    have m2 : min (min a b) c ≤ b := (min_le_left _ _).trans (min_le_right _ _)
    have m3 : min (min a b) c ≤ c := min_le_right _ _
    have n1 : a ≤ max (max a b) c := (le_max_left _ _).trans (le_max_left _ _)
    have n2 : b ≤ max (max a b) c := (le_max_right _ _).trans (le_max_left _ _)
    have n3 : c ≤ max (max a b) c := le_max_right _ _
    generalize min (min a b) c = m at *
    generalize max (max a b) c = n at *
    obtain rfl : u = 1 - v - w := by linarith
    constructor <;> nlinarith
  have kx := key tr.a.x tr.b.x tr.c.x
  have ky := key tr.a.y tr.b.y tr.c.y
  have kz := key tr.a.z tr.b.z tr.c.z
  simp only [Spec.box, Tri.boundingAABB, f3Min3, f3Max3, f3Min, f3Max, min2_eq, max2_eq, Set.mem_ofPred_eq, V3.add_x, V3.add_y,
    V3.add_z, V3.smul_x, V3.smul_y, V3.smul_z]
  exact ⟨kx.1, kx.2, ky.1, ky.2, kz.1, kz.2⟩

/-- C49, the nearest triangle. Under the conditions on the ray in `C49_nearest_partial`, the visitor for the nearest hit ends with a
triangle that `IntersectLineTri` says is hit at the reported distance, or with none; and whenever the ray meets a triangle, at a
point that is not exactly on a split, and the determinant of the two is above the tolerance, it reports a hit that is at least as
near. -/
theorem C49_nearest_triangle_partial (g : Option (AABB α)) (ops : List (KdOp (Tri α))) (s : KdTree (Tri α) α)
    (hs : run Tri.boundingAABB g (ops ++ [.build]) = s) (t : KdT α) (ht : s.Shows 1 t) (pos dir : V3 α)
    (hd : ∀ ax, 1 / 10000 ≤ |dir.get ax|) (hg : Spec.CrossingsClear pos dir t.splits) (junk : ℕ → RayElem α) (f : ℕ) (hf : s.size ≤ f) :
    ∃ r, s.nearestHit pos dir junk f = some r ∧
      (∀ d o, r = some (d, o) → 0 ≤ d ∧ ∃ tr, (Spec.kdContent ops)[o]? = some tr ∧ ∃ u v : α,
        pos + d • dir = tr.a + (u • (tr.b - tr.a) + v • (tr.c - tr.a)) ∧
        -(1 / 10000) ≤ u ∧ -(1 / 10000) ≤ v ∧ u + v ≤ 1 + 1 / 10000) ∧
      ∀ tr ∈ Spec.kdContent ops, ∀ d : α, 0 ≤ d → pos + d • dir ∈ Spec.tri tr.a tr.b tr.c →
        1 / 10000 < |V3.dot dir (V3.cross (tr.b - tr.a) (tr.c - tr.a))| → (∀ a ∈ t.splits, (pos + d • dir).get a.1 ≠ a.2) →
        ∃ d' o, r = some (d', o) ∧ d' ≤ d := by
  have hbox : ∀ (tr : Tri α) ax, (Tri.boundingAABB tr).minPoint.get ax ≤ (Tri.boundingAABB tr).maxPoint.get ax := by
    intro tr ax
    have ha : tr.a ∈ Spec.tri tr.a tr.b tr.c := ⟨1, 0, 0, by simp, by simp, by simp, by simp, by ext <;> simp⟩
    have := box_get (tri_in_box tr ha) ax
    exact this.1.trans this.2
  have hob : s.objects = Spec.kdContent ops := by rw [← hs]; exact (run_build g hbox ops).1
  obtain ⟨r, h1, h2, h3⟩ := C49_nearest_partial Tri.boundingAABB hbox g ops s hs t ht pos dir hd hg (s.triangleHit pos dir) junk f hf
  refine ⟨r, h1, ?_, ?_⟩
  · intro d o hr
    obtain ⟨k1, k2, k3⟩ := h2 d o hr
    unfold triangleHit at k1
    rw [hob, List.getElem?_eq_getElem k3, Option.bind_some, Option.map_eq_some_iff] at k1
    obtain ⟨⟨d', u, v⟩, k4, rfl⟩ := k1
    obtain ⟨-, m1, m2, -, m4, m5⟩ := (C33_intersectLineTri _ _ _ _ _ _ _ _).1 k4
    exact ⟨k2, _, List.getElem?_eq_getElem k3, u, v, m1, m2, m4, m5⟩
  · intro tr htr d h0 hx hdet hs
    obtain ⟨o, ho⟩ := List.getElem?_of_mem htr
    obtain ⟨u, v, hu, hv, huv, hxe⟩ := tri_coords hx
    have e0 : (0 : α) < 1 / 10000 := by positivity
    have := (C33_intersectLineTri pos dir tr.a tr.b tr.c d u v).2 ⟨hdet, hxe, by linarith, by linarith, by linarith, by linarith⟩
    exact h3 o tr d ho (by unfold triangleHit; rw [hob, ho, Option.bind_some, this]; rfl) h0 (tri_in_box tr hx) hs

/-! A tree of triangles that is split, and rays through it. -/

/-- A triangle at a position. -/
def exTri (x y z : ℚ) : Tri ℚ := ⟨⟨x, y, z⟩, ⟨x, y + 1, z⟩, ⟨x + 1, y, z + 1⟩⟩

/-- Triangles in a row and one at a distance. -/
def exTris : List (Tri ℚ) := (List.range 20).map (fun i : ℕ => exTri 0 i 0) ++ [exTri 50 0 0]

/-- The tree of these triangles. -/
def exTree : KdTree (Tri ℚ) ℚ := run Tri.boundingAABB none ([.addObjects exTris] ++ [.build])

/-- A stack with no useful content. -/
def exJunk : ℕ → RayElem ℚ := fun _ => ⟨none, .nan, fun _ => .nan, 0⟩

/-- What the tree looks like. -/
def exShape : KdT ℚ := .node 0 (51 / 2) (.node 1 10 (.leaf 4 (List.range 10)) (.leaf 5 (List.range' 10 10))) (.leaf 3 [20])

/-- The conditions of the theorems hold for this tree and a ray through two of the leaves; the nearest triangle is number 2. -/
example : exTree.Shows 1 exShape ∧ (∀ ax, 1 / 10000 ≤ |(⟨1, 1 / 5, 1 / 100⟩ : V3 ℚ).get ax|) ∧
    Spec.CrossingsClear (⟨-1, 2, 1 / 10⟩ : V3 ℚ) ⟨1, 1 / 5, 1 / 100⟩ exShape.splits ∧
    exTree.rayMeetsRoot ⟨-1, 2, 1 / 10⟩ ⟨1, 1 / 5, 1 / 100⟩ = true ∧
    exTree.nearestHit ⟨-1, 2, 1 / 10⟩ ⟨1, 1 / 5, 1 / 100⟩ exJunk 6 = some (some (10 / 9, 2)) ∧
    exTree.rayQuery ⟨-1, 2, 1 / 10⟩ ⟨1, 1 / 5, 1 / 100⟩ exJunk (fun l c => (l ++ [c.leaf], false)) 6 [] = some [4, 3] := by
  refine ⟨⟨by decide, by decide +kernel, 2, by decide +kernel, by decide, ⟨by decide, by decide +kernel, 4, by decide +kernel, by decide,
    ⟨rfl, by decide, by decide +kernel, 1, by decide +kernel, by decide, by decide +kernel, by decide +kernel⟩,
    ⟨rfl, by decide, by decide +kernel, 3, by decide +kernel, by decide, by decide +kernel, by decide +kernel⟩⟩,
    ⟨rfl, by decide, by decide +kernel, 2, by decide +kernel, by decide, by decide +kernel, by decide +kernel⟩⟩, ?_, ?_,
    by decide +kernel, by decide +kernel, by decide +kernel⟩
  · intro ax; fin_cases ax <;> simp [V3.get] <;> norm_num [abs_of_pos]
  · intro a ha b hb t h1 h2
    simp only [exShape, KdT.splits, List.append_nil, List.mem_cons, List.not_mem_nil, or_false] at ha hb
    rcases ha with rfl | rfl <;> rcases hb with rfl | rfl <;> simp [V3.get] at h1 h2 <;> linarith [h2.1, h2.2]

/-- C49 does not hold in general, even for a ray that passes well inside a triangle. A ray along an axis: the infinite end of the
ray times zero is no number, or the ray is taken to leave to the other side. Two triangles in a tree, and the ray along x
through the second one: it passes through the middle of the triangle, the test of the triangle finds it, and the query does not. -/
theorem C49_axis_parallel_violation :
    ∃ (tris : List (Tri ℚ)) (pos dir : V3 ℚ) (s : KdTree (Tri ℚ) ℚ) (d : ℚ) (tr : Tri ℚ),
      run Tri.boundingAABB none ([.addObjects tris] ++ [.build]) = s ∧ V3.lenSq dir = 1 ∧ s.size ≤ 10 ∧
      0 ≤ d ∧ tris[1]? = some tr ∧ pos + d • dir ∈ Spec.tri tr.a tr.b tr.c ∧ s.triangleHit pos dir 1 = some d ∧
      s.nearestHit pos dir exJunk 10 = some none := by
  refine ⟨[⟨⟨4, 0, 0⟩, ⟨4, 1, 0⟩, ⟨5, 0, 1⟩⟩, ⟨⟨4, 9, 0⟩, ⟨4, 10, 0⟩, ⟨5, 9, 1⟩⟩], ⟨0, 46 / 5, 1 / 5⟩, ⟨1, 0, 0⟩, _, 21 / 5, _, rfl,
    by norm_num [V3.lenSq, V3.dot], by decide +kernel, by norm_num, rfl, ⟨3 / 5, 1 / 5, 1 / 5, by norm_num, by norm_num, by norm_num, by norm_num, ?_⟩,
    by decide +kernel, by decide +kernel⟩
  ext <;> norm_num

/-- C49 does not hold in general for a ray with no component of the direction zero. The ray crosses the split of the root at a point
that is above the next split by less than the tolerance. It misses the part in front and with it the triangle number 2. -/
theorem C49_tolerance_violation :
    ∃ (pos dir : V3 ℚ) (d : ℚ) (tr : Tri ℚ),
      exTree.size ≤ 20 ∧ (∀ ax, 1 / 10000 ≤ |dir.get ax|) ∧
      0 ≤ d ∧ exTris[2]? = some tr ∧ pos + d • dir ∈ Spec.tri tr.a tr.b tr.c ∧ exTree.triangleHit pos dir 2 = some d ∧
      exTree.nearestHit pos dir exJunk 20 = some none := by
  refine ⟨⟨-1, 2, 1 / 10⟩, ⟨1, (8 + 1 / 20000) / (53 / 2), 1 / 100⟩, 10 / 9, exTri 0 2 0, by decide +kernel, ?_, by norm_num, by simp [exTris],
    ⟨1 - 160001 / 477000 - 1 / 9, 160001 / 477000, 1 / 9, by norm_num, by norm_num, by norm_num, by norm_num, ?_⟩,
    by decide +kernel, by decide +kernel⟩
  · intro ax; fin_cases ax <;> simp [V3.get] <;> norm_num [abs_of_pos]
  · ext <;> norm_num [exTri]

end KdTree
end MGL
