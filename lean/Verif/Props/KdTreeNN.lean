import Verif.Proofs.KdTreeNN
import Verif.Props.KdTree

/-! C103: the nearest object query of the kd-tree. -/

set_option linter.unusedSectionVars false

namespace MGL
namespace KdTree
variable {T : Type*}

/-- The query on a built tree. -/
theorem nearestObjects_spec {box : T → AABB ℝ} {s : KdTree T ℝ} {t : KdT ℝ} (h : Built box s t) (hok : BoxesOk box s.objects)
    (point : V3 ℝ) {pick : ℕ → List KdEntry → ℕ} (hpick : Spec.PicksLeast KdEntry.d pick) (f : ℕ) (hf : s.size ≤ f) :
    ∃ calls : List KdEntry,
      (∀ (σ : Type) (cb : σ → KdEntry → σ × Bool) (st : σ),
        s.nearestObjects point pick cb f st = some (calls.foldl (fun st c => (cb st c).1) st)) ∧
      calls.Perm (leafCalls point 0 s.rootAABB t) ∧ calls.Pairwise fun c c' => c.d ≤ c'.d := by
  obtain ⟨calls, h1, h2, h3⟩ := nearestLoop_spec (s := s) (point := point) hpick f [(⟨0, s.rootAABB, 1⟩, t)]
    (by
      intro e he
      rw [List.mem_singleton] at he
      subst he
      exact ⟨h.rep, built_hasBox h hok⟩)
    (by
      have := h.count
      simp only [List.map_cons, List.map_nil, List.sum_cons, List.sum_nil, nodeCount_eq]
      omega)
  refine ⟨calls, fun σ cb st => ?_, ?_, h3 ?_⟩
  · rw [nearestObjects, root, if_pos h.one_lt]
    exact h1 σ cb st
  · simpa using h2
  · intro e he
    rw [List.mem_singleton] at he
    subst he
    exact built_grows h hok point

theorem foldl_record (l : List KdEntry) : ∀ m : List KdEntry, l.foldl (fun st c => (st ++ [c], false).1) m = m ++ l := by
  induction l with
  | nil => intro m; simp
  | cons c l ih => intro m; rw [List.foldl_cons, ih]; simp

/-- The query that records its calls. -/
theorem recorded {box : T → AABB ℝ} {s : KdTree T ℝ} {t : KdT ℝ} (h : Built box s t) (hok : BoxesOk box s.objects)
    {point : V3 ℝ} {pick : ℕ → List KdEntry → ℕ} (hpick : Spec.PicksLeast KdEntry.d pick) {f : ℕ} (hf : s.size ≤ f)
    {calls : List KdEntry} (hc : s.nearestObjects point pick (fun l c => (l ++ [c], false)) f [] = some calls) :
    (∀ (σ : Type) (cb : σ → KdEntry → σ × Bool) (st : σ),
        s.nearestObjects point pick cb f st = some (calls.foldl (fun st c => (cb st c).1) st)) ∧
      calls.Perm (leafCalls point 0 s.rootAABB t) ∧ calls.Pairwise fun c c' => c.d ≤ c'.d := by
  obtain ⟨calls', h1, h2, h3⟩ := nearestObjects_spec h hok point hpick f hf
  have := h1 _ (fun l c => (l ++ [c], false)) []
  rw [hc, foldl_record, List.nil_append, Option.some.injEq] at this
  subst this
  exact ⟨h1, h2, h3⟩

/-- C103: after any history that ends with `Build`, for every point and whatever a priority queue does with equal keys,
`NearestObjects` ends. The callback is called exactly once for each leaf of the tree. The distances it is given do not decrease
from call to call. The calls do not depend on what the callback does. -/
theorem C103_calls (box : T → AABB ℝ) (hbox : ∀ t ax, (box t).minPoint.get ax ≤ (box t).maxPoint.get ax)
    (g : Option (AABB ℝ)) (ops : List (KdOp T)) (s : KdTree T ℝ) (hs : run box g (ops ++ [.build]) = s)
    (point : V3 ℝ) (pick : ℕ → List KdEntry → ℕ) (hpick : Spec.PicksLeast KdEntry.d pick) (f : ℕ) (hf : s.size ≤ f) :
    ∃ (t : KdT ℝ) (calls : List KdEntry), s.Shows 1 t ∧
      s.nearestObjects point pick (fun l c => (l ++ [c], false)) f [] = some calls ∧
      (∀ (σ : Type) (cb : σ → KdEntry → σ × Bool) (st : σ),
        s.nearestObjects point pick cb f st = some (calls.foldl (fun st c => (cb st c).1) st)) ∧
      (calls.map KdEntry.node).Perm t.names ∧ (calls.map KdEntry.node).Nodup ∧
      calls.Pairwise fun c c' => c.d ≤ c'.d := by
  subst hs
  obtain ⟨ho, t, h⟩ := run_build g hbox ops
  have hok : BoxesOk box (run box g (ops ++ [.build])).objects := fun t _ => hbox t
  obtain ⟨calls, h1, h2, h3⟩ := nearestObjects_spec h hok point hpick f hf
  have hn : (calls.map KdEntry.node).Perm t.names := by
    rw [← leafCalls_names point t 0 _ (built_hasBox h hok)]
    exact h2.map _
  refine ⟨t, calls, shows_of_rep h.size_bound h.rep, ?_, h1, hn, hn.nodup_iff.2 h.nodup, h3⟩
  rw [h1, foldl_record, List.nil_append]

/-- C103: every point of the box of every object is found in time: one of the calls is for a leaf with that object, with a box
that contains the point, and with a distance not above the distance of the point. -/
theorem C103_object_found (box : T → AABB ℝ) (hbox : ∀ t ax, (box t).minPoint.get ax ≤ (box t).maxPoint.get ax)
    (g : Option (AABB ℝ)) (ops : List (KdOp T)) (s : KdTree T ℝ) (hs : run box g (ops ++ [.build]) = s)
    (point : V3 ℝ) (pick : ℕ → List KdEntry → ℕ) (hpick : Spec.PicksLeast KdEntry.d pick) (f : ℕ) (hf : s.size ≤ f)
    (calls : List KdEntry) (hc : s.nearestObjects point pick (fun l c => (l ++ [c], false)) f [] = some calls)
    (o : ℕ) (x : T) (hx : (Spec.kdContent ops)[o]? = some x) (y : V3 ℝ)
    (hy : y ∈ Spec.box (box x).minPoint (box x).maxPoint) :
    ∃ c ∈ calls, o ∈ s.leafObjects c.node ∧ c.d ≤ V3.dist y point ∧
      ∃ a, c.aabb = some a ∧ y ∈ Spec.box a.minPoint a.maxPoint := by
  subst hs
  obtain ⟨ho, t, h⟩ := run_build g hbox ops
  have hok : BoxesOk box (run box g (ops ++ [.build])).objects := fun t _ => hbox t
  obtain ⟨_, h2, _⟩ := recorded h hok hpick hf hc
  generalize run box g (ops ++ [.build]) = s at *
  rw [← ho] at hx
  have hlt : o < s.objects.length := (List.getElem?_eq_some_iff.1 hx).1
  have hb : objectBox box s.objects o = some (box x) := by rw [objectBox, hx]; rfl
  have he : List.range s.objects.length ≠ [] := by
    intro e; rw [List.range_eq_nil] at e; omega
  obtain ⟨N, hN, hNok, hin⟩ := bounding_spec (box := box) hok (fun o ho => List.mem_range.1 ho) he
  have hroot := h.bounding.trans hN
  rw [hroot] at h2
  have hyN : y ∈ Spec.box N.minPoint N.maxPoint := by
    have := hin o (List.mem_range.2 hlt) _ hb
    rw [mem_box_iff] at hy ⊢
    exact fun ax => ⟨(this ax).1.trans (hy ax).1, (hy ax).2.trans (this ax).2⟩
  obtain ⟨c, hc, h6, h7, w, l, hl, hol⟩ := leafCalls_object point h.good 0 N y hyN (Real.sqrt_nonneg _) o (List.mem_range.2 hlt) _ hb hy
  refine ⟨c, h2.mem_iff.2 hc, ?_, h6, h7⟩
  rw [shows_leaf hl 1 (shows_of_rep h.size_bound h.rep)]
  exact hol

/-- C103: when the callback is given a distance, all the objects with a point nearer than that were in the leaves of
earlier calls. So an object that comes for the first time is at least that far away, and so are those that have not come yet. -/
theorem C103_unseen_partial (box : T → AABB ℝ) (hbox : ∀ t ax, (box t).minPoint.get ax ≤ (box t).maxPoint.get ax)
    (g : Option (AABB ℝ)) (ops : List (KdOp T)) (s : KdTree T ℝ) (hs : run box g (ops ++ [.build]) = s)
    (point : V3 ℝ) (pick : ℕ → List KdEntry → ℕ) (hpick : Spec.PicksLeast KdEntry.d pick) (f : ℕ) (hf : s.size ≤ f)
    (pre post : List KdEntry) (c : KdEntry)
    (hc : s.nearestObjects point pick (fun l c => (l ++ [c], false)) f [] = some (pre ++ c :: post))
    (o : ℕ) (x : T) (hx : (Spec.kdContent ops)[o]? = some x) (hun : ∀ c' ∈ pre, o ∉ s.leafObjects c'.node) :
    ∀ y ∈ Spec.box (box x).minPoint (box x).maxPoint, c.d ≤ V3.dist y point := by
  intro y hy
  obtain ⟨c', hc', h1, h2, _⟩ := C103_object_found box hbox g ops s hs point pick hpick f hf _ hc o x hx y hy
  subst hs
  obtain ⟨_, t, h⟩ := run_build g hbox ops
  obtain ⟨_, _, hp⟩ := recorded h (fun t _ => hbox t) hpick hf hc
  rw [List.pairwise_append] at hp
  rcases List.mem_append.1 hc' with hc' | hc'
  · exact absurd h1 (hun c' hc')
  rcases List.mem_cons.1 hc' with rfl | hc'
  · exact h2
  · exact ((List.pairwise_cons.1 hp.2.1).1 c' hc').trans h2

/-- C103: the distance given with a box is the distance of the point from that box, unless the whole tree is one leaf: then it
is zero. -/
theorem C103_distance (box : T → AABB ℝ) (hbox : ∀ t ax, (box t).minPoint.get ax ≤ (box t).maxPoint.get ax)
    (g : Option (AABB ℝ)) (ops : List (KdOp T)) (s : KdTree T ℝ) (hs : run box g (ops ++ [.build]) = s)
    (point : V3 ℝ) (pick : ℕ → List KdEntry → ℕ) (hpick : Spec.PicksLeast KdEntry.d pick) (f : ℕ) (hf : s.size ≤ f)
    (calls : List KdEntry) (hc : s.nearestObjects point pick (fun l c => (l ++ [c], false)) f [] = some calls)
    (c : KdEntry) (hcc : c ∈ calls) :
    (s.numNodes = 1 ∧ c.d = 0) ∨
      ∃ a, c.aabb = some a ∧ Spec.IsSetDist (Spec.box a.minPoint a.maxPoint) {point} c.d := by
  subst hs
  obtain ⟨ho, t, h⟩ := run_build g hbox ops
  have hok : BoxesOk box (run box g (ops ++ [.build])).objects := fun t _ => hbox t
  obtain ⟨_, h2, _⟩ := recorded h hok hpick hf hc
  generalize run box g (ops ++ [.build]) = s at *
  have hcc' := h2.mem_iff.1 hcc
  cases t with
  | leaf i os =>
    refine Or.inl ⟨?_, ?_⟩
    · have := h.count
      simp only [KdT.leaves, KdT.inner] at this
      rw [numNodes, this]; rfl
    · simp only [leafCalls, List.mem_singleton] at hcc'
      rw [hcc']
  | node ax p l r =>
    right
    have hbx := built_hasBox h hok
    rcases hr : s.rootAABB with _ | N
    · rw [hr] at hbx; exact absurd hbx (by simp [HasBox])
    rw [hr] at hcc'
    have hb := h.bounding
    rw [hr] at hb
    have he : List.range s.objects.length ≠ [] := by
      intro e; rw [e] at hb; simp [boundingAABB] at hb
    obtain ⟨c', hc', hcok, hin⟩ := bounding_spec (box := box) hok (fun o ho => List.mem_range.1 ho) he
    rw [← hb] at hc'; cases hc'
    have hrange : InRange N (.node ax p l r) := h.nested N fun o ho x hx => Or.inl fun ax => by
      have h1 := hin o ho x hx ax
      have h2 := objectBox_ok hok hx ax
      exact ⟨h1.1.trans h2, h2.trans h1.2⟩
    have key : ∀ (t : KdT ℝ) (M : AABB ℝ), BoxOk M → InRange M t → ∀ c ∈ leafCalls point (M.distance point) (some M) t,
        ∃ a, c.aabb = some a ∧ Spec.IsSetDist (Spec.box a.minPoint a.maxPoint) {point} c.d := by
      intro t
      induction t with
      | leaf i os =>
        intro M hM _ c hc
        simp only [leafCalls, List.mem_singleton] at hc
        subst hc
        exact ⟨M, rfl, (C18_distance M ((proper_iff M).2 hM) point).1⟩
      | node ax p l r ihl ihr =>
        intro M hM hR c hc
        obtain ⟨⟨h1, h2⟩, hl, hr⟩ := hR
        rw [leafCalls, List.mem_append] at hc
        rcases hc with hc | hc
        · refine ihl _ ?_ hl c hc
          intro ax'; simp only [cutLeft, V3.get_set]
          split_ifs with e
          · subst e; exact h1
          · exact hM ax'
        · refine ihr _ ?_ hr c hc
          intro ax'; simp only [cutRight, V3.get_set]
          split_ifs with e
          · subst e; exact h2
          · exact hM ax'
    refine key (.node ax p l r) N hcok hrange c ?_
    rw [leafCalls] at hcc' ⊢
    exact hcc'

/-- There are priority queues. -/
theorem exists_pick : ∃ pick : ℕ → List KdEntry → ℕ, Spec.PicksLeast KdEntry.d pick := by
  have : ∀ (n : ℕ) (l : List KdEntry), ∃ k : ℕ, l ≠ [] → ∃ x : KdEntry, l[k]? = some x ∧ ∀ y ∈ l, x.d ≤ y.d := by
    intro n l
    induction l with
    | nil => exact ⟨0, fun h => absurd rfl h⟩
    | cons e l ih =>
      obtain ⟨k, hk⟩ := ih
      by_cases hl : l = []
      · subst hl; exact ⟨0, fun _ => ⟨e, rfl, by simp⟩⟩
      · obtain ⟨x, hx, hm⟩ := hk hl
        rcases le_total e.d x.d with hd | hd
        · refine ⟨0, fun _ => ⟨e, rfl, fun y hy => ?_⟩⟩
          rcases List.mem_cons.1 hy with rfl | hy
          exacts [le_refl _, hd.trans (hm y hy)]
        · refine ⟨k + 1, fun _ => ⟨x, by simpa using hx, fun y hy => ?_⟩⟩
          rcases List.mem_cons.1 hy with rfl | hy
          exacts [hd, hm y hy]
  choose pick hp using this
  exact ⟨pick, hp⟩

/-- Two small boxes far apart and one that reaches from the one to the other. -/
def threeBoxes : Fin 3 → AABB ℝ
  | 0 => ⟨⟨0, 0, 0⟩, ⟨1, 1, 1⟩⟩
  | 1 => ⟨⟨9, 0, 0⟩, ⟨10, 1, 1⟩⟩
  | 2 => ⟨⟨0, 0, 0⟩, ⟨10, 1, 1⟩⟩

theorem threeBoxes_ok (t : Fin 3) (ax : Fin 3) : (threeBoxes t).minPoint.get ax ≤ (threeBoxes t).maxPoint.get ax := by
  fin_cases t <;> fin_cases ax <;> norm_num [threeBoxes, V3.get]

theorem threeBoxes_shows (g : Option (AABB ℝ)) : (run threeBoxes g ([.addObjects [0, 1, 2]] ++ [.build])).Shows 1 (.node 0 5 (.leaf 2 [0, 2]) (.leaf 3 [1, 2])) ∧
    (run threeBoxes g ([.addObjects [0, 1, 2]] ++ [.build])).rootAABB = some ⟨⟨0, 0, 0⟩, ⟨10, 1, 1⟩⟩ := by
  have hb : boundingAABB threeBoxes [0, 1, 2] (List.range 3) = some ⟨⟨0, 0, 0⟩, ⟨10, 1, 1⟩⟩ := by
    norm_num [boundingAABB, objectBox, threeBoxes, enclose, AABB.encloseMinMax, f3Min, f3Max, min2, max2, List.range_succ]
  have hax : splitAxis (⟨⟨0, 0, 0⟩, ⟨10, 1, 1⟩⟩ : AABB ℝ) = 0 := by
    norm_num [splitAxis, f3MaxElementIndex, AABB.size]
  have hpos : splitPos (⟨⟨0, 0, 0⟩, ⟨10, 1, 1⟩⟩ : AABB ℝ) = 5 := by
    norm_num [splitPos, hax, AABB.centerPoint, V3.get]
  have hl : leftBucket threeBoxes [0, 1, 2] ⟨⟨0, 0, 0⟩, ⟨10, 1, 1⟩⟩ (List.range 3) = [0, 2] := by
    norm_num [leftBucket, placeObject, objectBox, threeBoxes, place, leftAABB, rightAABB, hax, hpos, V3.set,
      AABB.intersectsAABB, List.range_succ]
  have hr : rightBucket threeBoxes [0, 1, 2] ⟨⟨0, 0, 0⟩, ⟨10, 1, 1⟩⟩ (List.range 3) = [1, 2] := by
    norm_num [rightBucket, placeObject, objectBox, threeBoxes, place, leftAABB, rightAABB, hax, hpos, V3.set,
      AABB.intersectsAABB, List.range_succ]
  have hrun : run threeBoxes g ([.addObjects [0, 1, 2]] ++ [.build]) =
      ((((start g).addObjects [0, 1, 2]).buildRoot threeBoxes).makeInner 1 1 0 5 [0, 2] [1, 2] : KdTree (Fin 3) ℝ) := by
    have e1 : (((start g : KdTree (Fin 3) ℝ).addObjects [0, 1, 2]).buildRoot threeBoxes).rootAABB = some ⟨⟨0, 0, 0⟩, ⟨10, 1, 1⟩⟩ := hb
    have e2 : run threeBoxes g ([.addObjects [0, 1, 2]] ++ [.build]) = ((start g : KdTree (Fin 3) ℝ).addObjects [0, 1, 2]).build threeBoxes := rfl
    rw [e2, build]
    rw [e1]
    dsimp only
    rw [show maxTreeDepth - 1 = 28 + 1 from rfl, splitLeaf]
    have e3 : (((start g : KdTree (Fin 3) ℝ).addObjects [0, 1, 2]).buildRoot threeBoxes).nodes 1 = .leaf 1 := rfl
    have e4 : (((start g : KdTree (Fin 3) ℝ).addObjects [0, 1, 2]).buildRoot threeBoxes).buckets 1 = List.range 3 := rfl
    have e5 : (((start g : KdTree (Fin 3) ℝ).addObjects [0, 1, 2]).buildRoot threeBoxes).objects = [0, 1, 2] := rfl
    have e6 : ((start g : KdTree (Fin 3) ℝ).addObjects [0, 1, 2]).objects.length = 3 := rfl
    rw [e3]
    dsimp only
    rw [e4, e5, e6, hl, hr, hax, hpos]
    rw [if_neg (by simp)]
    cases boundingAABB threeBoxes [0, 1, 2] [0, 2] <;> cases boundingAABB threeBoxes [0, 1, 2] [1, 2] <;> simp
  rw [hrun]
  have z : ((((start g).addObjects [0, 1, 2]).buildRoot threeBoxes).makeInner 1 1 0 5 [0, 2] [1, 2] : KdTree (Fin 3) ℝ).size = 4 := rfl
  have y : ((((start g).addObjects [0, 1, 2]).buildRoot threeBoxes).makeInner 1 1 0 5 [0, 2] [1, 2] : KdTree (Fin 3) ℝ).numBuckets = 3 :=
    rfl
  exact ⟨⟨by omega, by omega, 2, rfl, by norm_num, ⟨rfl, by omega, by omega, 1, rfl, by omega, by omega, rfl⟩,
    ⟨rfl, by omega, by omega, 2, rfl, by omega, by omega, rfl⟩⟩, hb⟩

/-- C103: the objects in the leaf need not be as far away as the distance given with it. For the boxes [0,1], [9,10] and [0,10]
along the x axis and the query point 0 the callback is given a leaf with the distance 5, although the leaf holds the third
box, which contains the query point. -/
theorem C103_minDistance_violation (g : Option (AABB ℝ)) (s : KdTree (Fin 3) ℝ)
    (hs : run threeBoxes g ([.addObjects [0, 1, 2]] ++ [.build]) = s) (pick : ℕ → List KdEntry → ℕ)
    (hpick : Spec.PicksLeast KdEntry.d pick) (f : ℕ) (hf : s.size ≤ f) :
    ∃ calls, s.nearestObjects ⟨0, 0, 0⟩ pick (fun l c => (l ++ [c], false)) f [] = some calls ∧
      ∃ c ∈ calls, c.d = 5 ∧ 2 ∈ s.leafObjects c.node ∧
        (⟨0, 0, 0⟩ : V3 ℝ) ∈ Spec.box (threeBoxes 2).minPoint (threeBoxes 2).maxPoint := by
  obtain ⟨h1, h2⟩ := threeBoxes_shows g
  rw [hs] at h1 h2
  obtain ⟨ho, t, h⟩ := run_build g threeBoxes_ok [.addObjects [0, 1, 2]]
  rw [hs] at ho h
  have hok : BoxesOk threeBoxes s.objects := fun t _ => threeBoxes_ok t
  have e := shows_unique _ _ 1 (shows_of_rep h.size_bound h.rep) h1
  subst e
  obtain ⟨calls, k1, k2, _⟩ := nearestObjects_spec h hok ⟨0, 0, 0⟩ hpick f hf
  refine ⟨calls, by rw [k1, foldl_record, List.nil_append], ?_⟩
  rw [h2] at k2
  refine ⟨⟨(cutRight ⟨⟨0, 0, 0⟩, ⟨10, 1, 1⟩⟩ 0 5).distance ⟨0, 0, 0⟩, some (cutRight ⟨⟨0, 0, 0⟩, ⟨10, 1, 1⟩⟩ 0 5), 3⟩,
    k2.mem_iff.2 (by simp [leafCalls]), ?_, ?_, ?_⟩
  · have : V3.distSq ((cutRight (⟨⟨0, 0, 0⟩, ⟨10, 1, 1⟩⟩ : AABB ℝ) 0 5).closestPoint ⟨0, 0, 0⟩) ⟨0, 0, 0⟩ = 5 ^ 2 := by
      norm_num [cutRight, V3.set, AABB.closestPoint, f3Clamp, V3.distSq, V3.lenSq, V3.dot, f3Min, f3Max, min2, max2]
    rw [AABB.distance, this]
    exact Real.sqrt_sq (by norm_num)
  · rw [shows_leaf (.right 0 5 _ _ [] 3 [1, 2] (.leaf _ _)) 1 h1]; simp
  · norm_num [Spec.box, threeBoxes]

/-- C103: the answer of the callback does not stop the query. On the tree with the same three boxes, a callback that always
answers that it wants to stop is called for both leaves. -/
theorem C103_stop_violation (g : Option (AABB ℝ)) (s : KdTree (Fin 3) ℝ)
    (hs : run threeBoxes g ([.addObjects [0, 1, 2]] ++ [.build]) = s) (point : V3 ℝ) (pick : ℕ → List KdEntry → ℕ)
    (hpick : Spec.PicksLeast KdEntry.d pick) (f : ℕ) (hf : s.size ≤ f) :
    s.nearestObjects point pick (fun (l : List ℕ) c => (l ++ [c.node], true)) f [] = some [2, 3] ∨
    s.nearestObjects point pick (fun (l : List ℕ) c => (l ++ [c.node], true)) f [] = some [3, 2] := by
  obtain ⟨h1, _⟩ := threeBoxes_shows g
  obtain ⟨t, calls, k1, _, k2, k3, _⟩ := C103_calls threeBoxes threeBoxes_ok g [.addObjects [0, 1, 2]] s hs point pick hpick f hf
  rw [hs] at h1
  have e := shows_unique _ _ 1 k1 h1
  subst e
  have hf : ∀ (l : List KdEntry) (m : List ℕ), l.foldl (fun (st : List ℕ) c => (st ++ [c.node], true).1) m =
      m ++ l.map KdEntry.node := by
    intro l
    induction l with
    | nil => intro m; simp
    | cons c l ih => intro m; rw [List.foldl_cons, ih]; simp
  rw [k2, hf, List.nil_append]
  generalize calls.map KdEntry.node = m at *
  have hm : m.Perm [2, 3] := k3
  have hlen := hm.length_eq
  match m, hm, hlen with
  | [a, b], hm, _ =>
    have ha : a = 2 ∨ a = 3 := by simpa using hm.mem_iff.1 (show a ∈ [a, b] by simp)
    have hb : b = 2 ∨ b = 3 := by simpa using hm.mem_iff.1 (show b ∈ [a, b] by simp)
    have hn := hm.nodup_iff.2 (by simp)
    rcases ha with rfl | rfl <;> rcases hb with rfl | rfl <;> simp at hn ⊢

/-- The hypotheses hold for the tree with the three boxes, and the callback is called for two leaves. -/
example : ∃ pick calls, Spec.PicksLeast KdEntry.d pick ∧
    (run threeBoxes none ([.addObjects [0, 1, 2]] ++ [.build])).nearestObjects ⟨0, 0, 0⟩ pick (fun l c => (l ++ [c], false))
      (run threeBoxes none ([.addObjects [0, 1, 2]] ++ [.build])).size [] = some calls ∧ (2 : ℕ) ∈ calls.map KdEntry.node := by
  obtain ⟨pick, hpick⟩ := exists_pick
  obtain ⟨t, calls, h1, h2, _, h3, _⟩ := C103_calls threeBoxes threeBoxes_ok none [.addObjects [0, 1, 2]] _ rfl ⟨0, 0, 0⟩ pick hpick _ le_rfl
  have e := shows_unique _ _ 1 h1 (threeBoxes_shows none).1
  subst e
  exact ⟨pick, calls, hpick, h2, h3.mem_iff.2 (by simp [KdT.names])⟩

example (y : V3 ℝ) (hy : y ∈ Spec.box (threeBoxes 1).minPoint (threeBoxes 1).maxPoint) (s : KdTree (Fin 3) ℝ)
    (hs : run threeBoxes none ([.addObjects [0, 1, 2]] ++ [.build]) = s) : ∃ pick calls, Spec.PicksLeast KdEntry.d pick ∧
    s.nearestObjects ⟨0, 0, 0⟩ pick (fun l c => (l ++ [c], false)) s.size [] = some calls ∧ calls ≠ [] ∧
    (∃ c ∈ calls, 1 ∈ s.leafObjects c.node ∧ c.d ≤ V3.dist y ⟨0, 0, 0⟩) ∧
    ∀ c ∈ calls, (s.numNodes = 1 ∧ c.d = 0) ∨
      ∃ a, c.aabb = some a ∧ Spec.IsSetDist (Spec.box a.minPoint a.maxPoint) {⟨0, 0, 0⟩} c.d := by
  obtain ⟨pick, hpick⟩ := exists_pick
  obtain ⟨_, calls, _, h2, _⟩ := C103_calls threeBoxes threeBoxes_ok none [.addObjects [0, 1, 2]] s hs ⟨0, 0, 0⟩ pick hpick _ le_rfl
  obtain ⟨c, hc, h3, h4, _⟩ := C103_object_found threeBoxes threeBoxes_ok none [.addObjects [0, 1, 2]] s hs ⟨0, 0, 0⟩ pick hpick _ le_rfl
    calls h2 1 1 rfl y hy
  exact ⟨pick, calls, hpick, h2, List.ne_nil_of_mem hc, ⟨c, hc, h3, h4⟩,
    C103_distance threeBoxes threeBoxes_ok none [.addObjects [0, 1, 2]] s hs ⟨0, 0, 0⟩ pick hpick _ le_rfl calls h2⟩

/-- No object has come before the first call. -/
example (s : KdTree (Fin 3) ℝ) (hs : run threeBoxes none ([.addObjects [0, 1, 2]] ++ [.build]) = s) :
    ∃ (pick : ℕ → List KdEntry → ℕ) (c : KdEntry) (post : List KdEntry),
      s.nearestObjects ⟨20, 0, 0⟩ pick (fun l c => (l ++ [c], false)) s.size [] = some (c :: post) ∧
      ∀ y ∈ Spec.box (threeBoxes 1).minPoint (threeBoxes 1).maxPoint, c.d ≤ V3.dist y ⟨20, 0, 0⟩ := by
  obtain ⟨pick, hpick⟩ := exists_pick
  obtain ⟨t, calls, h1, h2, _, h3, _⟩ := C103_calls threeBoxes threeBoxes_ok none [.addObjects [0, 1, 2]] s hs ⟨20, 0, 0⟩ pick hpick _ le_rfl
  have e := shows_unique _ _ 1 h1 (hs ▸ (threeBoxes_shows none).1)
  subst e
  cases calls with
  | nil => exact absurd h3.length_eq (by simp [KdT.names])
  | cons c post =>
    exact ⟨pick, c, post, h2, C103_unseen_partial threeBoxes threeBoxes_ok none [.addObjects [0, 1, 2]] s hs ⟨20, 0, 0⟩ pick hpick _
      le_rfl [] post c h2 1 1 rfl (by simp)⟩

end KdTree
end MGL
