import Verif.Proofs.KdTree
import Verif.Model.KdTreeNN
import Verif.Spec.KdTreeNN
import Verif.Props.AABB

/-! The nearest object query of the kd-tree. -/

set_option linter.unusedSectionVars false

namespace MGL.KdTree
variable {T σ : Type*} {s : KdTree T ℝ} {point : V3 ℝ}

/-- The calls for the leaves of a tree, from left to right. -/
noncomputable def leafCalls (point : V3 ℝ) : ℝ → Option (AABB ℝ) → KdT ℝ → List KdEntry
  | d, a, .leaf i _ => [⟨d, a, i⟩]
  | _, none, .node _ _ _ _ => []
  | _, some a, .node ax p l r =>
    leafCalls point ((cutLeft a ax p).distance point) (some (cutLeft a ax p)) l ++
    leafCalls point ((cutRight a ax p).distance point) (some (cutRight a ax p)) r

theorem set_set_get (v : V3 ℝ) (ax : Fin 3) (p : ℝ) : (v.set ax p).set ax (v.get ax) = v := by
  fin_cases ax <;> rfl

theorem leftEntry_eq (point : V3 ℝ) (a : AABB ℝ) (ax : Fin 3) (p : ℝ) (c : ℕ) :
    leftEntry point a ax p c = ⟨(cutLeft a ax p).distance point, some (cutLeft a ax p), c⟩ := rfl

theorem rightEntry_eq (point : V3 ℝ) (a : AABB ℝ) (ax : Fin 3) (p : ℝ) (c : ℕ) :
    rightEntry point a ax p c = ⟨(cutRight a ax p).distance point, some (cutRight a ax p), c + 1⟩ := by
  simp only [rightEntry, set_set_get]; rfl

/-- Only a leaf has no box. -/
def HasBox : Option (AABB ℝ) → KdT ℝ → Prop
  | none, .node _ _ _ _ => False
  | _, _ => True

/-- The keys do not decrease on the way down. -/
def Grows (point : V3 ℝ) : ℝ → Option (AABB ℝ) → KdT ℝ → Prop
  | d, some a, .node ax p l r =>
    (d ≤ (cutLeft a ax p).distance point ∧ Grows point ((cutLeft a ax p).distance point) (some (cutLeft a ax p)) l) ∧
    (d ≤ (cutRight a ax p).distance point ∧ Grows point ((cutRight a ax p).distance point) (some (cutRight a ax p)) r)
  | _, _, _ => True

theorem Grows.le : ∀ (t : KdT ℝ) (d : ℝ) (a : Option (AABB ℝ)), Grows point d a t → ∀ c ∈ leafCalls point d a t, d ≤ c.d
  | .leaf _ _, d, a, _, c, hc => by
    cases a <;> (simp only [leafCalls, List.mem_singleton] at hc; rw [hc])
  | .node _ _ _ _, d, none, _, c, hc => by simp [leafCalls] at hc
  | .node ax p l r, d, some a, h, c, hc => by
    rw [leafCalls, List.mem_append] at hc
    rcases hc with hc | hc
    · exact h.1.1.trans (Grows.le l _ _ h.1.2 c hc)
    · exact h.2.1.trans (Grows.le r _ _ h.2.2 c hc)

/-- The number of nodes of a tree. -/
def nodeCount : KdT ℝ → ℕ
  | .leaf _ _ => 1
  | .node _ _ l r => 1 + nodeCount l + nodeCount r

theorem nodeCount_eq : ∀ t : KdT ℝ, nodeCount t = t.leaves + t.inner
  | .leaf _ _ => rfl
  | .node _ _ l r => by simp only [nodeCount, KdT.leaves, KdT.inner, nodeCount_eq l, nodeCount_eq r]; omega

theorem nearestLoop_spec {P Q : ℕ → Prop} {pick : ℕ → List KdEntry → ℕ} (hpick : Spec.PicksLeast KdEntry.d pick) (f : ℕ) :
    ∀ es : List (KdEntry × KdT ℝ), (∀ e ∈ es, Rep s P Q e.1.node e.2 ∧ HasBox e.1.aabb e.2) →
    (es.map fun e => nodeCount e.2).sum ≤ f →
    ∃ calls : List KdEntry,
      (∀ (σ : Type) (cb : σ → KdEntry → σ × Bool) (st : σ),
        s.nearestLoop point pick cb f (es.map Prod.fst) st = some (calls.foldl (fun st c => (cb st c).1) st)) ∧
      calls.Perm (es.flatMap fun e => leafCalls point e.1.d e.1.aabb e.2) ∧
      ((∀ e ∈ es, Grows point e.1.d e.1.aabb e.2) → calls.Pairwise fun c c' => c.d ≤ c'.d) := by
  induction f with
  | zero =>
    intro es hes hf
    cases es with
    | nil => exact ⟨[], fun σ cb st => by simp [nearestLoop], by simp, fun _ => .nil⟩
    | cons e es =>
      exfalso
      have : 1 ≤ nodeCount e.2 := by cases e.2 <;> simp only [nodeCount] <;> omega
      simp only [List.map_cons, List.sum_cons] at hf
      omega
  | succ f ih =>
    intro es hes hf
    rcases hes0 : es with _ | ⟨e0, es0⟩
    · exact ⟨[], fun σ cb st => by simp [nearestLoop], by simp, fun _ => .nil⟩
    obtain ⟨x, hx, hmin⟩ := hpick f (es.map Prod.fst) (by simp [hes0])
    generalize hk : pick f (es.map Prod.fst) = k at hx
    rw [List.getElem?_map, Option.map_eq_some_iff] at hx
    obtain ⟨e, hek, hex⟩ := hx
    have hperm : es.Perm (e :: es.eraseIdx k) := by
      obtain ⟨hlt, he⟩ := List.getElem?_eq_some_iff.1 hek
      rw [← he]
      exact (List.getElem_cons_eraseIdx_perm hlt).symm
    have herase : (es.map Prod.fst).eraseIdx k = (es.eraseIdx k).map Prod.fst := by
      rw [List.eraseIdx_map]
    generalize es.eraseIdx k = rest at hperm herase
    have hsum : (es.map fun e => nodeCount e.2).sum = nodeCount e.2 + (rest.map fun e => nodeCount e.2).sum := by
      rw [(hperm.map _).sum_eq]; simp
    have hflat : (es.flatMap fun e => leafCalls point e.1.d e.1.aabb e.2).Perm
        (leafCalls point e.1.d e.1.aabb e.2 ++ rest.flatMap fun e => leafCalls point e.1.d e.1.aabb e.2) := by
      have := hperm.flatMap_right (fun e => leafCalls point e.1.d e.1.aabb e.2)
      simpa using this
    have hrest : ∀ e' ∈ rest, e' ∈ es := fun e' he' => hperm.mem_iff.2 (by simp [he'])
    have he : e ∈ es := hperm.mem_iff.2 (by simp)
    have hstep : ∀ (σ : Type) (cb : σ → KdEntry → σ × Bool) (st : σ),
        s.nearestLoop point pick cb (f + 1) (es.map Prod.fst) st =
          match s.nodes e.1.node with
          | .leaf _ => nearestLoop s point pick cb f (rest.map Prod.fst) (cb st e.1).1
          | .inner axis pos c =>
            match e.1.aabb with
            | none => none
            | some a => nearestLoop s point pick cb f
                (rightEntry point a axis pos c :: leftEntry point a axis pos c :: rest.map Prod.fst) st := by
      intro σ cb st
      have h1 : (es.map Prod.fst)[k]? = some e.1 := by rw [List.getElem?_map, hek]; rfl
      generalize es.map Prod.fst = q at hk herase h1
      cases q with
      | nil => simp at h1
      | cons q qs =>
        rw [nearestLoop, hk, h1, herase]
        rfl
    rw [← hes0]
    obtain ⟨hrep, hbox⟩ := hes e he
    obtain ⟨⟨d, aabb, node⟩, t⟩ := e
    dsimp only at hrep hbox
    cases t with
    | leaf i os =>
      obtain ⟨calls, h1, h2, h3⟩ := ih rest (fun e' he' => hes e' (hrest e' he')) (by
        rw [hsum] at hf; simp only [nodeCount] at hf; omega)
      have hi : node = i := by cases hrep; rfl
      subst hi
      refine ⟨⟨d, aabb, node⟩ :: calls, fun σ cb st => ?_, ?_, fun hg => ?_⟩
      · rw [hstep]
        cases hrep with
        | leaf _ b _ hn _ =>
          dsimp only
          rw [hn]
          exact h1 σ cb _
      · refine (List.Perm.cons _ h2).trans ?_
        refine List.Perm.trans ?_ hflat.symm
        cases aabb <;> simp [leafCalls]
      · refine List.Pairwise.cons (fun c hc => ?_) (h3 fun e' he' => hg e' (hrest e' he'))
        have := h2.mem_iff.1 hc
        rw [List.mem_flatMap] at this
        obtain ⟨e', he', hc'⟩ := this
        have h5 := Grows.le _ _ _ (hg e' (hrest e' he')) c hc'
        have h6 := hmin e'.1 (List.mem_map.2 ⟨e', hrest e' he', rfl⟩)
        rw [← hex] at h6
        exact h6.trans h5
    | node ax p l r =>
      cases hrep with
      | node _ _ _ c _ _ _ hn hl hr =>
      cases aabb with
      | none => exact absurd hbox (by simp [HasBox])
      | some a =>
        obtain ⟨calls, h1, h2, h3⟩ := ih ((rightEntry point a ax p c, r) :: (leftEntry point a ax p c, l) :: rest) (by
            intro e' he'
            rcases List.mem_cons.1 he' with rfl | he'
            · exact ⟨hr, by cases r <;> trivial⟩
            rcases List.mem_cons.1 he' with rfl | he'
            · exact ⟨hl, by cases l <;> trivial⟩
            · exact hes e' (hrest e' he')) (by
            rw [hsum] at hf; simp only [nodeCount, List.map_cons, List.sum_cons] at hf ⊢; omega)
        refine ⟨calls, fun σ cb st => ?_, ?_, fun hg => ?_⟩
        · rw [hstep]
          dsimp only
          rw [hn]
          exact h1 σ cb st
        · refine h2.trans ?_
          refine List.Perm.trans ?_ hflat.symm
          simp only [List.flatMap_cons, leftEntry_eq, rightEntry_eq, leafCalls]
          rw [← List.append_assoc]
          exact List.Perm.append_right _ List.perm_append_comm
        · refine h3 fun e' he' => ?_
          have := hg _ he
          rcases List.mem_cons.1 he' with rfl | he'
          · rw [rightEntry_eq]; exact this.2.2
          rcases List.mem_cons.1 he' with rfl | he'
          · rw [leftEntry_eq]; exact this.1.2
          · exact hg e' (hrest e' he')

theorem proper_iff (a : AABB ℝ) : a.Proper ↔ BoxOk a := by
  unfold AABB.Proper BoxOk
  rw [forall_fin3]; rfl

theorem mem_box_iff (a : AABB ℝ) (x : V3 ℝ) : x ∈ Spec.box a.minPoint a.maxPoint ↔
    ∀ ax, a.minPoint.get ax ≤ x.get ax ∧ x.get ax ≤ a.maxPoint.get ax := by
  rw [forall_fin3]
  simp only [Spec.box, Set.mem_ofPred_eq, V3.get_zero, V3.get_one, V3.get_two]
  tauto

/-- The distance of a box is not above the distance of its points. -/
theorem distance_le {a : AABB ℝ} {x : V3 ℝ} (h : x ∈ Spec.box a.minPoint a.maxPoint) (point : V3 ℝ) :
    a.distance point ≤ V3.dist x point := by
  have hp : a.Proper := by
    rw [proper_iff]; rw [mem_box_iff] at h
    exact fun ax => (h ax).1.trans (h ax).2
  exact (C18_distance a hp point).1.1 x h point rfl

/-- A part of a box is not nearer. -/
theorem distance_mono {a b : AABB ℝ} (hb : BoxOk b) (h : BoxIn b a) (point : V3 ℝ) : a.distance point ≤ b.distance point := by
  obtain ⟨_, x, hx, y, hy, e⟩ := (C18_distance b ((proper_iff b).2 hb) point).1
  rw [Set.mem_singleton_iff] at hy
  subst hy
  rw [← e]
  refine distance_le ?_ _
  rw [mem_box_iff] at hx ⊢
  exact fun ax => ⟨(h ax).1.trans (hx ax).1, (hx ax).2.trans (h ax).2⟩

theorem grows_of_inRange (point : V3 ℝ) : ∀ (t : KdT ℝ) (d : ℝ) (N : AABB ℝ), BoxOk N → d ≤ N.distance point → InRange N t →
    Grows point d (some N) t
  | .leaf _ _, _, _, _, _, _ => trivial
  | .node ax p l r, d, N, hN, hd, h => by
    obtain ⟨⟨h1, h2⟩, hl, hr⟩ := h
    have okl : BoxOk (cutLeft N ax p) := by
      intro ax'; simp only [cutLeft, V3.get_set]
      split_ifs with e
      · subst e; exact h1
      · exact hN ax'
    have okr : BoxOk (cutRight N ax p) := by
      intro ax'; simp only [cutRight, V3.get_set]
      split_ifs with e
      · subst e; exact h2
      · exact hN ax'
    have inl : BoxIn (cutLeft N ax p) N := by
      intro ax'; simp only [cutLeft, V3.get_set]
      refine ⟨le_refl _, ?_⟩
      split_ifs with e
      · subst e; exact h2
      · exact le_refl _
    have inr : BoxIn (cutRight N ax p) N := by
      intro ax'; simp only [cutRight, V3.get_set]
      refine ⟨?_, le_refl _⟩
      split_ifs with e
      · subst e; exact h1
      · exact le_refl _
    exact ⟨⟨hd.trans (distance_mono okl inl point), grows_of_inRange point l _ _ okl (le_refl _) hl⟩,
      ⟨hd.trans (distance_mono okr inr point), grows_of_inRange point r _ _ okr (le_refl _) hr⟩⟩

/-- Each point of an object is in a leaf with the object and with a key not above its distance. -/
theorem leafCalls_object {box : T → AABB ℝ} {objs : List T} (point : V3 ℝ) {os : List ℕ} {t : KdT ℝ} (h : Good box objs os t) :
    ∀ (d : ℝ) (N : AABB ℝ) (x : V3 ℝ), x ∈ Spec.box N.minPoint N.maxPoint → d ≤ V3.dist x point →
    ∀ o ∈ os, ∀ b, objectBox box objs o = some b → x ∈ Spec.box b.minPoint b.maxPoint →
    ∃ c ∈ leafCalls point d (some N) t, c.d ≤ V3.dist x point ∧ (∃ a, c.aabb = some a ∧ x ∈ Spec.box a.minPoint a.maxPoint) ∧
      ∃ w l, t.LeafAt w c.node l ∧ o ∈ l := by
  induction h with
  | leaf i os =>
    intro d N x hx hd o ho b _ _
    exact ⟨_, List.mem_singleton.2 rfl, hd, ⟨N, rfl, hx⟩, [], os, .leaf _ _, ho⟩
  | node os lo ro ax p l r _ _ _ _ _ _ h3 h4 h5 ih1 ih2 =>
    intro d N x hx hd o ho b hb hxb
    have goLeft : o ∈ lo → x.get ax ≤ p → ∃ c ∈ leafCalls point d (some N) (.node ax p l r), c.d ≤ V3.dist x point ∧
          (∃ a, c.aabb = some a ∧ x ∈ Spec.box a.minPoint a.maxPoint) ∧
          ∃ w m, KdT.LeafAt (.node ax p l r) w c.node m ∧ o ∈ m := fun hlo hxp => by
      have hx' : x ∈ Spec.box (cutLeft N ax p).minPoint (cutLeft N ax p).maxPoint := by
        rw [mem_box_iff] at hx ⊢
        intro ax'
        simp only [cutLeft, V3.get_set]
        refine ⟨(hx ax').1, ?_⟩
        split_ifs with e
        · subst e; exact hxp
        · exact (hx ax').2
      obtain ⟨c, hc, h6, h7, w, m, hm, hom⟩ := ih1 _ _ x hx' (distance_le hx' point) o hlo b hb hxb
      exact ⟨c, List.mem_append_left _ hc, h6, h7, _, m, .left _ _ _ _ _ _ _ hm, hom⟩
    have goRight : o ∈ ro → p ≤ x.get ax → ∃ c ∈ leafCalls point d (some N) (.node ax p l r), c.d ≤ V3.dist x point ∧
          (∃ a, c.aabb = some a ∧ x ∈ Spec.box a.minPoint a.maxPoint) ∧
          ∃ w m, KdT.LeafAt (.node ax p l r) w c.node m ∧ o ∈ m := fun hro hxp => by
      have hx' : x ∈ Spec.box (cutRight N ax p).minPoint (cutRight N ax p).maxPoint := by
        rw [mem_box_iff] at hx ⊢
        intro ax'
        simp only [cutRight, V3.get_set]
        refine ⟨?_, (hx ax').2⟩
        split_ifs with e
        · subst e; exact hxp
        · exact (hx ax').1
      obtain ⟨c, hc, h6, h7, w, m, hm, hom⟩ := ih2 _ _ x hx' (distance_le hx' point) o hro b hb hxb
      exact ⟨c, List.mem_append_right _ hc, h6, h7, _, m, .right _ _ _ _ _ _ _ hm, hom⟩
    have hxb' := (mem_box_iff b x).1 hxb
    rcases lt_trichotomy (x.get ax) p with hlt | heq | hgt
    · refine goLeft ?_ hlt.le
      by_contra hn
      exact absurd ((h4 o ho hn b hb).trans (hxb' ax).1) (not_le.2 hlt)
    · rcases h3 o ho with h | h
      · exact goLeft h heq.le
      · exact goRight h heq.ge
    · refine goRight ?_ hgt.le
      by_contra hn
      exact absurd ((hxb' ax).2.trans (h5 o ho hn b hb)) (not_le.2 hgt)

/-- The leaves of the calls. -/
theorem leafCalls_names (point : V3 ℝ) : ∀ (t : KdT ℝ) (d : ℝ) (a : Option (AABB ℝ)), HasBox a t →
    (leafCalls point d a t).map KdEntry.node = t.names
  | .leaf _ _, d, a, _ => by cases a <;> simp [leafCalls, KdT.names]
  | .node _ _ _ _, _, none, h => absurd h (by simp [HasBox])
  | .node ax p l r, _, some a, _ => by
    rw [leafCalls, List.map_append, leafCalls_names point l _ _ (by cases l <;> trivial),
      leafCalls_names point r _ _ (by cases r <;> trivial), KdT.names]

/-- A built tree without objects is a leaf. -/
theorem built_hasBox {box : T → AABB ℝ} {t : KdT ℝ} (h : Built box s t) (hok : BoxesOk box s.objects) : HasBox s.rootAABB t := by
  rcases hr : s.rootAABB with _ | a
  · cases t with
    | leaf _ _ => trivial
    | node ax p l r =>
      exfalso
      have hg := h.good
      have he : List.range s.objects.length ≠ [] := by
        cases hg with
        | node _ lo ro _ _ _ _ _ _ hl => intro e; rw [e] at hl; simp at hl
      obtain ⟨c, hc, _⟩ := bounding_spec (box := box) hok (fun o ho => List.mem_range.1 ho) he
      rw [← h.bounding, hr] at hc; cases hc
  · cases t <;> trivial

theorem built_grows {box : T → AABB ℝ} {t : KdT ℝ} (h : Built box s t) (hok : BoxesOk box s.objects) (point : V3 ℝ) :
    Grows point 0 s.rootAABB t := by
  rcases hr : s.rootAABB with _ | a
  · cases t <;> trivial
  · have hb := h.bounding
    rw [hr] at hb
    have he : List.range s.objects.length ≠ [] := by
      intro e; rw [e] at hb; simp [boundingAABB] at hb
    obtain ⟨c, hc, hcok, hin⟩ := bounding_spec (box := box) hok (fun o ho => List.mem_range.1 ho) he
    rw [← hb] at hc; cases hc
    refine grows_of_inRange point t 0 a hcok (Real.sqrt_nonneg _) (h.nested a fun o ho x hx => Or.inl fun ax => ?_)
    have h1 := hin o ho x hx ax
    have h2 := objectBox_ok hok hx ax
    exact ⟨h1.1.trans h2, h2.trans h1.2⟩

end MGL.KdTree
