import Verif.Model.KdTree
import Verif.Proofs.Scalar
import Mathlib.Tactic.Linarith
import Mathlib.Tactic.FinCases

/-! Lemmas for the construction of the kd-tree. -/

set_option linter.unusedSectionVars false

namespace MGL

theorem V3.get_set {α : Type*} (v : V3 α) (i j : Fin 3) (x : α) : (v.set i x).get j = if j = i then x else v.get j := by
  fin_cases i <;> fin_cases j <;> rfl

namespace KdTree
variable {T α : Type*} [Field α] [LinearOrder α] [IsStrictOrderedRing α]

/-- The minimum of a box is not above its maximum. -/
def BoxOk (b : AABB α) : Prop := ∀ ax, b.minPoint.get ax ≤ b.maxPoint.get ax

theorem forall_fin3 {P : Fin 3 → Prop} : (∀ i, P i) ↔ P 0 ∧ P 1 ∧ P 2 :=
  ⟨fun h => ⟨h 0, h 1, h 2⟩, fun h i => by fin_cases i; exacts [h.1, h.2.1, h.2.2]⟩

theorem inter_iff (a b : AABB α) : a.intersectsAABB b = true ↔
    ∀ ax, a.minPoint.get ax < b.maxPoint.get ax ∧ b.minPoint.get ax < a.maxPoint.get ax := by
  rw [forall_fin3]
  simp only [AABB.intersectsAABB, Bool.and_eq_true, decide_eq_true_eq, V3.get_zero, V3.get_one, V3.get_two]
  tauto

theorem center_get (a : AABB α) (ax : Fin 3) :
    a.centerPoint.get ax = 1 / 2 * (a.minPoint.get ax + a.maxPoint.get ax) := by
  fin_cases ax <;> rfl

theorem pos_ge {a : AABB α} (ha : BoxOk a) : a.minPoint.get (splitAxis a) ≤ splitPos a := by
  have := ha (splitAxis a)
  rw [splitPos, center_get]; linarith

theorem pos_le {a : AABB α} (ha : BoxOk a) : splitPos a ≤ a.maxPoint.get (splitAxis a) := by
  have := ha (splitAxis a)
  rw [splitPos, center_get]; linarith

theorem place_or (l r b : AABB α) : (place l r b).1 = true ∨ (place l r b).2 = true := by
  unfold place
  cases l.intersectsAABB b <;> cases r.intersectsAABB b <;> simp

theorem place_left {a b : AABB α} (ha : BoxOk a) (h : (place (leftAABB a) (rightAABB a) b).1 = false) :
    splitPos a ≤ b.minPoint.get (splitAxis a) := by
  unfold place at h
  by_cases hl : (leftAABB a).intersectsAABB b = true
  · simp [hl] at h
  by_cases hr : (rightAABB a).intersectsAABB b = true
  · by_contra hlt
    push Not at hlt
    apply hl
    rw [inter_iff] at hr ⊢
    intro ax
    have h1 := hr ax
    have h2 := pos_ge ha
    simp only [leftAABB, rightAABB, V3.get_set] at h1 ⊢
    split_ifs at h1 ⊢ with e
    · subst e; exact ⟨lt_of_le_of_lt h2 h1.1, hlt⟩
    · exact h1
  · simp [hl, hr] at h

theorem place_right {a b : AABB α} (ha : BoxOk a) (h : (place (leftAABB a) (rightAABB a) b).2 = false) :
    b.maxPoint.get (splitAxis a) ≤ splitPos a := by
  unfold place at h
  by_cases hr : (rightAABB a).intersectsAABB b = true
  · simp [hr] at h
  by_cases hl : (leftAABB a).intersectsAABB b = true
  · by_contra hlt
    push Not at hlt
    apply hr
    rw [inter_iff] at hl ⊢
    intro ax
    have h1 := hl ax
    have h2 := pos_le ha
    simp only [leftAABB, rightAABB, V3.get_set] at h1 ⊢
    split_ifs at h1 ⊢ with e
    · subst e; exact ⟨hlt, lt_of_lt_of_le h1.2 h2⟩
    · exact h1
  · simp [hl, hr] at h

/-- The box `a` contains the box `b`. -/
def BoxIn (b a : AABB α) : Prop := ∀ ax, a.minPoint.get ax ≤ b.minPoint.get ax ∧ b.maxPoint.get ax ≤ a.maxPoint.get ax

theorem min_get (a b : V3 α) (ax : Fin 3) : (f3Min a b).get ax = min (a.get ax) (b.get ax) := by
  fin_cases ax <;> exact min2_eq _ _

theorem max_get (a b : V3 α) (ax : Fin 3) : (f3Max a b).get ax = max (a.get ax) (b.get ax) := by
  fin_cases ax <;> exact max2_eq _ _

/-- The step of the loop of `BoundingAABB`. -/
theorem enclose_spec (a : Option (AABB α)) (b : AABB α) (hb : BoxOk b) (ha : ∀ a', a = some a' → BoxOk a') :
    ∃ c, enclose a b = some c ∧ BoxOk c ∧ BoxIn b c ∧ ∀ a', a = some a' → BoxIn a' c := by
  cases a with
  | none => exact ⟨b, rfl, hb, fun ax => ⟨le_refl _, le_refl _⟩, by simp⟩
  | some a =>
    refine ⟨_, rfl, fun ax => ?_, fun ax => ?_, fun a' h ax => ?_⟩
    · have := ha a rfl ax
      simp only [AABB.encloseMinMax, min_get, max_get]
      exact (min_le_left _ _).trans (this.trans (le_max_left _ _))
    · simp only [AABB.encloseMinMax, min_get, max_get]
      exact ⟨min_le_right _ _, le_max_right _ _⟩
    · cases h
      simp only [AABB.encloseMinMax, min_get, max_get]
      exact ⟨min_le_left _ _, le_max_left _ _⟩

theorem BoxIn.trans {a b c : AABB α} (h1 : BoxIn a b) (h2 : BoxIn b c) : BoxIn a c := fun ax =>
  ⟨(h2 ax).1.trans (h1 ax).1, (h1 ax).2.trans (h2 ax).2⟩

variable {box : T → AABB α} {objs : List T}

/-- All the boxes of the objects are proper. -/
def BoxesOk (box : T → AABB α) (objs : List T) : Prop := ∀ t ∈ objs, BoxOk (box t)

theorem objectBox_ok (h : BoxesOk box objs) {o : ℕ} {b : AABB α} (hb : objectBox box objs o = some b) : BoxOk b := by
  simp only [objectBox, Option.map_eq_some_iff] at hb
  obtain ⟨t, ht, rfl⟩ := hb
  exact h t (List.mem_of_getElem? ht)

theorem objectBox_some {o : ℕ} (h : o < objs.length) : ∃ b, objectBox box objs o = some b := by
  simp [objectBox, List.getElem?_eq_getElem h]

theorem bounding_fold (h : BoxesOk box objs) (bucket : List ℕ) : ∀ (acc : Option (AABB α)),
    (∀ o ∈ bucket, o < objs.length) → (∀ a, acc = some a → BoxOk a) →
    (acc ≠ none ∨ bucket ≠ []) →
    ∃ c, bucket.foldl (fun a o => match objectBox box objs o with | none => a | some b => enclose a b) acc = some c ∧
      BoxOk c ∧ (∀ a, acc = some a → BoxIn a c) ∧
      ∀ o ∈ bucket, ∀ b, objectBox box objs o = some b → BoxIn b c := by
  induction bucket with
  | nil =>
    intro acc _ h2 h3
    cases acc with
    | none => simp at h3
    | some a => exact ⟨a, rfl, h2 a rfl, fun a' e => by cases e; exact fun ax => ⟨le_refl _, le_refl _⟩, by simp⟩
  | cons o os ih =>
    intro acc h1 h2 _
    obtain ⟨b, hb⟩ := objectBox_some (box := box) (h1 o (by simp))
    obtain ⟨c, hc, hok, hbc, hac⟩ := enclose_spec acc b (objectBox_ok h hb) h2
    simp only [List.foldl_cons, hb, hc]
    obtain ⟨c', hc', hok', hcc, hin⟩ := ih (some c) (fun o ho => h1 o (by simp [ho]))
      (fun a e => by cases e; exact hok) (by simp)
    refine ⟨c', hc', hok', fun a ha => (hac a ha).trans (hcc c rfl), fun o' ho' b' hb' => ?_⟩
    rcases List.mem_cons.1 ho' with e | ho'
    · subst e
      rw [hb] at hb'; cases hb'
      exact hbc.trans (hcc c rfl)
    · exact hin o' ho' b' hb'

theorem bounding_spec (h : BoxesOk box objs) {bucket : List ℕ} (h1 : ∀ o ∈ bucket, o < objs.length) (h2 : bucket ≠ []) :
    ∃ c, boundingAABB box objs bucket = some c ∧ BoxOk c ∧
      ∀ o ∈ bucket, ∀ b, objectBox box objs o = some b → BoxIn b c := by
  obtain ⟨c, hc, hok, _, hin⟩ := bounding_fold h bucket none h1 (by simp) (Or.inr h2)
  exact ⟨c, hc, hok, hin⟩

/-- The tree `t` is stored at the node `i`, in nodes with `P` and buckets with `Q`. -/
inductive Rep (s : KdTree T α) (P Q : ℕ → Prop) : ℕ → KdT α → Prop
  | leaf (i b : ℕ) : P i → s.nodes i = .leaf b → Q b → Rep s P Q i (.leaf i (s.buckets b))
  | node (i : ℕ) (ax : Fin 3) (p : α) (c : ℕ) (l r : KdT α) : P i → s.nodes i = .inner ax p c →
      Rep s P Q c l → Rep s P Q (c + 1) r → Rep s P Q i (.node ax p l r)

theorem Rep.frame {s s' : KdTree T α} {P Q P' Q' : ℕ → Prop} (hP : ∀ i, P i → P' i ∧ s'.nodes i = s.nodes i)
    (hQ : ∀ b, Q b → Q' b ∧ s'.buckets b = s.buckets b) {i : ℕ} {t : KdT α} (h : Rep s P Q i t) : Rep s' P' Q' i t := by
  induction h with
  | leaf i b h1 h2 h3 =>
    rw [← (hQ b h3).2]
    exact .leaf i b (hP i h1).1 ((hP i h1).2.trans h2) (hQ b h3).1
  | node i ax p c l r h1 h2 _ _ ih1 ih2 => exact .node i ax p c l r (hP i h1).1 ((hP i h1).2.trans h2) ih1 ih2

theorem Rep.names {s : KdTree T α} {P Q : ℕ → Prop} {i : ℕ} {t : KdT α} (h : Rep s P Q i t) : ∀ n ∈ t.names, P n := by
  induction h with
  | leaf i b h1 h2 h3 => simpa [KdT.names] using h1
  | node i ax p c l r h1 h2 _ _ ih1 ih2 =>
    intro n hn
    rcases List.mem_append.1 hn with hn | hn
    exacts [ih1 n hn, ih2 n hn]

/-- The tree `t` sorts the objects `os`. -/
inductive Good (box : T → AABB α) (objs : List T) : List ℕ → KdT α → Prop
  | leaf (i : ℕ) (os : List ℕ) : Good box objs os (.leaf i os)
  | node (os lo ro : List ℕ) (ax : Fin 3) (p : α) (l r : KdT α) : Good box objs lo l → Good box objs ro r →
      lo.length < os.length → ro.length < os.length → lo ⊆ os → ro ⊆ os → (∀ o ∈ os, o ∈ lo ∨ o ∈ ro) →
      (∀ o ∈ os, o ∉ lo → ∀ b, objectBox box objs o = some b → p ≤ b.minPoint.get ax) →
      (∀ o ∈ os, o ∉ ro → ∀ b, objectBox box objs o = some b → b.maxPoint.get ax ≤ p) →
      Good box objs os (.node ax p l r)

/-- The objects in the leaves of a tree. -/
theorem Good.sub {os : List ℕ} {t : KdT α} (h : Good box objs os t) :
    ∀ w i l, t.LeafAt w i l → l ⊆ os := by
  induction h with
  | leaf i os => intro w j l hl; cases hl; exact List.Subset.refl _
  | node os lo ro ax p l r _ _ _ _ h1 h2 _ _ _ ih1 ih2 =>
    intro w j m hm
    cases hm with
    | left _ _ _ _ w _ _ h => exact fun o ho => h1 (ih1 w j m h ho)
    | right _ _ _ _ w _ _ h => exact fun o ho => h2 (ih2 w j m h ho)

theorem Good.mem {os : List ℕ} {t : KdT α} (h : Good box objs os t) :
    ∀ o ∈ os, ∃ w i l, t.LeafAt w i l ∧ o ∈ l := by
  induction h with
  | leaf i os => intro o ho; exact ⟨[], i, os, .leaf _ _, ho⟩
  | node os lo ro ax p l r _ _ _ _ h1 h2 h3 _ _ ih1 ih2 =>
    intro o ho
    rcases h3 o ho with h | h
    · obtain ⟨w, i, m, hm, hom⟩ := ih1 o h
      exact ⟨_, i, m, .left _ _ _ _ _ _ _ hm, hom⟩
    · obtain ⟨w, i, m, hm, hom⟩ := ih2 o h
      exact ⟨_, i, m, .right _ _ _ _ _ _ _ hm, hom⟩

/-- The number of leaves among the nodes from `a` to `b`. -/
def cnt (s : KdTree T α) (a b : ℕ) : ℕ := ((List.range' a (b - a)).filter fun i => s.isLeaf i).length

theorem cnt_add (s : KdTree T α) {a b c : ℕ} (h1 : a ≤ b) (h2 : b ≤ c) : cnt s a c = cnt s a b + cnt s b c := by
  unfold cnt
  have : List.range' a (c - a) = List.range' a (b - a) ++ List.range' b (c - b) := by
    have e := List.range'_append (s := a) (m := b - a) (n := c - b) (step := 1)
    rw [Nat.one_mul, show a + (b - a) = b by omega, show b - a + (c - b) = c - a by omega] at e
    exact e.symm
  rw [this, List.filter_append, List.length_append]

theorem cnt_congr {s s' : KdTree T α} {a b : ℕ} (h : ∀ j, a ≤ j → j < b → s'.nodes j = s.nodes j) : cnt s' a b = cnt s a b := by
  unfold cnt
  congr 1
  refine List.filter_congr fun j hj => ?_
  rw [List.mem_range'_1] at hj
  rw [isLeaf, isLeaf, h j hj.1 (by omega)]

theorem cnt_self (s : KdTree T α) (a : ℕ) : cnt s a a = 0 := by simp [cnt]

theorem cnt_one (s : KdTree T α) (a : ℕ) : cnt s a (a + 1) = if s.isLeaf a then 1 else 0 := by
  simp only [cnt, show a + 1 - a = 1 by omega, List.range'_one]
  cases h : s.isLeaf a <;> simp [h]

/-- All the objects of the leaf go to the same side when the box around them is cut in half. -/
def Stuck (box : T → AABB α) (objs : List T) (os : List ℕ) : Prop :=
  ∃ a, boundingAABB box objs os = some a ∧
    ((leftBucket box objs a os).length = os.length ∨ (rightBucket box objs a os).length = os.length)

/-- The leaves at most `d` steps below a node are small or cannot be split. -/
def Cap (box : T → AABB α) (objs : List T) (d : ℕ) (t : KdT α) : Prop :=
  ∀ w i os, t.LeafAt w i os → os.length ≤ 16 ∨ w.length = d ∨ Stuck box objs os

/-- The bounding box of objects is the smallest box around them. -/
theorem bounding_least {bucket : List ℕ} {K : AABB α} (hK : ∀ o ∈ bucket, ∀ b, objectBox box objs o = some b → BoxIn b K) {c : AABB α}
    (hc : boundingAABB box objs bucket = some c) : BoxIn c K := by
  have : ∀ (l : List ℕ) (acc : Option (AABB α)), (∀ o ∈ l, ∀ b, objectBox box objs o = some b → BoxIn b K) →
      (∀ a, acc = some a → BoxIn a K) → ∀ c,
      l.foldl (fun a o => match objectBox box objs o with | none => a | some b => enclose a b) acc = some c → BoxIn c K := by
    intro l
    induction l with
    | nil => intro acc _ h c hc; exact h c hc
    | cons o l ih =>
      intro acc h1 h2 c hc
      rw [List.foldl_cons] at hc
      refine ih _ (fun o' ho' => h1 o' (by simp [ho'])) ?_ c hc
      intro a ha
      rcases hb : objectBox box objs o with _ | b
      · rw [hb] at ha; exact h2 a ha
      · rw [hb] at ha
        have hbK := h1 o (by simp) b hb
        cases acc with
        | none => simp only [enclose, Option.some.injEq] at ha; subst ha; exact hbK
        | some e =>
          simp only [enclose, Option.some.injEq] at ha
          subst ha
          have he := h2 e rfl
          intro ax
          simp only [AABB.encloseMinMax, min_get, max_get]
          exact ⟨le_min (he ax).1 (hbK ax).1, max_le (he ax).2 (hbK ax).2⟩
  exact this bucket none hK (by simp) c hc

/-- The two boxes have a point in common. -/
def Touch (N x : AABB α) : Prop := ∀ ax, N.minPoint.get ax ≤ x.maxPoint.get ax ∧ x.minPoint.get ax ≤ N.maxPoint.get ax

/-- The box `x` is outside the interior of `a`. -/
def OnEdge (a x : AABB α) : Prop := ∃ ax, x.maxPoint.get ax ≤ a.minPoint.get ax ∨ a.maxPoint.get ax ≤ x.minPoint.get ax

/-- The part of a box on the lower side of a split. -/
def cutLeft (N : AABB α) (ax : Fin 3) (p : α) : AABB α := ⟨N.minPoint, N.maxPoint.set ax p⟩

/-- The part of a box on the upper side of a split. -/
def cutRight (N : AABB α) (ax : Fin 3) (p : α) : AABB α := ⟨N.minPoint.set ax p, N.maxPoint⟩

/-- Each split of the tree cuts the part of the box that is left for it. -/
def InRange : AABB α → KdT α → Prop
  | _, .leaf _ _ => True
  | N, .node ax p l r => (N.minPoint.get ax ≤ p ∧ p ≤ N.maxPoint.get ax) ∧ InRange (cutLeft N ax p) l ∧ InRange (cutRight N ax p) r

theorem OnEdge.mono {a c x : AABB α} (h : OnEdge a x) (hc : BoxIn c a) : OnEdge c x := by
  obtain ⟨ax, h | h⟩ := h
  exacts [⟨ax, Or.inl (h.trans (hc ax).1)⟩, ⟨ax, Or.inr ((hc ax).2.trans h)⟩]

theorem place_edge {a x : AABB α} (ha : BoxOk a) (h : OnEdge a x) : place (leftAABB a) (rightAABB a) x = (true, true) := by
  have hp := pos_le ha
  have hp' := pos_ge ha
  have hl : (leftAABB a).intersectsAABB x = false := by
    rw [Bool.eq_false_iff, ne_eq, inter_iff]
    intro hh
    obtain ⟨ax, h⟩ := h
    have := hh ax
    simp only [leftAABB, V3.get_set] at this
    rcases h with h | h
    · exact absurd this.1 (not_lt.2 h)
    · split_ifs at this with e
      · subst e; exact absurd this.2 (not_lt.2 (hp.trans h))
      · exact absurd this.2 (not_lt.2 h)
  have hr : (rightAABB a).intersectsAABB x = false := by
    rw [Bool.eq_false_iff, ne_eq, inter_iff]
    intro hh
    obtain ⟨ax, h⟩ := h
    have := hh ax
    simp only [rightAABB, V3.get_set] at this
    rcases h with h | h
    · split_ifs at this with e
      · subst e; exact absurd this.1 (not_lt.2 (h.trans hp'))
      · exact absurd this.1 (not_lt.2 h)
    · exact absurd this.2 (not_lt.2 h)
  simp [place, hl, hr]

theorem place_left_true {a x : AABB α} (hx : BoxOk x) (h : (place (leftAABB a) (rightAABB a) x).1 = true) :
    OnEdge a x ∨ x.minPoint.get (splitAxis a) ≤ splitPos a := by
  unfold place at h
  by_cases hl : (leftAABB a).intersectsAABB x = true
  · rw [inter_iff] at hl
    have := (hl (splitAxis a)).2
    simp only [leftAABB, V3.get_set, if_true] at this
    exact Or.inr this.le
  by_cases hr : (rightAABB a).intersectsAABB x = true
  · simp [hl, hr] at h
  by_contra hn
  push Not at hn
  apply hr
  rw [inter_iff]
  intro ax
  have h1 := hn.1
  simp only [OnEdge, not_exists, not_or, not_le] at h1
  simp only [rightAABB, V3.get_set]
  refine ⟨?_, (h1 ax).2⟩
  split_ifs with e
  · subst e; exact lt_of_lt_of_le hn.2 (hx _)
  · exact (h1 ax).1

theorem place_right_true {a x : AABB α} (hx : BoxOk x) (h : (place (leftAABB a) (rightAABB a) x).2 = true) :
    OnEdge a x ∨ splitPos a ≤ x.maxPoint.get (splitAxis a) := by
  unfold place at h
  by_cases hr : (rightAABB a).intersectsAABB x = true
  · rw [inter_iff] at hr
    have := (hr (splitAxis a)).1
    simp only [rightAABB, V3.get_set, if_true] at this
    exact Or.inr this.le
  by_cases hl : (leftAABB a).intersectsAABB x = true
  · simp [hl, hr] at h
  by_contra hn
  push Not at hn
  apply hl
  rw [inter_iff]
  intro ax
  have h1 := hn.1
  simp only [OnEdge, not_exists, not_or, not_le] at h1
  simp only [leftAABB, V3.get_set]
  refine ⟨(h1 ax).1, ?_⟩
  split_ifs with e
  · subst e; exact lt_of_le_of_lt (hx _) hn.2
  · exact (h1 ax).2

/-- The splits of a tree cut what is left of any box that its objects touch. -/
def Nested (box : T → AABB α) (objs : List T) (bucket : List ℕ) (t : KdT α) : Prop :=
  ∀ N : AABB α, (∀ o ∈ bucket, ∀ x, objectBox box objs o = some x → Touch N x ∨
    ∀ a, boundingAABB box objs bucket = some a → OnEdge a x) → InRange N t

theorem nested_node (hok : BoxesOk box objs) {bucket : List ℕ} (hlt : ∀ o ∈ bucket, o < objs.length) {a : AABB α} (ha : BoxOk a)
    (hba : boundingAABB box objs bucket = some a) {tl tr : KdT α}
    (hl : (leftBucket box objs a bucket).length < bucket.length) (hr : (rightBucket box objs a bucket).length < bucket.length)
    (h1 : Nested box objs (leftBucket box objs a bucket) tl) (h2 : Nested box objs (rightBucket box objs a bucket) tr) :
    Nested box objs bucket (.node (splitAxis a) (splitPos a) tl tr) := by
  intro N hN
  have hin : ∀ o ∈ bucket, ∀ b, objectBox box objs o = some b → BoxIn b a := by
    obtain ⟨c, hc, _, h⟩ := bounding_spec (box := box) hok hlt (by rintro rfl; simp at hl)
    rw [hba] at hc; cases hc; exact h
  have touch : ∀ o ∈ bucket, ∀ x, objectBox box objs o = some x → placeObject box objs (leftAABB a) (rightAABB a) o ≠ (true, true) →
      Touch N x := by
    intro o ho x hx hne
    rcases hN o ho x hx with h | h
    · exact h
    · exact absurd (by rw [placeObject, hx]; exact place_edge ha (h a hba)) hne
  have sub : ∀ l : List ℕ, l ⊆ bucket → ∀ c, boundingAABB box objs l = some c → BoxIn c a := fun l hl c hc =>
    bounding_least (fun o ho => hin o (hl ho)) hc
  refine ⟨⟨?_, ?_⟩, ?_, ?_⟩
  · obtain ⟨o, ho, hn⟩ := List.length_filter_lt_length_iff_exists.1 hr
    obtain ⟨x, hx⟩ := objectBox_some (box := box) (hlt o ho)
    have ht := touch o ho x hx (by intro e; simp [e] at hn)
    rw [placeObject, hx] at hn
    exact (ht _).1.trans (place_right ha (by simpa using hn))
  · obtain ⟨o, ho, hn⟩ := List.length_filter_lt_length_iff_exists.1 hl
    obtain ⟨x, hx⟩ := objectBox_some (box := box) (hlt o ho)
    have ht := touch o ho x hx (by intro e; simp [e] at hn)
    rw [placeObject, hx] at hn
    exact (place_left ha (by simpa using hn)).trans (ht _).2
  · have hs : leftBucket box objs a bucket ⊆ bucket := List.filter_subset_self _
    · refine h1 _ fun o ho x hx => ?_
      have hp := (List.mem_filter.1 ho).2
      rw [placeObject, hx] at hp
      have hxok := objectBox_ok hok hx
      rcases hN o (hs ho) x hx with h | h
      · rcases place_left_true hxok hp with h' | h'
        · exact Or.inr fun c hb => h'.mono (sub _ hs c hb)
        · refine Or.inl fun ax => ⟨(h ax).1, ?_⟩
          simp only [cutLeft, V3.get_set]
          split_ifs with e
          · subst e; exact h'
          · exact (h ax).2
      · exact Or.inr fun c hb => (h a hba).mono (sub _ hs c hb)
  · have hs : rightBucket box objs a bucket ⊆ bucket := List.filter_subset_self _
    · refine h2 _ fun o ho x hx => ?_
      have hp := (List.mem_filter.1 ho).2
      rw [placeObject, hx] at hp
      have hxok := objectBox_ok hok hx
      rcases hN o (hs ho) x hx with h | h
      · rcases place_right_true hxok hp with h' | h'
        · exact Or.inr fun c hb => h'.mono (sub _ hs c hb)
        · refine Or.inl fun ax => ⟨?_, (h ax).2⟩
          simp only [cutRight, V3.get_set]
          split_ifs with e
          · subst e; exact h'
          · exact (h ax).1
      · exact Or.inr fun c hb => (h a hba).mono (sub _ hs c hb)

/-- What `SplitLeaf` promises for the leaf `i` with the bucket `b`. -/
structure Split (box : T → AABB α) (d : ℕ) (s s' : KdTree T α) (i b : ℕ) (t : KdT α) : Prop where
  objects : s'.objects = s.objects
  rootAABB : s'.rootAABB = s.rootAABB
  size_le : s.size ≤ s'.size
  size_bound : s'.size + 2 ≤ s.size + 2 ^ (d + 1)
  buckets_le : s.numBuckets ≤ s'.numBuckets
  buckets_bound : s'.numBuckets + 1 ≤ s.numBuckets + 2 ^ d
  nodes_eq : ∀ j, j ≠ i → j < s.size → s'.nodes j = s.nodes j
  buckets_eq : ∀ k, k ≠ b → k < s.numBuckets → s'.buckets k = s.buckets k
  rep : Rep s' (fun j => j = i ∨ s.size ≤ j ∧ j < s'.size) (fun k => k = b ∨ s.numBuckets ≤ k ∧ k < s'.numBuckets) i t
  good : Good box s.objects (s.buckets b) t
  height : t.height ≤ d + 1
  nodup : t.names.Nodup
  count : s'.size + 1 = s.size + t.leaves + t.inner
  leafCount : (if s'.isLeaf i then 1 else 0) + cnt s' s.size s'.size = t.leaves
  cap : Cap box s.objects d t
  nested : Nested box s.objects (s.buckets b) t

theorem split_refl (d : ℕ) (s : KdTree T α) (i b : ℕ) (hi : s.nodes i = .leaf b)
    (hc : (s.buckets b).length ≤ 16 ∨ d = 0 ∨ Stuck box s.objects (s.buckets b)) :
    Split box d s s i b (.leaf i (s.buckets b)) where
  objects := rfl
  rootAABB := rfl
  size_le := le_refl _
  size_bound := by have := Nat.one_le_two_pow (n := d); rw [pow_succ]; omega
  buckets_le := le_refl _
  buckets_bound := by have := Nat.one_le_two_pow (n := d); omega
  nodes_eq := fun _ _ _ => rfl
  buckets_eq := fun _ _ _ => rfl
  rep := .leaf i b (Or.inl rfl) hi (Or.inl rfl)
  good := .leaf _ _
  height := by simp [KdT.height]
  nodup := by simp [KdT.names]
  count := by simp [KdT.leaves, KdT.inner]
  leafCount := by simp [cnt_self, KdT.leaves, isLeaf, hi]
  cap := by
    intro w j os h
    cases h
    rcases hc with h | h | h
    exacts [Or.inl h, Or.inr (Or.inl h.symm), Or.inr (Or.inr h)]
  nested := fun _ _ => trivial

/-- The two halves of a split. -/
theorem split_node {d : ℕ} {s s2 s' : KdTree T α} {i b : ℕ} {ax : Fin 3} {p : α} {lb rb : List ℕ} {tl tr : KdT α}
    (hi : i < s.size) (hb : b < s.numBuckets)
    (h1 : Split box d (s.makeInner i b ax p lb rb) s2 s.size b tl)
    (h2 : Split box d s2 s' (s.size + 1) s.numBuckets tr)
    (hl : lb.length < (s.buckets b).length) (hr : rb.length < (s.buckets b).length)
    (hls : lb ⊆ s.buckets b) (hrs : rb ⊆ s.buckets b) (hor : ∀ o ∈ s.buckets b, o ∈ lb ∨ o ∈ rb)
    (hlp : ∀ o ∈ s.buckets b, o ∉ lb → ∀ x, objectBox box s.objects o = some x → p ≤ x.minPoint.get ax)
    (hrp : ∀ o ∈ s.buckets b, o ∉ rb → ∀ x, objectBox box s.objects o = some x → x.maxPoint.get ax ≤ p)
    (hn : Nested box s.objects (s.buckets b) (.node ax p tl tr)) :
    Split box (d + 1) s s' i b (.node ax p tl tr) := by
  have e1 : (s.makeInner i b ax p lb rb).size = s.size + 2 := rfl
  have e2 : (s.makeInner i b ax p lb rb).numBuckets = s.numBuckets + 1 := rfl
  have e3 : (s.makeInner i b ax p lb rb).objects = s.objects := rfl
  have e4 : (s.makeInner i b ax p lb rb).rootAABB = s.rootAABB := rfl
  have n1 : (s.makeInner i b ax p lb rb).nodes i = .inner ax p s.size := by simp [makeInner]
  have n2 : ∀ j, j ≠ i → j < s.size → (s.makeInner i b ax p lb rb).nodes j = s.nodes j := by
    intro j h1 h2; simp only [makeInner]; rw [if_neg h1, if_neg (by omega), if_neg (by omega)]
  have b1 : (s.makeInner i b ax p lb rb).buckets b = lb := by simp [makeInner]
  have b2 : (s.makeInner i b ax p lb rb).buckets s.numBuckets = rb := by
    simp only [makeInner]; rw [if_neg (by omega), if_pos trivial]
  have b3 : ∀ k, k ≠ b → k < s.numBuckets → (s.makeInner i b ax p lb rb).buckets k = s.buckets k := by
    intro j h1 h2; simp only [makeInner]; rw [if_neg h1, if_neg (by omega)]
  have z1 := h1.size_le
  have z2 := h2.size_le
  have y1 := h1.buckets_le
  have y2 := h2.buckets_le
  rw [e1] at z1
  rw [e2] at y1
  refine ⟨?_, ?_, by omega, ?_, by omega, ?_, ?_, ?_, ?_, ?_, ?_, ?_, ?_, ?_, ?_, hn⟩
  · rw [h2.objects, h1.objects, e3]
  · rw [h2.rootAABB, h1.rootAABB, e4]
  · have a1 := h1.size_bound
    have a2 := h2.size_bound
    rw [e1] at a1
    rw [pow_succ]; omega
  · have a1 := h1.buckets_bound
    have a2 := h2.buckets_bound
    rw [e2] at a1
    rw [pow_succ]; omega
  · intro j hj hj2
    rw [h2.nodes_eq j (by omega) (by omega), h1.nodes_eq j (by omega) (by rw [e1]; omega), n2 j hj hj2]
  · intro k hk hk2
    rw [h2.buckets_eq k (by omega) (by omega), h1.buckets_eq k (by omega) (by rw [e2]; omega), b3 k hk hk2]
  · refine .node i ax p s.size tl tr (Or.inl rfl) ?_ ?_ ?_
    · rw [h2.nodes_eq i (by omega) (by omega), h1.nodes_eq i (by omega) (by rw [e1]; omega), n1]
    · refine h1.rep.frame ?_ ?_
      · rintro j (rfl | hj)
        · exact ⟨Or.inr (by omega), h2.nodes_eq _ (by omega) (by omega)⟩
        · rw [e1] at hj
          exact ⟨Or.inr (by omega), h2.nodes_eq _ (by omega) (by omega)⟩
      · rintro k (rfl | hk)
        · exact ⟨Or.inl rfl, h2.buckets_eq _ (by omega) (by omega)⟩
        · rw [e2] at hk
          exact ⟨Or.inr (by omega), h2.buckets_eq _ (by omega) (by omega)⟩
    · refine h2.rep.frame ?_ ?_
      · rintro j (rfl | hj)
        · exact ⟨Or.inr (by omega), rfl⟩
        · exact ⟨Or.inr (by omega), rfl⟩
      · rintro k (rfl | hk)
        · exact ⟨Or.inr (by omega), rfl⟩
        · exact ⟨Or.inr (by omega), rfl⟩
  · have g1 := h1.good
    have g2 := h2.good
    rw [e3, b1] at g1
    rw [h1.objects, e3, h1.buckets_eq _ (by omega) (by rw [e2]; omega), b2] at g2
    exact .node _ lb rb ax p tl tr g1 g2 hl hr hls hrs hor hlp hrp
  · have := h1.height
    have := h2.height
    simp only [KdT.height]; omega
  · simp only [KdT.names, List.nodup_append]
    refine ⟨h1.nodup, h2.nodup, fun a ha c hc => ?_⟩
    have := h1.rep.names a ha
    have := h2.rep.names c hc
    simp only [e1] at *
    omega
  · have a1 := h1.count
    have a2 := h2.count
    rw [e1] at a1
    simp only [KdT.leaves, KdT.inner]; omega
  · have a1 := h1.leafCount
    have a2 := h2.leafCount
    rw [e1] at a1
    have k0 : s'.isLeaf i = false := by
      rw [isLeaf, h2.nodes_eq i (by omega) (by omega), h1.nodes_eq i (by omega) (by rw [e1]; omega), n1]
    have k1 : s'.isLeaf s.size = s2.isLeaf s.size := by
      rw [isLeaf, isLeaf, h2.nodes_eq _ (by omega) (by omega)]
    have k2 : cnt s' (s.size + 2) s2.size = cnt s2 (s.size + 2) s2.size :=
      cnt_congr fun j hj1 hj2 => h2.nodes_eq j (by omega) hj2
    rw [k0, cnt_add s' (b := s.size + 1) (by omega) (by omega), cnt_add s' (a := s.size + 1) (b := s.size + 2) (by omega) (by omega),
      cnt_add s' (a := s.size + 2) (b := s2.size) (by omega) (by omega), cnt_one, cnt_one, k1, k2]
    simp only [KdT.leaves, Bool.false_eq_true, if_false]
    omega
  · intro w j os h
    cases h with
    | left _ _ _ _ w _ _ h =>
      have := h1.cap w j os h
      rw [e3] at this
      rcases this with h | h | h
      exacts [Or.inl h, Or.inr (Or.inl (by simp [h])), Or.inr (Or.inr h)]
    | right _ _ _ _ w _ _ h =>
      have := h2.cap w j os h
      rw [h1.objects, e3] at this
      rcases this with h | h | h
      exacts [Or.inl h, Or.inr (Or.inl (by simp [h])), Or.inr (Or.inr h)]

theorem filter_len {l : List ℕ} {p : ℕ → Bool} (h : (l.filter p).length ≠ l.length) : (l.filter p).length < l.length := by
  have := List.length_filter_le p l
  omega

theorem splitLeaf_spec (d : ℕ) : ∀ (s : KdTree T α) (i b : ℕ) (a : AABB α), BoxesOk box s.objects →
    s.nodes i = .leaf b → i < s.size → b < s.numBuckets →
    (∀ o ∈ s.buckets b, o < s.objects.length) → BoxOk a → boundingAABB box s.objects (s.buckets b) = some a →
    ∃ t, Split box d s (splitLeaf box d s i a (s.buckets b).length) i b t := by
  induction d with
  | zero => intro s i b a _ hi _ _ _ _ _; exact ⟨_, split_refl 0 s i b hi (Or.inr (Or.inl rfl))⟩
  | succ d ih =>
    intro s i b a hok hi his hb hlt ha hba
    rw [splitLeaf, hi]
    dsimp only
    generalize hlb : leftBucket box s.objects a (s.buckets b) = lb
    generalize hrb : rightBucket box s.objects a (s.buckets b) = rb
    by_cases hc : lb.length = (s.buckets b).length ∨ rb.length = (s.buckets b).length
    · rw [if_pos hc]
      refine ⟨_, split_refl _ s i b hi (Or.inr (Or.inr ⟨a, hba, ?_⟩))⟩
      rw [hlb, hrb]; exact hc
    rw [if_neg hc]
    push Not at hc
    have hl : lb.length < (s.buckets b).length := by
      rw [← hlb] at hc ⊢; exact filter_len hc.1
    have hr : rb.length < (s.buckets b).length := by
      rw [← hrb] at hc ⊢; exact filter_len hc.2
    have hls : lb ⊆ s.buckets b := by rw [← hlb]; exact List.filter_subset_self _
    have hrs : rb ⊆ s.buckets b := by rw [← hrb]; exact List.filter_subset_self _
    have key : ∀ o ∈ s.buckets b, ∃ x, objectBox box s.objects o = some x ∧
        (o ∈ lb ↔ (place (leftAABB a) (rightAABB a) x).1 = true) ∧
        (o ∈ rb ↔ (place (leftAABB a) (rightAABB a) x).2 = true) := by
      intro o ho
      obtain ⟨x, hx⟩ := objectBox_some (box := box) (hlt o ho)
      refine ⟨x, hx, ?_, ?_⟩
      · rw [← hlb, leftBucket, List.mem_filter, placeObject, hx]; simp [ho]
      · rw [← hrb, rightBucket, List.mem_filter, placeObject, hx]; simp [ho]
    have hor : ∀ o ∈ s.buckets b, o ∈ lb ∨ o ∈ rb := by
      intro o ho
      obtain ⟨x, _, h1, h2⟩ := key o ho
      rw [h1, h2]; exact place_or _ _ _
    have hlp : ∀ o ∈ s.buckets b, o ∉ lb → ∀ x, objectBox box s.objects o = some x →
        splitPos a ≤ x.minPoint.get (splitAxis a) := by
      intro o ho hn x hx
      obtain ⟨y, hy, h1, h2⟩ := key o ho
      rw [hx] at hy; cases hy
      rw [h1] at hn
      exact place_left ha (by simpa using hn)
    have hrp : ∀ o ∈ s.buckets b, o ∉ rb → ∀ x, objectBox box s.objects o = some x →
        x.maxPoint.get (splitAxis a) ≤ splitPos a := by
      intro o ho hn x hx
      obtain ⟨y, hy, h1, h2⟩ := key o ho
      rw [hx] at hy; cases hy
      rw [h2] at hn
      exact place_right ha (by simpa using hn)
    generalize hs1 : s.makeInner i b (splitAxis a) (splitPos a) lb rb = s1
    have o1 : s1.objects = s.objects := by rw [← hs1]; rfl
    have c1 : s1.nodes s.size = .leaf b := by
      rw [← hs1]; simp only [makeInner]; rw [if_neg (by omega), if_pos trivial]
    have c2 : s1.nodes (s.size + 1) = .leaf s.numBuckets := by
      rw [← hs1]; simp only [makeInner]; rw [if_neg (by omega), if_neg (by omega), if_pos trivial]
    have c3 : s1.buckets b = lb := by rw [← hs1]; simp [makeInner]
    have c4 : s1.buckets s.numBuckets = rb := by
      rw [← hs1]; simp only [makeInner]; rw [if_neg (by omega), if_pos trivial]
    have c5 : s1.size = s.size + 2 := by rw [← hs1]; rfl
    have c6 : s1.numBuckets = s.numBuckets + 1 := by rw [← hs1]; rfl
    -- the left half
    have hleft : ∃ tl, Split box d s1 ((boundingAABB box s.objects lb).elim s1 fun la =>
        if lb.length > 16 then splitLeaf box d s1 s.size la lb.length else s1) s.size b tl := by
      rcases hbl : boundingAABB box s.objects lb with _ | la
      · refine ⟨_, split_refl _ s1 _ _ c1 (Or.inl ?_)⟩
        rw [c3]
        by_contra h16
        obtain ⟨c, hc1, _, _⟩ := bounding_spec (box := box) hok (fun o ho => hlt o (hls ho))
          (show lb ≠ [] by rintro rfl; simp at h16)
        rw [hbl] at hc1; cases hc1
      · rw [Option.elim_some]
        by_cases h16 : lb.length > 16
        · rw [if_pos h16]
          have h := ih s1 s.size b la (by rw [o1]; exact hok) c1 (by omega) (by omega)
            (by rw [c3, o1]; exact fun o ho => hlt o (hls ho)) ?_ (by rw [c3, o1]; exact hbl)
          · rw [c3] at h; exact h
          · obtain ⟨c, hc1, hc2, _⟩ := bounding_spec (box := box) hok (fun o ho => hlt o (hls ho))
              (show lb ≠ [] by rintro rfl; simp at h16)
            rw [hbl] at hc1; cases hc1; exact hc2
        · rw [if_neg h16]; exact ⟨_, split_refl _ s1 _ _ c1 (Or.inl (by rw [c3]; omega))⟩
    obtain ⟨tl, htl⟩ := hleft
    generalize ((boundingAABB box s.objects lb).elim s1 fun la =>
        if lb.length > 16 then splitLeaf box d s1 s.size la lb.length else s1) = s2 at htl ⊢
    have o2 : s2.objects = s.objects := htl.objects.trans o1
    have z1 := htl.size_le
    have y1 := htl.buckets_le
    have d1 : s2.nodes (s.size + 1) = .leaf s.numBuckets := by rw [htl.nodes_eq _ (by omega) (by omega), c2]
    have d2 : s2.buckets s.numBuckets = rb := by rw [htl.buckets_eq _ (by omega) (by omega), c4]
    have hright : ∃ tr, Split box d s2 ((boundingAABB box s.objects rb).elim s2 fun ra =>
        if rb.length > 16 then splitLeaf box d s2 (s.size + 1) ra rb.length else s2)
        (s.size + 1) s.numBuckets tr := by
      rcases hbr : boundingAABB box s.objects rb with _ | ra
      · refine ⟨_, split_refl _ s2 _ _ d1 (Or.inl ?_)⟩
        rw [d2]
        by_contra h16
        obtain ⟨c, hc1, _, _⟩ := bounding_spec (box := box) hok (fun o ho => hlt o (hrs ho))
          (show rb ≠ [] by rintro rfl; simp at h16)
        rw [hbr] at hc1; cases hc1
      · rw [Option.elim_some]
        by_cases h16 : rb.length > 16
        · rw [if_pos h16]
          have h := ih s2 (s.size + 1) s.numBuckets ra (by rw [o2]; exact hok) d1 (by omega) (by omega)
            (by rw [d2, o2]; exact fun o ho => hlt o (hrs ho)) ?_ (by rw [d2, o2]; exact hbr)
          · rw [d2] at h; exact h
          · obtain ⟨c, hc1, hc2, _⟩ := bounding_spec (box := box) hok (fun o ho => hlt o (hrs ho))
              (show rb ≠ [] by rintro rfl; simp at h16)
            rw [hbr] at hc1; cases hc1; exact hc2
        · rw [if_neg h16]; exact ⟨_, split_refl _ s2 _ _ d1 (Or.inl (by rw [d2]; omega))⟩
    obtain ⟨tr, htr⟩ := hright
    rw [← hs1] at htl
    have n1 := htl.nested
    have n2 := htr.nested
    rw [hs1, c3, o1] at n1
    rw [d2, o2] at n2
    refine ⟨_, split_node his hb htl htr hl hr hls hrs hor hlp hrp ?_⟩
    rw [← hlb] at hl n1
    rw [← hrb] at hr n2
    exact nested_node hok hlt ha hba hl hr n1 n2

/-- What is known of a tree after `Build`. -/
structure Built (box : T → AABB α) (s : KdTree T α) (t : KdT α) : Prop where
  rep : Rep s (fun j => 1 ≤ j ∧ j < s.size) (fun k => 1 ≤ k ∧ k < s.numBuckets) 1 t
  good : Good box s.objects (List.range s.objects.length) t
  height : t.height ≤ 30
  nodup : t.names.Nodup
  count : s.size = 1 + t.leaves + t.inner
  size_bound : s.size ≤ 2 ^ 30
  buckets_bound : s.numBuckets ≤ 2 ^ 29 + 1
  one_lt : 1 < s.size
  bounding : s.rootAABB = boundingAABB box s.objects (List.range s.objects.length)
  leafCount : cnt s 1 s.size = t.leaves
  cap : Cap box s.objects 29 t
  nested : Nested box s.objects (List.range s.objects.length) t

theorem build_spec (s : KdTree T α) (hok : BoxesOk box s.objects) :
    (s.build box).objects = s.objects ∧ ∃ t, Built box (s.build box) t := by
  have h1 : (s.buildRoot box).nodes 1 = .leaf 1 := by simp [buildRoot]
  have h2 : (s.buildRoot box).buckets 1 = List.range s.objects.length := by simp [buildRoot]
  have key : ∃ t, Split box 29 (s.buildRoot box) (s.build box) 1 1 t := by
    unfold build
    dsimp only
    rcases h : (s.buildRoot box).rootAABB with _ | a
    · refine ⟨_, split_refl _ _ _ _ h1 (Or.inl ?_)⟩
      rw [h2]
      by_contra h16
      obtain ⟨c, hc1, _, _⟩ := bounding_spec (box := box) hok (bucket := List.range s.objects.length)
        (fun o ho => List.mem_range.1 ho) (by intro e; rw [e] at h16; simp at h16)
      have h' : boundingAABB box s.objects (List.range s.objects.length) = none := h
      rw [h'] at hc1; cases hc1
    · dsimp only
      have hlt : ∀ o ∈ List.range s.objects.length, o < s.objects.length := fun o ho => List.mem_range.1 ho
      have := splitLeaf_spec 29 (s.buildRoot box) 1 1 a hok h1 (by simp [buildRoot]) (by simp [buildRoot])
        (by rw [h2]; exact hlt) ?_ (by rw [h2]; exact h)
      · rw [h2, List.length_range] at this; exact this
      · have hne : List.range s.objects.length ≠ [] := by
          intro he
          have h' : boundingAABB box s.objects (List.range s.objects.length) = some a := h
          rw [he] at h'; simp [boundingAABB] at h'
        obtain ⟨c, hc1, hc2, _⟩ := bounding_spec (box := box) hok hlt hne
        have h' : boundingAABB box s.objects (List.range s.objects.length) = some a := h
        rw [hc1] at h'; cases h'; exact hc2
  obtain ⟨t, ht⟩ := key
  have e0 : (s.buildRoot box).objects = s.objects := rfl
  have e1 : (s.buildRoot box).size = 2 := rfl
  have e2 : (s.buildRoot box).numBuckets = 2 := rfl
  have ho : (s.build box).objects = s.objects := ht.objects
  have z := ht.size_le
  have y := ht.buckets_le
  refine ⟨ho, t, ⟨ht.rep.frame ?_ ?_, ?_, ht.height, ht.nodup, ?_, ?_, ?_, by omega, ?_, ?_, ?_, ?_⟩⟩
  · rintro j (rfl | hj)
    · exact ⟨⟨by omega, by omega⟩, rfl⟩
    · exact ⟨⟨by omega, by omega⟩, rfl⟩
  · rintro j (rfl | hj)
    · exact ⟨⟨by omega, by omega⟩, rfl⟩
    · exact ⟨⟨by omega, by omega⟩, rfl⟩
  · have := ht.good
    rw [h2] at this
    rw [ho]; exact this
  · have := ht.count; omega
  · have := ht.size_bound; rw [e1] at this; omega
  · have := ht.buckets_bound; rw [e2] at this; omega
  · rw [ht.rootAABB, ho]; rfl
  · have := ht.leafCount
    rw [cnt_add _ (b := 2) (by omega) (by omega), cnt_one]
    exact this
  · rw [ho]; exact ht.cap
  · have := ht.nested
    rw [h2] at this
    rw [ho]; exact this

theorem run_objects (g : Option (AABB α)) (hbox : ∀ t, BoxOk (box t)) (ops : List (KdOp T)) :
    (run box g ops).objects = Spec.kdContent ops := by
  unfold run Spec.kdContent
  have : ∀ (s : KdTree T α) (l : List T), s.objects = l →
      (ops.foldl (step box) s).objects = ops.foldl Spec.kdEffect l := by
    induction ops with
    | nil => intro s l h; exact h
    | cons op ops ih =>
      intro s l h
      refine ih _ _ ?_
      cases op with
      | addObjects os => simp [step, addObjects, Spec.kdEffect, h]
      | build => exact (build_spec s (fun t _ => hbox t)).1.trans h
      | clear => rfl
  exact this _ _ rfl

/-- After a history of calls that ends with `Build`. -/
theorem run_build (g : Option (AABB α)) (hbox : ∀ t, BoxOk (box t)) (ops : List (KdOp T)) :
    (run box g (ops ++ [.build])).objects = Spec.kdContent ops ∧ ∃ t, Built box (run box g (ops ++ [.build])) t := by
  have h : run box g (ops ++ [.build]) = (run box g ops).build box := by simp [run, step]
  rw [h]
  obtain ⟨h1, h2⟩ := build_spec (run box g ops) (fun t _ => hbox t)
  exact ⟨h1.trans (run_objects g hbox ops), h2⟩

end KdTree
end MGL
