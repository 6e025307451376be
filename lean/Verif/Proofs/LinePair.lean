import Verif.Proofs.Line

/-! Closest pairs of linear objects in terms of their parameters. -/

set_option linter.unusedSectionVars false

namespace MGL
open V3
variable {α : Type*} [Field α] [LinearOrder α] [IsStrictOrderedRing α]

/-- `(c, c2)` minimises the squared distance over `S × T`. -/
def ParamMin (p u q v : V3 α) (S T : Set α) (c c2 : α) : Prop :=
  c ∈ S ∧ c2 ∈ T ∧ ∀ s ∈ S, ∀ t ∈ T, pairDist p u q v c c2 ≤ pairDist p u q v s t

/-- An interval. -/
def Conv (S : Set α) : Prop := ∀ a b m, a ∈ S → b ∈ S → Btw a m b → m ∈ S

theorem conv_univ : Conv (Set.univ : Set α) := fun _ _ _ _ _ _ => trivial
theorem conv_nonneg : Conv {s : α | 0 ≤ s} := by
  rintro a b m ha hb (⟨h, _⟩ | ⟨h, _⟩)
  · exact le_trans ha h
  · exact le_trans hb h
theorem conv_unit : Conv {s : α | 0 ≤ s ∧ s ≤ 1} := by
  rintro a b m ha hb (⟨h, h'⟩ | ⟨h, h'⟩)
  · exact ⟨le_trans ha.1 h, le_trans h' hb.2⟩
  · exact ⟨le_trans hb.1 h, le_trans h' ha.2⟩

section
variable {p u q v : V3 α} (hv : v ≠ 0) {S T : Set α}
include hv

theorem pm_inside (h1 : (closestPointLineLine p u q v).1 ∈ S) (h2 : (closestPointLineLine p u q v).2 ∈ T) :
    ParamMin p u q v S T (closestPointLineLine p u q v).1 (closestPointLineLine p u q v).2 :=
  ⟨h1, h2, fun s _ t _ => pairDist_min p u q v hv s t⟩

theorem pm_snd (hS : Conv S) (h1 : (closestPointLineLine p u q v).1 ∈ S) {c tb : α} (htb : tb ∈ T)
    (hT : ∀ t ∈ T, Btw t tb (closestPointLineLine p u q v).2) (hc : c ∈ S)
    (hm : ∀ s ∈ S, pairDist p u q v c tb ≤ pairDist p u q v s tb) : ParamMin p u q v S T c tb := by
  refine ⟨hc, htb, fun s hs t ht => ?_⟩
  obtain ⟨s', hb, h⟩ := exit_snd p u q v hv s t tb (hT t ht)
  exact (hm s' (hS _ _ _ hs h1 hb)).trans h

theorem pm_fst (hT : Conv T) (h2 : (closestPointLineLine p u q v).2 ∈ T) {c sb : α} (hsb : sb ∈ S)
    (hS : ∀ s ∈ S, Btw s sb (closestPointLineLine p u q v).1) (hc : c ∈ T)
    (hm : ∀ t ∈ T, pairDist p u q v sb c ≤ pairDist p u q v sb t) : ParamMin p u q v S T sb c := by
  refine ⟨hsb, hc, fun s hs t ht => ?_⟩
  obtain ⟨t', hb, h⟩ := exit_fst p u q v hv s t sb (hS s hs)
  exact (hm t' (hT _ _ _ ht h2 hb)).trans h

theorem pm_both (hcS : Conv S) (hcT : Conv T) {sb tb c c2 : α} (hsb : sb ∈ S) (htb : tb ∈ T)
    (hS : ∀ s ∈ S, Btw s sb (closestPointLineLine p u q v).1)
    (hT : ∀ t ∈ T, Btw t tb (closestPointLineLine p u q v).2)
    (hc : c ∈ S) (hm : ∀ s ∈ S, pairDist p u q v c tb ≤ pairDist p u q v s tb)
    (hc2 : c2 ∈ T) (hm2 : ∀ t ∈ T, pairDist p u q v sb c2 ≤ pairDist p u q v sb t) :
    (pairDist p u q v c tb ≤ pairDist p u q v sb c2 → ParamMin p u q v S T c tb) ∧
    (pairDist p u q v sb c2 ≤ pairDist p u q v c tb → ParamMin p u q v S T sb c2) := by
  constructor
  · refine fun hle => ⟨hc, htb, fun s hs t ht => ?_⟩
    rcases exit_both p u q v hv s t sb tb (hS s hs) (hT t ht) with ⟨t', hb, h⟩ | ⟨s', hb, h⟩
    · exact hle.trans ((hm2 t' (hcT _ _ _ ht htb hb)).trans h)
    · exact (hm s' (hcS _ _ _ hs hsb hb)).trans h
  · refine fun hle => ⟨hsb, hc2, fun s hs t ht => ?_⟩
    rcases exit_both p u q v hv s t sb tb (hS s hs) (hT t ht) with ⟨t', hb, h⟩ | ⟨s', hb, h⟩
    · exact (hm2 t' (hcT _ _ _ ht htb hb)).trans h
    · exact hle.trans ((hm s' (hcS _ _ _ hs hsb hb)).trans h)

end

theorem ParamMin.swap {p u q v : V3 α} {S T : Set α} {c c2 : α} (h : ParamMin p u q v S T c c2) :
    ParamMin q v p u T S c2 c :=
  ⟨h.2.1, h.1, fun t ht s hs => by rw [pairDist_swap p u q v c c2, pairDist_swap p u q v s t]; exact h.2.2 s hs t ht⟩

theorem btw_low {t b w : α} (h : b ≤ t) (hw : w < b) : Btw t b w := Or.inr ⟨hw.le, h⟩
theorem btw_high {t b w : α} (h : t ≤ b) (hw : b < w) : Btw t b w := Or.inl ⟨h, hw.le⟩

theorem unit_ne_zero {u : V3 α} (h : lenSq u = 1) : u ≠ 0 := by
  rintro rfl; simp [lenSq] at h

/-- The parameter set of a line, a ray, a segment. -/
abbrev PL : Set α := Set.univ
abbrev PR : Set α := {s | 0 ≤ s}
abbrev PS : Set α := {s | 0 ≤ s ∧ s ≤ 1}

/-- What a closest-pair function must return: the point at the first parameter, and minimising
parameters. -/
def PairSpec (p u q v : V3 α) (S T : Set α) (r : V3 α × α × α) : Prop :=
  r.1 = p + r.2.1 • u ∧ ParamMin p u q v S T r.2.1 r.2.2

section
variable (p u q v : V3 α) (c : α)

/-- The nearest point of a line / ray / segment to the end point of the other object. -/
theorem Line.edge (l : Line α) (h : lenSq l.dir = 1) (s : α) :
    pairDist l.pos l.dir q v (l.closestPoint (q + c • v)).2 c ≤ pairDist l.pos l.dir q v s c :=
  edge_snd _ _ _ _ _ _ _ (Line.closest l h _ s)
theorem Ray.edge (l : Ray α) (h : lenSq l.dir = 1) (s : α) (hs : 0 ≤ s) :
    pairDist l.pos l.dir q v (l.closestPoint (q + c • v)).2 c ≤ pairDist l.pos l.dir q v s c :=
  edge_snd _ _ _ _ _ _ _ (Ray.closest l h _ s hs)
theorem LineSeg.edge (l : LineSeg α) (h : l.a ≠ l.b) (s : α) (hs : 0 ≤ s ∧ s ≤ 1) :
    pairDist l.a (l.b - l.a) q v (l.closestPoint (q + c • v)).2 c ≤ pairDist l.a (l.b - l.a) q v s c :=
  edge_snd _ _ _ _ _ _ _ (LineSeg.closest l h _ s hs.1 hs.2)
theorem Line.edge' (l : Line α) (h : lenSq l.dir = 1) (s : α) :
    pairDist p u l.pos l.dir c (l.closestPoint (p + c • u)).2 ≤ pairDist p u l.pos l.dir c s :=
  Line.closest l h _ s
theorem Ray.edge' (l : Ray α) (h : lenSq l.dir = 1) (s : α) (hs : 0 ≤ s) :
    pairDist p u l.pos l.dir c (l.closestPoint (p + c • u)).2 ≤ pairDist p u l.pos l.dir c s :=
  Ray.closest l h _ s hs
theorem LineSeg.edge' (l : LineSeg α) (h : l.a ≠ l.b) (s : α) (hs : 0 ≤ s ∧ s ≤ 1) :
    pairDist p u l.a (l.b - l.a) c (l.closestPoint (p + c • u)).2 ≤ pairDist p u l.a (l.b - l.a) c s :=
  LineSeg.closest l h _ s hs.1 hs.2
end

theorem at_zero (p u : V3 α) : p + (0 : α) • u = p := by ext <;> simp
theorem at_one (a b : V3 α) : a + (1 : α) • (b - a) = b := by ext <;> simp

theorem Line.closestLine_spec (l m : Line α) (h : lenSq m.dir = 1) :
    PairSpec l.pos l.dir m.pos m.dir PL PL (l.closestLine m) :=
  ⟨rfl, pm_inside (unit_ne_zero h) trivial trivial⟩

theorem Line.closestRay_spec (l : Line α) (r : Ray α) (hl : lenSq l.dir = 1) (hr : lenSq r.dir = 1) :
    PairSpec l.pos l.dir r.pos r.dir PL PR (l.closestRay r) := by
  by_cases h : (closestPointLineLine l.pos l.dir r.pos r.dir).2 ≥ 0
  · have e : l.closestRay r = (l.getPoint (closestPointLineLine l.pos l.dir r.pos r.dir).1, closestPointLineLine l.pos l.dir r.pos r.dir) := if_pos h
    rw [e]
    exact ⟨rfl, pm_inside (unit_ne_zero hr) trivial h⟩
  · have e : l.closestRay r = ((l.closestPoint r.pos).1, (l.closestPoint r.pos).2, 0) := if_neg h
    rw [e]
    refine ⟨rfl, pm_snd (unit_ne_zero hr) conv_univ trivial (le_refl (0 : α)) (fun t ht => btw_low ht (not_le.1 h)) trivial ?_⟩
    intro s _
    have := Line.edge r.pos r.dir 0 l hl s
    rwa [at_zero] at this

theorem Line.closestSeg_spec (l : Line α) (r : LineSeg α) (hl : lenSq l.dir = 1) (hr : r.a ≠ r.b) :
    PairSpec l.pos l.dir r.a (r.b - r.a) PL PS (l.closestSeg r) := by
  have hv : r.b - r.a ≠ 0 := sub_ne_zero.2 hr.symm
  by_cases h : (closestPointLineLine l.pos l.dir r.a (r.b - r.a)).2 < 0
  · have e : l.closestSeg r = ((l.closestPoint r.a).1, (l.closestPoint r.a).2, 0) := if_pos h
    rw [e]
    refine ⟨rfl, pm_snd hv conv_univ trivial ⟨le_refl (0 : α), zero_le_one⟩ (fun t ht => btw_low ht.1 h) trivial ?_⟩
    intro s _
    have := Line.edge r.a (r.b - r.a) 0 l hl s
    rwa [at_zero] at this
  · by_cases h' : (closestPointLineLine l.pos l.dir r.a (r.b - r.a)).2 > 1
    · have e : l.closestSeg r = ((l.closestPoint r.b).1, (l.closestPoint r.b).2, 1) := (if_neg h).trans (if_pos h')
      rw [e]
      refine ⟨rfl, pm_snd hv conv_univ trivial ⟨zero_le_one, le_refl (1 : α)⟩ (fun t ht => btw_high ht.2 h') trivial ?_⟩
      intro s _
      have := Line.edge r.a (r.b - r.a) 1 l hl s
      rwa [at_one] at this
    · have e : l.closestSeg r = (l.getPoint (closestPointLineLine l.pos l.dir r.a (r.b - r.a)).1, closestPointLineLine l.pos l.dir r.a (r.b - r.a)) := (if_neg h).trans (if_neg h')
      rw [e]
      exact ⟨rfl, pm_inside hv trivial ⟨not_lt.1 h, not_lt.1 h'⟩⟩

theorem Ray.closestLine_spec (l : Ray α) (m : Line α) (hm : lenSq m.dir = 1) :
    PairSpec l.pos l.dir m.pos m.dir PR PL (l.closestLine m) := by
  by_cases h : (closestPointLineLine l.pos l.dir m.pos m.dir).1 < 0
  · have e : l.closestLine m = (l.pos, 0, (m.closestPoint l.pos).2) := if_pos h
    rw [e]
    refine ⟨(at_zero _ _).symm, pm_fst (unit_ne_zero hm) conv_univ trivial (le_refl (0 : α)) (fun s hs => btw_low hs h) trivial ?_⟩
    intro t _
    have := Line.edge' l.pos l.dir 0 m hm t
    rwa [at_zero] at this
  · have e : l.closestLine m = (l.getPoint (closestPointLineLine l.pos l.dir m.pos m.dir).1, closestPointLineLine l.pos l.dir m.pos m.dir) := if_neg h
    rw [e]
    exact ⟨rfl, pm_inside (unit_ne_zero hm) (not_lt.1 h) trivial⟩

theorem LineSeg.closestLine_spec (s : LineSeg α) (l : Line α) (hl : lenSq l.dir = 1) (hs : s.a ≠ s.b) :
    PairSpec s.a (s.b - s.a) l.pos l.dir PS PL (s.closestLine l) := by
  have hv : s.b - s.a ≠ 0 := sub_ne_zero.2 hs.symm
  by_cases h : (closestPointLineLine l.pos l.dir s.a (s.b - s.a)).2 < 0
  · have e : s.closestLine l = (s.a, 0, (l.closestPoint s.a).2) := if_pos h
    rw [e]
    refine ⟨(at_zero _ _).symm, ParamMin.swap (pm_snd (S := PL) (T := PS) hv conv_univ trivial ⟨le_refl (0 : α), zero_le_one⟩ (fun t ht => btw_low ht.1 h) trivial ?_)⟩
    intro t _
    have := Line.edge s.a (s.b - s.a) 0 l hl t
    rwa [at_zero] at this
  · by_cases h' : (closestPointLineLine l.pos l.dir s.a (s.b - s.a)).2 > 1
    · have e : s.closestLine l = (s.b, 1, (l.closestPoint s.b).2) := (if_neg h).trans (if_pos h')
      rw [e]
      refine ⟨(at_one _ _).symm, ParamMin.swap (pm_snd (S := PL) (T := PS) hv conv_univ trivial ⟨zero_le_one, le_refl (1 : α)⟩ (fun t ht => btw_high ht.2 h') trivial ?_)⟩
      intro t _
      have := Line.edge s.a (s.b - s.a) 1 l hl t
      rwa [at_one] at this
    · have e : s.closestLine l = (s.getPoint (closestPointLineLine l.pos l.dir s.a (s.b - s.a)).2,
          (closestPointLineLine l.pos l.dir s.a (s.b - s.a)).2, (closestPointLineLine l.pos l.dir s.a (s.b - s.a)).1) :=
        (if_neg h).trans (if_neg h')
      rw [e]
      exact ⟨LineSeg.getPoint_eq _ _, ParamMin.swap (pm_inside (S := PL) (T := PS) hv trivial ⟨not_lt.1 h, not_lt.1 h'⟩)⟩

theorem Ray.closestRay_spec (l r : Ray α) (hl : lenSq l.dir = 1) (hr : lenSq r.dir = 1) :
    PairSpec l.pos l.dir r.pos r.dir PR PR (l.closestRay r) := by
  have hv := unit_ne_zero hr
  have eS : ∀ s ∈ (PR : Set α), pairDist l.pos l.dir r.pos r.dir (l.closestPoint r.pos).2 0 ≤ pairDist l.pos l.dir r.pos r.dir s 0 := by
    intro s hs; have := Ray.edge r.pos r.dir 0 l hl s hs; rwa [at_zero] at this
  have eT : ∀ t ∈ (PR : Set α), pairDist l.pos l.dir r.pos r.dir 0 (r.closestPoint l.pos).2 ≤ pairDist l.pos l.dir r.pos r.dir 0 t := by
    intro t ht; have := Ray.edge' l.pos l.dir 0 r hr t ht; rwa [at_zero] at this
  by_cases h1 : (closestPointLineLine l.pos l.dir r.pos r.dir).1 < 0
  · by_cases h2 : (closestPointLineLine l.pos l.dir r.pos r.dir).2 < 0
    · obtain ⟨k1, k2⟩ := pm_both hv conv_nonneg conv_nonneg (le_refl (0 : α)) (le_refl (0 : α))
        (fun s hs => btw_low hs h1) (fun t ht => btw_low ht h2) (Ray.closest_nonneg l r.pos) eS (Ray.closest_nonneg r l.pos) eT
      have i1 : distSq (l.closestPoint r.pos).1 r.pos = pairDist l.pos l.dir r.pos r.dir (l.closestPoint r.pos).2 0 := by
        unfold pairDist; rw [at_zero]; rfl
      have i2 : distSq (r.closestPoint l.pos).1 l.pos = pairDist l.pos l.dir r.pos r.dir 0 (r.closestPoint l.pos).2 := by
        unfold pairDist; rw [at_zero, distSq_comm]; rfl
      by_cases h3 : distSq (l.closestPoint r.pos).1 r.pos ≤ distSq (r.closestPoint l.pos).1 l.pos
      · have e : l.closestRay r = ((l.closestPoint r.pos).1, (l.closestPoint r.pos).2, 0) :=
          (if_pos (⟨h1, h2⟩ : _ ∧ _)).trans (if_pos h3)
        rw [e]
        exact ⟨rfl, k1 (by rw [← i1, ← i2]; exact h3)⟩
      · have e : l.closestRay r = (l.pos, 0, (r.closestPoint l.pos).2) :=
          (if_pos (⟨h1, h2⟩ : _ ∧ _)).trans (if_neg h3)
        rw [e]
        exact ⟨(at_zero _ _).symm, k2 (by rw [← i1, ← i2]; exact (not_le.1 h3).le)⟩
    · have e : l.closestRay r = (l.pos, 0, max2 0 (r.closestPoint l.pos).2) :=
        (if_neg (fun h => h2 h.2)).trans (if_pos h1)
      rw [e, max2_eq, max_eq_right (Ray.closest_nonneg r l.pos)]
      exact ⟨(at_zero _ _).symm, pm_fst hv conv_nonneg (not_lt.1 h2) (le_refl (0 : α)) (fun s hs => btw_low hs h1) (Ray.closest_nonneg r l.pos) eT⟩
  · by_cases h2 : (closestPointLineLine l.pos l.dir r.pos r.dir).2 < 0
    · have e : l.closestRay r = ((l.closestPoint r.pos).1, max2 0 (l.closestPoint r.pos).2, 0) :=
        (if_neg (fun h => h1 h.1)).trans ((if_neg h1).trans (if_pos h2))
      rw [e, max2_eq, max_eq_right (Ray.closest_nonneg l r.pos)]
      exact ⟨rfl, pm_snd hv conv_nonneg (not_lt.1 h1) (le_refl (0 : α)) (fun t ht => btw_low ht h2) (Ray.closest_nonneg l r.pos) eS⟩
    · have e : l.closestRay r = (l.getPoint (closestPointLineLine l.pos l.dir r.pos r.dir).1, closestPointLineLine l.pos l.dir r.pos r.dir) :=
        (if_neg (fun h => h1 h.1)).trans ((if_neg h1).trans (if_neg h2))
      rw [e]
      exact ⟨rfl, pm_inside hv (not_lt.1 h1) (not_lt.1 h2)⟩

/-- The end point of a segment facing the critical parameter, when that is out of range. -/
theorem seg_face (o : LineSeg α) (x : α) (h : ¬ (x ≥ 0 ∧ x ≤ 1)) :
    (if x < 0 then o.a else o.b) = o.a + (if x < 0 then (0 : α) else 1) • (o.b - o.a) ∧
    (if x < 0 then (0 : α) else 1) ∈ (PS : Set α) ∧
    ∀ t ∈ (PS : Set α), Btw t (if x < 0 then (0 : α) else 1) x := by
  by_cases hx : x < 0
  · simp only [hx, if_true]
    exact ⟨(at_zero _ _).symm, ⟨le_rfl, zero_le_one⟩, fun t ht => btw_low ht.1 hx⟩
  · simp only [hx, if_false]
    have : 1 < x := by by_contra h'; exact h ⟨not_lt.1 hx, not_lt.1 h'⟩
    exact ⟨(at_one _ _).symm, ⟨zero_le_one, le_rfl⟩, fun t ht => btw_high ht.2 this⟩

theorem Ray.closestSeg_spec (l : Ray α) (o : LineSeg α) (hl : lenSq l.dir = 1) (ho : o.a ≠ o.b) :
    PairSpec l.pos l.dir o.a (o.b - o.a) PR PS (l.closestSeg o) := by
  have hv : o.b - o.a ≠ 0 := sub_ne_zero.2 ho.symm
  have eT : ∀ t ∈ (PS : Set α), pairDist l.pos l.dir o.a (o.b - o.a) 0 (o.closestPoint l.pos).2 ≤ pairDist l.pos l.dir o.a (o.b - o.a) 0 t := by
    intro t ht; have := LineSeg.edge' l.pos l.dir 0 o ho t ht; rwa [at_zero] at this
  have eS : ∀ c, ∀ s ∈ (PR : Set α), pairDist l.pos l.dir o.a (o.b - o.a) (l.closestPoint (o.a + c • (o.b - o.a))).2 c ≤
      pairDist l.pos l.dir o.a (o.b - o.a) s c := fun c s hs => Ray.edge o.a (o.b - o.a) c l hl s hs
  have F := seg_face o (closestPointLineLine l.pos l.dir o.a (o.b - o.a)).2
  unfold Ray.closestSeg
  rcases hr : closestPointLineLine l.pos l.dir o.a (o.b - o.a) with ⟨d, d2⟩
  have hd : d = (closestPointLineLine l.pos l.dir o.a (o.b - o.a)).1 := by rw [hr]
  have hd2 : d2 = (closestPointLineLine l.pos l.dir o.a (o.b - o.a)).2 := by rw [hr]
  rw [← hd2] at F
  show PairSpec _ _ _ _ _ _ (if d < 0 then _ else _)
  by_cases h1 : d < 0
  · rw [if_pos h1]
    by_cases h2 : d2 ≥ 0 ∧ d2 ≤ 1
    · rw [if_pos h2]
      exact ⟨(at_zero _ _).symm, pm_fst hv conv_unit (hd2 ▸ h2) (le_refl (0 : α)) (fun s hs => btw_low hs (hd ▸ h1)) (LineSeg.closest_range o l.pos) eT⟩
    · rw [if_neg h2]
      obtain ⟨f1, f2, f3⟩ := F h2
      rw [f1]
      generalize (if d2 < 0 then (0 : α) else 1) = tb at f2 f3
      obtain ⟨k1, k2⟩ := pm_both hv conv_nonneg conv_unit (le_refl (0 : α)) f2
        (fun s hs => btw_low hs (hd ▸ h1)) (fun t ht => hd2 ▸ f3 t ht) (Ray.closest_nonneg l _) (eS tb) (LineSeg.closest_range o l.pos) eT
      have i2 : distSq (o.closestPoint l.pos).1 l.pos = pairDist l.pos l.dir o.a (o.b - o.a) 0 (o.closestPoint l.pos).2 := by
        unfold pairDist; rw [at_zero, distSq_comm]; rfl
      dsimp only
      by_cases h3 : distSq (l.closestPoint (o.a + tb • (o.b - o.a))).1 (o.a + tb • (o.b - o.a)) ≤ distSq (o.closestPoint l.pos).1 l.pos
      · rw [if_pos h3]
        exact ⟨rfl, k1 (by rw [← i2]; exact h3)⟩
      · rw [if_neg h3]
        exact ⟨(at_zero _ _).symm, k2 (by rw [← i2]; exact (not_le.1 h3).le)⟩
  · rw [if_neg h1]
    by_cases h2 : d2 < 0
    · rw [if_pos h2]
      have := eS 0; rw [at_zero] at this
      exact ⟨rfl, pm_snd hv conv_nonneg (hd ▸ not_lt.1 h1) ⟨le_refl (0 : α), zero_le_one⟩ (fun t ht => btw_low ht.1 (hd2 ▸ h2)) (Ray.closest_nonneg l _) this⟩
    · rw [if_neg h2]
      by_cases h3 : d2 > 1
      · rw [if_pos h3]
        have := eS 1; rw [at_one] at this
        exact ⟨rfl, pm_snd hv conv_nonneg (hd ▸ not_lt.1 h1) ⟨zero_le_one, le_refl (1 : α)⟩ (fun t ht => btw_high ht.2 (hd2 ▸ h3)) (Ray.closest_nonneg l _) this⟩
      · rw [if_neg h3]
        refine ⟨rfl, ?_⟩
        dsimp only
        rw [hd, hd2]
        exact pm_inside hv (hd ▸ not_lt.1 h1) (hd2 ▸ ⟨not_lt.1 h2, not_lt.1 h3⟩)

theorem LineSeg.closestRay_spec (s : LineSeg α) (r : Ray α) (hr : lenSq r.dir = 1) (hs : s.a ≠ s.b) :
    PairSpec s.a (s.b - s.a) r.pos r.dir PS PR (s.closestRay r) :=
  ⟨LineSeg.getPoint_eq _ _, (Ray.closestSeg_spec r s hr hs).2.swap⟩

theorem LineSeg.closestSeg_spec (l o : LineSeg α) (hl : l.a ≠ l.b) (ho : o.a ≠ o.b) :
    PairSpec l.a (l.b - l.a) o.a (o.b - o.a) PS PS (l.closestSeg o) := by
  have hv : o.b - o.a ≠ 0 := sub_ne_zero.2 ho.symm
  have eT : ∀ c, ∀ t ∈ (PS : Set α), pairDist l.a (l.b - l.a) o.a (o.b - o.a) c (o.closestPoint (l.a + c • (l.b - l.a))).2 ≤
      pairDist l.a (l.b - l.a) o.a (o.b - o.a) c t := fun c t ht => LineSeg.edge' l.a (l.b - l.a) c o ho t ht
  have eS : ∀ c, ∀ s ∈ (PS : Set α), pairDist l.a (l.b - l.a) o.a (o.b - o.a) (l.closestPoint (o.a + c • (o.b - o.a))).2 c ≤
      pairDist l.a (l.b - l.a) o.a (o.b - o.a) s c := fun c s hs => LineSeg.edge o.a (o.b - o.a) c l hl s hs
  have F := seg_face l (closestPointLineLine l.a (l.b - l.a) o.a (o.b - o.a)).1
  have F2 := seg_face o (closestPointLineLine l.a (l.b - l.a) o.a (o.b - o.a)).2
  unfold LineSeg.closestSeg
  rcases hr : closestPointLineLine l.a (l.b - l.a) o.a (o.b - o.a) with ⟨d, d2⟩
  have hd : d = (closestPointLineLine l.a (l.b - l.a) o.a (o.b - o.a)).1 := by rw [hr]
  have hd2 : d2 = (closestPointLineLine l.a (l.b - l.a) o.a (o.b - o.a)).2 := by rw [hr]
  rw [← hd] at F
  rw [← hd2] at F2
  show PairSpec _ _ _ _ _ _ (if d ≥ 0 ∧ d ≤ 1 ∧ d2 ≥ 0 ∧ d2 ≤ 1 then _ else _)
  by_cases h0 : d ≥ 0 ∧ d ≤ 1 ∧ d2 ≥ 0 ∧ d2 ≤ 1
  · rw [if_pos h0]
    refine ⟨rfl, ?_⟩
    dsimp only
    rw [hd, hd2]
    exact pm_inside hv (hd ▸ ⟨h0.1, h0.2.1⟩) (hd2 ▸ h0.2.2)
  · rw [if_neg h0]
    by_cases h1 : d ≥ 0 ∧ d ≤ 1
    · rw [if_pos h1]
      obtain ⟨f1, f2, f3⟩ := F2 (fun h => h0 ⟨h1.1, h1.2, h⟩)
      rw [f1]
      generalize (if d2 < 0 then (0 : α) else 1) = tb at f2 f3
      exact ⟨rfl, pm_snd hv conv_unit (hd ▸ h1) f2 (fun t ht => hd2 ▸ f3 t ht) (LineSeg.closest_range l _) (eS tb)⟩
    · rw [if_neg h1]
      obtain ⟨f1, f2, f3⟩ := F h1
      rw [f1]
      generalize (if d < 0 then (0 : α) else 1) = sb at f2 f3
      by_cases h2 : d2 ≥ 0 ∧ d2 ≤ 1
      · rw [if_pos h2]
        exact ⟨rfl, pm_fst hv conv_unit (hd2 ▸ h2) f2 (fun s hs => hd ▸ f3 s hs) (LineSeg.closest_range o _) (eT sb)⟩
      · rw [if_neg h2]
        obtain ⟨g1, g2, g3⟩ := F2 h2
        rw [g1]
        generalize (if d2 < 0 then (0 : α) else 1) = tb at g2 g3
        obtain ⟨k1, k2⟩ := pm_both hv conv_unit conv_unit f2 g2
          (fun s hs => hd ▸ f3 s hs) (fun t ht => hd2 ▸ g3 t ht) (LineSeg.closest_range l _) (eS tb) (LineSeg.closest_range o _) (eT sb)
        have i2 : distSq (o.closestPoint (l.a + sb • (l.b - l.a))).1 (l.a + sb • (l.b - l.a)) =
            pairDist l.a (l.b - l.a) o.a (o.b - o.a) sb (o.closestPoint (l.a + sb • (l.b - l.a))).2 := by
          unfold pairDist; rw [distSq_comm]; rfl
        dsimp only
        by_cases h3 : distSq (l.closestPoint (o.a + tb • (o.b - o.a))).1 (o.a + tb • (o.b - o.a)) ≤
            distSq (o.closestPoint (l.a + sb • (l.b - l.a))).1 (l.a + sb • (l.b - l.a))
        · rw [if_pos h3]
          exact ⟨rfl, k1 (by rw [← i2]; exact h3)⟩
        · rw [if_neg h3]
          exact ⟨rfl, k2 (by rw [← i2]; exact (not_le.1 h3).le)⟩

/-- From parameters to point sets. -/
theorem pair_of_spec {p u q v : V3 α} {S T : Set α} {r : V3 α × α × α} (h : PairSpec p u q v S T r)
    {A B : Set (V3 α)} (hA : ∀ x, x ∈ A ↔ ∃ s ∈ S, x = p + s • u) (hB : ∀ x, x ∈ B ↔ ∃ t ∈ T, x = q + t • v) :
    Spec.IsClosestPair A B r.1 (q + r.2.2 • v) := by
  obtain ⟨e, h1, h2, h3⟩ := h
  refine ⟨(hA _).2 ⟨_, h1, e⟩, (hB _).2 ⟨_, h2, rfl⟩, fun x hx y hy => ?_⟩
  obtain ⟨s, hs, rfl⟩ := (hA _).1 hx
  obtain ⟨t, ht, rfl⟩ := (hB _).1 hy
  rw [e]; exact h3 s hs t ht

theorem mem_line_param (p u x : V3 α) : x ∈ Spec.line p u ↔ ∃ s ∈ (PL : Set α), x = p + s • u := by
  simp [Spec.line]
theorem mem_ray_param (p u x : V3 α) : x ∈ Spec.ray p u ↔ ∃ s ∈ (PR : Set α), x = p + s • u := Iff.rfl
theorem mem_seg_param (a b x : V3 α) : x ∈ Spec.seg a b ↔ ∃ s ∈ (PS : Set α), x = a + s • (b - a) := by
  simp only [Spec.seg, Set.mem_ofPred_eq, and_assoc]


end MGL
