import Verif.Props.QuadTree
import Verif.Proofs.QuadTreePairs

/-! C44 and C45: rectangle queries on the quad tree. -/

set_option linter.unusedSectionVars false

namespace MGL
namespace QuadTree
variable {T α : Type*} [DecidableEq T] [Field α] [LinearOrder α] [IsStrictOrderedRing α]

theorem run_inv_cleared [Archimedean α] {cap : ℕ∞} {box : T → Rect α} {f : ℕ} {ops : List (TreeOp T α)} {s s' : QuadTree T α} (hs : s.Fresh)
    (hv : Spec.Valid false 0 (fun _ => False) ops) (hc : ∃ op ∈ ops, ∃ a b, op = .clear a b) (hr : run cap box f ops s = some s') :
    (∃ lost, Inv box s' lost) ∧ s'.all.Nodup ∧ s'.all = Spec.content ops := by
  obtain ⟨h0, h1, h2⟩ := run_inv ops false 0 (fun _ => False) s s' (by simp) (fun _ => hs.1) (fun x _ hx => absurd (hs.2 x) hx)
    (by unfold all; rw [hs.1]; simp) (by simp) hv hr
  exact ⟨h2 (Or.inr hc), h1, h0⟩

theorem intersects_of_nonempty {a b : Rect α} (h : (Spec.rect a ∩ Spec.rect b).Nonempty) : a.intersects b = true := by
  obtain ⟨p, ⟨p1, p2, p3, p4⟩, r1, r2, r3, r4⟩ := h
  rw [intersects_iff]
  exact ⟨r1.trans p2, r3.trans p4, p1.trans r2, p3.trans r4⟩

theorem nonempty_of_intersects {a b : Rect α} (ha : a.minPoint.x ≤ a.maxPoint.x) (ha' : a.minPoint.y ≤ a.maxPoint.y)
    (hb : b.minPoint.x ≤ b.maxPoint.x) (hb' : b.minPoint.y ≤ b.maxPoint.y) (h : a.intersects b = true) : (Spec.rect a ∩ Spec.rect b).Nonempty := by
  rw [intersects_iff] at h
  exact ⟨⟨max a.minPoint.x b.minPoint.x, max a.minPoint.y b.minPoint.y⟩,
    ⟨le_max_left _ _, max_le ha h.1, le_max_left _ _, max_le ha' h.2.1⟩, le_max_right _ _, max_le h.2.2.1 hb, le_max_right _ _, max_le h.2.2.2 hb'⟩

/-- C44: in the tree after any valid history, `AABBQuery` ends and calls the callback on a list of nodes, up to and including the
first one for which the callback asks to stop, and on all of them if it never does. Each node comes once. The nodes in the list
are exactly the ones of the tree that hold objects and have a point in common with the query rectangle. -/
theorem C44_aabbQuery_nodes [Archimedean α] (cap : ℕ∞) (box : T → Rect α) (f : ℕ) (ops : List (TreeOp T α)) (s s' : QuadTree T α) (hs : s.Fresh)
    (hv : Spec.Valid false 0 (fun _ => False) ops) (hc : ∃ op ∈ ops, ∃ a b, op = .clear a b) (hr : run cap box f ops s = some s')
    (q : Rect α) (hqx : q.minPoint.x ≤ q.maxPoint.x) (hqy : q.minPoint.y ≤ q.maxPoint.y) :
    ∃ ns F, (∀ g ≥ F, ∀ stop, s'.aabbQuery q stop g = some (Spec.upTo stop ns)) ∧ ns.Nodup ∧
      ∀ n, n ∈ ns ↔ s'.InTree n ∧ s'.objects n ≠ [] ∧ (Spec.rect q ∩ Spec.rect (s'.nodeRect n)).Nonempty := by
  obtain ⟨⟨lost, hi⟩, hn, ha⟩ := run_inv_cleared hs hv hc hr
  obtain ⟨dep, D, hw, hD⟩ := hi.wf
  obtain ⟨ns, F, h1, h2, h3⟩ := aabbQuery_spec hw hD q
  refine ⟨ns, F, h1, h2, fun n => ?_⟩
  rw [h3, hw.inTree]
  refine ⟨fun h => ⟨h.1, h.2.1, ?_⟩, fun h => ⟨h.1, h.2.1, intersects_of_nonempty h.2.2⟩⟩
  obtain ⟨rx, ry⟩ := hw.radius_pos h.1
  exact nonempty_of_intersects hqx hqy (by simp only [nodeRect]; linarith) (by simp only [nodeRect]; linarith) h.2.2

/-- C44: every stored object whose rectangle has a point in common with the query rectangle is in one of the visited nodes; no object
is visited twice. -/
theorem C44_aabbQuery_objects [Archimedean α] (cap : ℕ∞) (box : T → Rect α) (f : ℕ) (ops : List (TreeOp T α)) (s s' : QuadTree T α) (hs : s.Fresh)
    (hv : Spec.Valid false 0 (fun _ => False) ops) (hc : ∃ op ∈ ops, ∃ a b, op = .clear a b) (hr : run cap box f ops s = some s')
    (q : Rect α) :
    ∃ ns F, (∀ g ≥ F, ∀ stop, s'.aabbQuery q stop g = some (Spec.upTo stop ns)) ∧
      (ns.flatMap s'.objects).Nodup ∧ (∀ o ∈ ns.flatMap s'.objects, o ∈ Spec.content ops) ∧
      ∀ o ∈ Spec.content ops, (Spec.rect q ∩ Spec.rect (box o)).Nonempty → o ∈ ns.flatMap s'.objects := by
  obtain ⟨⟨lost, hi⟩, hn, ha⟩ := run_inv_cleared hs hv hc hr
  obtain ⟨dep, D, hw, hD⟩ := hi.wf
  obtain ⟨ns, F, h1, h2, h3⟩ := aabbQuery_spec hw hD q
  have hsing := single_of_nodup hn
  refine ⟨ns, F, h1, ?_, fun o ho => ?_, fun o ho hq => ?_⟩
  · rw [List.nodup_flatMap]
    refine ⟨fun n hn => hsing.nodup n ((h3 n).1 hn).1.1, ?_⟩
    refine List.Pairwise.imp_of_mem ?_ h2
    intro a b ha hb hne o o1 o2
    exact hne (hsing.one a ((h3 a).1 ha).1.1 b ((h3 b).1 hb).1.1 o o1 o2)
  · obtain ⟨n, hn, ho⟩ := List.mem_flatMap.1 ho
    rw [← ha, mem_all]
    exact ⟨n, ((h3 n).1 hn).1.1, ho⟩
  · rw [← ha] at ho
    obtain ⟨k, k1, -, k2⟩ := hi.stored o ho
    exact List.mem_flatMap.2 ⟨k, (h3 k).2 ⟨k1, List.ne_nil_of_mem k2, intersects_mono (hi.fit k k1 o k2) (intersects_of_nonempty hq)⟩, k2⟩

/-- C45, proved part: in the tree after any valid history `CollidingPairsQuery` ends and reports a list of pairs of different stored
objects whose rectangles intersect, the first of them in the query region. No pair is reported twice, in neither order. Two
stored objects in the query region whose rectangles overlap, not only touch, are reported. Missing: pairs that only touch, see
`C45_touching_violation`. -/
theorem C45_collidingPairs_partial [Archimedean α] (cap : ℕ∞) (box : T → Rect α) (f : ℕ) (ops : List (TreeOp T α)) (s s' : QuadTree T α) (hs : s.Fresh)
    (hv : Spec.Valid false 0 (fun _ => False) ops) (hc : ∃ op ∈ ops, ∃ a b, op = .clear a b) (hr : run cap box f ops s = some s')
    (hbox : ∀ o ∈ Spec.content ops, (box o).minPoint.x ≤ (box o).maxPoint.x ∧ (box o).minPoint.y ≤ (box o).maxPoint.y)
    (q : Rect α) (hqx : q.minPoint.x ≤ q.maxPoint.x) (hqy : q.minPoint.y ≤ q.maxPoint.y) :
    ∃ l F, (∀ g ≥ F, s'.collidingPairs box q g = some l) ∧
      l.Pairwise (fun p r => p ≠ r ∧ p ≠ (r.2, r.1)) ∧
      (∀ a b, (a, b) ∈ l → a ∈ Spec.content ops ∧ b ∈ Spec.content ops ∧ a ≠ b ∧ (Spec.rect (box a) ∩ Spec.rect (box b)).Nonempty ∧
        (Spec.rect q ∩ Spec.rect (box a)).Nonempty) ∧
      ∀ a ∈ Spec.content ops, ∀ b ∈ Spec.content ops, a ≠ b →
        (Spec.rect q ∩ Spec.rect (box a)).Nonempty → (Spec.rect q ∩ Spec.rect (box b)).Nonempty →
        (∃ p : V2 α, ((box a).minPoint.x < p.x ∧ p.x < (box a).maxPoint.x ∧ (box a).minPoint.y < p.y ∧ p.y < (box a).maxPoint.y) ∧
          (box b).minPoint.x < p.x ∧ p.x < (box b).maxPoint.x ∧ (box b).minPoint.y < p.y ∧ p.y < (box b).maxPoint.y) →
        (a, b) ∈ l ∨ (b, a) ∈ l := by
  obtain ⟨⟨lost, hi⟩, hn, ha⟩ := run_inv_cleared hs hv hc hr
  obtain ⟨dep, D, hw, hD⟩ := hi.wf
  have hsing := single_of_nodup hn
  obtain ⟨l, F, h1, h2, h3, h4⟩ := collidingPairs_spec hw hD hi.fit hsing q
  have sto : ∀ n, s'.Used n → ∀ o ∈ s'.objects n, o ∈ Spec.content ops := fun n hn o ho => by
    rw [← ha, mem_all]; exact ⟨n, hn.1, ho⟩
  have hne : ∀ a b, (a, b) ∈ l → a ≠ b := fun a b h e => by
    subst e; exact h3 a a h h
  refine ⟨l, F, h1, ?_, fun a b h => ?_, fun a hao b hbo hab hqa hqb hov => ?_⟩
  · refine List.Pairwise.imp_of_mem ?_ h2
    rintro ⟨a, b⟩ ⟨c, d⟩ m1 m2 hne
    refine ⟨hne, fun e => ?_⟩
    rw [Prod.mk.injEq] at e
    rw [e.1, e.2] at m1
    exact h3 c d m2 m1
  · obtain ⟨q1, q2, n, m, n1, m1, a1, b1, -⟩ := (h4 a b).1 h
    have sa := sto n n1 a a1
    have sb := sto m m1 b b1
    exact ⟨sa, sb, hne a b h, nonempty_of_intersects (hbox a sa).1 (hbox a sa).2 (hbox b sb).1 (hbox b sb).2 q2,
      nonempty_of_intersects hqx hqy (hbox a sa).1 (hbox a sa).2 q1⟩
  · obtain ⟨p, ⟨p1, p2, p3, p4⟩, r1, r2, r3, r4⟩ := hov
    have iab : (box a).intersects (box b) = true := by
      rw [intersects_iff]; exact ⟨by linarith, by linarith, by linarith, by linarith⟩
    have iba : (box b).intersects (box a) = true := by
      rw [intersects_iff]; exact ⟨by linarith, by linarith, by linarith, by linarith⟩
    have qa := intersects_of_nonempty hqa
    have qb := intersects_of_nonempty hqb
    rw [← ha] at hao hbo
    obtain ⟨n, n1, -, n2⟩ := hi.stored a hao
    obtain ⟨m, m1, -, m2⟩ := hi.stored b hbo
    by_cases e : n = m
    · subst e
      obtain ⟨i, hi⟩ := List.mem_iff_getElem?.1 n2
      obtain ⟨k, hk⟩ := List.mem_iff_getElem?.1 m2
      rcases lt_trichotomy i k with h | h | h
      · exact Or.inl ((h4 a b).2 ⟨qa, iab, n, n, n1, n1, n2, m2, .refl, fun _ => ⟨i, k, h, hi, hk⟩⟩)
      · subst h; rw [hi, Option.some.injEq] at hk; exact absurd hk hab
      · exact Or.inr ((h4 b a).2 ⟨qb, iba, n, n, n1, n1, m2, n2, .refl, fun _ => ⟨k, i, h, hk, hi⟩⟩)
    · rcases sep_of_indep hw n1 m1 with h | h | h
      · exact Or.inr ((h4 b a).2 ⟨qb, iba, m, n, m1, n1, m2, n2, h, fun e' => absurd e' e⟩)
      · exact Or.inl ((h4 a b).2 ⟨qa, iab, n, m, n1, m1, n2, m2, h, fun e' => absurd e'.symm e⟩)
      · exfalso
        rcases h.mono (hi.fit n n1 a n2) (hi.fit m m1 b m2) with h | h | h | h <;> linarith

/-! ### Examples -/

theorem exOps_run : ∃ s', run 200000 exBox 5 exOps exTree = some s' := by
  have h : (run 200000 exBox 5 exOps exTree).isSome = true := by decide +kernel
  exact Option.isSome_iff_exists.1 h

/-- The query rectangle of the examples. -/
def exQuery : Rect ℚ := ⟨⟨-1 / 4, -1 / 4⟩, ⟨3 / 4, 1 / 4⟩⟩

/-- The query of the example visits five of the nodes, the callback can stop it at the third one, and it finds many pairs. -/
example : (run 200000 exBox 5 exOps exTree).bind (fun s => s.aabbQuery exQuery (fun _ => false) 50) = some [8, 0, 5, 7, 4] ∧
    (run 200000 exBox 5 exOps exTree).bind (fun s => s.aabbQuery exQuery (fun n => n == 5) 50) = some [8, 0, 5] ∧
    ((run 200000 exBox 5 exOps exTree).bind (fun s => s.collidingPairs exBox exQuery 50)).map List.length = some 17 := by decide +kernel

example : ∃ s' ns F, run 200000 exBox 5 exOps exTree = some s' ∧ (∀ g ≥ F, ∀ stop, s'.aabbQuery exQuery stop g = some (Spec.upTo stop ns)) := by
  obtain ⟨s', h⟩ := exOps_run
  obtain ⟨ns, F, h1, -⟩ := C44_aabbQuery_objects 200000 exBox 5 exOps exTree s' exTree_fresh exOps_valid ⟨_, List.mem_cons_self, _, _, rfl⟩ h exQuery
  exact ⟨s', ns, F, h, h1⟩

example : ∃ s' l F, run 200000 exBox 5 exOps exTree = some s' ∧ ∀ g ≥ F, s'.collidingPairs exBox exQuery g = some l := by
  obtain ⟨s', h⟩ := exOps_run
  obtain ⟨l, F, h1, -⟩ := C45_collidingPairs_partial 200000 exBox 5 exOps exTree s' exTree_fresh exOps_valid ⟨_, List.mem_cons_self, _, _, rfl⟩ h
    (fun o _ => by simp only [exBox]; constructor <;> linarith) exQuery (by decide +kernel) (by decide +kernel)
  exact ⟨s', l, F, h, h1⟩

/-- Two squares that share the side on the line `x = 0`, and the squares of the other example. -/
def touchBox (i : ℕ) : Rect ℚ :=
  if i = 0 then ⟨⟨-1 / 2, 1 / 4⟩, ⟨0, 1 / 2⟩⟩ else if i = 1 then ⟨⟨0, 1 / 4⟩, ⟨1 / 2, 1 / 2⟩⟩ else exBox i

/-- Twenty objects in a tree over the square from -1 to 1. -/
def touchOps : List (TreeOp ℕ ℚ) := .clear ⟨-1, -1⟩ ⟨1, 1⟩ :: (List.range 20).map .add

/-- C45 fails for rectangles that touch: `AABB2D::Intersects` counts them as intersecting, but if they lie on different sides of a
split line the query does not compare them. -/
theorem C45_touching_violation : Spec.Valid false 0 (fun _ => False) touchOps ∧ ∃ s', run 200000 touchBox 5 touchOps exTree = some s' ∧
    (touchBox 0).intersects (touchBox 1) = true ∧ 0 ∈ Spec.content touchOps ∧ 1 ∈ Spec.content touchOps ∧
    ∀ g l, s'.collidingPairs touchBox ⟨⟨-1, -1⟩, ⟨1, 1⟩⟩ g = some l → (0, 1) ∉ l ∧ (1, 0) ∉ l := by
  refine ⟨valid_of_validB touchOps false [] [] _ (by simp) (by decide +kernel), ?_⟩
  have h : ((run 200000 touchBox 5 touchOps exTree).bind fun s => s.collidingPairs touchBox ⟨⟨-1, -1⟩, ⟨1, 1⟩⟩ 50) =
      some [(15, 14), (14, 13), (12, 11), (12, 13), (11, 10), (10, 9), (9, 8), (8, 7), (16, 17), (16, 15), (17, 18), (18, 19),
        (2, 3), (3, 4), (4, 5), (6, 5), (6, 7)] := by decide +kernel
  obtain ⟨s', h1, h2⟩ := Option.bind_eq_some_iff.1 h
  refine ⟨s', h1, by decide +kernel, by decide +kernel, by decide +kernel, fun g l hl => ?_⟩
  have e := (collidingPairs_mono (le_max_left g 50) hl).symm.trans (collidingPairs_mono (le_max_right g 50) h2)
  rw [Option.some.injEq] at e
  rw [e]
  decide

end QuadTree
end MGL
