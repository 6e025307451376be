import Verif.Props.QuadTreeQuery
import Verif.Proofs.QuadTreeNN

/-! C46: the nearest neighbour search on the quad tree. -/

set_option linter.unusedSectionVars false

namespace MGL
namespace QuadTree
variable {T α : Type*} [DecidableEq T] [Field α] [LinearOrder α] [IsStrictOrderedRing α]

theorem sq2_eq (p x : V2 α) : sq2 p x = Spec.distSq2 p x := by unfold sq2 Spec.distSq2; ring

theorem dist_bound {box : T → Rect α} {s : QuadTree T α} {dep : ℕ → ℕ} (hw : Wf s dep) (hf : Fit box s) {p : V2 α} {dist : T → α}
    (hd : ∀ o ∈ s.all, ∃ x ∈ Spec.rect (box o), Spec.distSq2 p x ≤ dist o) (n : ℕ) (hn : s.Used n) (o : T) (ho : o ∈ s.objects n) :
    s.nodeDistSq p n ≤ dist o := by
  obtain ⟨x, hx, h⟩ := hd o (mem_all.2 ⟨n, hn.1, ho⟩)
  rw [← sq2_eq] at h
  exact (nodeDistSq_le hw hn p (rect_subset (hf n hn o ho) hx)).trans h

/-- C46, proved part: in the tree after any valid history, and for any heap, `NearestNeighborObjects` ends and reports stored objects
with their distances, no object twice, in order of non-decreasing distance; no object that is left out is nearer than a reported
one; and no report follows one for which the callback asked to stop. The distance of an object may be any number that is not less
than the squared distance to some point of its rectangle. Missing: that all objects are reported, see `C46_incomplete_violation`. -/
theorem C46_nearest_sorted_partial [Archimedean α] (cap : ℕ∞) (box : T → Rect α) (f : ℕ) (ops : List (TreeOp T α)) (s s' : QuadTree T α) (hs : s.Fresh)
    (hv : Spec.Valid false 0 (fun _ => False) ops) (hc : ∃ op ∈ ops, ∃ a b, op = .clear a b) (hr : run cap box f ops s = some s')
    (R : PQueue α ℕ) (P : PQueue α T) (p : V2 α) (dist : T → α) (hd : ∀ o ∈ Spec.content ops, ∃ x ∈ Spec.rect (box o), Spec.distSq2 p x ≤ dist o)
    (stop : ℕ → α → T → Bool) :
    ∃ F, ∀ g ≥ F, ∃ out, s'.nearestObjects R P p dist stop g = some out ∧
      out.Pairwise (fun x y => x.1 ≤ y.1) ∧
      (∀ (i : ℕ) (x : α × T), out[i]? = some x → i + 1 < out.length → stop i x.1 x.2 = false) ∧
      ∃ left : Multiset T, (out : Multiset (α × T)) + left.map (fun o => (dist o, o)) = (Spec.content ops).map (fun o => (dist o, o)) ∧
        ∀ x ∈ out, ∀ o ∈ left, x.1 ≤ dist o := by
  obtain ⟨⟨lost, hi⟩, hn, ha⟩ := run_inv_cleared hs hv hc hr
  obtain ⟨dep, D, hw, hD⟩ := hi.wf
  rw [← ha] at hd
  obtain ⟨F, h⟩ := nearestObjects_spec hw hD R P (dist_bound hw hi.fit hd) stop
  refine ⟨F, fun g hg => ?_⟩
  obtain ⟨out, h1, h2, h3, left, h4, h5, h6, h7⟩ := h g hg
  have e : left = (left.map Prod.snd).map (fun o => (dist o, o)) := by
    rw [Multiset.map_map]
    refine (Multiset.map_id' left).symm.trans (Multiset.map_congr rfl fun x hx => ?_)
    have hx' : x ∈ s'.all.map (fun o => (dist o, o)) := by rw [← h4]; exact Multiset.mem_add.2 (Or.inr hx)
    obtain ⟨o, -, rfl⟩ := Multiset.mem_map.1 hx'
    rfl
  refine ⟨out, h1, h2, h3, left.map Prod.snd, by rw [← e, h4, ha], fun x hx o ho => ?_⟩
  refine h5 x hx (dist o, o) ?_
  rw [e]
  exact Multiset.mem_map_of_mem _ ho

/-- C46, proved part: if the callback never asks to stop, the objects left out are at least as far as the farthest node with
objects: every object that is nearer than all the points of the rectangle of some node with objects is reported. -/
theorem C46_nearest_reported_partial [Archimedean α] (cap : ℕ∞) (box : T → Rect α) (f : ℕ) (ops : List (TreeOp T α)) (s s' : QuadTree T α) (hs : s.Fresh)
    (hv : Spec.Valid false 0 (fun _ => False) ops) (hc : ∃ op ∈ ops, ∃ a b, op = .clear a b) (hr : run cap box f ops s = some s')
    (R : PQueue α ℕ) (P : PQueue α T) (p : V2 α) (dist : T → α) (hd : ∀ o ∈ Spec.content ops, ∃ x ∈ Spec.rect (box o), Spec.distSq2 p x ≤ dist o) :
    ∃ F, ∀ g ≥ F, ∃ out, s'.nearestObjects R P p dist (fun _ _ _ => false) g = some out ∧
      ∀ o ∈ Spec.content ops, (∃ n, s'.InTree n ∧ s'.objects n ≠ [] ∧ ∀ x ∈ Spec.rect (s'.nodeRect n), dist o < Spec.distSq2 p x) → (dist o, o) ∈ out := by
  obtain ⟨⟨lost, hi⟩, hn, ha⟩ := run_inv_cleared hs hv hc hr
  obtain ⟨dep, D, hw, hD⟩ := hi.wf
  rw [← ha] at hd
  obtain ⟨F, h⟩ := nearestObjects_spec hw hD R P (dist_bound hw hi.fit hd) (fun _ _ _ => false)
  refine ⟨F, fun g hg => ?_⟩
  obtain ⟨out, h1, h2, h3, left, h4, h5, h6, h7⟩ := h g hg
  refine ⟨out, h1, fun o ho ⟨n, n1, n2, n3⟩ => ?_⟩
  rw [← ha] at ho
  have hu := hw.inTree.1 n1
  have hx : (dist o, o) ∈ (out : Multiset (α × T)) + left := by rw [h4]; exact Multiset.mem_map_of_mem _ ho
  rcases Multiset.mem_add.1 hx with hx | hx
  · exact hx
  · exfalso
    obtain ⟨y, y1, y2⟩ := nodeDistSq_attained hw hu p
    have := h7 (fun _ _ _ => rfl) n hu n2 _ hx
    rw [y2, sq2_eq] at this
    exact absurd (n3 y y1) (not_lt.2 this)

/-- C46 fails for every tree that holds an object: with any heap and any callback, also one that never asks to stop, at least one
object is never reported. The objects of the last visited node are queued and the queue is then dropped. -/
theorem C46_incomplete_violation [Archimedean α] (cap : ℕ∞) (box : T → Rect α) (f : ℕ) (ops : List (TreeOp T α)) (s s' : QuadTree T α) (hs : s.Fresh)
    (hv : Spec.Valid false 0 (fun _ => False) ops) (hc : ∃ op ∈ ops, ∃ a b, op = .clear a b) (hr : run cap box f ops s = some s')
    (hne : Spec.content ops ≠ 0)
    (R : PQueue α ℕ) (P : PQueue α T) (p : V2 α) (dist : T → α) (hd : ∀ o ∈ Spec.content ops, ∃ x ∈ Spec.rect (box o), Spec.distSq2 p x ≤ dist o)
    (stop : ℕ → α → T → Bool) :
    ∃ F, ∀ g ≥ F, ∃ out, s'.nearestObjects R P p dist stop g = some out ∧ out.length < (Spec.content ops).card := by
  obtain ⟨⟨lost, hi⟩, hn, ha⟩ := run_inv_cleared hs hv hc hr
  obtain ⟨dep, D, hw, hD⟩ := hi.wf
  rw [← ha] at hd hne ⊢
  obtain ⟨F, h⟩ := nearestObjects_spec hw hD R P (dist_bound hw hi.fit hd) stop
  refine ⟨F, fun g hg => ?_⟩
  obtain ⟨out, h1, h2, h3, left, h4, h5, h6, h7⟩ := h g hg
  refine ⟨out, h1, ?_⟩
  have := congrArg Multiset.card h4
  rw [Multiset.card_add, Multiset.card_map, Multiset.coe_card] at this
  have h8 := Multiset.card_pos.2 (h6 hne)
  omega

/-! ### Examples -/

/-- The distance to a corner of the square of the object. -/
def exDist (p : V2 ℚ) (o : ℕ) : ℚ := Spec.distSq2 p (exBox o).minPoint

theorem exDist_ok (p : V2 ℚ) (o : ℕ) (_ : o ∈ Spec.content exOps) : ∃ x ∈ Spec.rect (exBox o), Spec.distSq2 p x ≤ exDist p o :=
  ⟨(exBox o).minPoint, ⟨le_rfl, by simp only [exBox]; linarith, le_rfl, by simp only [exBox]; linarith⟩, le_rfl⟩

/-- Of the 28 objects 23 are reported. -/
example : ((run 200000 exBox 5 exOps exTree).bind fun s =>
    s.nearestObjects (.sorted ℚ ℕ) (.sorted ℚ ℕ) ⟨0, 0⟩ (exDist ⟨0, 0⟩) (fun _ _ _ => false) 60).map List.length = some 23 := by decide +kernel

example : ∃ s' F, run 200000 exBox 5 exOps exTree = some s' ∧ ∀ g ≥ F, ∃ out,
    s'.nearestObjects (.sorted ℚ ℕ) (.sorted ℚ ℕ) ⟨0, 0⟩ (exDist ⟨0, 0⟩) (fun i _ _ => i == 3) g = some out := by
  obtain ⟨s', h⟩ := exOps_run
  obtain ⟨F, h1⟩ := C46_nearest_sorted_partial 200000 exBox 5 exOps exTree s' exTree_fresh exOps_valid ⟨_, List.mem_cons_self, _, _, rfl⟩ h
    (.sorted ℚ ℕ) (.sorted ℚ ℕ) ⟨0, 0⟩ (exDist ⟨0, 0⟩) (exDist_ok _) (fun i _ _ => i == 3)
  exact ⟨s', F, h, fun g hg => let ⟨out, h2, _⟩ := h1 g hg; ⟨out, h2⟩⟩

example : ∃ s' F, run 200000 exBox 5 exOps exTree = some s' ∧ ∀ g ≥ F, ∃ out,
    s'.nearestObjects (.sorted ℚ ℕ) (.sorted ℚ ℕ) ⟨0, 0⟩ (exDist ⟨0, 0⟩) (fun _ _ _ => false) g = some out ∧ out.length < 28 := by
  obtain ⟨s', h⟩ := exOps_run
  have e3 : (Spec.content exOps).card = 28 := by decide +kernel
  obtain ⟨F, h1⟩ := C46_incomplete_violation 200000 exBox 5 exOps exTree s' exTree_fresh exOps_valid ⟨_, List.mem_cons_self, _, _, rfl⟩ h
    (by intro h0; rw [h0] at e3; simp at e3) (.sorted ℚ ℕ) (.sorted ℚ ℕ) ⟨0, 0⟩ (exDist ⟨0, 0⟩) (exDist_ok _) (fun _ _ _ => false)
  exact ⟨s', F, h, fun g hg => by rw [← e3]; exact h1 g hg⟩

end QuadTree
end MGL
