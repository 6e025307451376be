import Verif.Proofs.Circle2D
import Mathlib.Data.Finset.Image
import Mathlib.Data.Finset.Prod
import Mathlib.Data.Finset.Card

/-! Helper lemmas for Props/Circle2D: the loops of `OptimalEnclosingCircle`. -/

namespace MGL.Circle2D
open Spec

/-! ### Rearrangements of the first `n` entries -/

/-- `q` has the same first `n` entries as `p` in another order. -/
def Same (n : ℕ) (p q : ℕ → V2 ℝ) : Prop := ∃ σ : Equiv.Perm ℕ, (∀ k, σ k < n ↔ k < n) ∧ q = p ∘ σ

theorem Same.refl (n : ℕ) (p : ℕ → V2 ℝ) : Same n p p := ⟨Equiv.refl _, fun _ => Iff.rfl, rfl⟩

theorem Same.trans {n : ℕ} {p q r : ℕ → V2 ℝ} (h : Same n p q) (h' : Same n q r) : Same n p r := by
  obtain ⟨σ, h1, rfl⟩ := h
  obtain ⟨τ, h2, rfl⟩ := h'
  exact ⟨τ.trans σ, fun k => (h1 _).trans (h2 k), rfl⟩

theorem Same.swap {n : ℕ} (p : ℕ → V2 ℝ) {i j : ℕ} (hi : i < n) (hj : j < n) : Same n p (swap p i j) := by
  refine ⟨Equiv.swap i j, fun k => ?_, rfl⟩
  rw [Equiv.swap_apply_def]
  split
  · next h => subst h; exact iff_of_true hj hi
  · split
    · next h => subst h; exact iff_of_true hi hj
    · rfl

theorem Same.get {n : ℕ} {p q : ℕ → V2 ℝ} (h : Same n p q) {k : ℕ} (hk : k < n) : ∃ k' < n, q k = p k' := by
  obtain ⟨σ, h1, rfl⟩ := h
  exact ⟨σ k, (h1 k).2 hk, rfl⟩

theorem Same.get' {n : ℕ} {p q : ℕ → V2 ℝ} (h : Same n p q) {k : ℕ} (hk : k < n) : ∃ k' < n, p k = q k' := by
  obtain ⟨σ, h1, rfl⟩ := h
  refine ⟨σ.symm k, (h1 _).1 ?_, ?_⟩
  · rw [Equiv.apply_symm_apply]; exact hk
  · show p k = p (σ (σ.symm k))
    rw [Equiv.apply_symm_apply]

/-- No three of the first `n` entries are nearly on a line. -/
def General (n : ℕ) (p : ℕ → V2 ℝ) : Prop :=
  ∀ i j k, i < n → j < n → k < n → i ≠ j → i ≠ k → j ≠ k → 1 / 100000 ≤ area2 (p i) (p j) (p k) ^ 2

theorem Same.general {n : ℕ} {p q : ℕ → V2 ℝ} (h : Same n p q) (hp : General n p) : General n q := by
  obtain ⟨σ, h1, rfl⟩ := h
  intro i j k hi hj hk hij hik hjk
  exact hp _ _ _ ((h1 i).2 hi) ((h1 j).2 hj) ((h1 k).2 hk) (σ.injective.ne hij) (σ.injective.ne hik) (σ.injective.ne hjk)

theorem same_extentStep {n : ℕ} (hn : 4 ≤ n) (p : ℕ → V2 ℝ) {i : ℕ} (hi : i < n) : Same n p (extentStep p i) := by
  have key : ∀ (c : Prop) [Decidable c] (q : ℕ → V2 ℝ) (m : ℕ), m < n → Same n q (if c then swap q m i else q) := by
    intro c _ q m hm
    split
    · exact Same.swap q hm hi
    · exact Same.refl n q
  unfold extentStep
  simp only []
  exact (((key _ p 0 (by omega)).trans (key _ _ 1 (by omega))).trans (key _ _ 2 (by omega))).trans (key _ _ 3 (by omega))

theorem same_extents {n : ℕ} (hn : 4 ≤ n) (p : ℕ → V2 ℝ) : Same n p (extents n p) := by
  have : ∀ (l : List ℕ) (q : ℕ → V2 ℝ), (∀ i ∈ l, i < n) → Same n q (l.foldl extentStep q) := by
    intro l
    induction l with
    | nil => intro q _; exact Same.refl n q
    | cons i l ih =>
      intro q h
      exact (same_extentStep hn q (h i (by simp))).trans (ih _ fun j hj => h j (by simp [hj]))
  exact this _ p fun i hi => List.mem_range.1 hi

/-! ### Three points -/

theorem optimal3_pos (a b c : V2 ℝ) : (optimal3 a b c).pos = add2 (circ a b c).pos a := by
  unfold optimal3 circ makeCircleSq
  simp only []
  have hv : ∀ u v : V2 ℝ, smul2 (1 / 2) (add2 u v) = add2 (smul2 (1 / 2) (sub2 v u)) u := fun u v => by
    ext <;> simp only [smul2, add2, sub2] <;> ring
  have hw : smul2 (1 / 2) (add2 b c) = add2 (smul2 (1 / 2) (add2 (sub2 b a) (sub2 c a))) a := by
    ext <;> simp only [smul2, add2, sub2] <;> ring
  split_ifs <;> simp only [] <;> first | exact hv _ _ | exact hw | (ext <;> simp only [smul2, add2, sub2] <;> ring)

theorem optimal3_r (a b c : V2 ℝ) : (optimal3 a b c).r = √(max (max (distSq2 (optimal3 a b c).pos a) (distSq2 (optimal3 a b c).pos b))
    (distSq2 (optimal3 a b c).pos c)) + 1 / 100000 := by
  rw [← distanceSq_eq, ← distanceSq_eq, ← distanceSq_eq]
  rfl

theorem optimal3_general {a b c : V2 ℝ} (h : 1 / 100000 ≤ area2 a b c ^ 2) :
    IsMin [a, b, c] (optimal3 a b c).pos (circ a b c).r ∧ (optimal3 a b c).r = √(circ a b c).r + 1 / 100000 := by
  have hm := circ_isMin h
  rw [← optimal3_pos] at hm
  refine ⟨hm, ?_⟩
  rw [optimal3_r]
  congr 2
  apply le_antisymm
  · exact max_le (max_le (hm.1 a (by simp)) (hm.1 b (by simp))) (hm.1 c (by simp))
  · have := hm.2 (optimal3 a b c).pos (ρ' := max (max (distSq2 (optimal3 a b c).pos a) (distSq2 (optimal3 a b c).pos b))
      (distSq2 (optimal3 a b c).pos c)) (by
        simp only [List.forall_mem_cons, List.not_mem_nil, false_imp_iff, implies_true, and_true]
        exact ⟨le_trans (le_max_left _ _) (le_max_left _ _), le_trans (le_max_right _ _) (le_max_left _ _), le_max_right _ _⟩)
    have h0 := distSq2_nonneg (optimal3 a b c).pos (optimal3 a b c).pos
    linarith

/-! ### The loop over the remaining points -/

/-- The squared radii of the circles of three of the first `n` points. -/
noncomputable def radii (n : ℕ) (p : ℕ → V2 ℝ) : Finset ℝ :=
  (Finset.range n ×ˢ Finset.range n ×ˢ Finset.range n).image fun t => (circ (p t.1) (p t.2.1) (p t.2.2)).r

theorem mem_radii {n : ℕ} {p q : ℕ → V2 ℝ} (h : Same n p q) {i j k : ℕ} (hi : i < n) (hj : j < n) (hk : k < n) :
    (circ (q i) (q j) (q k)).r ∈ radii n p := by
  obtain ⟨i', hi', e1⟩ := h.get hi
  obtain ⟨j', hj', e2⟩ := h.get hj
  obtain ⟨k', hk', e3⟩ := h.get hk
  rw [e1, e2, e3]
  exact Finset.mem_image.2 ⟨(i', j', k'), by simp [hi', hj', hk'], rfl⟩

/-- What holds in each round. -/
structure Round (n : ℕ) (p0 p : ℕ → V2 ℝ) (k : Circle2D) (ρ e : ℝ) : Prop where
  same : Same n p0 p
  isMin : IsMin [p 0, p 1, p 2] k.pos ρ
  radius : k.r = √ρ + e
  e0 : 0 ≤ e
  e1 : e ≤ 1 / 1000
  mem : ρ ∈ radii n p0

theorem IsMin.nonneg {a b c k : V2 ℝ} {ρ : ℝ} (h : IsMin [a, b, c] k ρ) : 0 ≤ ρ := (distSq2_nonneg k a).trans (h.1 a (by simp))

theorem swap_left (p : ℕ → V2 ℝ) (i j : ℕ) : swap p i j i = p j := by simp [swap]

theorem swap_right (p : ℕ → V2 ℝ) (i j : ℕ) : swap p i j j = p i := by simp [swap]

theorem swap_of_ne (p : ℕ → V2 ℝ) {i j k : ℕ} (h1 : k ≠ i) (h2 : k ≠ j) : swap p i j k = p k := by simp [swap, Equiv.swap_apply_of_ne_of_ne h1 h2]

/-- A round that replaces the circle keeps the invariant, and the new circle is larger. -/
theorem round_replace {n : ℕ} {p0 p : ℕ → V2 ℝ} {k : Circle2D} {ρ e : ℝ} (hR : Round n p0 p k ρ e) (hG : General n p0) {i : ℕ} (h3 : 3 ≤ i) (hi : i < n)
    (ho : k.r * k.r < distSq2 k.pos (p i)) :
    ∃ ρ', ρ < ρ' ∧ Round n p0 (swap p i (smallest4 (p i) (p 0) (p 1) (p 2)).2)
      ⟨add2 (smallest4 (p i) (p 0) (p 1) (p 2)).1.pos (p i), √(smallest4 (p i) (p 0) (p 1) (p 2)).1.r + 1 / 1000⟩ ρ' (1 / 1000) := by
  have hg := hR.same.general hG
  have hρ := hR.isMin.nonneg
  have ho' : ρ < distSq2 k.pos (p i) := by
    refine lt_of_le_of_lt ?_ ho
    rw [hR.radius]
    nlinarith [Real.sq_sqrt hρ, Real.sqrt_nonneg ρ, hR.e0, mul_nonneg (Real.sqrt_nonneg ρ) hR.e0]
  have larger : ∀ (c : V2 ℝ) (ρ' : ℝ), distSq2 c (p i) ≤ ρ' → distSq2 c (p 0) ≤ ρ' → distSq2 c (p 1) ≤ ρ' → distSq2 c (p 2) ≤ ρ' → ρ < ρ' := by
    intro c ρ' ki k0 k1 k2
    have h := hR.isMin.2 c ρ' (by simp [k0, k1, k2])
    by_contra hc
    have e : k.pos = c := eq_of_distSq2 (by linarith)
    rw [e] at ho'
    exact hc (lt_of_lt_of_le ho' ki)
  rcases smallest4_spec (hg i 0 1 hi (by omega) (by omega) (by omega) (by omega) (by omega))
    (hg i 0 2 hi (by omega) (by omega) (by omega) (by omega) (by omega)) (hg i 1 2 hi (by omega) (by omega) (by omega) (by omega) (by omega)) hR.isMin ho' with
    ⟨e1, hm, hd⟩ | ⟨e1, hm, hd⟩ | ⟨e1, hm, hd⟩
  · rw [e1]
    refine ⟨_, larger _ _ (hm.1 _ (by simp)) (hm.1 _ (by simp)) (hm.1 _ (by simp)) hd, hR.same.trans (Same.swap p hi (by omega)), ?_, rfl, by norm_num, le_refl _,
      mem_radii hR.same hi (by omega) (by omega)⟩
    refine hm.congr fun q => ?_
    show q ∈ [p i, p 0, p 1] ↔ q ∈ [swap p i 2 0, swap p i 2 1, swap p i 2 2]
    rw [swap_right, swap_of_ne p (by omega) (by omega), swap_of_ne p (by omega) (by omega)]
    simp only [List.mem_cons, List.not_mem_nil, or_false]; tauto
  · rw [e1]
    refine ⟨_, larger _ _ (hm.1 _ (by simp)) (hm.1 _ (by simp)) hd (hm.1 _ (by simp)), hR.same.trans (Same.swap p hi (by omega)), ?_, rfl, by norm_num, le_refl _,
      mem_radii hR.same hi (by omega) (by omega)⟩
    refine hm.congr fun q => ?_
    show q ∈ [p i, p 0, p 2] ↔ q ∈ [swap p i 1 0, swap p i 1 1, swap p i 1 2]
    rw [swap_right, swap_of_ne p (by omega) (by omega), swap_of_ne p (by omega) (by omega)]
    simp only [List.mem_cons, List.not_mem_nil, or_false]; tauto
  · rw [e1]
    refine ⟨_, larger _ _ (hm.1 _ (by simp)) hd (hm.1 _ (by simp)) (hm.1 _ (by simp)), hR.same.trans (Same.swap p hi (by omega)), ?_, rfl, by norm_num, le_refl _,
      mem_radii hR.same hi (by omega) (by omega)⟩
    refine hm.congr fun q => ?_
    show q ∈ [p i, p 1, p 2] ↔ q ∈ [swap p i 0 0, swap p i 0 1, swap p i 0 2]
    rw [swap_right, swap_of_ne p (by omega) (by omega), swap_of_ne p (by omega) (by omega)]

/-- The loop ends, and then the circle has all points and is as small as can be, up to 1/1000. -/
theorem loop_spec {n : ℕ} {p0 : ℕ → V2 ℝ} (hn : 3 ≤ n) (hG : General n p0) : ∀ (m j : ℕ) (p : ℕ → V2 ℝ) (k : Circle2D) (ρ e : ℝ) (i : ℕ), Round n p0 p k ρ e →
    ((radii n p0).filter (ρ < ·)).card = m → 3 ≤ i → n - i = j → (∀ l, 3 ≤ l → l < i → l < n → distSq2 k.pos (p l) ≤ k.r * k.r) →
    ∃ N out, (∀ fuel, N ≤ fuel → encloseLoop n fuel i k (k.r * k.r) p = some out) ∧ 0 ≤ out.r ∧ (∀ l < n, distSq2 out.pos (p0 l) ≤ out.r * out.r) ∧
      ∀ c' r', 0 ≤ r' → (∀ l < n, distSq2 c' (p0 l) ≤ r' ^ 2) → out.r ≤ r' + 1 / 1000 := by
  intro m
  induction m using Nat.strong_induction_on with
  | _ m ihm =>
    intro j
    induction j with
    | zero =>
      intro p k ρ e i hR hm h3 hj hin
      have hρ := hR.isMin.nonneg
      have hni : ¬ i < n := by omega
      have hr : ρ ≤ k.r * k.r := by
        rw [hR.radius]
        nlinarith [Real.sq_sqrt hρ, Real.sqrt_nonneg ρ, hR.e0, mul_nonneg (Real.sqrt_nonneg ρ) hR.e0]
      refine ⟨1, k, fun fuel hf => ?_, ?_, fun l hl => ?_, fun c' r' h0 h' => ?_⟩
      · obtain ⟨f, rfl⟩ : ∃ f, fuel = f + 1 := ⟨fuel - 1, by omega⟩
        rw [encloseLoop, if_neg hni]
      · rw [hR.radius]; exact add_nonneg (Real.sqrt_nonneg _) hR.e0
      · obtain ⟨l', hl', el⟩ := hR.same.get' hl
        rw [el]
        by_cases h : 3 ≤ l'
        · exact hin l' h (by omega) hl'
        · refine le_trans (hR.isMin.1 (p l') ?_) hr
          have : l' = 0 ∨ l' = 1 ∨ l' = 2 := by omega
          rcases this with rfl | rfl | rfl <;> simp
      · have h := hR.isMin.2 c' (r' ^ 2) (by
          simp only [List.forall_mem_cons, List.not_mem_nil, false_imp_iff, implies_true, and_true]
          refine ⟨?_, ?_, ?_⟩
          · obtain ⟨l', hl', el⟩ := hR.same.get (k := 0) (by omega); rw [el]; exact h' l' hl'
          · obtain ⟨l', hl', el⟩ := hR.same.get (k := 1) (by omega); rw [el]; exact h' l' hl'
          · obtain ⟨l', hl', el⟩ := hR.same.get (k := 2) (by omega); rw [el]; exact h' l' hl')
        have h1 : ρ ≤ r' ^ 2 := by linarith [distSq2_nonneg k.pos c']
        have h2 : √ρ ≤ r' := Real.sqrt_le_iff.2 ⟨h0, h1⟩
        rw [hR.radius]
        linarith [hR.e1]
    | succ j ihj =>
      intro p k ρ e i hR hm h3 hj hin
      have hni : i < n := by omega
      have hd : dot2 (sub2 (p i) k.pos) (sub2 (p i) k.pos) = distSq2 k.pos (p i) := by
        rw [distSq2_comm, ← distanceSq_eq]; rfl
      by_cases ho : distSq2 k.pos (p i) ≤ k.r * k.r
      · obtain ⟨N, out, h1, h2⟩ := ihj p k ρ e (i + 1) hR hm (by omega) (by omega) (fun l hl hl' hln => by
          by_cases he : l = i
          · rw [he]; exact ho
          · exact hin l hl (by omega) hln)
        refine ⟨N + 1, out, fun fuel hf => ?_, h2⟩
        obtain ⟨f, rfl⟩ : ∃ f, fuel = f + 1 := ⟨fuel - 1, by omega⟩
        rw [encloseLoop, if_pos hni]
        simp only []
        rw [hd, if_pos ho]
        exact h1 f (by omega)
      · obtain ⟨ρ', hlt, hR'⟩ := round_replace hR hG h3 hni (not_le.1 ho)
        have hcard : ((radii n p0).filter (ρ' < ·)).card < m := by
          rw [← hm]
          refine Finset.card_lt_card ⟨?_, ?_⟩
          · intro x hx
            rw [Finset.mem_filter] at hx ⊢
            exact ⟨hx.1, hlt.trans hx.2⟩
          · intro hc
            have := hc (Finset.mem_filter.2 ⟨hR'.mem, hlt⟩)
            exact lt_irrefl _ (Finset.mem_filter.1 this).2
        obtain ⟨N, out, h1, h2⟩ := ihm _ hcard (n - 3) _ _ ρ' _ 3 hR' rfl (le_refl 3) rfl (fun l hl hl' _ => by omega)
        refine ⟨N + 1, out, fun fuel hf => ?_, h2⟩
        obtain ⟨f, rfl⟩ : ∃ f, fuel = f + 1 := ⟨fuel - 1, by omega⟩
        rw [encloseLoop, if_pos hni]
        simp only []
        rw [hd, if_neg ho]
        exact h1 f (by omega)

/-! ### The array after the convex hull -/

theorem trim_suffix (h0 : V2 ℝ) : ∀ kept : List (V2 ℝ), Hull2D.trim h0 kept <:+ kept
  | [] => List.suffix_refl _
  | [_] => List.suffix_refl _
  | l :: m :: r => by
    unfold Hull2D.trim
    split
    · exact (trim_suffix h0 (m :: r)).trans (List.suffix_cons _ _)
    · exact List.suffix_refl _

theorem hullArray_spec {p out : List (V2 ℝ)} (hp : 3 ≤ p.length) (h : Hull2D.convexHullInPlace p = some out) :
    ∃ rest, hullArray p = some (out.length, out ++ rest) := by
  unfold Hull2D.convexHullInPlace at h
  rw [if_neg (by omega)] at h
  unfold hullArray
  simp only []
  have hl : (p.insertionSort Hull2D.lexLe).length = p.length := List.length_insertionSort _ _
  generalize hs : p.insertionSort Hull2D.lexLe = sorted at *
  split at h
  · simp at hl; omega
  · split at h
    · next h0 hs' hc =>
      rw [hc]
      simp only [Option.map_eq_some_iff] at h ⊢
      obtain ⟨kept, hk, rfl⟩ := h
      obtain ⟨t, ht⟩ := trim_suffix h0 kept
      refine ⟨t.reverse ++ sorted.drop kept.length, kept, hk, ?_⟩
      rw [Prod.mk.injEq, List.length_reverse]
      refine ⟨rfl, ?_⟩
      conv_lhs => rw [← ht]
      rw [List.reverse_append, List.append_assoc, ht]
    · exact absurd h (by simp)

end MGL.Circle2D
