import Mathlib.Algebra.Order.Field.Basic
import Mathlib.Algebra.BigOperators.Fin
import Mathlib.Algebra.BigOperators.Pi
import Mathlib.Algebra.Module.Prod
import Mathlib.Algebra.Module.Pi
import Mathlib.Data.Finset.Prod
import Mathlib.Data.Finset.Max
import Mathlib.LinearAlgebra.Dimension.Constructions
import Mathlib.LinearAlgebra.FiniteDimensional.Basic
import Mathlib.Tactic.Ring
import Mathlib.Tactic.Linarith
import Mathlib.Tactic.Positivity
import Mathlib.Tactic.FieldSimp

/-! Farkas' lemma over an ordered field by Fourier–Motzkin elimination, with a certificate whose constraints are linearly
independent (Carathéodory). Used for the completeness of the separating axis tests. -/

set_option linter.unusedSectionVars false

namespace MGL.Farkas

open Classical Finset

variable {α : Type*} [Field α] [LinearOrder α] [IsStrictOrderedRing α]

/-- The constraint `a·x ≤ b` holds at `x`. -/
def Sat {n : ℕ} (c : (Fin n → α) × α) (x : Fin n → α) : Prop := ∑ j, c.1 j * x j ≤ c.2

/-- The constraints that follow from those of `L` by addition and non-negative scaling. -/
inductive InCone {n : ℕ} (L : Finset ((Fin n → α) × α)) : (Fin n → α) × α → Prop
  | zero : InCone L 0
  | mem (c) : c ∈ L → InCone L c
  | add (c d) : InCone L c → InCone L d → InCone L (c + d)
  | smul (k : α) (c) : 0 ≤ k → InCone L c → InCone L (k • c)

theorem exists_between (A B : Finset α) (h : ∀ a ∈ A, ∀ b ∈ B, a ≤ b) : ∃ x, (∀ a ∈ A, a ≤ x) ∧ ∀ b ∈ B, x ≤ b := by
  rcases A.eq_empty_or_nonempty with rfl | hA
  · rcases B.eq_empty_or_nonempty with rfl | hB
    · exact ⟨0, by simp, by simp⟩
    · exact ⟨B.min' hB, by simp, fun b hb => B.min'_le b hb⟩
  · exact ⟨A.max' hA, fun a ha => A.le_max' a ha, fun b hb => h _ (A.max'_mem hA) b hb⟩

/-- Drop the first coefficient. -/
def drop {n : ℕ} (c : (Fin (n + 1) → α) × α) : (Fin n → α) × α := (Fin.tail c.1, c.2)

/-- One step of Fourier–Motzkin elimination. -/
noncomputable def elim {n : ℕ} (L : Finset ((Fin (n + 1) → α) × α)) : Finset ((Fin n → α) × α) :=
  (L.filter fun c => c.1 0 = 0).image drop ∪
  ((L.filter fun c => 0 < c.1 0) ×ˢ (L.filter fun c => c.1 0 < 0)).image
    fun pq => drop ((-pq.2.1 0) • pq.1 + pq.1.1 0 • pq.2)

theorem lift_cone {n : ℕ} (L : Finset ((Fin (n + 1) → α) × α)) (d : (Fin n → α) × α) (h : InCone (elim L) d) :
    InCone L (Fin.cons 0 d.1, d.2) := by
  induction h with
  | zero =>
    have : ((Fin.cons 0 (0 : (Fin n → α) × α).1, (0 : (Fin n → α) × α).2) : (Fin (n + 1) → α) × α) = 0 := by
      refine Prod.ext ?_ rfl
      funext j; refine Fin.cases ?_ (fun i => ?_) j <;> simp
    rw [this]; exact .zero
  | add c d _ _ h1 h2 =>
    have : ((Fin.cons 0 (c + d).1, (c + d).2) : (Fin (n + 1) → α) × α) = (Fin.cons 0 c.1, c.2) + (Fin.cons 0 d.1, d.2) := by
      refine Prod.ext ?_ rfl
      funext j; refine Fin.cases ?_ (fun i => ?_) j <;> simp
    rw [this]; exact .add _ _ h1 h2
  | smul k c hk _ h1 =>
    have : ((Fin.cons 0 (k • c).1, (k • c).2) : (Fin (n + 1) → α) × α) = k • (Fin.cons 0 c.1, c.2) := by
      refine Prod.ext ?_ rfl
      funext j; refine Fin.cases ?_ (fun i => ?_) j <;> simp
    rw [this]; exact .smul _ _ hk h1
  | mem c hc =>
    unfold elim at hc
    rw [mem_union, mem_image, mem_image] at hc
    rcases hc with ⟨e, he, rfl⟩ | ⟨⟨p, q⟩, hpq, rfl⟩
    · rw [mem_filter] at he
      have : ((Fin.cons 0 (drop e).1, (drop e).2) : (Fin (n + 1) → α) × α) = e := by
        refine Prod.ext ?_ rfl
        funext j; refine Fin.cases ?_ (fun i => ?_) j
        · simp [he.2]
        · simp [drop, Fin.tail]
      rw [this]; exact .mem _ he.1
    · rw [mem_product, mem_filter, mem_filter] at hpq
      obtain ⟨⟨hp, hp0⟩, hq, hq0⟩ := hpq
      dsimp only at *
      have : ((Fin.cons 0 (drop ((-q.1 0) • p + p.1 0 • q)).1, (drop ((-q.1 0) • p + p.1 0 • q)).2) : (Fin (n + 1) → α) × α) =
          (-q.1 0) • p + p.1 0 • q := by
        refine Prod.ext ?_ rfl
        funext j; refine Fin.cases ?_ (fun i => ?_) j
        · simp; ring
        · simp [drop, Fin.tail]
      rw [this]
      exact .add _ _ (.smul _ _ (by linarith) (.mem _ hp)) (.smul _ _ hp0.le (.mem _ hq))

/-- Farkas' lemma: a finite system of linear inequalities has a solution or implies `0 ≤ b` for a negative `b`. -/
theorem farkas : ∀ {n : ℕ} (L : Finset ((Fin n → α) × α)), (∃ x, ∀ c ∈ L, Sat c x) ∨ ∃ b < 0, InCone L (0, b)
  | 0, L => by
    by_cases h : ∃ c ∈ L, c.2 < 0
    · obtain ⟨c, hc, h⟩ := h
      right
      refine ⟨c.2, h, ?_⟩
      have : ((0, c.2) : (Fin 0 → α) × α) = c := Prod.ext (Subsingleton.elim _ _) rfl
      rw [this]; exact .mem _ hc
    · push Not at h
      left
      refine ⟨0, fun c hc => ?_⟩
      unfold Sat; simpa using h c hc
  | n + 1, L => by
    rcases farkas (elim L) with ⟨x, hx⟩ | ⟨b, hb, h⟩
    · left
      have key : ∀ a ∈ (L.filter fun c => c.1 0 < 0).image (fun c => (c.2 - ∑ j, Fin.tail c.1 j * x j) / c.1 0),
          ∀ b ∈ (L.filter fun c => 0 < c.1 0).image (fun c => (c.2 - ∑ j, Fin.tail c.1 j * x j) / c.1 0), a ≤ b := by
        intro a ha b hb
        rw [mem_image] at ha hb
        obtain ⟨q, hq, rfl⟩ := ha
        obtain ⟨p, hp, rfl⟩ := hb
        rw [mem_filter] at hq hp
        have := hx (drop ((-q.1 0) • p + p.1 0 • q)) (by
          unfold elim
          rw [mem_union]; right
          rw [mem_image]
          exact ⟨(p, q), by rw [mem_product, mem_filter, mem_filter]; exact ⟨hp, hq⟩, rfl⟩)
        have e : ∑ j, (drop ((-q.1 0) • p + p.1 0 • q)).1 j * x j = (-q.1 0) * (∑ j, Fin.tail p.1 j * x j) + p.1 0 * ∑ j, Fin.tail q.1 j * x j := by
          rw [Finset.mul_sum, Finset.mul_sum, ← Finset.sum_add_distrib]
          refine Finset.sum_congr rfl fun j _ => ?_
          simp [drop, Fin.tail]; ring
        unfold Sat at this
        rw [e] at this
        have e2 : (drop ((-q.1 0) • p + p.1 0 • q)).2 = (-q.1 0) * p.2 + p.1 0 * q.2 := by simp [drop]
        rw [e2] at this
        rw [div_le_iff_of_neg hq.2, div_mul_eq_mul_div, div_le_iff₀ hp.2.gt]
        nlinarith
      obtain ⟨x0, h1, h2⟩ := exists_between _ _ key
      refine ⟨Fin.cons x0 x, fun c hc => ?_⟩
      unfold Sat
      rw [Fin.sum_univ_succ]
      simp only [Fin.cons_zero, Fin.cons_succ]
      have et : ∑ j : Fin n, c.1 j.succ * x j = ∑ j, Fin.tail c.1 j * x j := rfl
      rw [et]
      rcases lt_trichotomy (c.1 0) 0 with h0 | h0 | h0
      · have := h1 _ (mem_image.2 ⟨c, mem_filter.2 ⟨hc, h0⟩, rfl⟩)
        rw [div_le_iff_of_neg h0] at this
        linarith
      · have := hx (drop c) (by unfold elim; rw [mem_union]; left; exact mem_image.2 ⟨c, mem_filter.2 ⟨hc, h0⟩, rfl⟩)
        unfold Sat drop at this
        dsimp only at this
        rw [h0]; linarith
      · have := h2 _ (mem_image.2 ⟨c, mem_filter.2 ⟨hc, h0⟩, rfl⟩)
        rw [le_div_iff₀ h0] at this
        linarith
    · right
      refine ⟨b, hb, ?_⟩
      have := lift_cone L _ h
      have e : ((Fin.cons 0 (0 : Fin n → α), b) : (Fin (n + 1) → α) × α) = (0, b) := by
        refine Prod.ext ?_ rfl
        funext j; refine Fin.cases ?_ (fun i => ?_) j <;> simp
      rwa [e] at this

/-- Elements of the cone of an indexed family are non-negative combinations. -/
theorem cone_coeff {n : ℕ} {ι : Type*} [Fintype ι] (c : ι → (Fin n → α) × α) (v) (h : InCone (univ.image c) v) :
    ∃ l : ι → α, (∀ i, 0 ≤ l i) ∧ ∑ i, l i • c i = v := by
  induction h with
  | zero => exact ⟨0, by simp, by simp⟩
  | mem d hd =>
    rw [mem_image] at hd
    obtain ⟨i, -, rfl⟩ := hd
    refine ⟨fun j => if j = i then 1 else 0, fun j => by dsimp only; split_ifs <;> simp, ?_⟩
    simp
  | add a b _ _ h1 h2 =>
    obtain ⟨l, hl, rfl⟩ := h1
    obtain ⟨m, hm, rfl⟩ := h2
    refine ⟨l + m, fun i => add_nonneg (hl i) (hm i), ?_⟩
    rw [← Finset.sum_add_distrib]
    exact Finset.sum_congr rfl fun i _ => add_smul _ _ _
  | smul k a hk _ h1 =>
    obtain ⟨l, hl, rfl⟩ := h1
    refine ⟨k • l, fun i => mul_nonneg hk (hl i), ?_⟩
    rw [Finset.smul_sum]
    exact Finset.sum_congr rfl fun i _ => by simp [mul_smul]

/-- Carathéodory: a non-negative combination can be rewritten with positive coefficients on independent members. -/
theorem caratheodory {ι M : Type*} [AddCommGroup M] [Module α M] (c : ι → M) :
    ∀ (k : ℕ) (s : Finset ι) (_ : s.card = k) (l : ι → α) (_ : ∀ i ∈ s, 0 ≤ l i),
    ∃ (t : Finset ι) (m : ι → α), (∀ i ∈ t, 0 < m i) ∧ ∑ i ∈ t, m i • c i = ∑ i ∈ s, l i • c i ∧
      ∀ g : ι → α, ∑ i ∈ t, g i • c i = 0 → ∀ i ∈ t, g i = 0
  | k, s, hk, l, hl => by
    by_cases hz : ∃ i ∈ s, l i = 0
    · obtain ⟨i, hi, h0⟩ := hz
      obtain ⟨t, m, h1, h2, h3⟩ := caratheodory c (s.erase i).card (s.erase i) rfl l (fun j hj => hl j (mem_of_mem_erase hj))
      refine ⟨t, m, h1, ?_, h3⟩
      rw [h2, ← Finset.add_sum_erase s _ hi, h0, zero_smul, zero_add]
    · push Not at hz
      have hpos : ∀ i ∈ s, 0 < l i := fun i hi => lt_of_le_of_ne (hl i hi) (Ne.symm (hz i hi))
      by_cases hind : ∀ g : ι → α, ∑ i ∈ s, g i • c i = 0 → ∀ i ∈ s, g i = 0
      · exact ⟨s, l, hpos, rfl, hind⟩
      · push Not at hind
        obtain ⟨g, hg, i0, hi0, hgi⟩ := hind
        -- a dependency with a positive coefficient
        obtain ⟨g, hg, i0, hi0, hgi⟩ : ∃ g : ι → α, ∑ i ∈ s, g i • c i = 0 ∧ ∃ i ∈ s, 0 < g i := by
          rcases lt_or_gt_of_ne hgi with h | h
          · refine ⟨-g, ?_, i0, hi0, by simpa using h⟩
            simp [hg]
          · exact ⟨g, hg, i0, hi0, h⟩
        obtain ⟨j, hj, hmin⟩ := Finset.exists_min_image (s.filter fun i => 0 < g i) (fun i => l i / g i) ⟨i0, mem_filter.2 ⟨hi0, hgi⟩⟩
        have hj' := hj
        rw [mem_filter] at hj'
        have hjs : j ∈ s := hj'.1
        have hlj := hpos j hjs
        have hth : 0 < l j / g j := div_pos hlj hj'.2
        obtain ⟨t, m, h1, h2, h3⟩ := caratheodory c (s.erase j).card (s.erase j) rfl (fun i => l i - l j / g j * g i) (by
          intro i hi
          have his := mem_of_mem_erase hi
          by_cases hgi : 0 < g i
          · have := hmin i (mem_filter.2 ⟨his, hgi⟩)
            have := (le_div_iff₀ hgi).1 this
            linarith
          · push Not at hgi
            have := hpos i his
            nlinarith [mul_nonneg hth.le (neg_nonneg.2 hgi)])
        refine ⟨t, m, h1, ?_, h3⟩
        rw [h2]
        have e0 : (l j - l j / g j * g j) • c j = 0 := by rw [div_mul_cancel₀ _ hj'.2.ne', sub_self, zero_smul]
        have : ∑ i ∈ s.erase j, (l i - l j / g j * g i) • c i = ∑ i ∈ s, (l i - l j / g j * g i) • c i := by
          rw [← Finset.add_sum_erase s _ hjs, e0, zero_add]
        rw [this]
        have e1 : ∑ i ∈ s, (l i - l j / g j * g i) • c i = ∑ i ∈ s, l i • c i - (l j / g j) • ∑ i ∈ s, g i • c i := by
          rw [Finset.smul_sum, ← Finset.sum_sub_distrib]
          exact Finset.sum_congr rfl fun i _ => by rw [sub_smul, mul_smul]
        rw [e1, hg, smul_zero, sub_zero]
termination_by k => k
decreasing_by
  · rw [← hk]; exact Finset.card_erase_lt_of_mem hi
  · rw [← hk]; exact Finset.card_erase_lt_of_mem hjs

/-- A system of linear inequalities without a solution has an independent certificate: at most `n + 1` of the
inequalities, added with positive factors, give `0 ≤ b` for a negative `b`; at most `n` of them if their normals are all
orthogonal to a nonzero vector. -/
theorem certificate {n : ℕ} {ι : Type*} [Fintype ι] (c : ι → (Fin n → α) × α) (h : ¬ ∃ x, ∀ i, Sat (c i) x) :
    ∃ (t : Finset ι) (m : ι → α), t.card ≤ n + 1 ∧ (∀ i ∈ t, 0 < m i) ∧ ∑ i ∈ t, m i • (c i).1 = 0 ∧ ∑ i ∈ t, m i * (c i).2 < 0 ∧
      ∀ d : Fin n → α, d ≠ 0 → (∀ i ∈ t, ∑ j, (c i).1 j * d j = 0) → t.card ≤ n := by
  rcases farkas (univ.image c) with ⟨x, hx⟩ | ⟨b, hb, hc⟩
  · exact absurd ⟨x, fun i => hx _ (mem_image_of_mem _ (mem_univ i))⟩ h
  · obtain ⟨l, hl, hs⟩ := cone_coeff c _ hc
    obtain ⟨t, m, h1, h2, h3⟩ := caratheodory c _ univ rfl l (fun i _ => hl i)
    rw [hs] at h2
    have hext : ∀ g : t → α, ∑ i, g i • c i = 0 → ∀ i, g i = 0 := by
      intro g hg i
      have := h3 (fun j => if hj : j ∈ t then g ⟨j, hj⟩ else 0) (by
        rw [← hg, ← Finset.sum_coe_sort t]
        refine Finset.sum_congr rfl fun j _ => ?_
        simp) i i.2
      simpa using this
    refine ⟨t, m, ?_, h1, ?_, ?_, ?_⟩
    · have hli : LinearIndependent α (fun i : t => c i) := Fintype.linearIndependent_iff.2 hext
      have := hli.fintype_card_le_finrank
      simpa using this
    · have := congrArg Prod.fst h2
      simpa [Prod.fst_sum] using this
    · have := congrArg Prod.snd h2
      rw [Prod.snd_sum] at this
      have e : ∑ i ∈ t, m i * (c i).2 = ∑ i ∈ t, (m i • c i).2 := Finset.sum_congr rfl fun i _ => rfl
      rw [e, this]; exact hb
    · intro d hd hdot
      have hli : LinearIndependent α (fun i : Option t => i.elim ((d, 0) : (Fin n → α) × α) fun i => c i) := by
        rw [Fintype.linearIndependent_iff]
        intro g hg
        rw [Fintype.sum_option] at hg
        dsimp only [Option.elim] at hg
        have hφ : ∑ j, (g none • ((d, 0) : (Fin n → α) × α) + ∑ i : t, g (some i) • c i).1 j * d j = 0 := by rw [hg]; simp
        have e1 : ∑ j, (g none • ((d, 0) : (Fin n → α) × α) + ∑ i : t, g (some i) • c i).1 j * d j =
            g none * ∑ j, d j * d j + ∑ i : t, g (some i) * ∑ j, (c i).1 j * d j := by
          simp only [Prod.fst_add, Pi.add_apply, Prod.smul_fst, Pi.smul_apply, smul_eq_mul, Prod.fst_sum, Finset.sum_apply, add_mul,
            Finset.sum_add_distrib, Finset.mul_sum, Finset.sum_mul]
          rw [Finset.sum_comm]
          congr 1
          · exact Finset.sum_congr rfl fun j _ => by ring
          · exact Finset.sum_congr rfl fun i _ => Finset.sum_congr rfl fun j _ => by ring
        rw [e1, Finset.sum_eq_zero (fun (i : t) _ => by rw [hdot i i.2, mul_zero]), add_zero] at hφ
        have hpos : ∑ j, d j * d j ≠ 0 := by
          intro h0
          rw [Finset.sum_eq_zero_iff_of_nonneg (fun j _ => mul_self_nonneg _)] at h0
          exact hd (funext fun j => mul_self_eq_zero.1 (h0 j (mem_univ j)))
        have hg0 : g none = 0 := (mul_eq_zero.1 hφ).resolve_right hpos
        rw [hg0, zero_smul, zero_add] at hg
        have := hext (fun i => g (some i)) hg
        rintro (_ | i)
        · exact hg0
        · exact this i
      have := hli.fintype_card_le_finrank
      simpa using this

/-- The certificate with coefficients for all inequalities, and indicators of those used. -/
theorem certificate' {n : ℕ} {ι : Type*} [Fintype ι] (c : ι → (Fin n → α) × α) (h : ¬ ∃ x, ∀ i, Sat (c i) x) :
    ∃ (m : ι → α) (u : ι → ℕ), ∑ i, u i ≤ n + 1 ∧ (∀ i, 0 ≤ m i) ∧ (∀ i, u i = 0 → m i = 0) ∧ ∑ i, m i • (c i).1 = 0 ∧ ∑ i, m i * (c i).2 < 0 ∧
      ∀ d : Fin n → α, d ≠ 0 → (∀ i, u i ≠ 0 → ∑ j, (c i).1 j * d j = 0) → ∑ i, u i ≤ n := by
  obtain ⟨t, m, h1, h2, h3, h4, h5⟩ := certificate c h
  refine ⟨fun i => if i ∈ t then m i else 0, fun i => if i ∈ t then 1 else 0, ?_, ?_, ?_, ?_, ?_, ?_⟩
  · simpa using h1
  · intro i
    dsimp only
    split_ifs with hi
    · exact (h2 i hi).le
    · exact le_rfl
  · intro i hi
    by_cases hit : i ∈ t
    · simp [hit] at hi
    · simp [hit]
  · rw [← h3]
    simp only [ite_smul, zero_smul]
    rw [Finset.sum_ite_mem, Finset.univ_inter]
  · refine lt_of_eq_of_lt ?_ h4
    simp only [ite_mul, zero_mul]
    rw [Finset.sum_ite_mem, Finset.univ_inter]
  · intro d hd hdot
    have := h5 d hd (fun i hi => hdot i (by simp [hi]))
    simpa using this

end MGL.Farkas
