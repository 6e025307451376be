import Verif.Proofs.MinAreaRect
import Mathlib.Data.Finset.Prod
import Mathlib.Data.Fintype.Basic

/-! The loop of the rotating calipers: invariant, termination and what it finds. -/

namespace MGL.MinAreaRect
open V2 Spec
noncomputable section
variable {p : ℕ → V2 ℝ} {n : ℕ}

/-- A rectangle was found whose area is at most `x`. -/
def BestLE (best : Option Best) (x : ℝ) : Prop := ∃ b, best = some b ∧ b.area ≤ x

/-- What is kept of a rectangle is right. -/
def ValidBest (p : ℕ → V2 ℝ) (n : ℕ) (b : Best) : Prop :=
  dot b.vDir b.vDir = 1 ∧ ∃ e : Fin 4 → ℕ, (∀ k, e k < n) ∧ Sup p n b.vDir e ∧ b.area = ar p b.vDir e ∧ b.minU = perpDot b.vDir (p (e 0))
    ∧ b.maxU = perpDot b.vDir (p (e 2)) ∧ b.minV = dot b.vDir (p (e 3)) ∧ b.maxV = dot b.vDir (p (e 1))

theorem abs_area {w : V2 ℝ} {e : Fin 4 → ℕ} (h : Sup p n w e) (he : ∀ k, e k < n) :
    |(perpDot w (p (e 2)) - perpDot w (p (e 0))) * (dot w (p (e 3)) - dot w (p (e 1)))| = ar p w e := by
  have e1 : (perpDot w (p (e 2)) - perpDot w (p (e 0))) * (dot w (p (e 3)) - dot w (p (e 1))) = -ar p w e := by
    simp only [ar, perpDot, dot, sub_x, sub_y]; ring
  rw [e1, abs_neg, abs_of_nonneg (h.ar_nonneg he)]

theorem record_old {w : V2 ℝ} {e : Fin 4 → ℕ} {best : Option Best} {x : ℝ} (h : BestLE best x) : BestLE (record p e w best) x := by
  obtain ⟨b, rfl, hb⟩ := h
  unfold record
  simp only [Option.elim_some, decide_eq_true_eq]
  split
  · rename_i h
    exact ⟨_, rfl, h.le.trans hb⟩
  · exact ⟨b, rfl, hb⟩

theorem record_new {w : V2 ℝ} {e : Fin 4 → ℕ} {best : Option Best} (h : Sup p n w e) (he : ∀ k, e k < n) : BestLE (record p e w best) (ar p w e) := by
  unfold record
  simp only [abs_area h he]
  rcases best with _ | b
  · exact ⟨_, rfl, le_rfl⟩
  · simp only [Option.elim_some, decide_eq_true_eq]
    split
    · exact ⟨_, rfl, le_rfl⟩
    · rename_i hn
      exact ⟨b, rfl, not_lt.1 hn⟩

theorem record_valid {w : V2 ℝ} {e : Fin 4 → ℕ} {best : Option Best} (h : Sup p n w e) (he : ∀ k, e k < n) (hw : dot w w = 1)
    (hb : ∀ b, best = some b → ValidBest p n b) : ∀ b, record p e w best = some b → ValidBest p n b := by
  intro b h'
  unfold record at h'
  simp only [abs_area h he] at h'
  split at h'
  · simp only [Option.some.injEq] at h'
    subst h'
    have hn := h.nonneg he
    have h1 : perpDot w (p (e 0)) ≤ perpDot w (p (e 2)) := by
      have := hn.1
      simp only [perpDot, sub_x, sub_y] at *
      linarith
    have h2 : dot w (p (e 3)) ≤ dot w (p (e 1)) := by
      have := hn.2
      simp only [dot, sub_x, sub_y] at *
      linarith
    exact ⟨hw, e, he, h, rfl, min_eq_left h1, max_eq_right h1, min_eq_right h2, max_eq_left h2⟩
  · exact hb b h'

/-- The invariant of the loop; `A` is the area of the rectangle along the axes. -/
structure Inv (p : ℕ → V2 ℝ) (n : ℕ) (A : ℝ) (s : Cal) : Prop where
  unit : dot s.ed s.ed = 1
  right : 0 ≤ s.ed.x
  bound : ∀ k, s.e k < n
  dirs : ∀ k, s.d k = dirAt p n (s.e k)
  sup : Sup p n s.ed s.e
  valid : ∀ b, s.best = some b → ValidBest p n b
  here : BestLE s.best (ar p s.ed s.e) ∨ s.ed = ⟨0, -1⟩ ∧ A ≤ ar p s.ed s.e
  past : ∀ w : V2 ℝ, dot w w = 1 → 0 ≤ w.x → w.y ≤ s.ed.y → w.y ≤ 0 →
    ∃ e : Fin 4 → ℕ, (∀ k, e k < n) ∧ Sup p n w e ∧ (BestLE s.best (ar p w e) ∨ A ≤ ar p w e)
  exit : s.ed.y ≤ 0 ∨ BestLE s.best A

/-- The directions the loop has still to meet. -/
def ahead (p : ℕ → V2 ℝ) (n : ℕ) (s : Cal) : Finset (Fin 4 × ℕ) :=
  open Classical in (Finset.univ ×ˢ Finset.range n).filter fun q =>
    0 ≤ (unturn q.1 (dirAt p n q.2)).x ∧ (s.ed.y < (unturn q.1 (dirAt p n q.2)).y ∨ (unturn q.1 (dirAt p n q.2)).y = s.ed.y ∧ s.e q.1 = q.2)

theorem Ring.step (R : Ring p n) {A : ℝ} {e₀ : Fin 4 → ℕ} (hb₀ : ∀ k, e₀ k < n) (hs₀ : Sup p n ⟨0, -1⟩ e₀) (hA : A = ar p ⟨0, -1⟩ e₀) {s : Cal}
    (I : Inv p n A s) (hy : s.ed.y ≤ 0) : Inv p n A (step p n s) ∧ (ahead p n (step p n s)).card < (ahead p n s).card := by
  obtain ⟨k, hk, hmax⟩ := pick_spec s
  have hn := R.two
  have hlt : s.e k < n := I.bound k
  -- the step
  have hstep : MinAreaRect.step p n s = ⟨Function.update s.e k (next n (s.e k)), Function.update s.d k (dirAt p n (next n (s.e k))), unturn k (dirAt p n (s.e k)),
      record p (Function.update s.e k (next n (s.e k))) (unturn k (dirAt p n (s.e k))) s.best⟩ := by
    simp only [MinAreaRect.step, hk, Function.update_self, I.dirs k]
  set ed' := unturn k (dirAt p n (s.e k)) with hed'
  set e' := Function.update s.e k (next n (s.e k)) with he'
  have hcos : ∀ j, cosA s j = dot (turn j s.ed) (dirAt p n (s.e j)) := fun j => by rw [cosA_eq, I.dirs]
  have hdu : ∀ j, dot (dirAt p n (s.e j)) (dirAt p n (s.e j)) = 1 := fun j => (R.dir (I.bound j)).choose_spec.2.2
  have hturn : turn k ed' = dirAt p n (s.e k) := turn_unturn _ _
  have hunit : dot ed' ed' = 1 := by rw [hed', dot_unturn, hdu]
  -- the angle
  set c := dot s.ed ed' with hc
  set t := perpDot s.ed ed' with ht
  have hck : cosA s k = c := by
    rw [hcos, hc, hed']
    clear_value c t
    generalize dirAt p n (s.e k) = d
    fin_cases k <;> simp [turn, unturn, dot] <;> ring
  have htk : perpDot (turn k s.ed) (dirAt p n (s.e k)) = t := by
    rw [ht, hed']
    clear_value c t
    generalize dirAt p n (s.e k) = d
    fin_cases k <;> simp [turn, unturn, perpDot] <;> ring
  have ht0 : 0 ≤ t := by rw [← htk]; exact R.sup_dir hlt (I.sup k)
  have hc0 : 0 ≤ c := by
    rw [← hck]
    rcases R.cos_nonneg I.unit I.bound I.sup with h | h
    · exact (h.trans (by rw [hcos]; exact le_rfl)).trans (hmax 0)
    · refine le_trans ?_ (hmax 1)
      rw [hcos]
      simp only [turn, dot, perpDot] at *
      linarith
  have hct : c * c + t * t = 1 := by
    have : c * c + t * t = dot s.ed s.ed * dot ed' ed' := by simp only [c, t, dot, perpDot]; ring
    rw [this, I.unit, hunit, one_mul]
  have hx' : ed'.x = c * s.ed.x - t * s.ed.y := by
    have : c * s.ed.x - t * s.ed.y = dot s.ed s.ed * ed'.x := by simp only [c, t, dot, perpDot]; ring
    rw [this, I.unit, one_mul]
  have hy' : ed'.y = c * s.ed.y + t * s.ed.x := by
    have : c * s.ed.y + t * s.ed.x = dot s.ed s.ed * ed'.y := by simp only [c, t, dot, perpDot]; ring
    rw [this, I.unit, one_mul]
  have hright : 0 ≤ ed'.x := by
    rw [hx']
    nlinarith [mul_nonneg hc0 I.right, mul_nonneg ht0 (neg_nonneg.2 hy)]
  have hc1 : c ≤ 1 := by nlinarith
  have hup : s.ed.y ≤ ed'.y := by
    rw [hy']
    nlinarith [mul_nonneg ht0 I.right, mul_nonneg (sub_nonneg.2 hc1) (neg_nonneg.2 hy)]
  -- support
  have hsup : Sup p n ed' s.e := by
    intro j i hi
    have h1 := rot_ge (u := turn j s.ed) (d := dirAt p n (s.e j)) (q := p i - p (s.e j)) (c := c) (s := t) (by rw [dot_turn, I.unit]) (hdu j) hct hc0 ht0
      (R.sup_dir (I.bound j) (I.sup j)) (by rw [← hcos, ← hck]; exact hmax j) (I.sup j i hi) (R.dir_left (I.bound j) hi)
      (fun h => R.dir_back (I.bound j) hi (I.sup j) h)
    refine h1.trans_eq ?_
    generalize p i - p (s.e j) = q
    clear_value c t ed'
    fin_cases j <;> simp [turn, perpDot, dot, hx', hy'] <;> ring
  have hbound : ∀ j, e' j < n := by
    intro j
    rw [he']
    by_cases h : j = k
    · subst h; rw [Function.update_self]; exact next_lt hn _
    · rw [Function.update_of_ne h]; exact I.bound j
  have hsup' : Sup p n ed' e' := by
    intro j i hi
    rw [he']
    by_cases h : j = k
    · subst h
      rw [Function.update_self, hturn]
      have h1 := R.dir_left hlt hi
      have h2 := R.dir_next hlt
      simp only [perpDot, sub_x, sub_y] at *
      linarith
    · rw [Function.update_of_ne h]; exact hsup j i hi
  have har : ar p ed' s.e = ar p ed' e' := hsup.ar_eq I.bound hsup' hbound
  have hnew : BestLE (record p e' ed' s.best) (ar p ed' e') := record_new hsup' hbound
  -- what lies between the two directions
  have hmid : ∀ w : V2 ℝ, dot w w = 1 → 0 ≤ w.x → s.ed.y ≤ w.y → w.y ≤ ed'.y → Sup p n w s.e ∧ min (ar p s.ed s.e) (ar p ed' s.e) ≤ ar p w s.e := by
    intro w hw hwx h1 h2
    obtain ⟨a, b, ha, hb, rfl⟩ := between I.unit hunit hw I.right hright hwx h1 h2 hc0
    constructor
    · intro j i hi
      have h3 := mul_nonneg ha (I.sup j i hi)
      have h4 := mul_nonneg hb (hsup j i hi)
      refine (add_nonneg h3 h4).trans_eq ?_
      generalize p i - p (s.e j) = q
      clear_value c t ed'
      fin_cases j <;> simp [turn, perpDot] <;> ring
    · have n1 := I.sup.nonneg I.bound
      have n2 := hsup.nonneg I.bound
      have := area_between (m := min (ar p s.ed s.e) (ar p ed' s.e)) I.unit hunit hw ha hb n1.1 n1.2 n2.1 n2.2 (min_le_left _ _) (min_le_right _ _)
      refine this.trans_eq ?_
      simp only [ar, perpDot, dot, add_x, add_y, smul_x, smul_y]
      ring
  rw [hstep]
  refine ⟨⟨hunit, hright, hbound, ?_, hsup', record_valid hsup' hbound hunit I.valid, Or.inl hnew, ?_, ?_⟩, ?_⟩
  · intro j
    show Function.update s.d k _ j = dirAt p n (e' j)
    rw [he']
    by_cases h : j = k
    · subst h; rw [Function.update_self, Function.update_self]
    · rw [Function.update_of_ne h, Function.update_of_ne h]; exact I.dirs j
  · intro w hw hwx h1 h2
    rcases le_total w.y s.ed.y with h3 | h3
    · obtain ⟨e, he, hs, hl⟩ := I.past w hw hwx h3 h2
      exact ⟨e, he, hs, hl.imp_left record_old⟩
    · obtain ⟨hs, hm⟩ := hmid w hw hwx h3 h1
      refine ⟨s.e, I.bound, hs, ?_⟩
      rcases min_le_iff.1 hm with h | h
      · rcases I.here with h4 | ⟨-, h4⟩
        · left
          obtain ⟨b, hb, hb'⟩ := record_old (p := p) (e := e') (w := ed') h4
          exact ⟨b, hb, hb'.trans h⟩
        · exact Or.inr (h4.trans h)
      · left
        obtain ⟨b, hb, hb'⟩ := hnew
        exact ⟨b, hb, hb'.trans (har.symm.le.trans h)⟩
  · rcases le_or_gt ed'.y 0 with h | h
    · exact Or.inl h
    right
    have hold : BestLE s.best (ar p s.ed s.e) := by
      rcases I.here with h4 | ⟨h4, -⟩
      · exact h4
      · exfalso
        rw [h4] at hy'
        simp at hy'
        linarith
    obtain ⟨hs, hm⟩ := hmid ⟨1, 0⟩ (by norm_num [dot]) zero_le_one hy h.le
    have hsh : Sup p n ⟨0, -1⟩ (shift s.e) := by
      apply Sup.shift
      simpa using hs
    have hAe : ar p ⟨1, 0⟩ s.e = A := by
      have h5 := ar_shift (p := p) (w := ⟨0, -1⟩) (e := s.e)
      simp only [neg_neg] at h5
      rw [h5, hA]
      exact hsh.ar_eq (fun j => by fin_cases j <;> simp [shift, I.bound]) hs₀ hb₀
    rw [hAe] at hm
    rcases min_le_iff.1 hm with h5 | h5
    · obtain ⟨b, hb, hb'⟩ := record_old (p := p) (e := e') (w := ed') hold
      exact ⟨b, hb, hb'.trans h5⟩
    · obtain ⟨b, hb, hb'⟩ := hnew
      exact ⟨b, hb, hb'.trans (har.symm.le.trans h5)⟩
  · apply Finset.card_lt_card
    rw [Finset.ssubset_iff_of_subset]
    · refine ⟨(k, s.e k), ?_, ?_⟩
      · simp only [ahead, Finset.mem_filter, Finset.mem_product, Finset.mem_univ, Finset.mem_range, true_and, ← hed']
        refine ⟨hlt, hright, ?_⟩
        rcases hup.lt_or_eq with h | h
        · exact Or.inl h
        · exact Or.inr ⟨h.symm, trivial⟩
      · simp only [ahead, Finset.mem_filter, Finset.mem_product, Finset.mem_univ, Finset.mem_range, true_and, ← hed', lt_irrefl, false_or]
        rintro ⟨-, -, h⟩
        rw [he', Function.update_self] at h
        exact next_ne hn _ h
    · intro q hq
      simp only [ahead, Finset.mem_filter, Finset.mem_product, Finset.mem_univ, Finset.mem_range, true_and] at hq ⊢
      obtain ⟨h1, h2, h3⟩ := hq
      refine ⟨h1, h2, ?_⟩
      rcases h3 with h3 | ⟨h3, h4⟩
      · exact Or.inl (lt_of_le_of_lt hup h3)
      · rcases hup.lt_or_eq with h | h
        · exact Or.inl (h.trans_eq h3.symm)
        · right
          refine ⟨h3.trans h.symm, ?_⟩
          by_cases hq1 : q.1 = k
          · exfalso
            rw [he', hq1, Function.update_self] at h4
            have hq2 : dot (unturn q.1 (dirAt p n q.2)) (unturn q.1 (dirAt p n q.2)) = 1 := by
              rw [dot_unturn]; exact (R.dir h1).choose_spec.2.2
            have := eq_of_y hq2 hunit h2 hright h3
            have h5 := congrArg (turn k) this
            rw [hq1, turn_unturn, hturn, ← h4] at h5
            exact R.dir_ne hlt h5
          · rwa [he', Function.update_of_ne hq1] at h4

/-- The loop ends, and what it leaves satisfies the invariant. -/
theorem Ring.loop (R : Ring p n) {A : ℝ} {e₀ : Fin 4 → ℕ} (hb₀ : ∀ k, e₀ k < n) (hs₀ : Sup p n ⟨0, -1⟩ e₀) (hA : A = ar p ⟨0, -1⟩ e₀) :
    ∀ (m : ℕ) (s : Cal), (ahead p n s).card ≤ m → Inv p n A s →
      ∃ N s', Inv p n A s' ∧ 0 < s'.ed.y ∧ ∀ fuel, N ≤ fuel → MinAreaRect.loop p n fuel s = some s'.best := by
  intro m
  induction m with
  | zero =>
    intro s hm I
    rcases le_or_gt s.ed.y 0 with hy | hy
    · have := (R.step hb₀ hs₀ hA I hy).2; omega
    · refine ⟨1, s, I, hy, fun fuel hf => ?_⟩
      obtain ⟨f, rfl⟩ := Nat.exists_eq_succ_of_ne_zero (by omega : fuel ≠ 0)
      simp [MinAreaRect.loop, not_le.2 hy]
  | succ m ih =>
    intro s hm I
    rcases le_or_gt s.ed.y 0 with hy | hy
    · obtain ⟨I', hl⟩ := R.step hb₀ hs₀ hA I hy
      obtain ⟨N, s', h1, h2, h3⟩ := ih _ (by omega) I'
      refine ⟨N + 1, s', h1, h2, fun fuel hf => ?_⟩
      obtain ⟨f, rfl⟩ := Nat.exists_eq_succ_of_ne_zero (by omega : fuel ≠ 0)
      simp only [MinAreaRect.loop, if_pos hy]
      exact h3 f (by omega)
    · refine ⟨1, s, I, hy, fun fuel hf => ?_⟩
      obtain ⟨f, rfl⟩ := Nat.exists_eq_succ_of_ne_zero (by omega : fuel ≠ 0)
      simp [MinAreaRect.loop, not_le.2 hy]

/-! The extents. -/

theorem extents_spec (hn : 1 ≤ n) : (∀ k, extents p n k < n) ∧ Sup p n ⟨0, -1⟩ (extents p n) := by
  have key : ∀ m : ℕ, let e := (List.range' 1 m).foldl (extentStep p) fun _ => 0
      (∀ k, e k ≤ m) ∧ ∀ j ≤ m, (p (e 0)).x ≤ (p j).x ∧ (p (e 1)).y ≤ (p j).y ∧ (p j).x ≤ (p (e 2)).x ∧ (p j).y ≤ (p (e 3)).y := by
    intro m
    induction m with
    | zero => 
      refine ⟨fun k => le_rfl, fun j hj => ?_⟩
      obtain rfl : j = 0 := by omega
      exact ⟨le_rfl, le_rfl, le_rfl, le_rfl⟩
    | succ m ih =>
      rw [List.range'_concat, List.foldl_append]
      simp only [List.foldl_cons, List.foldl_nil, one_mul]
      simp only at ih
      set e := (List.range' 1 m).foldl (extentStep p) fun _ => 0
      obtain ⟨h1, h2⟩ := ih
      have hm := h2 m le_rfl
      have hm02 : (p (e 0)).x ≤ (p (e 2)).x := hm.1.trans hm.2.2.1
      have hm13 : (p (e 1)).y ≤ (p (e 3)).y := hm.2.1.trans hm.2.2.2
      rw [add_comm 1 m]
      have b0 := h1 0
      have b1 := h1 1
      have b2 := h1 2
      have b3 := h1 3
      constructor
      · intro k
        unfold extentStep
        fin_cases k <;> simp only [] <;> split_ifs <;> simp [Function.update] <;> omega
      · intro j hj
        rcases (show j ≤ m ∨ j = m + 1 by omega) with h | h
        · obtain ⟨a1, a2, a3, a4⟩ := h2 j h
          unfold extentStep
          split_ifs <;> simp [Function.update] at * <;> (repeat' apply And.intro) <;> linarith
        · subst h
          unfold extentStep
          split_ifs <;> simp [Function.update] at * <;> (repeat' apply And.intro) <;> linarith
  obtain ⟨h1, h2⟩ := key (n - 1)
  refine ⟨fun k => ?_, sup_iff.2 fun j hj => ?_⟩
  · have := h1 k
    unfold extents
    omega
  · obtain ⟨a1, a2, a3, a4⟩ := h2 j (by omega)
    change (p (extents p n 0)).x ≤ _ at a1
    change (p (extents p n 1)).y ≤ _ at a2
    change _ ≤ (p (extents p n 2)).x at a3
    change _ ≤ (p (extents p n 3)).y at a4
    simp only [perpDot, dot, sub_x, sub_y]
    refine ⟨?_, ?_, ?_, ?_⟩ <;> linarith

/-- The calipers find a valid rectangle that is at most as large as the one in any direction of the fourth quadrant. -/
theorem Ring.best (R : Ring p n) : ∃ N b, (∀ fuel, N ≤ fuel → MinAreaRect.loop p n fuel ⟨extents p n, fun k => dirAt p n (extents p n k), ⟨0, -1⟩, none⟩ = some (some b))
    ∧ ValidBest p n b ∧ ∀ w : V2 ℝ, dot w w = 1 → 0 ≤ w.x → w.y ≤ 0 → ∃ e : Fin 4 → ℕ, (∀ k, e k < n) ∧ Sup p n w e ∧ b.area ≤ ar p w e := by
  obtain ⟨hb, hs⟩ := extents_spec (p := p) (n := n) (by have := R.two; omega)
  have I : Inv p n (ar p ⟨0, -1⟩ (extents p n)) ⟨extents p n, fun k => dirAt p n (extents p n k), ⟨0, -1⟩, none⟩ := by
    refine ⟨by norm_num [dot], le_rfl, hb, fun k => rfl, hs, by simp, Or.inr ⟨rfl, le_rfl⟩, fun w hw hwx hwy _ => ?_, Or.inl (by norm_num)⟩
    have : w = ⟨0, -1⟩ := by
      simp only [dot] at hw hwy
      have hy : w.y = -1 := by nlinarith [mul_self_nonneg w.x]
      have hx : w.x = 0 := by
        have : w.x * w.x = 0 := by rw [hy] at hw; linarith
        exact mul_self_eq_zero.1 this
      ext
      · exact hx
      · exact hy
    subst this
    exact ⟨_, hb, hs, Or.inr le_rfl⟩
  obtain ⟨N, s', I', hy, hl⟩ := R.loop hb hs rfl _ _ le_rfl I
  obtain ⟨b, hbest, hbA⟩ := I'.exit.resolve_left (not_le.2 hy)
  refine ⟨N, b, fun fuel hf => by rw [hl fuel hf, hbest], I'.valid b hbest, fun w hw hwx hwy => ?_⟩
  obtain ⟨e, he, hs', h⟩ := I'.past w hw hwx (hwy.trans hy.le) hwy
  refine ⟨e, he, hs', ?_⟩
  rcases h with ⟨b', hb', h⟩ | h
  · rw [hbest] at hb'
    cases hb'
    exact h
  · exact hbA.trans h

end
end MGL.MinAreaRect
