import Verif.Proofs.MinAreaRectLoop
import Verif.Props.Hull2D
import Mathlib.Data.List.GetD

/-! The corners the convex hull leaves, as the rotating calipers see them. -/

namespace MGL.Hull2D
open Spec
variable {α : Type*} [Field α] [LinearOrder α] [IsStrictOrderedRing α]

theorem dedup_chain {n : ℕ} : ∀ (xs kept out : List (V2 α)), dedup n xs kept = some out → kept.IsChain (fun a b => eps < distSq2D a b) →
    out.IsChain (fun a b => eps < distSq2D a b) ∧ out.getLast? = kept.getLast? := by
  intro xs
  induction xs with
  | nil => intro kept out h hc; simp only [dedup, Option.some.injEq] at h; subst h; exact ⟨hc, rfl⟩
  | cons x xs ih =>
    intro kept out h hc
    rcases kept with _ | ⟨l, r⟩
    · simp [dedup] at h
    · simp only [dedup] at h
      split_ifs at h with h1 h2
      · have := ih _ _ h (List.isChain_cons_cons.2 ⟨h1, hc⟩)
        exact ⟨this.1, by rw [this.2]; simp⟩
      · exact ih _ _ h hc

theorem trim_chain (p0 : V2 α) : ∀ kept : List (V2 α), kept.IsChain (fun a b => eps < distSq2D a b) →
    (trim p0 kept).IsChain (fun a b => eps < distSq2D a b) ∧ (trim p0 kept).getLast? = kept.getLast?
      ∧ (2 ≤ (trim p0 kept).length → ∀ l, (trim p0 kept).head? = some l → eps ≤ distSq2D l p0) := by
  intro kept
  induction kept with
  | nil => intro h; simp [trim]
  | cons l r ih =>
    intro h
    rcases r with _ | ⟨m, r⟩
    · simp [trim]
    · simp only [trim]
      split_ifs with h1
      · have := ih (List.isChain_cons_cons.1 h).2
        exact ⟨this.1, by rw [this.2.1]; simp, this.2.2⟩
      · exact ⟨h, rfl, fun _ l' h' => by simp at h'; subst h'; exact not_lt.1 h1⟩

theorem distSq2D_comm (a b : V2 α) : distSq2D a b = distSq2D b a := by simp only [distSq2D]; ring

/-- The edges the hull keeps are not short. -/
theorem hull_edges {p out : List (V2 α)} (h : convexHullInPlace p = some out) (h2 : 2 ≤ out.length) :
    out.IsChain (fun a b => eps < distSq2D a b) ∧ ∀ a b, out.head? = some a → out.getLast? = some b → eps ≤ distSq2D b a := by
  unfold convexHullInPlace at h
  split_ifs at h with h1
  · simp only [Option.some.injEq] at h; subst h; omega
  · split at h
    · simp only [Option.some.injEq] at h
      split_ifs at h with h3
      · subst h
        refine ⟨by simpa using h3, fun a b ha hb => ?_⟩
        simp at ha hb
        subst ha hb
        rw [distSq2D_comm]
        exact le_of_lt h3
      · subst h; simp at h2
    · split at h
      · rename_i h0 hs _
        rcases hd : dedup p.length hs [h0] with _ | kept
        · simp [hd] at h
        · simp only [hd, Option.map_some, Option.some.injEq] at h
          obtain ⟨k1, k2⟩ := dedup_chain _ _ _ hd (by simp)
          obtain ⟨t1, t2, t3⟩ := trim_chain h0 kept k1
          rw [← h] at h2 ⊢
          rw [List.length_reverse] at h2
          refine ⟨?_, fun a b ha hb => ?_⟩
          · rw [List.isChain_reverse]
            exact t1.imp fun a b hab => by show eps < distSq2D b a; rw [distSq2D_comm]; exact hab
          · rw [List.head?_reverse, t2, k2] at ha
            rw [List.getLast?_reverse] at hb
            simp at ha
            subst ha
            exact t3 h2 b hb
      · simp at h

end MGL.Hull2D

namespace MGL.MinAreaRect
open V2 Spec
noncomputable section

theorem ring_of_hull {h : List (V2 ℝ)} (hs : StrictCCW h) (h2 : 2 ≤ h.length)
    (hf : ∀ i < h.length, (1 / 1000 : ℝ) ^ 2 < distSq2 (h.getD i ⟨0, 0⟩) (h.getD (next h.length i) ⟨0, 0⟩)) : Ring (fun i => h.getD i ⟨0, 0⟩) h.length := by
  have key : ∀ i j k, i < j → j < k → k < h.length → 0 < area2 (h.getD i ⟨0, 0⟩) (h.getD j ⟨0, 0⟩) (h.getD k ⟨0, 0⟩) := by
    intro i j k h1 h3 h4
    simp only [List.getD, List.getElem?_eq_getElem (by omega : i < h.length), List.getElem?_eq_getElem (by omega : j < h.length), List.getElem?_eq_getElem h4, Option.getD_some]
    exact List.triplewise_iff_getElem.1 hs.2 i j k h1 h3 h4
  have strict : ∀ i < h.length, ∀ j < h.length, j ≠ i → j ≠ next h.length i → 0 < area2 (h.getD i ⟨0, 0⟩) (h.getD (next h.length i) ⟨0, 0⟩) (h.getD j ⟨0, 0⟩) := by
    intro i hi j hj h1 h3
    unfold next at *
    split_ifs at * with h4
    · rcases lt_or_gt_of_ne h1 with h5 | h5
      · rw [← Hull2D.area2_cycle]; exact key j i (i + 1) h5 (by omega) h4
      · exact key i (i + 1) j (by omega) (by omega) hj
    · rw [Hull2D.area2_cycle]; exact key 0 j i (by omega) (by omega) hi
  refine ⟨h2, fun i hi j hj => ?_, strict, hf, ?_⟩
  · by_cases h1 : j = i
    · subst h1; simp only [area2, sub_self, mul_zero, le_refl]
    by_cases h3 : j = next h.length i
    · rw [h3]; simp only [area2]; exact le_of_eq (by ring)
    exact (strict i hi j hj h1 h3).le
  · intro i hi j hj e
    simp only [List.getD, List.getElem?_eq_getElem hi, List.getElem?_eq_getElem hj, Option.getD_some] at e
    exact (List.Nodup.getElem_inj_iff hs.1).1 e

/-- The perpendicular unit vector is the one or the other quarter turn. -/
theorem frame_turn {u v : V2 ℝ} (h : IsFrame2 u v) : u = ⟨-v.y, v.x⟩ ∨ u = ⟨v.y, -v.x⟩ := by
  obtain ⟨h1, h2, h3⟩ := h
  have hx : u.x = -(perpDot v u * v.y) := by
    have : dot u v * v.x - perpDot v u * v.y = dot v v * u.x := by simp only [dot, perpDot]; ring
    rw [h2, h3] at this; linarith
  have hy : u.y = perpDot v u * v.x := by
    have : dot u v * v.y + perpDot v u * v.x = dot v v * u.y := by simp only [dot, perpDot]; ring
    rw [h2, h3] at this; linarith
  have hs : perpDot v u * perpDot v u = 1 := by
    have : dot u v * dot u v + perpDot v u * perpDot v u = dot u u * dot v v := by simp only [dot, perpDot]; ring
    rw [h1, h2, h3] at this; linarith
  have : (perpDot v u - 1) * (perpDot v u + 1) = 0 := by linarith
  rcases mul_eq_zero.1 this with h | h
  · left
    have : perpDot v u = 1 := by linarith
    rw [this] at hx hy
    ext
    · simpa using hx
    · simpa using hy
  · right
    have : perpDot v u = -1 := by linarith
    rw [this] at hx hy
    ext
    · simpa using hx
    · simpa using hy

theorem frameRect_convex (u v : V2 ℝ) (a b c d : ℝ) : Convex2 (frameRect u v a b c d) := by
  rintro q ⟨q1, q2, q3, q4⟩ r ⟨r1, r2, r3, r4⟩ s t hs ht hst
  have e : ∀ w : V2 ℝ, dot w ⟨s * q.x + t * r.x, s * q.y + t * r.y⟩ = s * dot w q + t * dot w r := fun w => by simp only [dot]; ring
  have hk : ∀ k : ℝ, s * k + t * k = k := fun k => by rw [← add_mul, hst, one_mul]
  refine ⟨?_, ?_, ?_, ?_⟩ <;> rw [e]
  · linarith [hk a, mul_le_mul_of_nonneg_left q1 hs, mul_le_mul_of_nonneg_left r1 ht]
  · linarith [hk b, mul_le_mul_of_nonneg_left q2 hs, mul_le_mul_of_nonneg_left r2 ht]
  · linarith [hk c, mul_le_mul_of_nonneg_left q3 hs, mul_le_mul_of_nonneg_left r3 ht]
  · linarith [hk d, mul_le_mul_of_nonneg_left q4 hs, mul_le_mul_of_nonneg_left r4 ht]

variable {p : ℕ → V2 ℝ} {n : ℕ}

/-- Every rectangle around the corners is at least as large as one in a direction of the fourth quadrant. -/
theorem Ring.minimal {A : ℝ} (hm : ∀ w : V2 ℝ, dot w w = 1 → 0 ≤ w.x → w.y ≤ 0 → ∃ e : Fin 4 → ℕ, (∀ k, e k < n) ∧ Sup p n w e ∧ A ≤ ar p w e)
    {u v : V2 ℝ} {a b c d : ℝ} (hf : IsFrame2 u v) (hin : ∀ i < n, p i ∈ frameRect u v a b c d) : A ≤ (b - a) * (d - c) := by
  have hu : ∀ i < n, ∀ j < n, dot u (p i) - dot u (p j) ≤ b - a := fun i hi j hj => by linarith [(hin i hi).2.1, (hin j hj).1]
  have hv : ∀ i < n, ∀ j < n, dot v (p i) - dot v (p j) ≤ d - c := fun i hi j hj => by linarith [(hin i hi).2.2.2, (hin j hj).2.2.1]
  have hq : ∃ w : V2 ℝ, (w = v ∨ w = ⟨-v.y, v.x⟩ ∨ w = ⟨-v.x, -v.y⟩ ∨ w = ⟨v.y, -v.x⟩) ∧ 0 ≤ w.x ∧ w.y ≤ 0 := by
    rcases le_total 0 v.x with hx | hx <;> rcases le_total 0 v.y with hy | hy
    · exact ⟨_, Or.inr (Or.inr (Or.inr rfl)), hy, by simpa using hx⟩
    · exact ⟨_, Or.inl rfl, hx, hy⟩
    · exact ⟨_, Or.inr (Or.inr (Or.inl rfl)), by simpa using hx, by simpa using hy⟩
    · exact ⟨_, Or.inr (Or.inl rfl), by simpa using hy, hx⟩
  obtain ⟨w, hw, hwx, hwy⟩ := hq
  have hww : dot w w = 1 := by
    have := hf.2.1
    simp only [dot] at *
    rcases hw with rfl | rfl | rfl | rfl <;> linarith
  obtain ⟨e, he, hs, hA⟩ := hm w hww hwx hwy
  obtain ⟨n1, n2⟩ := hs.nonneg he
  refine hA.trans ?_
  unfold ar
  have comb : (perpDot w (p (e 2) - p (e 0)) ≤ b - a ∧ dot w (p (e 1) - p (e 3)) ≤ d - c) ∨ (perpDot w (p (e 2) - p (e 0)) ≤ d - c ∧ dot w (p (e 1) - p (e 3)) ≤ b - a) := by
    have a1 := hu _ (he 2) _ (he 0)
    have a2 := hu _ (he 0) _ (he 2)
    have a3 := hu _ (he 1) _ (he 3)
    have a4 := hu _ (he 3) _ (he 1)
    have b1 := hv _ (he 2) _ (he 0)
    have b2 := hv _ (he 0) _ (he 2)
    have b3 := hv _ (he 1) _ (he 3)
    have b4 := hv _ (he 3) _ (he 1)
    simp only [perpDot, dot, sub_x, sub_y] at a1 a2 a3 a4 b1 b2 b3 b4 ⊢
    clear hm hA hs hin hu hv n1 n2
    rcases frame_turn hf with hu | hu <;> rw [hu] at a1 a2 a3 a4 <;> simp only at a1 a2 a3 a4 <;> rcases hw with rfl | rfl | rfl | rfl
    · exact Or.inl ⟨by linarith, by linarith⟩
    · exact Or.inr ⟨by linarith, by linarith⟩
    · exact Or.inl ⟨by linarith, by linarith⟩
    · exact Or.inr ⟨by linarith, by linarith⟩
    · exact Or.inl ⟨by linarith, by linarith⟩
    · exact Or.inr ⟨by linarith, by linarith⟩
    · exact Or.inl ⟨by linarith, by linarith⟩
    · exact Or.inr ⟨by linarith, by linarith⟩
  rcases comb with ⟨h1, h2⟩ | ⟨h1, h2⟩
  · exact mul_le_mul h1 h2 n2 (n1.trans h1)
  · rw [mul_comm (b - a)]
    exact mul_le_mul h1 h2 n2 (n1.trans h1)

/-- What the calipers return. -/
theorem Ring.calipers (R : Ring p n) : ∃ N r, (∀ fuel, N ≤ fuel → MinAreaRect.calipers fuel p n = some r) ∧ IsFrame2 r.uDir r.vDir
    ∧ (∀ i < n, p i ∈ frameRect r.uDir r.vDir r.minU r.maxU r.minV r.maxV) ∧ r.area = (r.maxU - r.minU) * (r.maxV - r.minV)
    ∧ dot r.uDir r.center = (r.minU + r.maxU) / 2 ∧ dot r.vDir r.center = (r.minV + r.maxV) / 2
    ∧ ∀ u v a b c d, IsFrame2 u v → (∀ i < n, p i ∈ frameRect u v a b c d) → r.area ≤ (b - a) * (d - c) := by
  obtain ⟨N, b, hl, ⟨hu, e, he, hs, h1, h2, h3, h4, h5⟩, hm⟩ := R.best
  refine ⟨N, ⟨b.area, (1 / 2 : ℝ) • ((b.minU + b.maxU) • rotated90CCW b.vDir + (b.minV + b.maxV) • b.vDir), rotated90CCW b.vDir, b.vDir, b.minU, b.maxU, b.minV, b.maxV⟩,
    fun fuel hf => by simp only [MinAreaRect.calipers, hl fuel hf], ⟨?_, hu, ?_⟩, fun i hi => ?_, ?_, ?_, ?_, fun u v a b c d hf hin => Ring.minimal hm hf hin⟩
  · simp only [rotated90CCW, dot] at *; linarith
  · simp only [rotated90CCW, dot]; ring
  · have := sup_iff.1 hs i hi
    simp only [frameRect, Set.mem_ofPred_eq, h2, h3, h4, h5, rotated90CCW]
    simp only [perpDot, dot, sub_x, sub_y] at *
    exact ⟨by linarith [this.1], by linarith [this.2.2.1], by linarith [this.2.2.2], by linarith [this.2.1]⟩
  · simp only [h1, h2, h3, h4, h5, ar, perpDot, dot, sub_x, sub_y]; ring
  · simp only [rotated90CCW, dot, add_x, add_y, smul_x, smul_y] at *
    linear_combination (b.minU + b.maxU) / 2 * hu
  · simp only [rotated90CCW, dot, add_x, add_y, smul_x, smul_y] at *
    linear_combination (b.minV + b.maxV) / 2 * hu

end
end MGL.MinAreaRect
