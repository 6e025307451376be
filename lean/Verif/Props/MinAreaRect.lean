import Verif.Proofs.MinAreaRectHull

/-! C94: the rectangle of smallest area around points of the plane. -/

namespace MGL.MinAreaRect
open V2 Spec
noncomputable section

/-- The result for the corners of the hull. -/
theorem result_of_hull {points out : List (V2 ℝ)} (hne : points ≠ []) (ho : Hull2D.convexHullInPlace points = some out) (hs : StrictCCW out) (hone : out ≠ [])
    (hf : 2 ≤ out.length → ∀ i < out.length, (1 / 1000 : ℝ) ^ 2 < distSq2 (out.getD i ⟨0, 0⟩) (out.getD (next out.length i) ⟨0, 0⟩)) :
    ∃ N r, (∀ fuel, N ≤ fuel → minAreaRect fuel points = some r) ∧ IsFrame2 r.uDir r.vDir
      ∧ (∀ q ∈ out, q ∈ frameRect r.uDir r.vDir r.minU r.maxU r.minV r.maxV) ∧ r.area = (r.maxU - r.minU) * (r.maxV - r.minV)
      ∧ dot r.uDir r.center = (r.minU + r.maxU) / 2 ∧ dot r.vDir r.center = (r.minV + r.maxV) / 2
      ∧ ∀ u v a b c d, IsFrame2 u v → (∀ q ∈ out, q ∈ frameRect u v a b c d) → r.area ≤ (b - a) * (d - c) := by
  rcases out with _ | ⟨x, _ | ⟨y, l⟩⟩
  · exact absurd rfl hone
  · refine ⟨0, ⟨0, x, ⟨1, 0⟩, ⟨0, 1⟩, x.x, x.x, x.y, x.y⟩, fun fuel _ => ?_, ?_, ?_, by simp, ?_, ?_, ?_⟩
    · simp only [minAreaRect, if_neg hne, ho]
    · norm_num [IsFrame2, dot]
    · simp [frameRect, dot]
    · simp [dot]
    · simp [dot]
    · intro u v a b c d _ h
      obtain ⟨h1, h2, h3, h4⟩ := h x (by simp)
      exact mul_nonneg (by linarith) (by linarith)
  · have R := ring_of_hull hs (by simp) (hf (by simp))
    obtain ⟨N, r, h1, h2, h3, h4, h5, h6, h7⟩ := R.calipers
    have hin : ∀ {S : Set (V2 ℝ)}, (∀ q ∈ x :: y :: l, q ∈ S) ↔ ∀ i < (x :: y :: l).length, (x :: y :: l).getD i ⟨0, 0⟩ ∈ S := by
      intro S
      constructor
      · intro h i hi
        simp only [List.getD, List.getElem?_eq_getElem hi, Option.getD_some]
        exact h _ (List.getElem_mem hi)
      · intro h q hq
        obtain ⟨i, hi, rfl⟩ := List.getElem_of_mem hq
        have := h i hi
        simpa only [List.getD, List.getElem?_eq_getElem hi, Option.getD_some] using this
    refine ⟨N, r, fun fuel hfuel => ?_, h2, hin.2 h3, h4, h5, h6, fun u v a b c d hfr hq => h7 u v a b c d hfr (hin.1 hq)⟩
    simp only [minAreaRect, if_neg hne, ho]
    exact h1 fuel hfuel

/-- C94: for one or more points, `MinAreaRect` ends, and returns a rectangle with perpendicular sides that contains all the points. Its area is the
value returned, its centre is the centre returned, and no rectangle around the points, in any direction, is smaller. This holds when different points
are more than 1/1000 apart. -/
theorem C94_minAreaRect_partial (points : List (V2 ℝ)) (hne : points ≠ []) (hsep : ∀ a ∈ points, ∀ b ∈ points, a ≠ b → (1 / 1000) ^ 2 < distSq2 a b) :
    ∃ N r, (∀ fuel, N ≤ fuel → minAreaRect fuel points = some r) ∧ IsFrame2 r.uDir r.vDir
      ∧ (∀ q ∈ points, q ∈ frameRect r.uDir r.vDir r.minU r.maxU r.minV r.maxV) ∧ r.area = (r.maxU - r.minU) * (r.maxV - r.minV)
      ∧ dot r.uDir r.center = (r.minU + r.maxU) / 2 ∧ dot r.vDir r.center = (r.minV + r.maxV) / 2
      ∧ ∀ u v a b c d, IsFrame2 u v → (∀ q ∈ points, q ∈ frameRect u v a b c d) → r.area ≤ (b - a) * (d - c) := by
  obtain ⟨out, h1, h2, h3, h4⟩ := Hull2D.C74_exact points hsep
  have hone : out ≠ [] := by
    rintro rfl
    obtain ⟨x, hx⟩ := List.exists_mem_of_ne_nil _ hne
    have : x ∈ hull2 ([] : List (V2 ℝ)) := by rw [h4]; exact Hull2D.mem_hull2 hx
    exact this ∅ (fun _ h => h.elim) (by simp)
  obtain ⟨N, r, k1, k2, k3, k4, k5, k6, k7⟩ := result_of_hull hne h1 h2 hone (fun h i hi => by
    have hi' := next_lt h i
    have e1 : out.getD i ⟨0, 0⟩ = out[i] := by simp [List.getD, List.getElem?_eq_getElem hi]
    have e2 : out.getD (next out.length i) ⟨0, 0⟩ = out[next out.length i] := by simp [List.getD, List.getElem?_eq_getElem hi']
    rw [e1, e2]
    refine hsep _ (h3 _ (List.getElem_mem hi)) _ (h3 _ (List.getElem_mem hi')) fun e => ?_
    exact next_ne h i ((List.Nodup.getElem_inj_iff h2.1).1 e.symm))
  refine ⟨N, r, k1, k2, fun q hq => ?_, k4, k5, k6, fun u v a b c d hf hin => k7 u v a b c d hf fun q hq => hin q (h3 q hq)⟩
  have : q ∈ hull2 out := by rw [h4]; exact Hull2D.mem_hull2 hq
  exact this _ (frameRect_convex _ _ _ _ _ _) k3

/-- C94: for points that may lie close together, none of them exactly 1/1000 apart, every point is within 2/1000 of the rectangle returned, whose area is
the value returned, and no rectangle around the points is smaller. -/
theorem C94_near (points : List (V2 ℝ)) (hne : points ≠ []) (heps : ∀ a ∈ points, ∀ b ∈ points, distSq2 a b ≠ (1 / 1000) ^ 2) :
    ∃ N r, (∀ fuel, N ≤ fuel → minAreaRect fuel points = some r) ∧ IsFrame2 r.uDir r.vDir
      ∧ (∀ q ∈ points, ∃ q' ∈ frameRect r.uDir r.vDir r.minU r.maxU r.minV r.maxV, distSq2 q q' ≤ (2 / 1000) ^ 2)
      ∧ r.area = (r.maxU - r.minU) * (r.maxV - r.minV)
      ∧ dot r.uDir r.center = (r.minU + r.maxU) / 2 ∧ dot r.vDir r.center = (r.minV + r.maxV) / 2
      ∧ ∀ u v a b c d, IsFrame2 u v → (∀ q ∈ points, q ∈ frameRect u v a b c d) → r.area ≤ (b - a) * (d - c) := by
  obtain ⟨out, h1, h3, h2, hone, h4⟩ := Hull2D.C74_convexHull points
  have hd : ∀ a b : V2 ℝ, Hull2D.distSq2D a b = distSq2 a b := fun a b => by simp only [Hull2D.distSq2D, distSq2]; ring
  have he : (Hull2D.eps : ℝ) = (1 / 1000) ^ 2 := by norm_num [Hull2D.eps]
  obtain ⟨N, r, k1, k2, k3, k4, k5, k6, k7⟩ := result_of_hull hne h1 h2 (hone hne) (fun h i hi => by
    obtain ⟨c1, c2⟩ := Hull2D.hull_edges h1 h
    have hi' := next_lt h i
    have e1 : out.getD i ⟨0, 0⟩ = out[i] := by simp [List.getD, List.getElem?_eq_getElem hi]
    have e2 : out.getD (next out.length i) ⟨0, 0⟩ = out[next out.length i] := by simp [List.getD, List.getElem?_eq_getElem hi']
    by_cases hl : i + 1 < out.length
    · have e3 : next out.length i = i + 1 := by simp [next, hl]
      have := List.isChain_iff_getElem.1 c1 i hl
      rw [hd, he] at this
      rw [e1, e3]
      simpa [List.getD, List.getElem?_eq_getElem hl] using this
    · have e3 : next out.length i = 0 := by simp [next, hl]
      rw [e1, e3]
      have h0 : 0 < out.length := by omega
      have e4 : out.getD 0 ⟨0, 0⟩ = out[0] := by simp [List.getD, List.getElem?_eq_getElem h0]
      rw [e4]
      have := c2 out[0] out[i] (by rw [List.head?_eq_getElem?, List.getElem?_eq_getElem h0])
        (by rw [List.getLast?_eq_getElem?, show out.length - 1 = i by omega, List.getElem?_eq_getElem hi])
      rw [hd, he] at this
      exact lt_of_le_of_ne this (heps _ (h3 _ (List.getElem_mem hi)) _ (h3 _ (List.getElem_mem h0))).symm)
  refine ⟨N, r, k1, k2, fun q hq => ?_, k4, k5, k6, fun u v a b c d hf hin => k7 u v a b c d hf fun q hq => hin q (h3 q hq)⟩
  obtain ⟨q', hq', hd'⟩ := h4 q hq
  exact ⟨q', hq' _ (frameRect_convex _ _ _ _ _ _) k3, hd'⟩

/-- C94 fails for points that are close together: of two points 1/2000 apart the convex hull keeps one, and the rectangle does not contain the
other. -/
theorem C94_close_violation : ∃ r, (∀ fuel, minAreaRect fuel [⟨0, 0⟩, ⟨1 / 2000, 0⟩] = some r)
    ∧ (⟨1 / 2000, 0⟩ : V2 ℝ) ∉ frameRect r.uDir r.vDir r.minU r.maxU r.minV r.maxV := by
  have h : Hull2D.convexHullInPlace [(⟨0, 0⟩ : V2 ℝ), ⟨1 / 2000, 0⟩] = some [⟨0, 0⟩] := by
    have hs : [(⟨0, 0⟩ : V2 ℝ), ⟨1 / 2000, 0⟩].insertionSort Hull2D.lexLe = [⟨0, 0⟩, ⟨1 / 2000, 0⟩] := by
      norm_num [List.insertionSort, List.orderedInsert, Hull2D.lexLe, Hull2D.lexLt]
    simp only [Hull2D.convexHullInPlace, hs]
    norm_num [Hull2D.distSq2D, Hull2D.eps]
  refine ⟨_, fun fuel => by simp only [minAreaRect, h]; rfl, ?_⟩
  norm_num [frameRect, dot]

/-! The hypotheses are met. -/

/-- A tilted square with a point inside and a corner given twice. -/
def exPoints : List (V2 ℝ) := [⟨1, 0⟩, ⟨2, 1⟩, ⟨1, 2⟩, ⟨0, 1⟩, ⟨1, 1⟩, ⟨1, 0⟩]

example := C94_minAreaRect_partial exPoints (by simp [exPoints]) (by simp only [exPoints, List.forall_mem_cons]; norm_num [distSq2])
example := C94_near exPoints (by simp [exPoints]) (by simp only [exPoints, List.forall_mem_cons]; norm_num [distSq2])

/-- The area found for the tilted square is at most 2, half of the area of the box along the axes. -/
example : ∃ N r, (∀ fuel, N ≤ fuel → minAreaRect fuel exPoints = some r) ∧ r.area ≤ 2 := by
  obtain ⟨N, r, h1, -, -, -, -, -, h2⟩ := C94_minAreaRect_partial exPoints (by simp [exPoints]) (by simp only [exPoints, List.forall_mem_cons]; norm_num [distSq2])
  have hs : √2 * √2 = (2 : ℝ) := Real.mul_self_sqrt (by norm_num)
  refine ⟨N, r, h1, (h2 ⟨√2 / 2, √2 / 2⟩ ⟨-(√2 / 2), √2 / 2⟩ (√2 / 2) (3 * √2 / 2) (-(√2 / 2)) (√2 / 2) ?_ ?_).trans ?_⟩
  · refine ⟨?_, ?_, ?_⟩ <;> simp only [dot] <;> nlinarith
  · have h0 := Real.sqrt_nonneg 2
    simp only [exPoints, List.forall_mem_cons, frameRect, dot, Set.mem_ofPred_eq]
    refine ⟨?_, ?_, ?_, ?_, ?_, ?_, by simp⟩ <;> refine ⟨?_, ?_, ?_, ?_⟩ <;> linarith
  · nlinarith

end
end MGL.MinAreaRect
