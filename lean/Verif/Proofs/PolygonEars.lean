import Verif.Proofs.Polygon2D
import Verif.Spec.Polygon

/-! Helper lemmas for the ear clipping of polygons. -/

namespace MGL
namespace Polygon
open Spec
set_option linter.unusedSectionVars false
variable {α : Type*} [Field α] [LinearOrder α] [IsStrictOrderedRing α] {β : Type*}

theorem orientedCCW_iff (a b c : V2 α) : orientedCCW a b c = true ↔ 0 ≤ area2 a b c := by
  unfold orientedCCW area2
  rw [decide_eq_true_eq, ge_iff_le]
  constructor <;> intro h <;> linarith

/-- The result of a step. -/
theorem clipEars_clip {l : List (V2 α × β)} {i j k tries : ℕ} {a b c : V2 α × β} (h : l.length > 3 ∧ tries < l.length)
    (ha : l[i]? = some a) (hb : l[j]? = some b) (hc : l[k]? = some c)
    (he : (orientedCCW a.1 b.1 c.1 && isAnEar (l.map Prod.fst) i k) = true) :
    clipEars l i j k tries = ((if i > 0 then clipEars (l.eraseIdx j) ((i + (l.eraseIdx j).length - 1) % (l.eraseIdx j).length)
      ((j + (l.eraseIdx j).length - 1) % (l.eraseIdx j).length) ((k + (l.eraseIdx j).length - 1) % (l.eraseIdx j).length) 0
      else clipEars (l.eraseIdx j) i j k 0).map fun r => ((a.2, b.2, c.2) :: r.1, r.2)) := by
  rw [clipEars.eq_def, if_pos h]
  split
  · rename_i a' b' c' h1 h2 h3
    rw [ha] at h1; rw [hb] at h2; rw [hc] at h3
    cases h1; cases h2; cases h3
    rw [if_pos he]
  · rename_i h1
    exact absurd hc (by intro h3; exact h1 a b c ha hb hc)

theorem clipEars_skip {l : List (V2 α × β)} {i j k tries : ℕ} {a b c : V2 α × β} (h : l.length > 3 ∧ tries < l.length)
    (ha : l[i]? = some a) (hb : l[j]? = some b) (hc : l[k]? = some c)
    (he : (orientedCCW a.1 b.1 c.1 && isAnEar (l.map Prod.fst) i k) = false) :
    clipEars l i j k tries = clipEars l j k ((k + 1) % l.length) (tries + 1) := by
  rw [clipEars.eq_def, if_pos h]
  split
  · rename_i a' b' c' h1 h2 h3
    rw [ha] at h1; rw [hb] at h2; rw [hc] at h3
    cases h1; cases h2; cases h3
    rw [if_neg (by rw [he]; simp)]
  · rename_i h1
    exact absurd hc (by intro h3; exact h1 a b c ha hb hc)

theorem clipEars_stop {l : List (V2 α × β)} {i j k tries : ℕ} (h : ¬ (l.length > 3 ∧ tries < l.length)) :
    clipEars l i j k tries = some ([], l) := by
  rw [clipEars.eq_def, if_neg h]

/-- A segment that lies strictly on one side of a line does not meet it. -/
theorem no_meet {a1 a2 b1 b2 : V2 α} (h1 : 0 < area2 a1 a2 b1) (h2 : 0 < area2 a1 a2 b2) : intersectSegSeg2D a1 a2 b1 b2 = false := by
  unfold intersectSegSeg2D intersectLineLine2D
  dsimp only
  split
  · rfl
  · rename_i out ho
    split_ifs at ho with hd
    cases ho
    rw [Bool.and_eq_false_iff, decide_eq_false_iff_not, Bool.and_eq_false_iff, decide_eq_false_iff_not]
    set A := area2 a1 a2 b1 with hA
    set B := area2 a1 a2 b2 with hB
    have e1 : (a2.x - a1.x) * (a1.y - b1.y) - (a2.y - a1.y) * (a1.x - b1.x) = -A := by rw [hA]; unfold area2; ring
    have e2 : (b2.y - b1.y) * (a2.x - a1.x) - (b2.x - b1.x) * (a2.y - a1.y) = B - A := by rw [hA, hB]; unfold area2; ring
    dsimp only
    rw [e1, e2]
    rw [e2] at hd
    have hne : B - A ≠ 0 := by
      intro h0
      rw [h0, absF_eq, abs_zero] at hd
      exact hd (by norm_num)
    rcases lt_or_gt_of_ne hne with h | h
    · right
      rw [mul_one_div, div_le_one_of_neg h]
      linarith
    · left; right
      rw [mul_one_div, ge_iff_le, not_le]
      exact div_neg_of_neg_of_pos (by linarith) h

/-- On a strictly convex polygon the loop clips the fan from the first vertex. -/
theorem clipEars_convex : ∀ (r : List (V2 α × β)) (a b c : V2 α × β),
    ((a :: b :: c :: r).map Prod.fst).Triplewise (fun a b c => 0 < area2 a b c) →
    ∃ ts x y z, clipEars (a :: b :: c :: r) 0 1 2 0 = some (ts, [x, y, z]) ∧
      ts ++ [(x.2, y.2, z.2)] = fan a.2 ((b :: c :: r).map Prod.snd) := by
  intro r
  induction r with
  | nil =>
    intro a b c _
    exact ⟨[], a, b, c, clipEars_stop (by simp), rfl⟩
  | cons d r ih =>
    intro a b c h
    have hl : (a :: b :: c :: d :: r).length > 3 ∧ 0 < (a :: b :: c :: d :: r).length := by simp
    have he : (orientedCCW a.1 b.1 c.1 && isAnEar ((a :: b :: c :: d :: r).map Prod.fst) 0 2) = true := by
      rw [Bool.and_eq_true]
      have T := List.triplewise_iff_getElem.1 h
      constructor
      · rw [orientedCCW_iff]
        exact (T 0 1 2 (by omega) (by omega) (by simp)).le
      · unfold isAnEar
        simp only [List.range_zero, List.all_nil, Bool.true_and, List.all_eq_true, List.mem_range']
        rintro y ⟨m, hm, rfl⟩
        set L := (a :: b :: c :: d :: r).map Prod.fst with hL
        have hlen : 4 + m < L.length := by omega
        have h2 : (2 : ℕ) < L.length := by omega
        rw [List.getD_eq_getElem L 0 (by omega : 0 < L.length), List.getD_eq_getElem L 0 h2,
          List.getD_eq_getElem L 0 (by omega : 2 + 2 + 1 * m - 1 < L.length), List.getD_eq_getElem L 0 (by omega : 2 + 2 + 1 * m < L.length)]
        rw [no_meet]
        · rfl
        · exact T 0 2 _ (by omega) (by omega) _
        · exact T 0 2 _ (by omega) (by omega) _
    rw [clipEars_clip hl rfl rfl rfl he]
    have h' : ((a :: c :: d :: r).map Prod.fst).Triplewise (fun a b c => 0 < area2 a b c) := by
      refine triplewise_sublist ?_ h
      exact (List.Sublist.cons_cons a (List.sublist_cons_self b _)).map Prod.fst
    obtain ⟨ts, x, y, z, h1, h2⟩ := ih a c d h'
    refine ⟨(a.2, b.2, c.2) :: ts, x, y, z, ?_, ?_⟩
    · simp only [gt_iff_lt, lt_irrefl, if_false]
      show Option.map _ (clipEars (a :: c :: d :: r) 0 1 2 0) = _
      rw [h1]; rfl
    · rw [List.cons_append, h2]; rfl

/-- The index states the loop can reach with a list of length `m`. -/
def State (m i j k : ℕ) : Prop :=
  (j = i + 1 ∧ k = i + 2 ∧ i + 2 < m) ∨ (i = m - 2 ∧ j = m - 1 ∧ k = 0) ∨ (i = m - 1 ∧ j = 0 ∧ k = 1) ∨
  (i = m - 2 ∧ j = m - 1 ∧ k = m - 1) ∨ (i = m - 1 ∧ j = m - 1 ∧ k = 0) ∨ (i = m - 1 ∧ j = m - 1 ∧ k = m - 1)

theorem State.lt {m i j k : ℕ} (h : State m i j k) (hm : 3 ≤ m) : i < m ∧ j < m ∧ k < m := by
  unfold State at h; omega

theorem mod_pred {x n : ℕ} (hn : 0 < n) (hx : x ≤ n) : (x + n - 1) % n = if x = 0 then n - 1 else x - 1 := by
  split_ifs with h
  · subst h; rw [Nat.zero_add]; exact Nat.mod_eq_of_lt (by omega)
  · rw [show x + n - 1 = (x - 1) + n by omega, Nat.add_mod_right]; exact Nat.mod_eq_of_lt (by omega)

theorem mod_succ {x n : ℕ} (hx : x < n) : (x + 1) % n = if x + 1 = n then 0 else x + 1 := by
  split_ifs with h
  · rw [h, Nat.mod_self]
  · exact Nat.mod_eq_of_lt (by omega)

theorem State.skip {m i j k : ℕ} (h : State m i j k) (hm : 4 ≤ m) : State m j k ((k + 1) % m) := by
  rw [mod_succ (h.lt (by omega)).2.2]
  unfold State at h ⊢
  rcases h with h | h | h | h | h | h <;> split_ifs <;> first
    | exact Or.inl (by omega)
    | exact Or.inr (Or.inl (by omega))
    | exact Or.inr (Or.inr (Or.inl (by omega)))
    | exact Or.inr (Or.inr (Or.inr (Or.inl (by omega))))
    | exact Or.inr (Or.inr (Or.inr (Or.inr (Or.inl (by omega)))))
    | exact Or.inr (Or.inr (Or.inr (Or.inr (Or.inr (by omega)))))
    | (exfalso; omega)

theorem State.clip {m i j k : ℕ} (h : State (m + 1) i j k) (hm : 3 ≤ m) (hi : i > 0) :
    State m ((i + m - 1) % m) ((j + m - 1) % m) ((k + m - 1) % m) := by
  have hlt := h.lt (by omega)
  rw [mod_pred (by omega) (by omega), mod_pred (by omega) (by omega), mod_pred (by omega) (by omega)]
  unfold State at h ⊢
  rcases h with h | h | h | h | h | h <;> split_ifs <;> first
    | exact Or.inl (by omega)
    | exact Or.inr (Or.inl (by omega))
    | exact Or.inr (Or.inr (Or.inl (by omega)))
    | exact Or.inr (Or.inr (Or.inr (Or.inl (by omega))))
    | exact Or.inr (Or.inr (Or.inr (Or.inr (Or.inl (by omega)))))
    | exact Or.inr (Or.inr (Or.inr (Or.inr (Or.inr (by omega)))))
    | (exfalso; omega)

theorem State.clip0 {m i j k : ℕ} (h : State (m + 1) i j k) (hm : 3 ≤ m) (hi : ¬ i > 0) : State m i j k := by
  unfold State at h ⊢
  rcases h with h | h | h | h | h | h <;> first
    | exact Or.inl (by omega)
    | exact Or.inr (Or.inl (by omega))
    | exact Or.inr (Or.inr (Or.inl (by omega)))
    | exact Or.inr (Or.inr (Or.inr (Or.inl (by omega))))
    | exact Or.inr (Or.inr (Or.inr (Or.inr (Or.inl (by omega)))))
    | exact Or.inr (Or.inr (Or.inr (Or.inr (Or.inr (by omega)))))
    | (exfalso; omega)

/-- The loop never reads out of range, ends, clips one vertex per triangle, and only uses vertices of the list. -/
theorem clipEars_total (l : List (V2 α × β)) (i j k tries : ℕ) (hl : 3 ≤ l.length) (hs : State l.length i j k) :
    ∃ ts r, clipEars l i j k tries = some (ts, r) ∧ ts.length + r.length = l.length ∧ 3 ≤ r.length ∧
      (∀ t ∈ ts, t.1 ∈ l.map Prod.snd ∧ t.2.1 ∈ l.map Prod.snd ∧ t.2.2 ∈ l.map Prod.snd) ∧ r.Sublist l := by
  by_cases h : l.length > 3 ∧ tries < l.length
  · obtain ⟨hi, hj, hk⟩ := hs.lt hl
    have ha := List.getElem?_eq_getElem hi
    have hb := List.getElem?_eq_getElem hj
    have hc := List.getElem?_eq_getElem hk
    have hlen : (l.eraseIdx j).length + 1 = l.length := by rw [List.length_eraseIdx_of_lt hj]; omega
    cases he : (orientedCCW l[i].1 l[j].1 l[k].1 && isAnEar (l.map Prod.fst) i k) with
    | true =>
      rw [clipEars_clip h ha hb hc he]
      have hsub : (l.eraseIdx j).Sublist l := List.eraseIdx_sublist ..
      have hmem : ∀ {q}, q < l.length → ∀ (hq : q < l.length), l[q].2 ∈ l.map Prod.snd := fun _ hq => List.mem_map_of_mem (List.getElem_mem hq)
      have fin : ∀ {i' j' k' : ℕ}, (∃ ts r, clipEars (l.eraseIdx j) i' j' k' 0 = some (ts, r) ∧
          ts.length + r.length = (l.eraseIdx j).length ∧ 3 ≤ r.length ∧
          (∀ t ∈ ts, t.1 ∈ (l.eraseIdx j).map Prod.snd ∧ t.2.1 ∈ (l.eraseIdx j).map Prod.snd ∧ t.2.2 ∈ (l.eraseIdx j).map Prod.snd) ∧
          r.Sublist (l.eraseIdx j)) →
          ∃ ts r, ((clipEars (l.eraseIdx j) i' j' k' 0).map fun r => ((l[i].2, l[j].2, l[k].2) :: r.1, r.2)) = some (ts, r) ∧
          ts.length + r.length = l.length ∧ 3 ≤ r.length ∧
          (∀ t ∈ ts, t.1 ∈ l.map Prod.snd ∧ t.2.1 ∈ l.map Prod.snd ∧ t.2.2 ∈ l.map Prod.snd) ∧ r.Sublist l := by
        rintro i' j' k' ⟨ts, r, h1, h2, h3, h4, h5⟩
        refine ⟨(l[i].2, l[j].2, l[k].2) :: ts, r, by rw [h1]; rfl, by rw [List.length_cons]; omega, h3, ?_, h5.trans hsub⟩
        intro t ht
        rcases List.mem_cons.1 ht with rfl | ht
        · exact ⟨hmem hi hi, hmem hj hj, hmem hk hk⟩
        · have := h4 t ht
          have hs' := (hsub.map Prod.snd).subset
          exact ⟨hs' this.1, hs' this.2.1, hs' this.2.2⟩
      have hs' : State ((l.eraseIdx j).length + 1) i j k := by rw [hlen]; exact hs
      split_ifs with hi0
      · exact fin (clipEars_total (l.eraseIdx j) _ _ _ 0 (by omega) (hs'.clip (by omega) hi0))
      · exact fin (clipEars_total (l.eraseIdx j) _ _ _ 0 (by omega) (hs'.clip0 (by omega) hi0))
    | false =>
      rw [clipEars_skip h ha hb hc he]
      exact clipEars_total l j k _ (tries + 1) hl (hs.skip (by omega))
  · rw [clipEars_stop h]
    exact ⟨[], l, rfl, by simp, hl, by simp, List.Sublist.refl l⟩
termination_by (l.length, l.length - tries)
decreasing_by
  all_goals first
    | (apply Prod.Lex.left; omega)
    | (apply Prod.Lex.right; omega)

/-! Signed areas. -/

/-- The shoelace sum along a walk. -/
def pathSum (p0 : V2 α) (l : List (V2 α)) : α := ((walk p0 l).map fun e => e.1.x * e.2.y - e.1.y * e.2.x).sum

theorem pathSum_cons (p0 x : V2 α) (l : List (V2 α)) : pathSum p0 (x :: l) = (p0.x * x.y - p0.y * x.x) + pathSum x l := by
  rw [pathSum, walk_cons, List.map_cons, List.sum_cons]; rfl

theorem pathSum_append (p0 : V2 α) (l m : List (V2 α)) : pathSum p0 (l ++ m) = pathSum p0 l + pathSum (l.getLastD p0) m := by
  rw [pathSum, walk_append, List.map_append, List.sum_append]; rfl

theorem shoelace_eq {l : List (V2 α)} {z : V2 α} (h : l.getLast? = some z) : shoelace l = pathSum z l := by
  rw [shoelace, closedEdges, h]; rfl

theorem shoelace_erase (X Y : List (V2 α)) (a b c : V2 α) :
    shoelace (X ++ a :: b :: c :: Y) = area2 a b c + shoelace (X ++ a :: c :: Y) := by
  have e1 : (X ++ a :: b :: c :: Y).getLast? = some ((c :: Y).getLast (by simp)) := by
    rw [List.getLast?_append_of_ne_nil _ (by simp), List.getLast?_cons_cons, List.getLast?_cons_cons, List.getLast?_eq_some_getLast (by simp)]
  have e2 : (X ++ a :: c :: Y).getLast? = some ((c :: Y).getLast (by simp)) := by
    rw [List.getLast?_append_of_ne_nil _ (by simp), List.getLast?_cons_cons, List.getLast?_eq_some_getLast (by simp)]
  rw [shoelace_eq e1, shoelace_eq e2, pathSum_append, pathSum_append, pathSum_cons, pathSum_cons, pathSum_cons, pathSum_cons, pathSum_cons]
  unfold area2; ring

theorem split3 {γ : Type*} {l : List γ} {i : ℕ} (h : i + 2 < l.length) :
    ∃ X Y, l = X ++ l[i] :: l[i + 1] :: l[i + 2] :: Y ∧ l.eraseIdx (i + 1) = X ++ l[i] :: l[i + 2] :: Y := by
  refine ⟨l.take i, l.drop (i + 3), ?_, ?_⟩
  · conv_lhs => rw [← List.take_append_drop i l]
    rw [List.drop_eq_getElem_cons (by omega : i < l.length), List.drop_eq_getElem_cons (by omega : i + 1 < l.length),
      List.drop_eq_getElem_cons (by omega : i + 1 + 1 < l.length)]
  · rw [List.eraseIdx_eq_take_drop_succ, List.take_succ_eq_append_getElem (by omega), List.append_assoc]
    rw [List.drop_eq_getElem_cons (by omega : i + 1 + 1 < l.length)]
    rfl

theorem meet_at_end {a1 a2 b1 : V2 α} (h : 1 / 10000 ≤ |area2 a1 b1 a2|) : intersectSegSeg2D a1 a2 b1 a2 = true := by
  have e : (a2.y - b1.y) * (a2.x - a1.x) - (a2.x - b1.x) * (a2.y - a1.y) = area2 a1 b1 a2 := by unfold area2; ring
  unfold intersectSegSeg2D intersectLineLine2D
  dsimp only
  rw [e, absF_eq, if_neg (not_lt.2 h)]
  have hne : area2 a1 b1 a2 ≠ 0 := by
    intro h0; rw [h0, abs_zero] at h; exact absurd h (by norm_num)
  have e1 : ((a2.x - b1.x) * (a1.y - b1.y) - (a2.y - b1.y) * (a1.x - b1.x)) * (1 / area2 a1 b1 a2) = 1 := by
    rw [mul_one_div, div_eq_one_iff_eq hne]; unfold area2; ring
  have e2 : ((a2.x - a1.x) * (a1.y - b1.y) - (a2.y - a1.y) * (a1.x - b1.x)) * (1 / area2 a1 b1 a2) = 1 := by
    rw [mul_one_div, div_eq_one_iff_eq hne]; unfold area2; ring
  simp only [e1, e2, ge_iff_le, zero_le_one, le_refl, decide_true, Bool.and_self]

theorem meet_at_start {a1 a2 b2 : V2 α} (h : 1 / 10000 ≤ |area2 a1 b2 a2|) : intersectSegSeg2D a1 a2 a1 b2 = true := by
  have e : (b2.y - a1.y) * (a2.x - a1.x) - (b2.x - a1.x) * (a2.y - a1.y) = -area2 a1 b2 a2 := by unfold area2; ring
  unfold intersectSegSeg2D intersectLineLine2D
  dsimp only
  rw [e, absF_eq, abs_neg, if_neg (not_lt.2 h)]
  simp

theorem wrap_not_ear {L : List (V2 α)} (hL : 4 ≤ L.length) (h : L.Triplewise fun a b c => 1 / 10000 ≤ |area2 a b c|) :
    isAnEar L (L.length - 2) 0 = false ∧ isAnEar L (L.length - 1) 1 = false := by
  have T := List.triplewise_iff_getElem.1 h
  constructor
  · unfold isAnEar
    rw [Bool.and_eq_false_iff]
    left
    rw [List.all_eq_false]
    refine ⟨0, List.mem_range.2 (by omega), ?_⟩
    simp only [if_true]
    rw [List.getD_eq_getElem L 0 (by omega : L.length - 2 < L.length), List.getD_eq_getElem L 0 (by omega : 0 < L.length),
      List.getD_eq_getElem L 0 (by omega : L.length - 1 < L.length), meet_at_end]
    · simp
    · have := T 0 (L.length - 2) (L.length - 1) (by omega) (by omega) (by omega)
      rwa [show area2 L[L.length - 2] L[L.length - 1] L[0] = area2 L[0] L[L.length - 2] L[L.length - 1] by unfold area2; ring]
  · unfold isAnEar
    rw [Bool.and_eq_false_iff]
    left
    rw [List.all_eq_false]
    refine ⟨0, List.mem_range.2 (by omega), ?_⟩
    simp only [if_true]
    rw [List.getD_eq_getElem L 0 (by omega : L.length - 1 < L.length), List.getD_eq_getElem L 0 (by omega : 0 < L.length),
      List.getD_eq_getElem L 0 (by omega : 1 < L.length), meet_at_start]
    · simp
    · have := T 0 1 (L.length - 1) (by omega) (by omega) (by omega)
      rwa [show area2 L[L.length - 1] L[0] L[1] = area2 L[0] L[1] L[L.length - 1] by unfold area2; ring]

/-- The index states that occur when no three vertices are nearly collinear. -/
def State3 (m i j k : ℕ) : Prop :=
  (j = i + 1 ∧ k = i + 2 ∧ i + 2 < m) ∨ (i = m - 2 ∧ j = m - 1 ∧ k = 0) ∨ (i = m - 1 ∧ j = 0 ∧ k = 1)

theorem State3.lt {m i j k : ℕ} (h : State3 m i j k) (hm : 3 ≤ m) : i < m ∧ j < m ∧ k < m := by
  unfold State3 at h; omega

theorem State3.skip {m i j k : ℕ} (h : State3 m i j k) (hm : 4 ≤ m) : State3 m j k ((k + 1) % m) := by
  rw [mod_succ (h.lt (by omega)).2.2]
  unfold State3 at h ⊢
  rcases h with h | h | h <;> split_ifs <;> first
    | exact Or.inl (by omega)
    | exact Or.inr (Or.inl (by omega))
    | exact Or.inr (Or.inr (by omega))
    | (exfalso; omega)

/-- The total signed area of triples. -/
def triSum (g : β → V2 α) (ts : List (β × β × β)) : α := (ts.map fun t => area2 (g t.1) (g t.2.1) (g t.2.2)).sum

/-- If no three vertices are nearly collinear, the clipped triangles and the remaining polygon together have the signed area of the
polygon, and all clipped triangles are counter-clockwise. -/
theorem clipEars_area (g : β → V2 α) (l : List (V2 α × β)) (i j k tries : ℕ) (hl : 3 ≤ l.length) (hs : State3 l.length i j k)
    (hg : ∀ a ∈ l, a.1 = g a.2) (hT : (l.map Prod.fst).Triplewise fun a b c => 1 / 10000 ≤ |area2 a b c|) {ts : List (β × β × β)}
    {r : List (V2 α × β)} (hr : clipEars l i j k tries = some (ts, r)) :
    triSum g ts + shoelace (r.map Prod.fst) = shoelace (l.map Prod.fst) ∧ ∀ t ∈ ts, 0 < area2 (g t.1) (g t.2.1) (g t.2.2) := by
  by_cases h : l.length > 3 ∧ tries < l.length
  · obtain ⟨hi, hj, hk⟩ := hs.lt hl
    have ha := List.getElem?_eq_getElem hi
    have hb := List.getElem?_eq_getElem hj
    have hc := List.getElem?_eq_getElem hk
    have hlen : (l.eraseIdx j).length + 1 = l.length := by rw [List.length_eraseIdx_of_lt hj]; omega
    cases he : (orientedCCW l[i].1 l[j].1 l[k].1 && isAnEar (l.map Prod.fst) i k) with
    | true =>
      rw [clipEars_clip h ha hb hc he] at hr
      rw [Bool.and_eq_true] at he
      -- the indices do not wrap around
      have hst : j = i + 1 ∧ k = i + 2 ∧ i + 2 < l.length := by
        have hw := wrap_not_ear (L := l.map Prod.fst) (by rw [List.length_map]; omega) hT
        rw [List.length_map] at hw
        rcases hs with h1 | h1 | h1
        · exact h1
        · have h2 := he.2; rw [h1.1, h1.2.2, hw.1] at h2; exact absurd h2 (by simp)
        · have h2 := he.2; rw [h1.1, h1.2.2, hw.2] at h2; exact absurd h2 (by simp)
      obtain ⟨rfl, rfl, hi2⟩ := hst
      have hsub : (l.eraseIdx (i + 1)).Sublist l := List.eraseIdx_sublist ..
      obtain ⟨X, Y, hX, hY⟩ := split3 hi2
      have hsh : shoelace (l.map Prod.fst) = area2 l[i].1 l[i + 1].1 l[i + 2].1 + shoelace ((l.eraseIdx (i + 1)).map Prod.fst) := by
        rw [hY]
        conv_lhs => rw [hX]
        simp only [List.map_append, List.map_cons]
        exact shoelace_erase ..
      have hpos : 0 < area2 l[i].1 l[i + 1].1 l[i + 2].1 := by
        have h0 := (orientedCCW_iff _ _ _).1 he.1
        have h1 := (List.triplewise_iff_getElem.1 hT) i (i + 1) (i + 2) (by omega) (by omega) (by rw [List.length_map]; omega)
        simp only [List.getElem_map] at h1
        rw [abs_of_nonneg h0] at h1
        exact lt_of_lt_of_le (by norm_num) h1
      have hgi := hg l[i] (List.getElem_mem _)
      have hgj := hg l[i + 1] (List.getElem_mem _)
      have hgk := hg l[i + 2] (List.getElem_mem _)
      have hT' := triplewise_sublist (hsub.map Prod.fst) hT
      have hg' : ∀ a ∈ l.eraseIdx (i + 1), a.1 = g a.2 := fun a ha => hg a (hsub.subset ha)
      have fin : ∀ {i' j' k' : ℕ}, State3 (l.eraseIdx (i + 1)).length i' j' k' →
          (∀ {ts r}, clipEars (l.eraseIdx (i + 1)) i' j' k' 0 = some (ts, r) →
            triSum g ts + shoelace (r.map Prod.fst) = shoelace ((l.eraseIdx (i + 1)).map Prod.fst) ∧
            ∀ t ∈ ts, 0 < area2 (g t.1) (g t.2.1) (g t.2.2)) →
          ((clipEars (l.eraseIdx (i + 1)) i' j' k' 0).map fun r => ((l[i].2, l[i + 1].2, l[i + 2].2) :: r.1, r.2)) = some (ts, r) →
          triSum g ts + shoelace (r.map Prod.fst) = shoelace (l.map Prod.fst) ∧ ∀ t ∈ ts, 0 < area2 (g t.1) (g t.2.1) (g t.2.2) := by
        intro i' j' k' _ hrec hr
        cases hq : clipEars (l.eraseIdx (i + 1)) i' j' k' 0 with
        | none => rw [hq] at hr; cases hr
        | some q =>
          rw [hq] at hr
          obtain ⟨h1, h2⟩ := hrec hq
          simp only [Option.map_some, Option.some.injEq, Prod.mk.injEq] at hr
          obtain ⟨rfl, rfl⟩ := hr
          constructor
          · rw [hsh, ← h1, triSum, List.map_cons, List.sum_cons, ← hgi, ← hgj, ← hgk, triSum]; ring
          · intro t ht
            rcases List.mem_cons.1 ht with rfl | ht
            · show 0 < area2 (g l[i].2) (g l[i + 1].2) (g l[i + 2].2)
              rw [← hgi, ← hgj, ← hgk]; exact hpos
            · exact h2 t ht
      split_ifs at hr with hi0
      · have hst' : State3 (l.eraseIdx (i + 1)).length ((i + (l.eraseIdx (i + 1)).length - 1) % (l.eraseIdx (i + 1)).length)
            ((i + 1 + (l.eraseIdx (i + 1)).length - 1) % (l.eraseIdx (i + 1)).length)
            ((i + 2 + (l.eraseIdx (i + 1)).length - 1) % (l.eraseIdx (i + 1)).length) := by
          rw [mod_pred (by omega) (by omega), mod_pred (by omega) (by omega), mod_pred (by omega) (by omega),
            if_neg (by omega), if_neg (by omega), if_neg (by omega)]
          exact Or.inl (by omega)
        exact fin hst' (clipEars_area g (l.eraseIdx (i + 1)) _ _ _ 0 (by omega) hst' hg' hT') hr
      · have hst' : State3 (l.eraseIdx (i + 1)).length i (i + 1) (i + 2) := Or.inl (by omega)
        exact fin hst' (clipEars_area g (l.eraseIdx (i + 1)) _ _ _ 0 (by omega) hst' hg' hT') hr
    | false =>
      rw [clipEars_skip h ha hb hc he] at hr
      exact clipEars_area g l j k _ (tries + 1) hl (hs.skip (by omega)) hg hT hr
  · rw [clipEars_stop h] at hr
    cases hr
    exact ⟨by simp [triSum], by simp⟩
termination_by (l.length, l.length - tries)
decreasing_by
  all_goals first
    | (apply Prod.Lex.left; omega)
    | (apply Prod.Lex.right; omega)

end Polygon
end MGL
