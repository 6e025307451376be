import Verif.Model.Polygon2D
import Verif.Spec.Hull2D
import Verif.Spec.Polygon
import Verif.Proofs.Scalar
import Mathlib.Tactic.Linarith
import Mathlib.Tactic.LinearCombination
import Mathlib.Tactic.FieldSimp
import Mathlib.Tactic.Positivity
import Mathlib.Data.List.TakeWhile

/-! Helper lemmas for the planar parts of polygons: crossing counts. -/

namespace MGL
namespace Polygon
open Spec
set_option linter.unusedSectionVars false
variable {α : Type*} [Field α] [LinearOrder α] [IsStrictOrderedRing α]

/-- The walk from `p0` along a list. -/
def walk {β : Type*} (p0 : β) (l : List β) : List (β × β) := (p0 :: l).zip l

theorem walk_nil {β : Type*} (p0 : β) : walk p0 [] = [] := rfl
theorem walk_cons {β : Type*} (p0 x : β) (l : List β) : walk p0 (x :: l) = (p0, x) :: walk x l := rfl

theorem edges2_eq_walk {z : V2 α} {l : List (V2 α)} (h : l.getLast? = some z) : edges2 l = walk z l := by
  rw [edges2, h]; rfl

theorem walk_map {β γ : Type*} (f : β → γ) (p0 : β) (l : List β) :
    walk (f p0) (l.map f) = (walk p0 l).map fun e => (f e.1, f e.2) := by
  induction l generalizing p0 with
  | nil => rfl
  | cons x l ih => simp only [List.map_cons, walk_cons, ih]

theorem walk_append {β : Type*} (p0 : β) (l m : List β) : walk p0 (l ++ m) = walk p0 l ++ walk (l.getLastD p0) m := by
  induction l generalizing p0 with
  | nil => rfl
  | cons x l ih => simp only [List.cons_append, walk_cons, ih, List.getLastD_cons]

theorem walk_mem {β : Type*} {p0 : β} {l : List β} {e : β × β} (h : e ∈ walk p0 l) : e.1 ∈ p0 :: l ∧ e.2 ∈ l := by
  induction l generalizing p0 with
  | nil => cases h
  | cons x l ih =>
    rw [walk_cons, List.mem_cons] at h
    rcases h with rfl | h
    · exact ⟨List.mem_cons_self .., List.mem_cons_self ..⟩
    · exact ⟨List.mem_cons_of_mem _ (ih h).1, List.mem_cons_of_mem _ (ih h).2⟩

theorem crossLoop_eq (p0 : V2 α) (l : List (V2 α)) (n : ℕ) :
    crossLoop p0 l n = n + (walk p0 (l.map nudge)).countP fun e => crosses e.1 e.2 := by
  induction l generalizing p0 n with
  | nil => simp [crossLoop, walk_nil]
  | cons x l ih =>
    rw [crossLoop, ih, List.map_cons, walk_cons, List.countP_cons]
    split_ifs <;> omega

theorem evenOdd_eq {l : List (V2 α)} {z : V2 α} (h : l.getLast? = some z) :
    evenOdd l = true ↔ Odd ((walk (nudge z) (l.map nudge)).countP fun e => crosses e.1 e.2) := by
  rw [evenOdd, h]
  simp only [decide_eq_true_eq, crossLoop_eq, Nat.zero_add, Nat.odd_iff]

/-- The point of the edge on the line of the ray. -/
def xAt (p0 p1 : V2 α) : α := p0.x + -p0.y / (p1.y - p0.y) * (p1.x - p0.x)

theorem crosses_iff (p0 p1 : V2 α) : crosses p0 p1 = true ↔ p0.y * p1.y < 0 ∧ 0 < xAt p0 p1 := by
  unfold crosses xAt
  simp only [min2_eq, max2_eq, V2.sub_y, V2.sub_x]
  by_cases h : p0.y * p1.y < 0
  · rw [if_pos h]
    have hd : p1.y - p0.y ≠ 0 := by
      intro h0
      have : p1.y = p0.y := by linarith
      rw [this] at h; nlinarith [mul_self_nonneg p0.y]
    set t := -p0.y / (p1.y - p0.y) with ht
    have ht0 : 0 ≤ t ∧ t ≤ 1 := by
      rcases lt_or_gt_of_ne hd with hd' | hd'
      · have h0 : 0 < p0.y := by nlinarith
        have h1 : p1.y < 0 := by nlinarith
        rw [ht]
        exact ⟨div_nonneg_of_nonpos (by linarith) hd'.le, by rw [div_le_one_of_neg hd']; linarith⟩
      · have h0 : p0.y < 0 := by nlinarith
        have h1 : 0 < p1.y := by nlinarith
        rw [ht]
        exact ⟨div_nonneg (by linarith) hd'.le, by rw [div_le_one hd']; linarith⟩
    have hx : p0.x + t * (p1.x - p0.x) = (1 - t) * p0.x + t * p1.x := by ring
    split_ifs with h1 h2
    · simp only [true_iff]
      refine ⟨h, ?_⟩
      rw [hx]
      have h3 := lt_min_iff.1 h1
      rcases eq_or_lt_of_le ht0.1 with h4 | h4
      · rw [← h4]; linarith [h3.1]
      · nlinarith [h3.1, h3.2, mul_pos h4 h3.2, mul_nonneg (sub_nonneg.2 ht0.2) h3.1.le]
    · have h01 := ht0.1
      have h02 := ht0.2
      rw [Bool.and_eq_true, Bool.and_eq_true, decide_eq_true_eq, decide_eq_true_eq, decide_eq_true_eq]
      exact ⟨fun h3 => ⟨h, h3.2⟩, fun h3 => ⟨⟨h01, h02⟩, h3.2⟩⟩
    · simp only [Bool.false_eq_true, false_iff, not_and, not_lt]
      intro _
      rw [hx]
      have h3 := max_le_iff.1 (not_lt.1 h2)
      nlinarith [mul_nonneg (sub_nonneg.2 ht0.2) (neg_nonneg.2 h3.1), mul_nonneg ht0.1 (neg_nonneg.2 h3.2)]
  · rw [if_neg h]; simp [h]

/-- A vertex above the test ray. -/
def high (v : V2 α) : Bool := decide (1 / 10000 ≤ v.y)

theorem nudge_x (v : V2 α) : (nudge v).x = v.x := by unfold nudge; split_ifs <;> rfl

theorem nudge_cases (v : V2 α) : (high v = true ∧ nudge v = v ∧ 0 < (nudge v).y) ∨
    (high v = false ∧ (nudge v).y < 0 ∧ v.y - 2 / 10000 ≤ (nudge v).y ∧ (nudge v).y ≤ v.y) := by
  unfold nudge high
  rw [absF_eq]
  by_cases h : 1 / 10000 ≤ v.y
  · left
    have h' : ¬ |v.y| < 1 / 10000 := by rw [abs_lt]; intro h2; linarith [h2.2]
    rw [if_neg h']
    exact ⟨decide_eq_true h, rfl, lt_of_lt_of_le (by norm_num) h⟩
  · right
    refine ⟨decide_eq_false h, ?_⟩
    by_cases h' : |v.y| < 1 / 10000
    · rw [if_pos h']
      have := abs_lt.1 h'
      have e : (0 : α) < 1 / 10000 := by norm_num
      refine ⟨by show -(1 / 10000 : α) < 0; linarith, ?_, by show -(1 / 10000 : α) ≤ _; linarith⟩
      show _ ≤ -(1 / 10000 : α)
      have : (2 : α) / 10000 = 1 / 10000 + 1 / 10000 := by norm_num
      rw [this]; linarith
    · rw [if_neg h']
      have : v.y ≤ -(1 / 10000) := by
        by_contra h2
        exact h' (abs_lt.2 ⟨not_le.1 h2, not_le.1 h⟩)
      have e : (0 : α) < 1 / 10000 := by norm_num
      have e2 : (0 : α) < 2 / 10000 := by norm_num
      exact ⟨by linarith, by linarith, le_refl _⟩

theorem straddle_iff (a b : V2 α) : (nudge a).y * (nudge b).y < 0 ↔ high a ≠ high b := by
  rcases nudge_cases a with ⟨h1, _, h2⟩ | ⟨h1, h2, _⟩ <;> rcases nudge_cases b with ⟨h3, _, h4⟩ | ⟨h3, h4, _⟩ <;> rw [h1, h3]
  · simp only [ne_eq, not_true_eq_false, iff_false, not_lt]; positivity
  · simp only [ne_eq, Bool.true_eq_false, not_false_eq_true, iff_true]; exact mul_neg_of_pos_of_neg h2 h4
  · simp only [ne_eq, Bool.false_eq_true, not_false_eq_true, iff_true]; exact mul_neg_of_neg_of_pos h2 h4
  · simp only [ne_eq, not_true_eq_false, iff_false, not_lt]; exact (mul_pos_of_neg_of_neg h2 h4).le

/-- The crossing of a moved edge with the line of the ray is above or below a point of the edge, at most `2e-4` away. -/
theorem crossing_near {a b : V2 α} (h : high a ≠ high b) :
    ∃ t, 0 ≤ t ∧ t ≤ 1 ∧ a.x + t * (b.x - a.x) = xAt (nudge a) (nudge b) ∧ |a.y + t * (b.y - a.y)| ≤ 2 / 10000 := by
  set a' := nudge a with ha'
  set b' := nudge b with hb'
  have hs : a'.y * b'.y < 0 := (straddle_iff a b).2 h
  have hd : b'.y - a'.y ≠ 0 := by
    intro h0
    have : b'.y = a'.y := by linarith
    rw [this] at hs; nlinarith [mul_self_nonneg a'.y]
  refine ⟨-a'.y / (b'.y - a'.y), ?_, ?_, ?_, ?_⟩
  · rcases lt_or_gt_of_ne hd with hd' | hd'
    · exact div_nonneg_of_nonpos (by nlinarith) hd'.le
    · exact div_nonneg (by nlinarith) hd'.le
  · rcases lt_or_gt_of_ne hd with hd' | hd'
    · rw [div_le_one_of_neg hd']; nlinarith
    · rw [div_le_one hd']; nlinarith
  · rw [xAt, ha', hb', nudge_x, nudge_x]
  · set t := -a'.y / (b'.y - a'.y) with ht
    have ht0 : 0 ≤ t ∧ t ≤ 1 := by
      constructor
      · rcases lt_or_gt_of_ne hd with hd' | hd'
        · exact div_nonneg_of_nonpos (by nlinarith) hd'.le
        · exact div_nonneg (by nlinarith) hd'.le
      · rcases lt_or_gt_of_ne hd with hd' | hd'
        · rw [ht, div_le_one_of_neg hd']; nlinarith
        · rw [ht, div_le_one hd']; nlinarith
    have hz : a'.y + t * (b'.y - a'.y) = 0 := by rw [ht]; field_simp; ring
    have e2 : (0 : α) < 2 / 10000 := by norm_num
    have e : a.y + t * (b.y - a.y) = (1 - t) * (a.y - a'.y) + t * (b.y - b'.y) := by linear_combination hz
    have hA : 0 ≤ a.y - a'.y ∧ a.y - a'.y ≤ 2 / 10000 := by
      rcases nudge_cases a with ⟨_, h2, _⟩ | ⟨_, _, h3, h4⟩
      · rw [ha', h2]; exact ⟨by linarith, by linarith⟩
      · exact ⟨by linarith, by linarith⟩
    have hB : 0 ≤ b.y - b'.y ∧ b.y - b'.y ≤ 2 / 10000 := by
      rcases nudge_cases b with ⟨_, h2, _⟩ | ⟨_, _, h3, h4⟩
      · rw [hb', h2]; exact ⟨by linarith, by linarith⟩
      · exact ⟨by linarith, by linarith⟩
    rw [e, abs_le]
    constructor
    · have := mul_nonneg (sub_nonneg.2 ht0.2) hA.1
      have := mul_nonneg ht0.1 hB.1
      linarith
    · have := mul_le_mul_of_nonneg_left hA.2 (sub_nonneg.2 ht0.2)
      have := mul_le_mul_of_nonneg_left hB.2 ht0.1
      linarith

/-- The number of changes of side along a walk. -/
theorem changes_parity {β : Type*} (P : β → Bool) (p0 : β) (l : List β) :
    Odd ((walk p0 l).countP fun e => decide (P e.1 ≠ P e.2)) ↔ P p0 ≠ P (l.getLastD p0) := by
  induction l generalizing p0 with
  | nil => simp [walk_nil]
  | cons x l ih =>
    rw [walk_cons, List.countP_cons, List.getLastD_cons]
    have := ih x
    by_cases h : P p0 = P x
    · simp only [h, ne_eq, not_true_eq_false, decide_false, Bool.false_eq_true, if_false, Nat.add_zero]
      exact this
    · simp only [ne_eq, h, not_false_eq_true, decide_true, if_true, Nat.odd_add_one]
      rw [this]
      revert h
      cases P p0 <;> cases P x <;> cases P (l.getLastD x) <;> simp

theorem getLastD_of {β : Type*} {l : List β} {z d : β} (h : l.getLast? = some z) : l.getLastD d = z := by
  rw [List.getLastD_eq_getLast?, h]; rfl

/-- An odd count needs a crossing to the right and one not to the right. -/
theorem evenOdd_sides {l : List (V2 α)} {z : V2 α} (hz : l.getLast? = some z) (h : evenOdd l = true) :
    (∃ e ∈ walk z l, high e.1 ≠ high e.2 ∧ 0 < xAt (nudge e.1) (nudge e.2)) ∧
    (∃ e ∈ walk z l, high e.1 ≠ high e.2 ∧ xAt (nudge e.1) (nudge e.2) ≤ 0) := by
  rw [evenOdd_eq hz, walk_map, List.countP_map] at h
  have key : ∀ e : V2 α × V2 α, ((fun e : V2 α × V2 α => crosses e.1 e.2) ∘ fun e : V2 α × V2 α => (nudge e.1, nudge e.2)) e = true ↔
      high e.1 ≠ high e.2 ∧ 0 < xAt (nudge e.1) (nudge e.2) := by
    intro e
    simp only [Function.comp, crosses_iff, straddle_iff]
  constructor
  · have : 0 < ((walk z l).countP ((fun e : V2 α × V2 α => crosses e.1 e.2) ∘ fun e => (nudge e.1, nudge e.2))) := h.pos
    obtain ⟨e, he, h1⟩ := List.countP_pos_iff.1 this
    exact ⟨e, he, (key e).1 h1⟩
  · by_contra hno
    push Not at hno
    have : ((walk z l).countP ((fun e : V2 α × V2 α => crosses e.1 e.2) ∘ fun e => (nudge e.1, nudge e.2))) =
        (walk z l).countP fun e => decide (high e.1 ≠ high e.2) := by
      apply List.countP_congr
      intro e he
      rw [key]
      simp only [decide_eq_true_eq]
      exact ⟨fun h => h.1, fun h => ⟨h, hno e he h⟩⟩
    rw [this, changes_parity, getLastD_of hz] at h
    exact h rfl

theorem hull2_convex (S : List (V2 α)) : Convex2 (hull2 S) := fun _ hp _ hq s t hs ht hst K hK hS =>
  hK _ (hp K hK hS) _ (hq K hK hS) s t hs ht hst

theorem mem_hull2 {S : List (V2 α)} {s : V2 α} (h : s ∈ S) : s ∈ hull2 S := fun _ _ hS => hS s h

theorem walk_hull {l : List (V2 α)} {z : V2 α} (hz : l.getLast? = some z) {e : V2 α × V2 α} (he : e ∈ walk z l) {t : α}
    (h0 : 0 ≤ t) (h1 : t ≤ 1) : (⟨e.1.x + t * (e.2.x - e.1.x), e.1.y + t * (e.2.y - e.1.y)⟩ : V2 α) ∈ hull2 l := by
  have hm := walk_mem he
  have hz' : z ∈ l := List.mem_of_getLast? hz
  have ha : e.1 ∈ l := by
    rcases List.mem_cons.1 hm.1 with h | h
    · rw [h]; exact hz'
    · exact h
  have := hull2_convex l _ (mem_hull2 ha) _ (mem_hull2 hm.2) (1 - t) t (by linarith) h0 (by ring)
  convert this using 2 <;> ring

/-- If the crossing count is odd, the origin is within `2e-4` of the convex hull. -/
theorem evenOdd_near_hull {l : List (V2 α)} (h : evenOdd l = true) : ∃ y, (⟨0, y⟩ : V2 α) ∈ hull2 l ∧ |y| ≤ 2 / 10000 := by
  cases hz : l.getLast? with
  | none => rw [evenOdd, hz] at h; cases h
  | some z =>
    obtain ⟨⟨e, he, h1, h2⟩, f, hf, h3, h4⟩ := evenOdd_sides hz h
    obtain ⟨s, s0, s1, sx, sy⟩ := crossing_near h1
    obtain ⟨t, t0, t1, tx, ty⟩ := crossing_near h3
    have hp := walk_hull hz he s0 s1
    have hq := walk_hull hz hf t0 t1
    rw [sx] at hp
    rw [tx] at hq
    set X := xAt (nudge e.1) (nudge e.2)
    set Y := xAt (nudge f.1) (nudge f.2)
    set u := e.1.y + s * (e.2.y - e.1.y)
    set w := f.1.y + t * (f.2.y - f.1.y)
    have hXY : 0 < X - Y := by linarith
    have hc := hull2_convex l _ hp _ hq (-Y / (X - Y)) (X / (X - Y)) (div_nonneg (by linarith) hXY.le) (div_nonneg h2.le hXY.le)
      (by field_simp; ring)
    refine ⟨-Y / (X - Y) * u + X / (X - Y) * w, ?_, ?_⟩
    · convert hc using 2
      show 0 = -Y / (X - Y) * X + X / (X - Y) * Y
      field_simp; ring
    · have hu := abs_le.1 sy
      have hw := abs_le.1 ty
      have c0 : 0 ≤ -Y / (X - Y) := div_nonneg (by linarith) hXY.le
      have d0 : 0 ≤ X / (X - Y) := div_nonneg h2.le hXY.le
      have cd : -Y / (X - Y) + X / (X - Y) = 1 := by field_simp; ring
      rw [abs_le]
      constructor <;> nlinarith [mul_le_mul_of_nonneg_left hu.1 c0, mul_le_mul_of_nonneg_left hu.2 c0,
        mul_le_mul_of_nonneg_left hw.1 d0, mul_le_mul_of_nonneg_left hw.2 d0]

/-! Convex polygons. -/

theorem triplewise_sublist {β : Type*} {p : β → β → β → Prop} {l m : List β} (h : l.Sublist m) (hm : m.Triplewise p) : l.Triplewise p := by
  induction h with
  | slnil => exact hm
  | cons a _ ih => exact ih (List.triplewise_cons.1 hm).2
  | cons_cons a h ih =>
    have := List.triplewise_cons.1 hm
    exact List.triplewise_cons.2 ⟨this.1.sublist h, ih this.2⟩

/-- Four vertices of a convex polygon do not alternate between the two sides of a line. -/
theorem no_alternation {a b c d : V2 α} (h1 : 0 < area2 b c d) (h2 : 0 < area2 a b d) (h3 : 0 < area2 a c d) (h4 : 0 < area2 a b c)
    {P : Bool} (ha : high a = P) (hb : high b = !P) (hc : high c = P) (hd : high d = !P) : False := by
  have e : area2 b c d * (a.y - 1 / 10000) + area2 a b d * (c.y - 1 / 10000) =
      area2 a c d * (b.y - 1 / 10000) + area2 a b c * (d.y - 1 / 10000) := by unfold area2; ring
  unfold high at ha hb hc hd
  cases P <;> simp only [decide_eq_true_eq, decide_eq_false_iff_not, not_le, Bool.not_true, Bool.not_false] at ha hb hc hd
  · have := mul_pos h1 (show 0 < 1 / 10000 - a.y by linarith)
    have := mul_pos h2 (show 0 < 1 / 10000 - c.y by linarith)
    have := mul_nonneg h3.le (show 0 ≤ b.y - 1 / 10000 by linarith)
    have := mul_nonneg h4.le (show 0 ≤ d.y - 1 / 10000 by linarith)
    linarith
  · have := mul_nonneg h1.le (show 0 ≤ a.y - 1 / 10000 by linarith)
    have := mul_nonneg h2.le (show 0 ≤ c.y - 1 / 10000 by linarith)
    have := mul_pos h3 (show 0 < 1 / 10000 - b.y by linarith)
    have := mul_pos h4 (show 0 < 1 / 10000 - d.y by linarith)
    linarith

/-- The number of steps from the low to the high side. -/
def ups {β : Type*} (P : β → Bool) (p0 : β) (l : List β) : ℕ := (walk p0 l).countP fun e => !P e.1 && P e.2

theorem ups_cons {β : Type*} (P : β → Bool) (p0 x : β) (l : List β) :
    ups P p0 (x :: l) = (if !P p0 && P x then 1 else 0) + ups P x l := by
  rw [ups, walk_cons, List.countP_cons, Nat.add_comm]; rfl

theorem ups_append {β : Type*} (P : β → Bool) (p0 : β) (l m : List β) :
    ups P p0 (l ++ m) = ups P p0 l + ups P (l.getLastD p0) m := by rw [ups, walk_append, List.countP_append]; rfl

theorem ups_const {β : Type*} (P : β → Bool) (p0 : β) (l : List β) (c : Bool) (h : ∀ x ∈ l, P x = c) :
    ups P p0 l = if l ≠ [] ∧ P p0 = false ∧ c = true then 1 else 0 := by
  induction l generalizing p0 with
  | nil => simp [ups, walk_nil]
  | cons x l ih =>
    rw [ups_cons, ih x fun y hy => h y (List.mem_cons_of_mem _ hy), h x (List.mem_cons_self ..)]
    cases hp : P p0 <;> cases c <;> simp

theorem getLastD_mem {β : Type*} {l : List β} (h : l ≠ []) (d : β) : l.getLastD d ∈ l := by
  rw [List.getLastD_eq_getLast?, List.getLast?_eq_some_getLast h]
  exact List.getLast_mem h

theorem side_split {β : Type*} (P : β → Bool) (l : List β) (c : Bool) (hne : ∀ a b x y : β, [a, b, x, y].Sublist l →
    P a = c → P b = !c → P x = c → P y = !c → False) (h0 : ∀ x ∈ l.head?, P x = c) :
    ∃ A B C, l = A ++ B ++ C ∧ (∀ x ∈ A, P x = c) ∧ (∀ x ∈ B, P x = !c) ∧ (∀ x ∈ C, P x = c) ∧ (l ≠ [] → A ≠ []) ∧ (B = [] → C = []) := by
  refine ⟨l.takeWhile fun x => P x == c, (l.dropWhile fun x => P x == c).takeWhile fun x => P x == !c,
    (l.dropWhile fun x => P x == c).dropWhile fun x => P x == !c, ?_, ?_, ?_, ?_, ?_, ?_⟩
  · rw [List.append_assoc, List.takeWhile_append_dropWhile, List.takeWhile_append_dropWhile]
  · intro x hx
    simpa using List.mem_takeWhile_imp hx
  · intro x hx
    simpa using List.mem_takeWhile_imp hx
  · intro x hx
    by_contra hxc
    have hxc' : P x = !c := by revert hxc; cases P x <;> cases c <;> simp
    set A := l.takeWhile fun x => P x == c with hA
    set D := l.dropWhile fun x => P x == c with hD
    set B := D.takeWhile fun x => P x == !c with hB
    set C := D.dropWhile fun x => P x == !c with hC
    have hl : l = A ++ (B ++ C) := by rw [hB, hC, List.takeWhile_append_dropWhile, hA, hD, List.takeWhile_append_dropWhile]
    -- the first element of C
    obtain ⟨c0, C', hC'⟩ : ∃ c0 C', C = c0 :: C' := by
      cases hcc : C with
      | nil => rw [hcc] at hx; cases hx
      | cons c0 C' => exact ⟨c0, C', rfl⟩
    have hc0 : P c0 = c := by
      have := List.head?_dropWhile_not (fun x => P x == !c) D
      rw [← hC, hC'] at this
      simp only [List.head?_cons] at this
      revert this; cases P c0 <;> cases c <;> simp
    have hx' : x ∈ C' := by
      rw [hC'] at hx
      rcases List.mem_cons.1 hx with h | h
      · rw [h] at hxc; exact absurd hc0 hxc
      · exact h
    obtain ⟨b0, B', hB'⟩ : ∃ b0 B', B = b0 :: B' := by
      cases hbb : B with
      | nil =>
        -- then D = C starts with an element on the side c, but D = dropWhile
        have hDC : D = C := by rw [← List.takeWhile_append_dropWhile (p := fun x => P x == !c) (l := D), ← hB, hbb]; rfl
        have := List.head?_dropWhile_not (fun x => P x == c) l
        rw [← hD, hDC, hC'] at this
        simp only [List.head?_cons] at this
        rw [hc0] at this
        simp at this
      | cons b0 B' => exact ⟨b0, B', rfl⟩
    have hb0 : P b0 = !c := by
      have : b0 ∈ B := by rw [hB']; exact List.mem_cons_self ..
      have h5 : (P b0 == !c) = true := List.mem_takeWhile_imp (p := fun x => P x == !c) (hB ▸ this)
      exact beq_iff_eq.1 h5
    obtain ⟨a0, A', hA'⟩ : ∃ a0 A', A = a0 :: A' := by
      cases haa : A with
      | nil =>
        rw [haa, hB', List.nil_append] at hl
        have := h0 b0 (by rw [hl]; rfl)
        rw [hb0] at this
        revert this; cases c <;> simp
      | cons a0 A' => exact ⟨a0, A', rfl⟩
    have ha0 : P a0 = c := by
      have : a0 ∈ A := by rw [hA']; exact List.mem_cons_self ..
      have h5 : (P a0 == c) = true := List.mem_takeWhile_imp (p := fun x => P x == c) (hA ▸ this)
      exact beq_iff_eq.1 h5
    refine hne a0 b0 c0 x ?_ ha0 hb0 hc0 hxc'
    rw [hl, hA', hB', hC']
    refine List.Sublist.cons_cons _ ?_
    refine List.Sublist.trans ?_ (List.sublist_append_right A' _)
    refine List.Sublist.cons_cons _ ?_
    refine List.Sublist.trans ?_ (List.sublist_append_right B' _)
    refine List.Sublist.cons_cons _ ?_
    exact List.singleton_sublist.2 hx'
  · intro hl
    cases l with
    | nil => exact absurd rfl hl
    | cons y l =>
      have := h0 y rfl
      rw [List.takeWhile_cons_of_pos (by simp [this])]
      simp
  · intro hB
    set D := l.dropWhile fun x => P x == c with hD
    cases hDD : D with
    | nil => rfl
    | cons d D' =>
      exfalso
      have := List.head?_dropWhile_not (fun x => P x == c) l
      rw [← hD, hDD] at this
      simp only [List.head?_cons] at this
      rw [hDD, List.takeWhile_cons_of_pos (by revert this; cases P d <;> cases c <;> simp)] at hB
      cases hB

/-- A closed walk whose vertices do not alternate, with vertices on both sides, goes up exactly once. -/
theorem ups_one {β : Type*} (P : β → Bool) {l : List β} {z : β} (hz : l.getLast? = some z)
    (hne : ∀ (c : Bool) (a b x y : β), [a, b, x, y].Sublist l → P a = c → P b = !c → P x = c → P y = !c → False)
    (hT : ∃ x ∈ l, P x = true) (hF : ∃ x ∈ l, P x = false) : ups P z l = 1 := by
  have hlne : l ≠ [] := by rintro rfl; cases hz
  obtain ⟨x0, l', hl'⟩ := List.exists_cons_of_ne_nil hlne
  obtain ⟨A, B, C, hl, hA, hB, hC, hAne, hBC⟩ := side_split P l (P x0) (hne (P x0)) (by rw [hl']; simp)
  have hA' := hAne hlne
  have hBne : B ≠ [] := by
    intro h
    have hC' := hBC h
    rw [h, hC', List.append_nil, List.append_nil] at hl
    obtain ⟨x, hx, hx1⟩ := hT
    obtain ⟨y, hy, hy1⟩ := hF
    rw [hl] at hx hy
    have h1 := hA x hx
    have h2 := hA y hy
    rw [hx1] at h1; rw [hy1, ← h1] at h2
    cases h2
  have hlastA : P (A.getLastD z) = P x0 := hA _ (getLastD_mem hA' z)
  have hlastB : P ((A ++ B).getLastD z) = !P x0 := by
    have : (A ++ B).getLastD z = B.getLastD z := by
      rw [List.getLastD_eq_getLast?, List.getLastD_eq_getLast?, List.getLast?_append_of_ne_nil _ hBne]
    rw [this]
    exact hB _ (getLastD_mem hBne z)
  have hzP : P z = if C = [] then !P x0 else P x0 := by
    split_ifs with h
    · rw [h, List.append_nil] at hl
      rw [← hlastB, ← hl, getLastD_of hz]
    · have : z ∈ C := by
        rw [hl, List.getLast?_append_of_ne_nil _ h] at hz
        exact List.mem_of_getLast? hz
      exact hC z this
  have : ups P z l = ups P z (A ++ B ++ C) := by rw [← hl]
  rw [this, ups_append, ups_append, ups_const P z A _ hA, ups_const P _ B _ hB, ups_const P _ C _ hC, hlastA, hlastB, hzP]
  by_cases hCe : C = [] <;> cases P x0 <;> simp [hCe, hA', hBne]

/-- A strictly convex polygon that contains the points `(0, ±2e-4)` in its interior has an odd crossing count. -/
theorem evenOdd_of_deep {l : List (V2 α)} (hl : l.Triplewise fun a b c => 0 < area2 a b c) (hT : ∃ v ∈ l, 1 / 10000 ≤ v.y) (hF : ∃ v ∈ l, v.y < 1 / 10000)
    (hd : ∀ e ∈ edges2 l, 0 < area2 e.1 e.2 ⟨0, 2 / 10000⟩ ∧ 0 < area2 e.1 e.2 ⟨0, -(2 / 10000)⟩) : evenOdd l = true := by
  obtain ⟨v, hv, hv1⟩ := hT
  have hlne : l ≠ [] := by rintro rfl; cases hv
  cases hz : l.getLast? with
  | none => exact absurd (List.getLast?_eq_none_iff.1 hz) hlne
  | some z =>
    rw [edges2_eq_walk hz] at hd
    rw [evenOdd_eq hz, walk_map, List.countP_map]
    have hups : ups high z l = 1 := by
      refine ups_one high hz ?_ ⟨v, hv, decide_eq_true hv1⟩ ?_
      · intro c a b x y hs ha hb hx hy
        have tri := triplewise_sublist hs hl
        simp only [List.triplewise_cons, List.pairwise_cons, List.mem_cons, List.not_mem_nil] at tri
        obtain ⟨t1, t2, -⟩ := tri
        refine no_alternation (a := a) (b := b) (c := x) (d := y) ?_ ?_ ?_ ?_ ha hb hx hy
        · exact t2.1 y (by simp)
        · exact t1.1 y (by simp)
        · exact t1.2.1 y (by simp)
        · exact t1.1 x (by simp)
      · obtain ⟨w, hw, hw1⟩ := hF
        exact ⟨w, hw, decide_eq_false (not_le.2 hw1)⟩
    have : ((walk z l).countP ((fun e : V2 α × V2 α => crosses e.1 e.2) ∘ fun e => (nudge e.1, nudge e.2))) = ups high z l := by
      apply List.countP_congr
      intro e he
      simp only [Function.comp, crosses_iff, straddle_iff]
      have key : high e.1 ≠ high e.2 → 0 < (e.2.y - e.1.y) * xAt (nudge e.1) (nudge e.2) := by
        intro hs
        obtain ⟨t, t0, t1, tx, ty⟩ := crossing_near hs
        obtain ⟨h1, h2⟩ := hd e he
        set Y := e.1.y + t * (e.2.y - e.1.y) with hY
        have hY' := abs_le.1 ty
        rw [← tx]
        have e3 : (e.2.y - e.1.y) * (e.1.x + t * (e.2.x - e.1.x)) = area2 e.1 e.2 ⟨0, Y⟩ := by
          unfold area2; rw [hY]; ring
        rw [e3]
        have e4 : (4 / 10000 : α) * area2 e.1 e.2 ⟨0, Y⟩ = (Y + 2 / 10000) * area2 e.1 e.2 ⟨0, 2 / 10000⟩ +
            (2 / 10000 - Y) * area2 e.1 e.2 ⟨0, -(2 / 10000)⟩ := by unfold area2; ring
        have e5 : (0 : α) < 2 / 10000 := by norm_num
        have : 0 < (4 / 10000 : α) * area2 e.1 e.2 ⟨0, Y⟩ := by
          rw [e4]
          rcases lt_or_ge Y 0 with h | h
          · have := mul_pos (show 0 < 2 / 10000 - Y by linarith) h2
            have := mul_nonneg (show 0 ≤ Y + 2 / 10000 by linarith) h1.le
            linarith
          · have := mul_pos (show 0 < Y + 2 / 10000 by linarith) h1
            have := mul_nonneg (show 0 ≤ 2 / 10000 - Y by linarith) h2.le
            linarith
        exact pos_of_mul_pos_right this (by norm_num)
      constructor
      · rintro ⟨h1, h2⟩
        have := key h1
        have hy : 0 < e.2.y - e.1.y := pos_of_mul_pos_left this h2.le
        have hh : ¬ (high e.1 = true ∧ high e.2 = false) := by
          rintro ⟨h3, h4⟩
          have h3' := of_decide_eq_true h3
          have h4' := of_decide_eq_false h4
          linarith [not_le.1 h4']
        revert h1 hh
        cases high e.1 <;> cases high e.2 <;> simp
      · intro h
        have h1 : high e.1 = false ∧ high e.2 = true := by
          revert h; cases high e.1 <;> cases high e.2 <;> simp
        have hne : high e.1 ≠ high e.2 := by rw [h1.1, h1.2]; simp
        refine ⟨hne, ?_⟩
        have := key hne
        have h3' := of_decide_eq_false h1.1
        have h4' := of_decide_eq_true h1.2
        have hy : 0 < e.2.y - e.1.y := by linarith [not_le.1 h3']
        exact pos_of_mul_pos_right this hy.le
    rw [this, hups]
    exact odd_one

/-! Edges and hulls. -/

theorem walk_index {β : Type*} {l : List β} {z : β} (hz : l.getLast? = some z) {e : β × β} (h : e ∈ walk z l) :
    ∃ (i : ℕ) (hi : i < l.length), e.2 = l[i] ∧ e.1 = l[if i = 0 then l.length - 1 else i - 1]'(by split_ifs <;> omega) := by
  obtain ⟨i, hi, he⟩ := List.mem_iff_getElem.1 h
  have hlen : (walk z l).length = l.length := by rw [walk, List.length_zip, List.length_cons]; omega
  rw [hlen] at hi
  refine ⟨i, hi, ?_, ?_⟩
  · rw [← he]; simp only [walk, List.getElem_zip]
  · rw [← he]
    simp only [walk, List.getElem_zip]
    rcases Nat.eq_zero_or_pos i with h0 | h0
    · subst h0
      simp only [List.getElem_cons_zero, if_true]
      rw [List.getLast?_eq_getElem?, List.getElem?_eq_getElem (by omega)] at hz
      exact (Option.some.inj hz).symm
    · have : ¬ i = 0 := by omega
      simp only [this, if_false]
      rw [List.getElem_cons]
      simp [this]

/-- All vertices of a convex polygon are to the left of its edges. -/
theorem edge_left {l : List (V2 α)} (hl : l.Triplewise fun a b c => 0 < area2 a b c) {z : V2 α} (hz : l.getLast? = some z)
    {e : V2 α × V2 α} (he : e ∈ walk z l) {v : V2 α} (hv : v ∈ l) : 0 ≤ area2 e.1 e.2 v := by
  obtain ⟨i, hi, h2, h1⟩ := walk_index hz he
  obtain ⟨k, hk, rfl⟩ := List.mem_iff_getElem.1 hv
  have T := List.triplewise_iff_getElem.1 hl
  have z1 : ∀ a b : V2 α, area2 a b a = 0 := fun a b => by unfold area2; ring
  have z2 : ∀ a b : V2 α, area2 a b b = 0 := fun a b => by unfold area2; ring
  have cyc : ∀ a b c : V2 α, area2 a b c = area2 c a b := fun a b c => by unfold area2; ring
  rw [h1, h2]
  rcases Nat.eq_zero_or_pos i with h0 | h0
  · subst h0
    simp only [if_true]
    rcases Nat.eq_zero_or_pos k with k0 | k0
    · subst k0; rw [z2]
    · rcases Nat.lt_or_ge k (l.length - 1) with k1 | k1
      · rw [cyc, cyc]; exact (T 0 k (l.length - 1) k0 k1 (by omega)).le
      · have : k = l.length - 1 := by omega
        subst this; rw [z1]
  · have hne : ¬ i = 0 := by omega
    simp only [hne, if_false]
    rcases Nat.lt_trichotomy k (i - 1) with k1 | k1 | k1
    · rw [cyc]; exact (T k (i - 1) i k1 (by omega) hi).le
    · subst k1; rw [z1]
    · rcases Nat.eq_or_lt_of_le (show i ≤ k by omega) with k2 | k2
      · subst k2; rw [z2]
      · exact (T (i - 1) i k (by omega) k2 hk).le

theorem hull2_left {l : List (V2 α)} {a b : V2 α} (h : ∀ v ∈ l, 0 ≤ area2 a b v) {q : V2 α} (hq : q ∈ hull2 l) : 0 ≤ area2 a b q := by
  refine hq {q | 0 ≤ area2 a b q} ?_ h
  intro p hp q hq s t hs ht hst
  show 0 ≤ area2 a b _
  have e : area2 a b ⟨s * p.x + t * q.x, s * p.y + t * q.y⟩ = s * area2 a b p + t * area2 a b q := by
    unfold area2
    linear_combination ((b.y - a.y) * a.x - (b.x - a.x) * a.y) * (1 - hst)
  rw [e]
  exact add_nonneg (mul_nonneg hs hp) (mul_nonneg ht hq)

theorem hull2_y {l : List (V2 α)} {q : V2 α} (hq : q ∈ hull2 l) {c : α} (h : ∀ v ∈ l, v.y < c) : q.y < c := by
  refine hq {q | q.y < c} ?_ h
  intro p hp q hq s t hs ht hst
  show s * p.y + t * q.y < c
  have hp' : p.y < c := hp
  have hq' : q.y < c := hq
  rcases hs.eq_or_lt with h0 | h0
  · rw [← h0] at hst ⊢; have : t = 1 := by linarith
    rw [this]; linarith
  · have e : s * c + t * c = c := by rw [← add_mul, hst, one_mul]
    linarith [mul_lt_mul_of_pos_left hp' h0, mul_le_mul_of_nonneg_left hq'.le ht]

theorem hull2_y' {l : List (V2 α)} {q : V2 α} (hq : q ∈ hull2 l) {c : α} (h : ∀ v ∈ l, c ≤ v.y) : c ≤ q.y := by
  refine hq {q | c ≤ q.y} ?_ h
  intro p hp q hq s t hs ht hst
  show c ≤ s * p.y + t * q.y
  have hp' : c ≤ p.y := hp
  have hq' : c ≤ q.y := hq
  have e : s * c + t * c = c := by rw [← add_mul, hst, one_mul]
  linarith [mul_le_mul_of_nonneg_left hp' hs, mul_le_mul_of_nonneg_left hq' ht]

/-- A point with a barycentric description. -/
def InTri2 (a b c q : V2 α) : Prop :=
  ∃ u v w : α, 0 ≤ u ∧ 0 ≤ v ∧ 0 ≤ w ∧ u + v + w = 1 ∧ q.x = u * a.x + v * b.x + w * c.x ∧ q.y = u * a.y + v * b.y + w * c.y

theorem inTri2_of {a b c q : V2 α} (h : 0 < area2 a b c) (h1 : 0 ≤ area2 a b q) (h2 : 0 ≤ area2 b c q) (h3 : 0 ≤ area2 c a q) :
    InTri2 a b c q := by
  refine ⟨area2 b c q / area2 a b c, area2 c a q / area2 a b c, area2 a b q / area2 a b c, div_nonneg h2 h.le, div_nonneg h3 h.le,
    div_nonneg h1 h.le, ?_, ?_, ?_⟩
  · rw [← add_div, ← add_div, div_eq_one_iff_eq h.ne']; unfold area2; ring
  · have : q.x * area2 a b c = area2 b c q * a.x + area2 c a q * b.x + area2 a b q * c.x := by unfold area2; ring
    field_simp; linarith
  · have : q.y * area2 a b c = area2 b c q * a.y + area2 c a q * b.y + area2 a b q * c.y := by unfold area2; ring
    field_simp; linarith

/-- Between the first and the last vertex of a chain there is a triangle of the fan that contains the point. -/
theorem fan_cover (a q : V2 α) : ∀ (r : List (V2 α)) (b c : V2 α), (a :: b :: c :: r).Triplewise (fun a b c => 0 < area2 a b c) →
    0 ≤ area2 a b q → (∀ e ∈ walk b (c :: r), 0 ≤ area2 e.1 e.2 q) → area2 a ((c :: r).getLastD b) q ≤ 0 →
    ∃ t ∈ Spec.fan a (b :: c :: r), InTri2 t.1 t.2.1 t.2.2 q := by
  intro r
  induction r with
  | nil =>
    intro b c hT h1 h2 h3
    refine ⟨(a, b, c), by simp [Spec.fan], ?_⟩
    rw [List.triplewise_triple] at hT
    refine inTri2_of hT h1 (h2 (b, c) (by simp [walk_cons])) ?_
    have : area2 a c q ≤ 0 := h3
    have e : area2 c a q = -area2 a c q := by unfold area2; ring
    rw [e]; linarith
  | cons d r ih =>
    intro b c hT h1 h2 h3
    by_cases hc : 0 ≤ area2 a c q
    · obtain ⟨t, ht, h⟩ := ih c d (triplewise_sublist (List.Sublist.cons_cons a (List.sublist_cons_self b _)) hT) hc
        (fun e he => h2 e (by rw [walk_cons]; exact List.mem_cons_of_mem _ he)) h3
      exact ⟨t, by rw [Spec.fan]; exact List.mem_cons_of_mem _ ht, h⟩
    · refine ⟨(a, b, c), by simp [Spec.fan], ?_⟩
      have hT' := (List.triplewise_iff_getElem.1 hT) 0 1 2 (by omega) (by omega) (by simp)
      refine inTri2_of hT' h1 (h2 (b, c) (by simp [walk_cons])) ?_
      have e : area2 c a q = -area2 a c q := by unfold area2; ring
      rw [e]; linarith

/-- The fan of a convex polygon covers its hull. -/
theorem hull_fan {a b c : V2 α} {r : List (V2 α)} (hT : (a :: b :: c :: r).Triplewise (fun a b c => 0 < area2 a b c)) {q : V2 α}
    (hq : q ∈ hull2 (a :: b :: c :: r)) : ∃ t ∈ Spec.fan a (b :: c :: r), InTri2 t.1 t.2.1 t.2.2 q := by
  have hz : (a :: b :: c :: r).getLast? = some ((c :: r).getLastD b) := by
    rw [List.getLast?_cons_cons, List.getLast?_cons, List.getLastD_eq_getLast?]
  have hleft : ∀ e ∈ walk ((c :: r).getLastD b) (a :: b :: c :: r), 0 ≤ area2 e.1 e.2 q := fun e he =>
    hull2_left (fun v hv => edge_left hT hz he hv) hq
  rw [walk_cons, walk_cons] at hleft
  refine fan_cover a q r b c hT (hleft (a, b) (by simp)) (fun e he => hleft e (by simp [he])) ?_
  have := hleft ((c :: r).getLastD b, a) (by simp)
  have e : area2 ((c :: r).getLastD b) a q = -area2 a ((c :: r).getLastD b) q := by unfold area2; ring
  rw [e] at this
  linarith

end Polygon
end MGL
