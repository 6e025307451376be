import Verif.Spec.Hull2D
import Verif.Model.Hull2D
import Mathlib.Tactic.Ring
import Mathlib.Tactic.Linarith
import Mathlib.Tactic.LinearCombination
import Mathlib.Tactic.Positivity
import Mathlib.Tactic.FieldSimp

/-! Helper lemmas for the planar convex hull. -/

set_option linter.unusedSectionVars false

namespace MGL.Hull2D
open Spec

variable {α : Type*} [Field α] [LinearOrder α] [IsStrictOrderedRing α]

/-! ### The order of directions in the right half plane -/

theorem cross_trans {ux uy vx vy wx wy : α} (hu : 0 < ux ∨ ux = 0 ∧ 0 ≤ uy) (hv : 0 < vx ∨ vx = 0 ∧ 0 < vy)
    (hw : 0 < wx ∨ wx = 0 ∧ 0 ≤ wy) (h1 : 0 ≤ ux * vy - uy * vx) (h2 : 0 ≤ vx * wy - vy * wx) : 0 ≤ ux * wy - uy * wx := by
  have hux : 0 ≤ ux := by rcases hu with h | h; exacts [h.le, h.1.ge]
  have hwx : 0 ≤ wx := by rcases hw with h | h; exacts [h.le, h.1.ge]
  rcases hv with hv | ⟨hv, hv'⟩
  · have e : vx * (ux * wy - uy * wx) = ux * (vx * wy - vy * wx) + wx * (ux * vy - uy * vx) := by ring
    exact nonneg_of_mul_nonneg_right (by rw [e]; positivity) hv
  · rw [hv, zero_mul, zero_sub] at h2
    have : wx = 0 := le_antisymm (by by_contra hh; push Not at hh; have := mul_pos hv' hh; linarith) hwx
    rw [this]
    have hy : 0 ≤ wy := by rcases hw with h | h; exacts [absurd this h.ne', h.2]
    have := mul_nonneg hux hy
    linarith

theorem cross_trans_lt {ux uy vx vy wx wy : α} (hu : 0 < ux ∨ ux = 0 ∧ 0 ≤ uy) (hv : 0 < vx ∨ vx = 0 ∧ 0 < vy)
    (hw : 0 < wx ∨ wx = 0 ∧ 0 < wy) (h1 : 0 < ux * vy - uy * vx) (h2 : 0 ≤ vx * wy - vy * wx) : 0 < ux * wy - uy * wx := by
  have hux : 0 ≤ ux := by rcases hu with h | h; exacts [h.le, h.1.ge]
  have hwx : 0 ≤ wx := by rcases hw with h | h; exacts [h.le, h.1.ge]
  rcases hv with hv | ⟨hv, hv'⟩
  · have e : vx * (ux * wy - uy * wx) = ux * (vx * wy - vy * wx) + wx * (ux * vy - uy * vx) := by ring
    refine pos_of_mul_pos_right ?_ hv.le (b := ux * wy - uy * wx)
    rw [e]
    rcases hw with hw | ⟨hw, hw'⟩
    · have := mul_nonneg hux h2; have := mul_pos hw h1; linarith
    · rw [hw, zero_mul, mul_zero, sub_zero, add_zero]
      have : 0 < ux := by
        rcases hu with h | ⟨h, h'⟩
        · exact h
        · rw [h] at h1; have := mul_nonneg h' hv.le; linarith
      positivity
  · rw [hv, zero_mul, zero_sub] at h2
    rw [hv, mul_zero, sub_zero] at h1
    have hx : wx = 0 := le_antisymm (by by_contra hh; push Not at hh; have := mul_pos hv' hh; linarith) hwx
    have hy : 0 < wy := by rcases hw with h | h; exacts [absurd hx h.ne', h.2]
    have : 0 < ux := pos_of_mul_pos_left h1 hv'.le
    rw [hx, mul_zero, sub_zero]
    positivity

theorem cross_trans_lt' {ux uy vx vy wx wy : α} (hu : 0 < ux ∨ ux = 0 ∧ 0 < uy) (hv : 0 < vx ∨ vx = 0 ∧ 0 < vy)
    (hw : 0 < wx ∨ wx = 0 ∧ 0 ≤ wy) (h1 : 0 ≤ ux * vy - uy * vx) (h2 : 0 < vx * wy - vy * wx) : 0 < ux * wy - uy * wx := by
  rcases h1.lt_or_eq with h1 | h1
  · rcases hw with hw | ⟨hw, hw'⟩
    · exact cross_trans_lt (hu.imp id fun h => ⟨h.1, h.2.le⟩) hv (Or.inl hw) h1 h2.le
    · rcases hw'.lt_or_eq with hw' | hw'
      · exact cross_trans_lt (hu.imp id fun h => ⟨h.1, h.2.le⟩) hv (Or.inr ⟨hw, hw'⟩) h1 h2.le
      · rw [hw, ← hw'] at h2; simp at h2
  · have hux : 0 ≤ ux := by rcases hu with h | h; exacts [h.le, h.1.ge]
    have hwx : 0 ≤ wx := by rcases hw with h | h; exacts [h.le, h.1.ge]
    rcases hv with hv | ⟨hv, hv'⟩
    · have e : vx * (ux * wy - uy * wx) = ux * (vx * wy - vy * wx) + wx * (ux * vy - uy * vx) := by ring
      refine pos_of_mul_pos_right ?_ hv.le (b := ux * wy - uy * wx)
      rw [e, ← h1, mul_zero, add_zero]
      have : 0 < ux := by
        rcases hu with h | ⟨h, h'⟩
        · exact h
        · rw [h] at h1; have := mul_pos h' hv; linarith
      positivity
    · rw [hv, zero_mul, zero_sub] at h2
      have := mul_nonneg hv'.le hwx
      linarith

/-! ### The lexicographic order -/

theorem lexLt_iff {a b : V2 α} : lexLt a b ↔ (0 < b.x - a.x ∨ b.x - a.x = 0 ∧ 0 < b.y - a.y) := by
  unfold lexLt
  rw [sub_pos, sub_pos, sub_eq_zero, eq_comm (a := b.x)]

theorem lexLe_iff' {a b : V2 α} : lexLe a b ↔ (0 < b.x - a.x ∨ b.x - a.x = 0 ∧ 0 ≤ b.y - a.y) := by
  unfold lexLe lexLt
  rw [sub_pos, sub_nonneg, sub_eq_zero, not_or, not_and, not_lt]
  constructor
  · rintro ⟨h1, h2⟩
    rcases h1.lt_or_eq with h | h
    · exact Or.inl h
    · exact Or.inr ⟨h.symm, not_lt.1 (h2 h.symm)⟩
  · rintro (h | ⟨h, h'⟩)
    · exact ⟨h.le, fun hh => absurd hh h.ne'⟩
    · exact ⟨h.ge, fun _ => not_lt.2 h'⟩

theorem lexLe_iff {a b : V2 α} : lexLe a b ↔ lexLt a b ∨ a = b := by
  rw [lexLe_iff', lexLt_iff]
  constructor
  · rintro (h | ⟨h, h'⟩)
    · exact Or.inl (Or.inl h)
    · rcases h'.lt_or_eq with h'' | h''
      · exact Or.inl (Or.inr ⟨h, h''⟩)
      · exact Or.inr (V2.ext (sub_eq_zero.1 h).symm (sub_eq_zero.1 h''.symm).symm)
  · rintro ((h | h) | rfl)
    · exact Or.inl h
    · exact Or.inr ⟨h.1, h.2.le⟩
    · exact Or.inr ⟨sub_self _, (sub_self _).ge⟩

theorem lexLt_irrefl (a : V2 α) : ¬ lexLt a a := by rw [lexLt_iff]; simp

theorem lexLt_trans {a b c : V2 α} (h1 : lexLt a b) (h2 : lexLt b c) : lexLt a c := by
  unfold lexLt at *
  rcases h1 with h1 | ⟨h1, h1'⟩ <;> rcases h2 with h2 | ⟨h2, h2'⟩
  · exact Or.inl (h1.trans h2)
  · exact Or.inl (h2 ▸ h1)
  · exact Or.inl (h1 ▸ h2)
  · exact Or.inr ⟨h1.trans h2, h1'.trans h2'⟩

theorem lexLe_trans {a b c : V2 α} (h1 : lexLe a b) (h2 : lexLe b c) : lexLe a c := by
  rw [lexLe_iff] at *
  rcases h1 with h1 | rfl
  · rcases h2 with h2 | rfl
    · exact Or.inl (lexLt_trans h1 h2)
    · exact Or.inl h1
  · exact h2

theorem lexLt_of_lt_of_le {a b c : V2 α} (h1 : lexLt a b) (h2 : lexLe b c) : lexLt a c := by
  rcases lexLe_iff.1 h2 with h2 | rfl
  · exact lexLt_trans h1 h2
  · exact h1

theorem lexLe_total (a b : V2 α) : lexLe a b ∨ lexLe b a := by
  by_cases h : lexLt a b
  · exact Or.inl (lexLe_iff.2 (Or.inl h))
  · exact Or.inr h

theorem lexLe_refl (a : V2 α) : lexLe a a := lexLe_iff.2 (Or.inr rfl)

theorem lexLt.le {a b : V2 α} (h : lexLt a b) : lexLe a b := lexLe_iff.2 (Or.inl h)

theorem lexLe_antisymm {a b : V2 α} (h1 : lexLe a b) (h2 : lexLe b a) : a = b := by
  rcases lexLe_iff.1 h1 with h | h
  · exact absurd h h2
  · exact h

/-! ### Turns -/

theorem perp_eq (a b c : V2 α) : perpDot2D a b c = area2 a b c := rfl

/-- A convex chain that goes to the right: the first and the last three of four points turn left, then so do the others. -/
theorem turn_ext {a b c d : V2 α} (ab : lexLt a b) (bc : lexLt b c) (cd : lexLt c d) (h1 : 0 < area2 a b c) (h2 : 0 < area2 b c d) :
    0 < area2 a b d ∧ 0 < area2 a c d := by
  rw [lexLt_iff] at ab bc cd
  have := cross_trans_lt (ab.imp id fun h => ⟨h.1, h.2.le⟩) bc cd (by unfold area2 at h1; linear_combination h1)
    (by unfold area2 at h2; linear_combination h2.le)
  unfold area2 at *
  constructor
  · linear_combination this + h1
  · linear_combination this + h2

theorem area2_cycle (a b c : V2 α) : area2 a b c = area2 b c a := by unfold area2; ring

/-! ### Half chains, as stacks (last point first) -/

/-- A strictly convex chain that goes strictly to the right. -/
def Strict (st : List (V2 α)) : Prop := st.Pairwise (fun a b => lexLt b a) ∧ st.Triplewise fun a b c => 0 < area2 c b a

/-- … or twice the same point. -/
def Good (st : List (V2 α)) : Prop := Strict st ∨ ∃ a, st = [a, a]

/-- The point is above the chain: between two neighbours of the chain and to the left of their edge. -/
def Cov : List (V2 α) → V2 α → Prop
  | [], _ => False
  | [a], q => q = a
  | b :: a :: r, q => (lexLe a q ∧ lexLe q b ∧ 0 ≤ area2 a b q) ∨ Cov (a :: r) q

theorem cov_cons {x : V2 α} {st : List (V2 α)} {q : V2 α} (h : Cov st q) : Cov (x :: st) q := by
  cases st with
  | nil => exact h.elim
  | cons a r => exact Or.inr h

theorem cov_self {x t : V2 α} {r : List (V2 α)} (h : lexLe t x) : Cov (x :: t :: r) x :=
  Or.inl ⟨h, lexLe_refl x, by unfold area2; ring_nf; exact le_refl _⟩

theorem cov_pop {s t x : V2 α} {r : List (V2 α)} (st : lexLt s t) (tx : lexLe t x) (h : area2 s t x ≤ 0) {q : V2 α}
    (hq : Cov (x :: t :: s :: r) q) : Cov (x :: s :: r) q := by
  rcases hq with ⟨h1, h2, h3⟩ | ⟨h1, h2, h3⟩ | hq
  · left
    refine ⟨lexLe_trans st.le h1, h2, ?_⟩
    rcases lexLe_iff.1 tx with tx | rfl
    · have a := lexLe_iff'.1 h2
      have b := lexLt_iff.1 tx
      have c := lexLe_iff'.1 (lexLt_trans st tx).le
      have := cross_trans a b c (by unfold area2 at h3; linear_combination h3) (by unfold area2 at h; linear_combination h)
      unfold area2
      linear_combination this
    · have : q = t := lexLe_antisymm h2 h1
      rw [this]; unfold area2; ring_nf; exact le_refl _
  · left
    refine ⟨h1, lexLe_trans h2 tx, ?_⟩
    have sx := lexLt_of_lt_of_le st tx
    have := cross_trans (lexLe_iff'.1 sx.le) (lexLt_iff.1 st) (lexLe_iff'.1 h1) (by unfold area2 at h; linear_combination h)
      (by unfold area2 at h3; linear_combination h3)
    unfold area2
    linear_combination this
  · exact Or.inr hq

theorem cov_points {st : List (V2 α)} {q : V2 α} (h : Cov st q) :
    ∃ a ∈ st, ∃ b ∈ st, lexLe a q ∧ lexLe q b ∧ 0 ≤ area2 a b q := by
  induction st with
  | nil => exact h.elim
  | cons x r ih =>
    cases r with
    | nil =>
      have : q = x := h
      subst this
      exact ⟨q, by simp, q, by simp, lexLe_refl _, lexLe_refl _, by unfold area2; ring_nf; exact le_refl _⟩
    | cons y r =>
      rcases h with ⟨h1, h2, h3⟩ | h
      · exact ⟨y, by simp, x, by simp, h1, h2, h3⟩
      · obtain ⟨a, ha, b, hb, hh⟩ := ih h
        exact ⟨a, List.mem_cons_of_mem _ ha, b, List.mem_cons_of_mem _ hb, hh⟩

theorem Strict.tail {x : V2 α} {st : List (V2 α)} (h : Strict (x :: st)) : Strict st :=
  ⟨(List.pairwise_cons.1 h.1).2, (List.triplewise_cons.1 h.2).2⟩

/-- A point to the left of the last edge and to the right of the chain is to the left of all chords. -/
theorem Strict.pairs (st : List (V2 α)) : ∀ (t s x : V2 α), Strict (t :: s :: st) → lexLt t x → 0 < area2 s t x →
    (t :: s :: st).Pairwise fun b c => 0 < area2 c b x := by
  induction st with
  | nil => intro t s x h tx ha; simp [ha]
  | cons r st ih =>
    intro t s x h tx ha
    have ts : lexLt s t := (List.pairwise_cons.1 h.1).1 s (by simp)
    have hrs : 0 < area2 r s t := by
      have := (List.triplewise_cons.1 h.2).1
      exact (List.pairwise_cons.1 this).1 r (by simp)
    have rs : lexLt r s := (List.pairwise_cons.1 h.tail.1).1 r (by simp)
    rw [List.pairwise_cons]
    refine ⟨?_, ih s r x h.tail (lexLt_trans ts tx) (turn_ext rs ts tx hrs ha).1⟩
    intro c hc
    rcases List.mem_cons.1 hc with rfl | hc
    · exact ha
    · have cs : lexLt c s := (List.pairwise_cons.1 h.tail.1).1 c hc
      have : 0 < area2 c s t := by
        have := (List.triplewise_cons.1 h.2).1
        exact (List.pairwise_cons.1 this).1 c hc
      exact (turn_ext cs ts tx this ha).2

theorem popWhile_spec : ∀ (r : List (V2 α)) (t x : V2 α), Strict (t :: r) → lexLe t x →
    ∃ st, popWhile 1 x (t :: r) = some st ∧ st <:+ (t :: r) ∧ st ≠ [] ∧ Good (x :: st) ∧
      ∀ q, Cov (x :: t :: r) q → Cov (x :: st) q := by
  intro r
  induction r with
  | nil =>
    intro t x h tx
    refine ⟨[t], by simp [popWhile], List.suffix_refl _, by simp, ?_, fun q h => h⟩
    rcases lexLe_iff.1 tx with tx | rfl
    · exact Or.inl ⟨by simpa using tx, by simp⟩
    · exact Or.inr ⟨t, rfl⟩
  | cons s r ih =>
    intro t x h tx
    have ts : lexLt s t := (List.pairwise_cons.1 h.1).1 s (by simp)
    by_cases hp : area2 s t x ≤ 0
    · obtain ⟨st, h1, h2, h3, h4, h5⟩ := ih s x h.tail (lexLe_trans ts.le tx)
      refine ⟨st, ?_, h2.trans (List.suffix_cons _ _), h3, h4, fun q hq => h5 q (cov_pop ts tx hp hq)⟩
      rw [popWhile, if_pos ⟨by omega, hp⟩, h1]
    · refine ⟨t :: s :: r, ?_, List.suffix_refl _, by simp, Or.inl ?_, fun q h => h⟩
      · rw [popWhile, if_neg (fun hh => hp hh.2)]
      · push Not at hp
        have tx' : lexLt t x := by
          rcases lexLe_iff.1 tx with h | rfl
          · exact h
          · exfalso; have : area2 s t t = 0 := by unfold area2; ring
            rw [this] at hp; exact lt_irrefl _ hp
        refine ⟨List.pairwise_cons.2 ⟨?_, h.1⟩, List.triplewise_cons.2 ⟨Strict.pairs r t s x h tx' hp, h.2⟩⟩
        intro b hb
        rcases List.mem_cons.1 hb with rfl | hb
        · exact tx'
        · exact lexLt_trans ((List.pairwise_cons.1 h.1).1 b hb) tx'

theorem popWhile_good {t x : V2 α} {r : List (V2 α)} (h : Good (t :: r)) (tx : lexLe t x) :
    ∃ st, popWhile 1 x (t :: r) = some st ∧ st <:+ (t :: r) ∧ st ≠ [] ∧ Good (x :: st) ∧
      ∀ q, Cov (x :: t :: r) q → Cov (x :: st) q := by
  rcases h with h | ⟨a, h⟩
  · exact popWhile_spec r t x h tx
  · obtain ⟨rfl, rfl⟩ := List.cons.inj h
    refine ⟨[t], ?_, List.suffix_cons _ _, by simp, ?_, ?_⟩
    · rw [popWhile, if_pos ⟨by simp, by unfold perpDot2D; ring_nf; exact le_refl _⟩]
      simp [popWhile]
    · rcases lexLe_iff.1 tx with tx | rfl
      · exact Or.inl ⟨by simpa using tx, by simp⟩
      · exact Or.inr ⟨t, rfl⟩
    · rintro q (h | ⟨h1, h2, -⟩ | h)
      · exact Or.inl h
      · exact Or.inr (lexLe_antisymm h2 h1)
      · exact Or.inr h

theorem getLast?_suffix {β : Type*} {l m : List β} (h : l <:+ m) (hl : l ≠ []) : l.getLast? = m.getLast? := by
  obtain ⟨t, rfl⟩ := h
  rw [List.getLast?_append_of_ne_nil _ hl]

/-- The scan over sorted points. -/
theorem scan_spec (cap : ℕ) : ∀ (xs : List (V2 α)) (t : V2 α) (r : List (V2 α)), Good (t :: r) → (t :: xs).Pairwise lexLe →
    r.length + 1 + xs.length ≤ cap →
    ∃ st, scan cap 1 xs (t :: r) = some st ∧ Good st ∧ (∀ v ∈ st, v ∈ t :: r ∨ v ∈ xs) ∧ (∀ q, Cov (t :: r) q ∨ q ∈ xs → Cov st q) ∧
      st.getLast? = (t :: r).getLast? ∧ st.head? = (t :: xs).getLast? ∧ st.length ≤ r.length + 1 + xs.length ∧
      (xs ≠ [] → 2 ≤ st.length) := by
  intro xs
  induction xs with
  | nil =>
    intro t r h _ _
    exact ⟨t :: r, rfl, h, fun v hv => Or.inl hv, fun q hq => hq.elim id (fun h => by cases h), rfl, rfl, le_refl _, fun h => absurd rfl h⟩
  | cons x xs ih =>
    intro t r h hs hc
    have tx : lexLe t x := (List.pairwise_cons.1 hs).1 x (by simp)
    obtain ⟨st, h1, h2, h3, h4, h5⟩ := popWhile_good h tx
    have hl : st.length ≤ r.length + 1 := h2.length_le
    rw [List.length_cons] at hc
    obtain ⟨st', k1, k2, k3, k4, k5, k6, k7, k8⟩ := ih x st h4 (List.pairwise_cons.1 hs).2 (by omega)
    refine ⟨st', ?_, k2, ?_, ?_, ?_, ?_, by rw [List.length_cons]; omega, ?_⟩
    · rw [scan, h1]; dsimp only; rw [if_pos (by omega), k1]
    · intro v hv
      rcases k3 v hv with h | h
      · rcases List.mem_cons.1 h with rfl | h
        · exact Or.inr (by simp)
        · exact Or.inl (h2.subset h)
      · exact Or.inr (List.mem_cons_of_mem _ h)
    · rintro q (hq | hq)
      · exact k4 q (Or.inl (h5 q (cov_cons hq)))
      · rcases List.mem_cons.1 hq with rfl | hq
        · exact k4 q (Or.inl (h5 q (cov_self tx)))
        · exact k4 q (Or.inr hq)
    · rw [k5, List.getLast?_cons_of_ne_nil h3, getLast?_suffix h2 h3]
    · rw [k6, List.getLast?_cons_cons]
    · intro _
      by_cases hx : xs = []
      · subst hx
        rw [scan] at k1
        have := Option.some.inj k1
        rw [← this, List.length_cons]
        have := List.length_pos_of_ne_nil h3
        omega
      · exact k8 hx

end MGL.Hull2D
