import Verif.Model.AABB
import Mathlib.Data.List.Basic

/-! The running search of `ExtremePointsAlongAABB` finds a least key. -/

namespace MGL
variable {α β : Type*} [LinearOrder α] [LinearOrder β]

theorem extremeIndex_loop (key : V3 α → β) (all : List (V3 α)) : ∀ (rest : List (V3 α)) (n i : ℕ) (p : V3 α),
    all.drop n = rest → n ≤ all.length → all[i]? = some p → i < n → (∀ j q, j < n → all[j]? = some q → key p ≤ key q) →
    ∃ q, all[(rest.foldl (fun (s : ℕ × (ℕ × V3 α)) q => (s.1 + 1, if key q < key s.2.2 then (s.1, q) else s.2)) (n, (i, p))).2.1]? = some q ∧
      ∀ r ∈ all, key q ≤ key r := by
  intro rest
  induction rest with
  | nil =>
    intro n i p hd hn hp hi hmin
    refine ⟨p, hp, ?_⟩
    intro r hr
    obtain ⟨j, hj, rfl⟩ := List.mem_iff_getElem.1 hr
    have : all.length ≤ n := List.drop_eq_nil_iff.1 hd
    exact hmin j _ (by omega) (List.getElem?_eq_getElem hj)
  | cons x xs ih =>
    intro n i p hd hn hp hi hmin
    have hlt : n < all.length := by
      by_contra hc
      rw [List.drop_eq_nil_iff.2 (by omega)] at hd; cases hd
    have hx : all[n]? = some x := by
      have := List.drop_eq_getElem_cons hlt
      rw [this] at hd
      rw [List.getElem?_eq_getElem hlt]; congr 1
      exact (List.cons.inj hd).1
    have hd' : all.drop (n + 1) = xs := by
      have := List.drop_eq_getElem_cons hlt
      rw [this] at hd
      exact (List.cons.inj hd).2
    rw [List.foldl_cons]
    by_cases hk : key x < key p
    · simp only [hk, if_true]
      refine ih (n + 1) n x hd' hlt hx (Nat.lt_succ_self _) ?_
      intro j q hj hq
      rcases Nat.lt_succ_iff_lt_or_eq.1 hj with h | h
      · exact hk.le.trans (hmin j q h hq)
      · subst h; rw [hx] at hq; rw [Option.some.inj hq]
    · simp only [hk, if_false]
      refine ih (n + 1) i p hd' hlt hp (by omega) ?_
      intro j q hj hq
      rcases Nat.lt_succ_iff_lt_or_eq.1 hj with h | h
      · exact hmin j q h hq
      · subst h; rw [hx] at hq; rw [← Option.some.inj hq]; exact not_lt.1 hk

theorem extremeIndex_spec (key : V3 α → β) (ps : List (V3 α)) (h : ps ≠ []) :
    ∃ q, ps[AABB.extremeIndex key ps]? = some q ∧ ∀ r ∈ ps, key q ≤ key r := by
  cases ps with
  | nil => exact absurd rfl h
  | cons p rest =>
    refine extremeIndex_loop key (p :: rest) rest 1 0 p rfl (by simp) rfl Nat.one_pos ?_
    intro j q hj hq
    obtain rfl : j = 0 := by omega
    have : p = q := by simpa using hq
    rw [this]

end MGL
