import Verif.Model.Random
import Verif.Props.LCG
import Verif.Props.AABB
import Verif.Props.OBBMore
import Verif.Props.Capsule
import Verif.Props.Polygon
import Verif.Props.PolygonTriangulate
import Verif.Props.Frustum
import Verif.Props.FrustumMore
import Verif.Props.FrustumProject

/-! Lemmas about the random draws: each draw succeeds, keeps the parameters of the generator and is in range. -/

namespace MGL
open V3 Spec

theorem lcg_int_params {g g' : LCG} {v : BitVec 32} (h : g.int = some (v, g')) : g'.modulus = g.modulus := by
  unfold LCG.int at h
  split at h
  · cases h
  · simp only [Option.some.injEq, Prod.mk.injEq] at h
    rw [← h.2]

theorem lcg_float_params {g g' : LCG} {u : ℚ} (h : g.float = some (u, g')) : g'.modulus = g.modulus := by
  unfold LCG.float at h
  rcases e : g.int with _ | ⟨i, g1⟩
  · rw [e] at h; cases h
  · rw [e] at h
    simp only [Option.bind_eq_bind, Option.bind_some, Option.pure_def, Option.some.injEq, Prod.mk.injEq] at h
    rw [← h.2, lcg_int_params e]

theorem draw_float (g : LCG) (h : g.modulus ≠ 0) : ∃ u g', g.float = some (u, g') ∧ g'.modulus ≠ 0 ∧ 0 ≤ u ∧ u < 1 := by
  obtain ⟨u, g', e, h0, h1⟩ := C13_float g h
  exact ⟨u, g', e, by rw [lcg_float_params e]; exact h, h0, h1⟩

theorem draw_neg (g : LCG) (h : g.modulus ≠ 0) : ∃ u g', g.floatNeg1_1 = some (u, g') ∧ g'.modulus ≠ 0 ∧ -1 < u ∧ u < 1 := by
  obtain ⟨u, g', e, h0, h1⟩ := C13_floatNeg1_1 g h
  refine ⟨u, g', e, ?_, h0, h1⟩
  unfold LCG.floatNeg1_1 at e
  rcases e' : g.int with _ | ⟨i, g1⟩
  · rw [e'] at e; cases e
  · rw [e'] at e
    simp only [Option.bind_eq_bind, Option.bind_some, Option.pure_def, Option.some.injEq, Prod.mk.injEq] at e
    rw [← e.2, lcg_int_params e']; exact h

theorem lcg_rangeLoop_params (r : ℚ → ℚ) (a b : ℚ) : ∀ (n : ℕ) (g g' : LCG) (f : ℚ), g.floatRangeLoop r a b n = some (f, g') → g'.modulus = g.modulus
  | 0, g, g', f, h => by
    simp only [LCG.floatRangeLoop, Option.some.injEq, Prod.mk.injEq] at h
    rw [h.2]
  | n + 1, g, g', f, h => by
    rw [LCG.floatRangeLoop] at h
    rcases e : g.float with _ | ⟨u, g1⟩
    · rw [e] at h; cases h
    · rw [e] at h
      simp only [Option.bind_eq_bind, Option.bind_some] at h
      split at h
      · simp only [Option.some.injEq, Prod.mk.injEq] at h
        rw [← h.2, lcg_float_params e]
      · rw [lcg_rangeLoop_params r a b n g1 g' f h, lcg_float_params e]

theorem draw_range {r : ℚ → ℚ} (hr : RoundsToNearest r) {a b : ℚ} (ha : IsF32 a) (hb : IsF32 b) (hab : a ≤ b) (hd : b - a ≤ maxF32)
    (g : LCG) (h : g.modulus ≠ 0) : ∃ f g', g.floatRange r a b = some (f, g') ∧ g'.modulus ≠ 0 ∧ a ≤ f ∧ f ≤ b := by
  obtain ⟨f, g', e, h0, h1, h2⟩ := C13_floatRange r hr a b ha hb hab hd g h
  refine ⟨f, g', e, ?_, h0, ?_⟩
  · unfold LCG.floatRange at e
    split at e
    · simp only [Option.some.injEq, Prod.mk.injEq] at e
      rw [← e.2]; exact h
    · rw [lcg_rangeLoop_params r a b 10 g g' f e]; exact h
  · rcases eq_or_lt_of_le hab with e' | e'
    · rw [h2 e', e']
    · exact (h1 e').le

theorem draw_int {r : ℚ → ℚ} (hr : RoundsToNearest r) (n : ℕ) (hn : n + 1 < 2 ^ 31) (g : LCG) (h : g.modulus ≠ 0) :
    ∃ (v : ℤ) (g' : LCG), g.intRange r 0 n = some (v, g') ∧ g'.modulus ≠ 0 ∧ 0 ≤ v ∧ v ≤ n := by
  obtain ⟨v, g', e, h0, h1⟩ := C13_intRange r hr 0 n (by omega) (by omega) (by omega) (by omega) g h
  refine ⟨v, g', e, ?_, h0, h1⟩
  obtain ⟨u, g1, e1, -⟩ := C13_float g h
  unfold LCG.intRange at e
  simp only [Option.bind_eq_bind, Option.bind_eq_some_iff, Option.pure_def, Option.some.injEq, Prod.mk.injEq, Prod.exists] at e
  obtain ⟨_, -, _, -, u', g2, e2, _, -, _, -, -, e3⟩ := e
  rw [← e3, lcg_float_params e2]; exact h

theorem draw_index {r : ℚ → ℚ} (hr : RoundsToNearest r) (n : ℕ) (hn : n + 1 < 2 ^ 31) (g : LCG) (h : g.modulus ≠ 0) :
    ∃ (i : Fin (n + 1)) (g' : LCG), g.intRange r 0 n = some ((i.val : ℤ), g') ∧ Random.index r n g = some (i, g') ∧ g'.modulus ≠ 0 := by
  obtain ⟨v, g', e, hg, h0, h1⟩ := draw_int hr n hn g h
  have hv : v.toNat < n + 1 ∧ 0 ≤ v := ⟨by omega, h0⟩
  refine ⟨⟨v.toNat, hv.1⟩, g', ?_, ?_, hg⟩
  · rw [e]; simp only [Int.toNat_of_nonneg h0]
  · unfold Random.index
    rw [e]
    simp only [Option.bind_eq_bind, Option.bind_some]
    rw [dif_pos hv]; rfl

theorem isF32_neg_one : IsF32 (-1) := by simpa using isF32_int (-1) (by norm_num)

theorem two_le_max : (2 : ℚ) ≤ maxF32 := by unfold maxF32; norm_num

/-- `Float(-1, 1)`. -/
theorem draw_unit {r : ℚ → ℚ} (hr : RoundsToNearest r) (g : LCG) (h : g.modulus ≠ 0) :
    ∃ f g', g.floatRange r (-1) 1 = some (f, g') ∧ g'.modulus ≠ 0 ∧ -1 ≤ f ∧ f ≤ 1 :=
  draw_range hr isF32_neg_one isF32_one (by norm_num) (by have := two_le_max; linarith) g h

end MGL
