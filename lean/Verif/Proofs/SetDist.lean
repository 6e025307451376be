import Verif.Proofs.Dist
import Mathlib.Tactic.Linarith
import Mathlib.Tactic.FieldSimp

/-! Facts about the distance of sets. -/

namespace MGL
open V3

theorem setDist_of_pair {S T : Set (V3 ℝ)} {q r : V3 ℝ} (h : Spec.IsClosestPair S T q r) :
    Spec.IsSetDist S T (V3.dist q r) :=
  ⟨fun s hs t ht => dist_le_dist_iff.2 (h.2.2 s hs t ht), q, h.1, r, h.2.1, rfl⟩

theorem setDist_of_point {S : Set (V3 ℝ)} {p q : V3 ℝ} (h : Spec.IsClosestPoint S p q) :
    Spec.IsSetDist S {p} (V3.dist q p) := by
  refine ⟨?_, q, h.1, p, rfl, rfl⟩
  rintro s hs t rfl
  rw [V3.dist_comm, V3.dist_comm s]; exact dist_le_dist_iff.2 (h.2 s hs)

theorem setDist_symm {S T : Set (V3 ℝ)} {d : ℝ} (h : Spec.IsSetDist S T d) : Spec.IsSetDist T S d := by
  obtain ⟨h1, s, hs, t, ht, e⟩ := h
  exact ⟨fun t ht s hs => by rw [V3.dist_comm]; exact h1 s hs t ht, t, ht, s, hs, by rw [V3.dist_comm]; exact e⟩

/-- A set of positive distance and its distance are unique. -/
theorem setDist_unique {S T : Set (V3 ℝ)} {d e : ℝ} (h : Spec.IsSetDist S T d) (h' : Spec.IsSetDist S T e) : d = e := by
  obtain ⟨h1, s, hs, t, ht, rfl⟩ := h
  obtain ⟨h1', s', hs', t', ht', rfl⟩ := h'
  exact le_antisymm (h1 _ hs' _ ht') (h1' _ hs _ ht)

theorem setDist_nonneg {S T : Set (V3 ℝ)} {d : ℝ} (h : Spec.IsSetDist S T d) : 0 ≤ d := by
  obtain ⟨-, s, -, t, -, rfl⟩ := h; exact dist_nonneg _ _

theorem setDist_zero_iff {S T : Set (V3 ℝ)} {d : ℝ} (h : Spec.IsSetDist S T d) : d = 0 ↔ (S ∩ T).Nonempty := by
  constructor
  · rintro rfl
    obtain ⟨-, s, hs, t, ht, e⟩ := h
    rw [V3.dist_eq_zero] at e; subst e; exact ⟨s, hs, ht⟩
  · rintro ⟨x, hx, hx'⟩
    exact le_antisymm (by have := h.1 x hx x hx'; rwa [dist_self] at this) (setDist_nonneg h)

/-- A point of the ball about `c` on the way to `q`. -/
theorem toward (c q : V3 ℝ) (r : ℝ) (hr : 0 ≤ r) (h : r < V3.dist q c) :
    ∃ t, distSq t c ≤ r * r ∧ V3.dist q t = V3.dist q c - r := by
  have hd : 0 < V3.dist q c := lt_of_le_of_lt hr h
  refine ⟨c + (r / V3.dist q c) • (q - c), ?_, ?_⟩
  · rw [← dist_le_iff hr, dist_eq_len]
    have : c + (r / V3.dist q c) • (q - c) - c = (r / V3.dist q c) • (q - c) := by ext <;> simp
    rw [this, len_smul, ← dist_eq_len, abs_of_nonneg (div_nonneg hr hd.le)]
    field_simp
    exact le_rfl
  · have e : q - (c + (r / V3.dist q c) • (q - c)) = (1 - r / V3.dist q c) • (q - c) := by
      ext <;> simp <;> ring
    rw [dist_eq_len, e, len_smul, ← dist_eq_len, abs_of_nonneg]
    · field_simp
    · rw [sub_nonneg, div_le_one hd]; exact h.le

/-- The distance to the `r`-neighbourhood of a set. -/
theorem setDist_thicken {S T : Set (V3 ℝ)} {d r : ℝ} (h : Spec.IsSetDist S T d) (hr : 0 ≤ r) :
    Spec.IsSetDist S {x | ∃ t ∈ T, distSq x t ≤ r * r} (max 0 (d - r)) := by
  obtain ⟨h1, s, hs, t, ht, e⟩ := h
  constructor
  · rintro p hp q ⟨t, ht, hq⟩
    apply max_le (dist_nonneg _ _)
    have := h1 p hp t ht
    have tr := dist_triangle p q t
    have hq' : V3.dist q t ≤ r := (dist_le_iff hr).2 hq
    linarith
  · rcases le_or_gt d r with hle | hlt
    · refine ⟨s, hs, s, ⟨t, ht, ?_⟩, ?_⟩
      · exact (dist_le_iff hr).1 (e ▸ hle)
      · rw [dist_self, max_eq_left (by linarith)]
    · obtain ⟨x, hx, ex⟩ := toward t s r hr (e ▸ hlt)
      exact ⟨s, hs, x, ⟨t, ht, hx⟩, by rw [ex, max_eq_right (by linarith), e]⟩

theorem ball_eq_thicken (c : V3 ℝ) (r : ℝ) : Spec.ball c r = {x | ∃ t ∈ ({c} : Set (V3 ℝ)), distSq x t ≤ r * r} := by
  ext x; simp [Spec.ball]

end MGL
