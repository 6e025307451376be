import Verif.Model.GJK2D
import Verif.Spec.Hull2D
import Verif.Proofs.GJK
import Mathlib.Tactic.LinearCombination

/-! The steps and the loop of GJK in the plane: by seeing the plane as the plane `z = 0` of space, with the lemmas on two and
three points of Verif/Proofs/GJK.lean. -/

set_option linter.unusedSectionVars false

namespace MGL.GJK2D
open Spec
variable {α : Type*} [Field α] [LinearOrder α] [IsStrictOrderedRing α]

/-- The plane as the plane `z = 0` of space. -/
def lift (v : V2 α) : V3 α := ⟨v.x, v.y, 0⟩

/-- Twice the signed area of the triangle of the origin and the two points. -/
def crossed (s0 s1 : V2 α) : α := V2.dot s1 (V2.perp (s1 - s0))

theorem crossed_eq (s0 s1 : V2 α) : crossed s0 s1 = V2.dot s0 (V2.perp (s1 - s0)) := by
  simp only [crossed, V2.dot, V2.perp, V2.sub_x, V2.sub_y]; ring

/-- The direction used in space. -/
def dir3 (s0 s1 : V2 α) : V3 α := V3.cross (lift s1 - lift s0) (V3.cross (lift s1 - lift s0) (lift s1))

theorem dir3_eq (s0 s1 : V2 α) : dir3 s0 s1 = -crossed s0 s1 • lift (V2.perp (s1 - s0)) := by
  ext <;> simp [dir3, lift, V3.cross, crossed, V2.perp, V2.dot] <;> ring

theorem lift_dot (a b : V2 α) : V3.dot (lift a) (lift b) = V2.dot a b := by simp [V3.dot, V2.dot, lift]

theorem dot_smul3 (k : α) (a b : V3 α) : V3.dot (k • a) b = k * V3.dot a b := by
  simp only [V3.dot, V3.smul_x, V3.smul_y, V3.smul_z]; ring

/-- Two points seen as in space, with a direction of the plane that points the same way. -/
def Inv (s0 s1 d : V2 α) : Prop :=
  GJK.Inv2 (lift s0) (lift s1) (dir3 s0 s1) ∧ (d = V2.perp (s1 - s0) ∨ d = -V2.perp (s1 - s0)) ∧ V2.dot s1 d < 0

theorem dot_negr (a b : V2 α) : V2.dot a (-b) = -V2.dot a b := by simp only [V2.dot, V2.neg_x, V2.neg_y]; ring

theorem Inv.side {s0 s1 d x : V2 α} (h : Inv s0 s1 d) (hx : 0 ≤ V2.dot d x) : 0 ≤ V3.dot (dir3 s0 s1) (lift x) := by
  obtain ⟨-, h | h, hn⟩ := h
  · rw [dir3_eq, dot_smul3, lift_dot, ← h]
    refine mul_nonneg ?_ hx
    rw [h] at hn
    simp only [crossed]; linarith
  · rw [h, dot_negr] at hn
    have e : V2.dot d x = -V2.dot (V2.perp (s1 - s0)) x := by rw [h]; simp only [V2.dot, V2.neg_x, V2.neg_y]; ring
    rw [e] at hx
    rw [dir3_eq, dot_smul3, lift_dot]
    have h1 : 0 < crossed s0 s1 := by simp only [crossed]; linarith
    nlinarith

/-- The state of the loop before a new point is added. -/
def Good (K : Set (V2 α)) (s : List (V2 α)) (d : V2 α) : Prop :=
  (∀ x ∈ s, x ∈ K) ∧ ((∃ s0, s = [s0] ∧ d = -s0 ∧ 0 < V2.lenSq s0) ∨ ∃ s0 s1, s = [s0, s1] ∧ Inv s0 s1 d)

/-- What a step leads to. -/
def Next (K : Set (V2 α)) (r : List (V2 α) × V2 α) : Prop :=
  (r.1 ≠ [] ∧ Good K r.1 r.2) ∨ (r.1 = [] ∧ ∃ c ∈ K, V2.lenSq c ≤ 1 / 10000000)

theorem mem2 {K : Set (V2 α)} (hK : Convex2 K) {p q : V2 α} (hp : p ∈ K) (hq : q ∈ K) {a b : α} (ha : 0 ≤ a) (hb : 0 ≤ b) (h : a + b = 1) :
    a • p + b • q ∈ K := hK p hp q hq a b ha hb h

theorem mem3 {K : Set (V2 α)} (hK : Convex2 K) {p q r : V2 α} (hp : p ∈ K) (hq : q ∈ K) (hr : r ∈ K) {a b c : α} (ha : 0 ≤ a) (hb : 0 ≤ b)
    (hc : 0 ≤ c) (h : a + b + c = 1) : a • p + b • q + c • r ∈ K := by
  by_cases h0 : a + b = 0
  · have ea : a = 0 := by linarith
    have eb : b = 0 := by linarith
    have ec : c = 1 := by linarith
    have : a • p + b • q + c • r = r := by rw [ea, eb, ec]; ext <;> simp
    rw [this]; exact hr
  · have hpos : 0 < a + b := lt_of_le_of_ne (by linarith) (Ne.symm h0)
    have hm := mem2 hK (mem2 hK hp hq (a := a / (a + b)) (b := b / (a + b)) (by positivity) (by positivity) (by field_simp)) hr
      (a := a + b) (b := c) hpos.le hc h
    have e : (a + b) • ((a / (a + b)) • p + (b / (a + b)) • q) + c • r = a • p + b • q + c • r := by
      ext <;> simp only [V2.add_x, V2.add_y, V2.smul_x, V2.smul_y] <;> field_simp
    rw [← e]; exact hm

theorem lift_lenSq (v : V2 α) : V3.lenSq (lift v) = V2.lenSq v := by simp [V3.lenSq, V2.lenSq, V3.dot, V2.dot, lift]

theorem step1 {K : Set (V2 α)} (hK : Convex2 K) (h0 : (0 : V2 α) ∉ K) {s0 s1 : V2 α} (m0 : s0 ∈ K) (m1 : s1 ∈ K) (hs : 0 < V2.lenSq s0)
    (hd : 0 ≤ V2.dot (-s0) s1) : Next K (update2 s0 s1) := by
  have e1 : V2.dot (-s0) s1 = -V2.dot s0 s1 := by simp only [V2.dot, V2.neg_x, V2.neg_y]; ring
  rw [e1] at hd
  have n1 : 0 ≤ V2.lenSq s1 := by rw [← lift_lenSq]; exact GJK.lenSq_nonneg _
  have a0 : V3.dot (lift s0) (lift s1 - lift s0) ≤ 0 := by
    have : V3.dot (lift s0) (lift s1 - lift s0) = V2.dot s0 s1 - V2.lenSq s0 := by
      simp [V2.lenSq, V2.dot, V3.dot, lift]; ring
    rw [this]; linarith
  have a1 : 0 ≤ V3.dot (lift s1) (lift s1 - lift s0) := by
    have : V3.dot (lift s1) (lift s1 - lift s0) = V2.lenSq s1 - V2.dot s0 s1 := by
      simp [V2.lenSq, V2.dot, V3.dot, lift]; ring
    rw [this]; linarith
  have a2 : V2.lenSq s0 ≤ V3.lenSq (lift s1 - lift s0) := by
    have : V3.lenSq (lift s1 - lift s0) = V2.lenSq s0 + V2.lenSq s1 - 2 * V2.dot s0 s1 := by
      simp [V3.lenSq, V2.lenSq, V2.dot, V3.dot, lift]; ring
    rw [this]; linarith
  obtain ⟨a, b, ha, hb, hab, q1, q2⟩ := GJK.seg_foot a0 a1 (hs.trans_le a2)
  have mc : b • s0 + a • s1 ∈ K := mem2 hK m0 m1 hb ha (by linarith)
  have el : b • lift s0 + a • lift s1 = lift (b • s0 + a • s1) := by ext <;> simp [lift]
  have hcr : crossed s0 s1 ≠ 0 := by
    intro hc
    have : V3.lenSq (V3.cross (lift s1 - lift s0) (lift s1)) = crossed s0 s1 ^ 2 := by
      simp [V3.lenSq, V3.dot, V3.cross, lift, crossed, V2.dot, V2.perp]; ring
    rw [this, hc, el, lift_lenSq] at q2
    have hz : V2.lenSq (b • s0 + a • s1) = 0 := by
      rcases mul_eq_zero.1 (q2.trans (by ring)) with h | h
      · exact h
      · linarith
    rw [← lift_lenSq] at hz
    have hz' := GJK.lenSq_eq_zero hz
    apply h0
    have : b • s0 + a • s1 = 0 := by
      ext
      · have := congrArg V3.x hz'; simpa [lift] using this
      · have := congrArg V3.y hz'; simpa [lift] using this
    rw [← this]; exact mc
  have hinv : GJK.Inv2 (lift s0) (lift s1) (dir3 s0 s1) := by
    refine ⟨a0, a1, rfl, ?_⟩
    have : V3.lenSq (V3.cross (lift s1 - lift s0) (lift s1)) = crossed s0 s1 ^ 2 := by
      simp [V3.lenSq, V3.dot, V3.cross, lift, crossed, V2.dot, V2.perp]; ring
    rw [this]; exact (by positivity)
  unfold Next update2
  simp only
  split_ifs with ht hs'
  · refine Or.inl ⟨by simp, by simp [m0, m1], Or.inr ⟨s0, s1, rfl, hinv, Or.inl rfl, ?_⟩⟩
    have e2 : V2.dot (V2.perp (s1 - s0)) s0 = crossed s0 s1 := by rw [crossed_eq]; simp only [V2.dot]; ring
    rw [e2] at hs'
    exact lt_of_le_of_ne hs' hcr
  · refine Or.inl ⟨by simp, by simp [m0, m1], Or.inr ⟨s0, s1, rfl, hinv, Or.inr rfl, ?_⟩⟩
    have e2 : V2.dot (V2.perp (s1 - s0)) s0 = crossed s0 s1 := by rw [crossed_eq]; simp only [V2.dot]; ring
    rw [e2] at hs'
    rw [dot_negr]
    have : V2.dot s1 (V2.perp (s1 - s0)) = crossed s0 s1 := rfl
    rw [this]; linarith
  · refine Or.inr ⟨rfl, s0, m0, ?_⟩
    have e3 : V2.lenSq (V2.perp (s1 - s0)) = V3.lenSq (lift s1 - lift s0) := by
      simp [V2.lenSq, V2.dot, V2.perp, V3.lenSq, V3.dot, lift]; ring
    rw [e3] at ht
    push Not at ht
    exact a2.trans ht

/-- Twice the signed area of the triangle. -/
def area (s0 s1 s2 : V2 α) : α := (s2 - s0).x * (s2 - s1).y - (s2 - s0).y * (s2 - s1).x

theorem normal_eq (s0 s1 s2 : V2 α) : V3.cross (lift s2 - lift s0) (lift s2 - lift s1) = ⟨0, 0, area s0 s1 s2⟩ := by
  ext <;> simp [V3.cross, lift, area]

theorem step2 {K : Set (V2 α)} (hK : Convex2 K) (h0 : (0 : V2 α) ∉ K) {s0 s1 s2 d : V2 α} (m0 : s0 ∈ K) (m1 : s1 ∈ K) (m2 : s2 ∈ K)
    (h : Inv s0 s1 d) (h2 : 0 ≤ V2.dot d s2) : Next K (update3 s0 s1 s2) := by
  have hside := h.side h2
  have hI := h.1
  have t12 : V3.dot (lift s1) (V3.cross (lift s2 - lift s1) (V3.cross (lift s2 - lift s0) (lift s2 - lift s1))) =
      -(area s0 s1 s2 * V2.dot s1 (V2.perp (s2 - s1))) := by
    rw [normal_eq]; simp [V3.dot, V3.cross, lift, V2.dot, V2.perp]; ring
  have t02 : V3.dot (lift s0) (V3.cross (V3.cross (lift s2 - lift s0) (lift s2 - lift s1)) (lift s2 - lift s0)) =
      area s0 s1 s2 * V2.dot s0 (V2.perp (s2 - s0)) := by
    rw [normal_eq]; simp [V3.dot, V3.cross, lift, V2.dot, V2.perp]; ring
  have hk : area s0 s1 s2 ≠ 0 := by
    intro hk
    have := (GJK.tri_in hI hside (by rw [t12, hk]; simp) (by rw [t02, hk]; simp)).1
    rw [normal_eq, hk] at this
    simp [V3.lenSq, V3.dot] at this
  have f12 : V2.dot (s2 - s0) (V2.perp (s2 - s1)) = -area s0 s1 s2 := by simp only [V2.dot, V2.perp, area]; ring
  have f02 : V2.dot (s2 - s1) (V2.perp (s2 - s0)) = area s0 s1 s2 := by simp only [V2.dot, V2.perp, area]; ring
  have g12 : V2.dot s2 (V2.perp (s2 - s1)) = V2.dot s1 (V2.perp (s2 - s1)) := (crossed_eq s1 s2)
  have g02 : V2.dot s2 (V2.perp (s2 - s0)) = V2.dot s0 (V2.perp (s2 - s0)) := (crossed_eq s0 s2)
  have d02 : V3.cross (lift s2 - lift s0) (V3.cross (lift s2 - lift s0) (lift s0)) = dir3 s0 s2 := by
    unfold dir3; rw [GJK.cross_end]
  have d12 : V3.cross (lift s2 - lift s1) (V3.cross (lift s2 - lift s1) (lift s1)) = dir3 s1 s2 := by
    unfold dir3; rw [GJK.cross_end]
  unfold Next update3
  simp only [f12, f02]
  by_cases c1 : V2.dot s1 (if -area s0 s1 s2 ≤ 0 then -V2.perp (s2 - s1) else V2.perp (s2 - s1)) < 0
  · rw [if_pos c1]
    have ht : V3.dot (lift s1) (V3.cross (lift s2 - lift s1) (V3.cross (lift s2 - lift s0) (lift s2 - lift s1))) < 0 := by
      rw [t12]
      split_ifs at c1 with hs
      · rw [dot_negr] at c1
        have : 0 < area s0 s1 s2 := lt_of_le_of_ne (by linarith) (Ne.symm hk)
        nlinarith
      · nlinarith
    have hn := GJK.tri_edge hI hside ht
    rw [d12] at hn
    refine Or.inl ⟨by simp, by simp [m1, m2], Or.inr ⟨s1, s2, rfl, hn, ?_, ?_⟩⟩
    · dsimp only; split_ifs <;> simp
    · dsimp only
      split_ifs at c1 ⊢
      · rw [dot_negr] at c1 ⊢; rw [g12]; exact c1
      · rw [g12]; exact c1
  · rw [if_neg c1]
    have ht1 : 0 ≤ V3.dot (lift s1) (V3.cross (lift s2 - lift s1) (V3.cross (lift s2 - lift s0) (lift s2 - lift s1))) := by
      rw [t12]
      split_ifs at c1 with hs
      · rw [dot_negr] at c1
        push Not at c1
        have : 0 ≤ area s0 s1 s2 := by linarith
        nlinarith
      · push Not at c1 hs
        nlinarith
    by_cases c2 : V2.dot s0 (if area s0 s1 s2 ≤ 0 then -V2.perp (s2 - s0) else V2.perp (s2 - s0)) < 0
    · rw [if_pos c2]
      have ht : V3.dot (lift s0) (V3.cross (V3.cross (lift s2 - lift s0) (lift s2 - lift s1)) (lift s2 - lift s0)) < 0 := by
        rw [t02]
        split_ifs at c2 with hs
        · rw [dot_negr] at c2
          have : area s0 s1 s2 < 0 := lt_of_le_of_ne hs hk
          nlinarith
        · nlinarith
      have hn := GJK.tri_edge' hI hside ht
      rw [d02] at hn
      refine Or.inl ⟨by simp, by simp [m0, m2], Or.inr ⟨s0, s2, rfl, hn, ?_, ?_⟩⟩
      · dsimp only; split_ifs <;> simp
      · dsimp only
        split_ifs at c2 ⊢
        · rw [dot_negr] at c2 ⊢; rw [g02]; exact c2
        · rw [g02]; exact c2
    · have ht2 : 0 ≤ V3.dot (lift s0) (V3.cross (V3.cross (lift s2 - lift s0) (lift s2 - lift s1)) (lift s2 - lift s0)) := by
        rw [t02]
        split_ifs at c2 with hs
        · rw [dot_negr] at c2
          push Not at c2
          nlinarith
        · push Not at c2 hs
          nlinarith
      exfalso
      obtain ⟨hn, u, v, w, hu, hv, hw, hsum, hf⟩ := GJK.tri_in hI hside ht1 ht2
      apply h0
      have hz : u • s0 + v • s1 + w • s2 = 0 := by
        rw [normal_eq] at hf
        have ez : V3.dot (⟨0, 0, area s0 s1 s2⟩ : V3 α) (lift s0) = 0 := by simp [V3.dot, lift]
        have el : V3.lenSq (⟨0, 0, area s0 s1 s2⟩ : V3 α) = area s0 s1 s2 * area s0 s1 s2 := by simp [V3.lenSq, V3.dot]
        rw [ez, el] at hf
        have hx := congrArg V3.x hf
        have hy := congrArg V3.y hf
        simp [lift, hk] at hx hy
        ext
        · simpa using hx
        · simpa using hy
      rw [← hz]; exact mem3 hK m0 m1 m2 hu hv hw hsum

/-- One step of the loop. -/
theorem step {K : Set (V2 α)} (hK : Convex2 K) (h0 : (0 : V2 α) ∉ K) {s : List (V2 α)} {d x : V2 α} (h : Good K s d) (hx : x ∈ K)
    (hd : 0 ≤ V2.dot d x) : ∃ r, updateSimplex2D (s ++ [x]) = some r ∧ Next K r := by
  obtain ⟨hm, ⟨s0, rfl, rfl, hs⟩ | ⟨s0, s1, rfl, hi⟩⟩ := h
  · exact ⟨_, rfl, step1 hK h0 (hm _ (by simp)) hx hs hd⟩
  · exact ⟨_, rfl, step2 hK h0 (hm _ (by simp)) (hm _ (by simp)) hx hi hd⟩

/-- The functions the code calls on an object are right for the set `A`: `AnyPointFast` is a point of it, and `ExtremePoint`
gives a farthest point of it with its distance along the direction. -/
def Describes (a : Support2 α) (A : Set (V2 α)) : Prop :=
  a.any ∈ A ∧ (∀ d q v, a.ext d = some (q, v) → v = V2.dot d q ∧ IsExtreme2 A d q) ∧ ∀ d, d ≠ 0 → (a.ext d).isSome

/-- The Minkowski difference. -/
def diff (A B : Set (V2 α)) : Set (V2 α) := {x | ∃ p ∈ A, ∃ q ∈ B, x = p - q}

theorem diff_convex {A B : Set (V2 α)} (hA : Convex2 A) (hB : Convex2 B) : Convex2 (diff A B) := by
  rintro _ ⟨p, hp, q, hq, rfl⟩ _ ⟨p', hp', q', hq', rfl⟩ s t hs ht hst
  refine ⟨_, hA p hp p' hp' s t hs ht hst, _, hB q hq q' hq' s t hs ht hst, ?_⟩
  ext <;> simp <;> ring

theorem dot_neg_left' (d q : V2 α) : V2.dot (-d) q = -V2.dot d q := by simp only [V2.dot, V2.neg_x, V2.neg_y]; ring

theorem apart_loop {a b : Support2 α} {A B : Set (V2 α)} (ha : Describes a A) (hb : Describes b B) :
    ∀ (k : ℕ) (s : List (V2 α)) (d : V2 α), loop a b k s d = some .apart → ∀ x ∈ A, x ∉ B := by
  intro k
  induction k with
  | zero => intro s d h; simp [loop] at h
  | succ k ih =>
    intro s d h
    rw [loop] at h
    split at h
    · rename_i pa ma pb mb e1 e2
      split_ifs at h with hc
      · obtain ⟨v1, -, x1⟩ := ha.2.1 d pa ma e1
        obtain ⟨v2, -, x2⟩ := hb.2.1 (-d) pb mb e2
        intro x hx hx'
        have h1 := x1 x hx
        have h2 := x2 x hx'
        rw [dot_neg_left', dot_neg_left'] at h2
        rw [v1, v2, dot_neg_left'] at hc
        linarith
      · split at h
        · simp at h
        · simp at h
        · exact ih _ _ h
    · simp at h

theorem Good.ne_zero {K : Set (V2 α)} {s : List (V2 α)} {d : V2 α} (h : Good K s d) : d ≠ 0 := by
  obtain ⟨-, ⟨s0, rfl, rfl, hs⟩ | ⟨s0, s1, rfl, hi⟩⟩ := h
  · intro h
    have : s0 = 0 := by
      ext
      · have := congrArg V2.x h; simpa using this
      · have := congrArg V2.y h; simpa using this
    rw [this] at hs; simp [V2.lenSq, V2.dot] at hs
  · intro h
    have := hi.2.2
    rw [h] at this; simp [V2.dot] at this

theorem meet_loop {a b : Support2 α} {A B : Set (V2 α)} (ha : Describes a A) (hb : Describes b B) (hA : Convex2 A) (hB : Convex2 B)
    (h0 : (0 : V2 α) ∉ diff A B) : ∀ (k : ℕ) (s : List (V2 α)) (d : V2 α), Good (diff A B) s d → loop a b k s d = some .meet →
    ∃ c ∈ diff A B, V2.lenSq c ≤ 1 / 10000000 := by
  intro k
  induction k with
  | zero => intro s d _ h; simp [loop] at h
  | succ k ih =>
    intro s d hg h
    have hd := hg.ne_zero
    have hd' : -d ≠ 0 := by
      intro h
      apply hd
      ext
      · have := congrArg V2.x h; simpa using this
      · have := congrArg V2.y h; simpa using this
    rw [loop] at h
    split at h
    · rename_i pa ma pb mb e1 e2
      by_cases hc : mb + ma < 0
      · rw [if_pos hc] at h; cases h
      rw [if_neg hc] at h
      obtain ⟨v1, m1, -⟩ := ha.2.1 d pa ma e1
      obtain ⟨v2, m2, -⟩ := hb.2.1 (-d) pb mb e2
      have hx : pa - pb ∈ diff A B := ⟨pa, m1, pb, m2, rfl⟩
      have hp : 0 ≤ V2.dot d (pa - pb) := by
        have : V2.dot d (pa - pb) = mb + ma := by rw [v1, v2, dot_neg_left']; simp only [V2.dot, V2.sub_x, V2.sub_y]; ring
        rw [this]; exact not_lt.1 hc
      obtain ⟨r, hr, hn⟩ := step (diff_convex hA hB) h0 hg hx hp
      rw [hr] at h
      split at h
      · simp at h
      · rename_i heq
        cases Option.some.inj heq
        rcases hn with hn | hn
        · exact absurd rfl hn.1
        · exact hn.2
      · rename_i heq
        cases Option.some.inj heq
        rcases hn with hn | hn
        · exact ih _ _ hn.2 h
        · simp at hn
    · rename_i hno
      obtain ⟨⟨q, v⟩, e1⟩ := Option.isSome_iff_exists.1 (ha.2.2 d hd)
      obtain ⟨⟨q', v'⟩, e2⟩ := Option.isSome_iff_exists.1 (hb.2.2 (-d) hd')
      exact absurd e2 (hno _ _ _ _ e1)

theorem safe_loop (a b : Support2 α) : ∀ (k : ℕ) (s : List (V2 α)) (d : V2 α),
    1 ≤ s.length → s.length ≤ 2 → loop a b k s d ≠ none := by
  intro k
  induction k with
  | zero => intro s d _ _; simp [loop]
  | succ k ih =>
    intro s d h1 h3
    rw [loop]
    split
    · split_ifs
      · simp
      · have hu : ∀ x : V2 α, ∃ r, updateSimplex2D (s ++ [x]) = some r ∧ r.1.length ≤ 2 := by
          intro x
          rcases s with _ | ⟨s0, _ | ⟨s1, _ | ⟨s2, s⟩⟩⟩
          · simp at h1
          · refine ⟨_, rfl, ?_⟩
            unfold update2; dsimp only; split <;> simp
          · refine ⟨_, rfl, ?_⟩
            unfold update3; dsimp only; split_ifs <;> simp
          · simp only [List.length_cons] at h3; omega
        rename_i pa ma pb mb e1 e2 _
        obtain ⟨r, hr, hl⟩ := hu (pa - pb)
        rw [hr]
        split
        · rename_i heq; cases heq
        · simp
        · rename_i heq
          cases Option.some.inj heq
          exact ih _ _ (by simp) hl
    · simp

end MGL.GJK2D
