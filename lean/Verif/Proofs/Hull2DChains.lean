import Verif.Proofs.Hull2D

/-! The two half chains joined to one polygon. -/

set_option linter.unusedSectionVars false

namespace MGL.Hull2D
open Spec

variable {α : Type*} [Field α] [LinearOrder α] [IsStrictOrderedRing α]

/-! ### Scanning on top of other entries -/

theorem popWhile_base (m : ℕ) (hm : 1 ≤ m) (x : V2 α) (base : List (V2 α)) : ∀ (r : List (V2 α)) (t : V2 α) {st : List (V2 α)},
    popWhile m x (t :: r) = some st → popWhile (m + base.length) x (t :: r ++ base) = some (st ++ base) := by
  intro r
  induction r with
  | nil =>
    intro t st h
    have e : st = [t] := by
      rw [popWhile] at h
      · split at h
        · cases h
        · exact (Option.some.inj h).symm
      · intro a b c hh; cases hh
    subst e
    cases base with
    | nil => simpa using h
    | cons b bs =>
      show popWhile (m + (bs.length + 1)) x (t :: b :: bs) = some (t :: b :: bs)
      rw [popWhile, if_neg (by omega)]
  | cons s r ih =>
    intro t st h
    show popWhile (m + base.length) x (t :: s :: (r ++ base)) = _
    rw [popWhile] at h ⊢
    split at h
    · next hc =>
      rw [if_pos ⟨by rw [List.length_append]; omega, hc.2⟩]
      exact ih s h
    · next hc =>
      rw [if_neg (fun hh => hc ⟨by rw [List.length_append] at hh; omega, hh.2⟩), ← Option.some.inj h]
      rfl

theorem popWhile_ne_nil (m : ℕ) (x : V2 α) : ∀ (r : List (V2 α)) (t : V2 α) {st : List (V2 α)}, popWhile m x (t :: r) = some st → st ≠ [] := by
  intro r
  induction r with
  | nil =>
    intro t st h
    rw [popWhile] at h
    · split at h
      · cases h
      · rw [← Option.some.inj h]; simp
    · intro a b c hh; cases hh
  | cons s r ih =>
    intro t st h
    rw [popWhile] at h
    split at h
    · exact ih s h
    · rw [← Option.some.inj h]; simp

theorem scan_base (cap c m : ℕ) (hm : 1 ≤ m) (base : List (V2 α)) (hc : c + base.length ≤ cap) : ∀ (xs : List (V2 α)) (t : V2 α) (r : List (V2 α))
    {st : List (V2 α)}, scan c m xs (t :: r) = some st → scan cap (m + base.length) xs (t :: r ++ base) = some (st ++ base) := by
  intro xs
  induction xs with
  | nil => intro t r st h; rw [scan] at h ⊢; rw [← Option.some.inj h]
  | cons x xs ih =>
    intro t r st h
    rw [scan] at h ⊢
    split at h
    · cases h
    · next st1 h1 =>
      rw [popWhile_base m hm x base r t h1]
      dsimp only at h ⊢
      split at h
      · rw [if_pos (by rw [List.length_append]; omega)]
        exact ih x st1 h
      · cases h

theorem scan_append (c m : ℕ) : ∀ (xs ys st : List (V2 α)), scan c m (xs ++ ys) st = (scan c m xs st).bind (scan c m ys) := by
  intro xs
  induction xs with
  | nil => intro ys st; rfl
  | cons x xs ih =>
    intro ys st
    rw [List.cons_append, scan, scan]
    cases popWhile m x st with
    | none => rfl
    | some st1 =>
      dsimp only
      split
      · exact ih ys _
      · rfl

/-! ### Turning the plane by 180 degrees -/

def neg2 (p : V2 α) : V2 α := ⟨-p.x, -p.y⟩

theorem neg2_neg2 (p : V2 α) : neg2 (neg2 p) = p := by simp [neg2]

theorem neg2_inj {p q : V2 α} (h : neg2 p = neg2 q) : p = q := by rw [← neg2_neg2 p, h, neg2_neg2]

theorem area2_neg2 (a b c : V2 α) : area2 (neg2 a) (neg2 b) (neg2 c) = area2 a b c := by simp [area2, neg2]; ring

theorem lexLt_neg2 {a b : V2 α} : lexLt (neg2 a) (neg2 b) ↔ lexLt b a := by
  simp [lexLt, neg2, eq_comm]

theorem lexLe_neg2 {a b : V2 α} : lexLe (neg2 a) (neg2 b) ↔ lexLe b a := by unfold lexLe; rw [lexLt_neg2]

theorem popWhile_neg2 (m : ℕ) (x : V2 α) : ∀ st : List (V2 α), popWhile m (neg2 x) (st.map neg2) = (popWhile m x st).map (List.map neg2) := by
  intro st
  induction st with
  | nil => simp only [List.map_nil, popWhile]; split <;> rfl
  | cons t r ih =>
    cases r with
    | nil => simp only [List.map_cons, List.map_nil, popWhile, List.length_cons, List.length_nil]; split <;> rfl
    | cons s r =>
      have e : perpDot2D (neg2 s) (neg2 t) (neg2 x) = perpDot2D s t x := area2_neg2 s t x
      show popWhile m (neg2 x) (neg2 t :: neg2 s :: r.map neg2) = _
      rw [popWhile, popWhile]
      by_cases hc : m < r.length + 2 ∧ perpDot2D s t x ≤ 0
      · rw [if_pos hc, if_pos (by rw [e, List.length_map]; exact hc)]; exact ih
      · rw [if_neg hc, if_neg (by rw [e, List.length_map]; exact hc)]; rfl

theorem scan_neg2 (c m : ℕ) : ∀ (xs st : List (V2 α)), scan c m (xs.map neg2) (st.map neg2) = (scan c m xs st).map (List.map neg2) := by
  intro xs
  induction xs with
  | nil => intro st; rfl
  | cons x xs ih =>
    intro st
    rw [List.map_cons, scan, scan, popWhile_neg2]
    cases popWhile m x st with
    | none => rfl
    | some st1 =>
      dsimp only [Option.map_some]
      rw [List.length_map]
      split
      · exact ih (x :: st1)
      · rfl

/-! ### Joining the chains -/

/-- A point strictly to the left of the chord between the ends of the chain, and between the ends, is to the left of all chords. -/
theorem chord_left {s c b e u : V2 α} (hcb : lexLt c b) (hse : lexLt s e) (hsu : lexLt s u) (hue : lexLt u e)
    (hu : 0 < area2 s e u) (fs : 0 ≤ area2 c b s) (fe : 0 ≤ area2 c b e) : 0 < area2 c b u := by
  rw [lexLt_iff] at hcb hse hsu hue
  by_cases h : 0 ≤ (b.x - c.x) * (e.y - s.y) - (b.y - c.y) * (e.x - s.x)
  · have := cross_trans_lt' hcb hse (hsu.imp id fun h => ⟨h.1, h.2.le⟩) h (by unfold area2 at hu; linear_combination hu)
    unfold area2 at *
    linear_combination this + fs
  · push Not at h
    have := cross_trans_lt (hue.imp id fun h => ⟨h.1, h.2.le⟩) hse hcb (by unfold area2 at hu; linear_combination hu)
      (by linear_combination h.le)
    unfold area2 at *
    linear_combination this + fe

theorem Strict.left_of {st : List (V2 α)} (h : Strict st) {s e u : V2 α} (hs : st.getLast? = some s) (he : st.head? = some e)
    (hsu : lexLt s u) (hue : lexLt u e) (hu : 0 < area2 s e u) : st.Pairwise fun b c => 0 < area2 c b u := by
  rw [List.pairwise_iff_getElem]
  intro i j hi hj hij
  have hse := lexLt_trans hsu hue
  have hcb : lexLt st[j] st[i] := List.pairwise_iff_getElem.1 h.1 i j hi hj hij
  have e0 : e = st[0]'(by omega) := by
    rw [List.head?_eq_getElem?, List.getElem?_eq_getElem (by omega)] at he; exact (Option.some.inj he).symm
  have s0 : s = st[st.length - 1]'(by omega) := by
    rw [List.getLast?_eq_getElem?, List.getElem?_eq_getElem (by omega)] at hs; exact (Option.some.inj hs).symm
  have T := List.triplewise_iff_getElem.1 h.2
  refine chord_left hcb hse hsu hue hu ?_ ?_
  · by_cases hj' : j = st.length - 1
    · subst hj'; rw [s0]; unfold area2; ring_nf; exact le_refl _
    · rw [s0]
      have := T i j (st.length - 1) hij (by omega) (by omega)
      rw [area2_cycle] at this
      exact this.le
  · by_cases hi' : i = 0
    · subst hi'; rw [e0]; unfold area2; ring_nf; exact le_refl _
    · rw [e0]
      exact (T 0 i j (by omega) hij hj).le

theorem Strict.nodup {st : List (V2 α)} (h : Strict st) : st.Nodup :=
  h.1.imp fun {a b} hab => by rintro rfl; exact lexLt_irrefl _ hab

theorem strict_of_ends {st : List (V2 α)} (h : Good st) {s e : V2 α} (hs : st.getLast? = some s) (he : st.head? = some e) (hne : s ≠ e) :
    Strict st := by
  rcases h with h | ⟨a, rfl⟩
  · exact h
  · simp at hs he; exact absurd (hs.symm.trans he) hne

theorem pair_of_ends {st : List (V2 α)} (h : Good st) {s e : V2 α} (hs : st.getLast? = some s) (he : st.head? = some e) (hne : s = e)
    (hl : 2 ≤ st.length) : st = [s, s] := by
  rcases h with h | ⟨a, rfl⟩
  · exfalso
    have := List.pairwise_iff_getElem.1 h.1 0 (st.length - 1) (by omega) (by omega) (by omega)
    rw [List.head?_eq_getElem?, List.getElem?_eq_getElem (by omega)] at he
    rw [List.getLast?_eq_getElem?, List.getElem?_eq_getElem (by omega)] at hs
    rw [Option.some.inj he, Option.some.inj hs, hne] at this
    exact lexLt_irrefl _ this
  · simp at hs he; rw [hs]

/-- The polygon of the two chains: `low` is the lower one, `up` the interior of the upper one. -/
theorem join_strictCCW {s e : V2 α} {low up : List (V2 α)} (hne : s ≠ e) (hl : Good low) (hls : low.getLast? = some s)
    (hle : low.head? = some e) (hu : Good ((s :: up ++ [e]).map neg2)) : StrictCCW (up ++ low).reverse := by
  have L := strict_of_ends hl hls hle hne
  have U : Strict ((s :: up ++ [e]).map neg2) := by
    refine strict_of_ends hu (s := neg2 e) (e := neg2 s) (by rw [List.getLast?_map, List.getLast?_append]; simp) (by simp) ?_
    intro h; exact hne (neg2_inj h).symm
  have U1 : (s :: up ++ [e]).Pairwise fun a b => lexLt a b := by
    have := U.1; rw [List.pairwise_map] at this; exact this.imp fun h => lexLt_neg2.1 h
  have U2 : (s :: up ++ [e]).Triplewise fun a b c => 0 < area2 c b a := by
    have := U.2; rw [List.triplewise_map] at this; exact this.imp fun h => by rwa [area2_neg2] at h
  have Us : ∀ a ∈ up, lexLt s a := fun a ha => (List.pairwise_cons.1 U1).1 a (by simp [ha])
  have Ue : ∀ a ∈ up, lexLt a e := by
    intro a ha
    have := (List.pairwise_append.1 (List.pairwise_cons.1 U1).2).2.2 a ha e (by simp)
    exact this
  have Ut := List.triplewise_cons.1 U2
  have Uup : up.Triplewise fun a b c => 0 < area2 c b a := (List.triplewise_append.1 Ut.2).1
  have Uleft : ∀ a ∈ up, 0 < area2 s e a := by
    intro a ha
    have := (List.pairwise_append.1 Ut.1).2.2 a ha e (by simp)
    rw [area2_cycle, area2_cycle] at this
    exact this
  have P1 : ∀ a ∈ up, low.Pairwise fun b c => 0 < area2 c b a := fun a ha => L.left_of hls hle (Us a ha) (Ue a ha) (Uleft a ha)
  have lowe : ∃ m, low = e :: m := by
    cases low with
    | nil => simp at hle
    | cons a m => exact ⟨m, by simp at hle; rw [hle]⟩
  obtain ⟨m, rfl⟩ := lowe
  have hm : m ≠ [] := by
    rintro rfl; simp at hls; exact hne hls.symm
  have P2 : ∀ a ∈ e :: m, up.Pairwise fun x y => 0 < area2 a y x := by
    intro a ha
    by_cases ae : a = e
    · subst ae
      exact (List.triplewise_append.1 Ut.2).2.2.2 a (by simp)
    · by_cases as : a = s
      · subst as
        have := (List.pairwise_append.1 Ut.1).1
        exact this.imp fun {x y} h => by rw [area2_cycle]; exact h
      · have ha' : a ∈ m := (List.mem_cons.1 ha).resolve_left ae
        have ea : lexLt a e := (List.pairwise_cons.1 L.1).1 a ha'
        have hms : m.getLast? = some s := by rw [List.getLast?_cons_of_ne_nil hm] at hls; exact hls
        obtain ⟨i, hi, hai⟩ := List.getElem_of_mem ha'
        have hi' : i < m.length - 1 := by
          by_contra hh
          have : i = m.length - 1 := by omega
          apply as
          rw [List.getLast?_eq_getElem?, List.getElem?_eq_getElem (by omega)] at hms
          rw [← Option.some.inj hms, ← hai]; simp only [this]
        have sa : lexLt s a := by
          have := List.pairwise_iff_getElem.1 (List.pairwise_cons.1 L.1).2 i (m.length - 1) hi (by omega) hi'
          rw [List.getLast?_eq_getElem?, List.getElem?_eq_getElem (by omega)] at hms
          rw [Option.some.inj hms, hai] at this
          exact this
        have T : 0 < area2 s a e := by
          have := List.pairwise_iff_getElem.1 (List.triplewise_cons.1 L.2).1 i (m.length - 1) hi (by omega) hi'
          rw [List.getLast?_eq_getElem?, List.getElem?_eq_getElem (by omega)] at hms
          rw [Option.some.inj hms, hai] at this
          exact this
        have := U.left_of (s := neg2 e) (e := neg2 s) (u := neg2 a) (by rw [List.getLast?_map, List.getLast?_append]; simp) (by simp) (lexLt_neg2.2 ea) (lexLt_neg2.2 sa)
          (by rw [area2_neg2, area2_cycle, area2_cycle]; rw [area2_cycle, area2_cycle, area2_cycle]
              rw [area2_cycle, area2_cycle] at T; rw [area2_cycle]; rw [area2_cycle] at T; unfold area2 at T ⊢; linear_combination T)
        rw [List.pairwise_map] at this
        have := (List.pairwise_append.1 (List.pairwise_cons.1 this).2).1
        exact this.imp fun {x y} h => by rw [area2_neg2] at h; rw [area2_cycle]; exact h
  have T : (up ++ e :: m).Triplewise fun a b c => 0 < area2 c b a :=
    List.triplewise_append.2 ⟨Uup, L.2, P1, P2⟩
  constructor
  · rw [List.nodup_reverse, List.nodup_append]
    refine ⟨?_, L.nodup, ?_⟩
    · exact (List.pairwise_append.1 (List.pairwise_cons.1 U1).2).1.imp fun {a b} hab => by rintro rfl; exact lexLt_irrefl _ hab
    · rintro a ha b hb rfl
      have h1 := Uleft a ha
      by_cases ae : a = e
      · subst ae; exact lexLt_irrefl _ (Ue a ha)
      · have ha' : a ∈ m := (List.mem_cons.1 hb).resolve_left ae
        by_cases as : a = s
        · subst as; exact lexLt_irrefl _ (Us a ha)
        have hms : m.getLast? = some s := by rw [List.getLast?_cons_of_ne_nil hm] at hls; exact hls
        obtain ⟨i, hi, hai⟩ := List.getElem_of_mem ha'
        have hi' : i < m.length - 1 := by
          by_contra hh
          have : i = m.length - 1 := by omega
          apply as
          rw [List.getLast?_eq_getElem?, List.getElem?_eq_getElem (by omega)] at hms
          rw [← Option.some.inj hms, ← hai]; simp only [this]
        have := List.pairwise_iff_getElem.1 (List.triplewise_cons.1 L.2).1 i (m.length - 1) hi (by omega) hi'
        rw [List.getLast?_eq_getElem?, List.getElem?_eq_getElem (by omega)] at hms
        rw [Option.some.inj hms, hai] at this
        unfold area2 at this h1
        linarith
  · rw [List.triplewise_reverse]
    exact T

/-! ### Points between the chains -/

theorem vertical_mem {K : Set (V2 α)} (hK : Convex2 K) {a b q : V2 α} (ha : a ∈ K) (hb : b ∈ K) (h1 : a.x = q.x) (h2 : b.x = q.x)
    (h3 : a.y ≤ q.y) (h4 : q.y ≤ b.y) : q ∈ K := by
  rcases (h3.trans h4).lt_or_eq with h | h
  · have hd : 0 < b.y - a.y := sub_pos.2 h
    have := hK a ha b hb ((b.y - q.y) / (b.y - a.y)) ((q.y - a.y) / (b.y - a.y)) (div_nonneg (sub_nonneg.2 h4) hd.le)
      (div_nonneg (sub_nonneg.2 h3) hd.le) (by field_simp; ring)
    convert this using 1
    apply V2.ext
    · rw [h1, h2]; field_simp; ring
    · field_simp; ring
  · have : a = q := V2.ext h1 (le_antisymm h3 (by rw [h]; exact h4))
    rwa [← this]

/-- A point between `a` and `b` and to the left of the edge: the point of the edge below it is in the set. -/
theorem below_mem {K : Set (V2 α)} (hK : Convex2 K) {a b q : V2 α} (ha : a ∈ K) (hb : b ∈ K) (h1 : lexLe a q) (h2 : lexLe q b)
    (h : 0 ≤ area2 a b q) : q ∈ K ∨ ∃ y, y ≤ q.y ∧ (⟨q.x, y⟩ : V2 α) ∈ K := by
  rw [lexLe_iff'] at h1 h2
  have hx1 : a.x ≤ q.x := by
    rcases h1 with h | h
    · linarith
    · linarith [h.1]
  have hx2 : q.x ≤ b.x := by
    rcases h2 with h | h
    · linarith
    · linarith [h.1]
  rcases (hx1.trans hx2).lt_or_eq with hx | hx
  · right
    have hd : 0 < b.x - a.x := sub_pos.2 hx
    have := hK a ha b hb ((b.x - q.x) / (b.x - a.x)) ((q.x - a.x) / (b.x - a.x)) (div_nonneg (sub_nonneg.2 hx2) hd.le)
      (div_nonneg (sub_nonneg.2 hx1) hd.le) (by field_simp; ring)
    refine ⟨(b.x - q.x) / (b.x - a.x) * a.y + (q.x - a.x) / (b.x - a.x) * b.y, ?_, ?_⟩
    swap
    · convert this using 1
      apply V2.ext
      · show q.x = _
        field_simp; ring
      · rfl
    rw [div_mul_eq_mul_div, div_mul_eq_mul_div, ← add_div, div_le_iff₀ hd]
    unfold area2 at h
    linarith
  · left
    have e1 : a.x = q.x := le_antisymm hx1 (by rw [hx]; exact hx2)
    have e2 : b.x = q.x := by rw [← hx, e1]
    refine vertical_mem hK ha hb e1 e2 ?_ ?_
    · rcases h1 with h | h
      · linarith
      · linarith [h.2]
    · rcases h2 with h | h
      · linarith
      · linarith [h.2]

theorem convex_neg2 {K : Set (V2 α)} (hK : Convex2 K) : Convex2 {p | neg2 p ∈ K} := by
  intro p hp q hq s t hs ht hst
  have := hK _ hp _ hq s t hs ht hst
  show neg2 _ ∈ K
  convert this using 1
  apply V2.ext <;> simp [neg2] <;> ring

theorem between_mem {K : Set (V2 α)} (hK : Convex2 K) {a b c d q : V2 α} (ha : a ∈ K) (hb : b ∈ K) (hc : c ∈ K) (hd : d ∈ K)
    (h1 : lexLe a q) (h2 : lexLe q b) (h3 : 0 ≤ area2 a b q) (k1 : lexLe d q) (k2 : lexLe q c) (k3 : 0 ≤ area2 c d q) : q ∈ K := by
  rcases below_mem hK ha hb h1 h2 h3 with h | ⟨y, hy, h⟩
  · exact h
  · have := below_mem (K := {p | neg2 p ∈ K}) (convex_neg2 hK) (a := neg2 c) (b := neg2 d) (q := neg2 q)
      (by show neg2 (neg2 c) ∈ K; rwa [neg2_neg2]) (by show neg2 (neg2 d) ∈ K; rwa [neg2_neg2]) (lexLe_neg2.2 k2) (lexLe_neg2.2 k1)
      (by rw [area2_neg2]; exact k3)
    rcases this with h' | ⟨z, hz, h'⟩
    · have : neg2 (neg2 q) ∈ K := h'
      rwa [neg2_neg2] at this
    · have h'' : neg2 (⟨(neg2 q).x, z⟩ : V2 α) ∈ K := h'
      have e : neg2 (⟨(neg2 q).x, z⟩ : V2 α) = ⟨q.x, -z⟩ := by simp [neg2]
      rw [e] at h''
      have hz' : z ≤ -q.y := hz
      exact vertical_mem hK h h'' rfl rfl hy (by show q.y ≤ -z; linarith)

end MGL.Hull2D
