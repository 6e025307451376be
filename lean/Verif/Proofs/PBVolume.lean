import Verif.Model.PBVolume
import Verif.Spec.HalfSpaces
import Verif.Proofs.Polyhedron
import Mathlib.Data.List.Chain
import Mathlib.Tactic.Linarith

/-! Lemmas for the plane-bounded volumes. -/

set_option linter.unusedSectionVars false

namespace MGL
open V3
namespace PBVolume
variable {α : Type} [Field α] [LinearOrder α] [IsStrictOrderedRing α]

theorem mem_triples {n i j k : ℕ} : (i, j, k) ∈ triples n ↔ i < j ∧ j < k ∧ k < n := by
  simp only [triples, List.mem_flatMap, List.mem_range, List.mem_range'_1, List.mem_map, Prod.mk.injEq]
  constructor
  · rintro ⟨i', h1, j', h2, k', h3, rfl, rfl, rfl⟩
    omega
  · rintro ⟨h1, h2, h3⟩
    exact ⟨i, by omega, j, by omega, k, by omega, rfl, rfl, rfl⟩

theorem containsExcept_iff (b : PBVolume α) (x : V3 α) (i j k : ℕ) :
    b.containsExcept x i j k = true ↔
      ∀ l (q : Plane α), b.p[l]? = some q → l ≠ i → l ≠ j → l ≠ k → q.signedDistance x ≤ 0 := by
  unfold containsExcept
  rw [List.all_eq_true]
  constructor
  · intro h l q hq h1 h2 h3
    have := h (q, l) (List.mem_zipIdx_iff_getElem?.2 hq)
    simpa [h1, h2, h3] using this
  · rintro h ⟨q, l⟩ hm
    have hq := List.mem_zipIdx_iff_getElem?.1 hm
    by_cases h1 : l = i
    · simp [h1]
    by_cases h2 : l = j
    · simp [h2]
    by_cases h3 : l = k
    · simp [h3]
    have := h l q hq h1 h2 h3
    simp [h1, h2, h3, this]

/-- What the loops of `ToPolyhedron` keep: `Good i j k x` says that `x` is a corner of the planes `i`, `j` and `k`. -/
structure Inv (b : PBVolume α) (corner : ℕ → ℕ → ℕ → Option (V3 α)) (Good : ℕ → ℕ → ℕ → V3 α → Prop)
    (done : List (ℕ × ℕ × ℕ)) (st : List (V3 α) × List (List CornerPt)) : Prop where
  len : st.2.length = b.p.length
  vert : ∀ x ∈ st.1, ∃ i j k, Good i j k x
  face : ∀ i pts, st.2[i]? = some pts → ∀ c ∈ pts, ∃ u x, st.1[c.ptIndex]? = some u ∧ nearEq u x = true ∧ Good i c.j c.k x
  full : ∀ i j k x, (i, j, k) ∈ done → corner i j k = some x → b.containsExcept x i j k = true →
    ∃ m u, st.1[m]? = some u ∧ nearEq u x = true ∧
      (∃ pts, st.2[i]? = some pts ∧ ⟨m, j, k⟩ ∈ pts) ∧ (∃ pts, st.2[j]? = some pts ∧ ⟨m, i, k⟩ ∈ pts) ∧
      (∃ pts, st.2[k]? = some pts ∧ ⟨m, i, j⟩ ∈ pts)

theorem nearEq_refl (x : V3 α) : nearEq x x = true := by
  simp [nearEq, absF]

theorem addVertex_spec (v : List (V3 α)) (c : V3 α) :
    (∃ u, (addVertex v c).1[(addVertex v c).2]? = some u ∧ nearEq u c = true) ∧
    (∀ (m : ℕ) (u : V3 α), v[m]? = some u → (addVertex v c).1[m]? = some u) ∧
    (∀ x ∈ (addVertex v c).1, x ∈ v ∨ x = c) := by
  unfold addVertex
  split
  · rename_i l hl
    obtain ⟨hlt, hp, -⟩ := List.findIdx?_eq_some_iff_getElem.1 hl
    exact ⟨⟨v[l], List.getElem?_eq_getElem hlt, hp⟩, fun m u h => h, fun x hx => Or.inl hx⟩
  · refine ⟨⟨c, by simp, nearEq_refl c⟩, fun m u h => ?_, fun x hx => by simpa using hx⟩
    rw [List.getElem?_append_left]
    · exact h
    · exact (List.getElem?_eq_some_iff.1 h).1

theorem pushCorner_get (faces : List (List CornerPt)) (i l : ℕ) (pt : CornerPt) :
    (pushCorner faces i pt)[l]? = if i = l then (faces[l]?).map (· ++ [pt]) else faces[l]? := by
  unfold pushCorner
  rw [List.getElem?_modify]
  split <;> simp

theorem pushCorner_mono (faces : List (List CornerPt)) (i l : ℕ) (pt c : CornerPt)
    (h : ∃ pts, faces[l]? = some pts ∧ c ∈ pts) : ∃ pts, (pushCorner faces i pt)[l]? = some pts ∧ c ∈ pts := by
  obtain ⟨pts, h1, h2⟩ := h
  rw [pushCorner_get]
  split
  · rw [h1]; exact ⟨_, rfl, by simp [h2]⟩
  · exact ⟨pts, h1, h2⟩

theorem pushCorner_self (faces : List (List CornerPt)) (i : ℕ) (pt : CornerPt) (h : i < faces.length) :
    ∃ pts, (pushCorner faces i pt)[i]? = some pts ∧ pt ∈ pts := by
  rw [pushCorner_get, if_pos rfl, List.getElem?_eq_getElem h]
  exact ⟨_, rfl, by simp⟩

theorem pushCorner_back (faces : List (List CornerPt)) (i l : ℕ) (pt c : CornerPt) (pts : List CornerPt)
    (h : (pushCorner faces i pt)[l]? = some pts) (hc : c ∈ pts) :
    (∃ pts', faces[l]? = some pts' ∧ c ∈ pts') ∨ (l = i ∧ c = pt) := by
  rw [pushCorner_get] at h
  split at h
  · rename_i e
    cases hf : faces[l]? with
    | none => rw [hf] at h; simp at h
    | some p' =>
      rw [hf] at h
      simp only [Option.map_some, Option.some.injEq] at h
      subst h
      rcases List.mem_append.1 hc with h' | h'
      · exact Or.inl ⟨p', rfl, h'⟩
      · exact Or.inr ⟨e.symm, List.mem_singleton.1 h'⟩
  · exact Or.inl ⟨pts, h, hc⟩

theorem pushCorner_length (faces : List (List CornerPt)) (i : ℕ) (pt : CornerPt) :
    (pushCorner faces i pt).length = faces.length := by simp [pushCorner]

theorem Inv.step {b : PBVolume α} {corner : ℕ → ℕ → ℕ → Option (V3 α)} {Good : ℕ → ℕ → ℕ → V3 α → Prop}
    (hG : ∀ i j k x, i < j → j < k → k < b.p.length → corner i j k = some x → b.containsExcept x i j k = true → Good i j k x)
    (hs : ∀ i j k x, Good i j k x → Good j i k x ∧ Good k i j x)
    {done : List (ℕ × ℕ × ℕ)} {st : List (V3 α) × List (List CornerPt)} (h : Inv b corner Good done st) {t : ℕ × ℕ × ℕ}
    (ht : t ∈ triples b.p.length) : Inv b corner Good (done ++ [t]) (b.cornerStep corner st t) := by
  obtain ⟨i, j, k⟩ := t
  obtain ⟨hij, hjk, hkn⟩ := mem_triples.1 ht
  have keep : (corner i j k = none ∨ ∃ c, corner i j k = some c ∧ b.containsExcept c i j k = false) →
      Inv b corner Good (done ++ [(i, j, k)]) st := by
    intro hk
    refine ⟨h.len, h.vert, h.face, fun i' j' k' x hm hx hc => ?_⟩
    rcases List.mem_append.1 hm with hm | hm
    · exact h.full i' j' k' x hm hx hc
    · simp only [List.mem_singleton, Prod.mk.injEq] at hm
      obtain ⟨rfl, rfl, rfl⟩ := hm
      rcases hk with hk | ⟨c, hk, hc'⟩
      · rw [hk] at hx; exact absurd hx (by simp)
      · rw [hk] at hx
        obtain rfl := Option.some.inj hx
        rw [hc'] at hc; exact absurd hc (by simp)
  unfold cornerStep
  cases hc : corner i j k with
  | none => exact keep (Or.inl hc)
  | some c =>
    dsimp only
    cases hce : b.containsExcept c i j k with
    | false => exact keep (Or.inr ⟨c, hc, hce⟩)
    | true =>
      have hgood := hG i j k c hij hjk hkn hc hce
      have hgj := (hs _ _ _ _ hgood).1
      have hgk := (hs _ _ _ _ hgood).2
      obtain ⟨⟨u, hu, hun⟩, hmono, hback⟩ := addVertex_spec st.1 c
      simp only [if_true]
      have hli : i < st.2.length := by rw [h.len]; omega
      have hlj : j < st.2.length := by rw [h.len]; omega
      have hlk : k < st.2.length := by rw [h.len]; omega
      refine ⟨by simp only [pushCorner_length]; exact h.len, ?_, ?_, ?_⟩
      · intro x hx
        rcases hback x hx with hx | rfl
        · exact h.vert x hx
        · exact ⟨i, j, k, hgood⟩
      · intro l pts hp d hd
        rcases pushCorner_back _ _ _ _ _ _ hp hd with ⟨p1, hp1, hd1⟩ | ⟨rfl, rfl⟩
        · rcases pushCorner_back _ _ _ _ _ _ hp1 hd1 with ⟨p2, hp2, hd2⟩ | ⟨rfl, rfl⟩
          · rcases pushCorner_back _ _ _ _ _ _ hp2 hd2 with ⟨p3, hp3, hd3⟩ | ⟨rfl, rfl⟩
            · obtain ⟨u', x', h1, h2, h3⟩ := h.face l p3 hp3 d hd3
              exact ⟨u', x', hmono _ _ h1, h2, h3⟩
            · exact ⟨u, c, hu, hun, hgood⟩
          · exact ⟨u, c, hu, hun, hgj⟩
        · exact ⟨u, c, hu, hun, hgk⟩
      · intro i' j' k' x hm hx hcx
        rcases List.mem_append.1 hm with hm | hm
        · obtain ⟨m, u', h1, h2, h3, h4, h5⟩ := h.full i' j' k' x hm hx hcx
          exact ⟨m, u', hmono _ _ h1, h2,
            pushCorner_mono _ _ _ _ _ (pushCorner_mono _ _ _ _ _ (pushCorner_mono _ _ _ _ _ h3)),
            pushCorner_mono _ _ _ _ _ (pushCorner_mono _ _ _ _ _ (pushCorner_mono _ _ _ _ _ h4)),
            pushCorner_mono _ _ _ _ _ (pushCorner_mono _ _ _ _ _ (pushCorner_mono _ _ _ _ _ h5))⟩
        · simp only [List.mem_singleton, Prod.mk.injEq] at hm
          obtain ⟨rfl, rfl, rfl⟩ := hm
          rw [hc] at hx
          obtain rfl := Option.some.inj hx
          refine ⟨_, u, hu, hun, ?_, ?_, ?_⟩
          · exact pushCorner_mono _ _ _ _ _ (pushCorner_mono _ _ _ _ _ (pushCorner_self _ _ _ hli))
          · exact pushCorner_mono _ _ _ _ _ (pushCorner_self _ _ _ (by rw [pushCorner_length]; exact hlj))
          · exact pushCorner_self _ _ _ (by rw [pushCorner_length, pushCorner_length]; exact hlk)

theorem corners_inv {b : PBVolume α} {corner : ℕ → ℕ → ℕ → Option (V3 α)} {Good : ℕ → ℕ → ℕ → V3 α → Prop}
    (hG : ∀ i j k x, i < j → j < k → k < b.p.length → corner i j k = some x → b.containsExcept x i j k = true → Good i j k x)
    (hs : ∀ i j k x, Good i j k x → Good j i k x ∧ Good k i j x) :
    Inv b corner Good (triples b.p.length) (b.corners corner) := by
  have key : ∀ (ts done : List (ℕ × ℕ × ℕ)) (st : List (V3 α) × List (List CornerPt)),
      (∀ t ∈ ts, t ∈ triples b.p.length) → Inv b corner Good done st →
      Inv b corner Good (done ++ ts) (ts.foldl (b.cornerStep corner) st) := by
    intro ts
    induction ts with
    | nil => intro done st _ h; simpa using h
    | cons t ts ih =>
      intro done st ht h
      rw [List.foldl_cons, ← List.singleton_append, ← List.append_assoc]
      exact ih _ _ (fun t' h' => ht t' (List.mem_cons_of_mem _ h')) (h.step hG hs (ht t List.mem_cons_self))
  have := key (triples b.p.length) [] ([], List.replicate b.p.length []) (fun t h => h)
    ⟨by simp, by simp, by
      intro i pts hp c hc
      have := List.mem_of_getElem? hp
      rw [List.mem_replicate] at this
      rw [this.2] at hc; simp at hc, by simp⟩
  simpa [corners] using this

/-! ### The selection sort -/

/-- The same corner, perhaps with its two planes in the other order. -/
def SameCorner (a b : CornerPt) : Prop := a = b ∨ a = ⟨b.ptIndex, b.k, b.j⟩

theorem findNext_spec (pk : ℕ) (l : List CornerPt) (s m : ℕ) (cur : CornerPt) (h : findNext pk s l = some (m, cur)) :
    s ≤ m ∧ cur.j = pk ∧ ∃ c, l[m - s]? = some c ∧ SameCorner cur c := by
  induction l generalizing s with
  | nil => simp [findNext] at h
  | cons c cs ih =>
    unfold findNext at h
    split_ifs at h with h1 h2
    · simp only [Option.some.injEq, Prod.mk.injEq] at h
      obtain ⟨rfl, rfl⟩ := h
      exact ⟨le_rfl, h1, c, by simp, Or.inl rfl⟩
    · simp only [Option.some.injEq, Prod.mk.injEq] at h
      obtain ⟨rfl, rfl⟩ := h
      exact ⟨le_rfl, h2, c, by simp, Or.inr rfl⟩
    · obtain ⟨e1, e2, c', e3, e4⟩ := ih (s + 1) h
      refine ⟨by omega, e2, c', ?_, e4⟩
      have : m - s = (m - (s + 1)) + 1 := by omega
      rw [this, List.getElem?_cons_succ]; exact e3

/-- The list after the swap, without its first element: a permutation of the rest without the chosen one. -/
theorem swap_perm (h : CornerPt) (t : List CornerPt) (m : ℕ) (c : CornerPt) (hm : (h :: t)[m]? = some c) :
    (c :: ((h :: t).set m h).tail).Perm (h :: t) := by
  cases m with
  | zero =>
    simp only [List.getElem?_cons_zero, Option.some.injEq] at hm
    subst hm; simp
  | succ m =>
    simp only [List.getElem?_cons_succ] at hm
    simp only [List.set_cons_succ, List.tail_cons]
    obtain ⟨hlt, rfl⟩ := List.getElem?_eq_some_iff.1 hm
    have e1 : t = t.take m ++ t[m] :: t.drop (m + 1) := by simp
    have e2 : t.set m h = t.take m ++ h :: t.drop (m + 1) := List.set_eq_take_append_cons_drop .. |>.trans (by simp [hlt])
    rw [e2]
    conv_rhs => rw [e1]
    have p1 : (t.take m ++ h :: t.drop (m + 1)).Perm (h :: (t.take m ++ t.drop (m + 1))) := List.perm_middle
    have p2 : (t.take m ++ t[m] :: t.drop (m + 1)).Perm (t[m] :: (t.take m ++ t.drop (m + 1))) := List.perm_middle
    exact ((p1.cons _).trans (List.Perm.swap ..)).trans (p2.symm.cons _)

theorem connectLoop_spec (n : ℕ) (prev : CornerPt) (rest : List CornerPt) (hn : n = rest.length) :
    ((connectLoop n prev rest).1.map CornerPt.ptIndex).Perm (rest.map CornerPt.ptIndex) ∧
    (∀ c ∈ (connectLoop n prev rest).1, ∃ c' ∈ rest, SameCorner c c') ∧
    ((connectLoop n prev rest).2 = true → List.IsChain (fun a b : CornerPt => a.k = b.j) (prev :: (connectLoop n prev rest).1)) := by
  induction n generalizing prev rest with
  | zero =>
    obtain rfl := List.length_eq_zero_iff.1 hn.symm
    simp [connectLoop]
  | succ n ih =>
    cases rest with
    | nil => simp at hn
    | cons h t =>
      unfold connectLoop
      cases hf : findNext prev.k 0 (h :: t) with
      | none =>
        dsimp only
        obtain ⟨i1, i2, -⟩ := ih h t (by simpa using hn)
        refine ⟨by simpa using i1, ?_, by simp⟩
        intro c hc
        rcases List.mem_cons.1 hc with rfl | hc
        · exact ⟨c, List.mem_cons_self, Or.inl rfl⟩
        · obtain ⟨c', h1, h2⟩ := i2 c hc
          exact ⟨c', List.mem_cons_of_mem _ h1, h2⟩
      | some r =>
        obtain ⟨m, cur⟩ := r
        dsimp only
        obtain ⟨-, hj, c, hcm, hsame⟩ := findNext_spec _ _ _ _ _ hf
        rw [Nat.sub_zero] at hcm
        have hp := swap_perm h t m c hcm
        have hlen : n = ((h :: t).set m h).tail.length := by
          have := hp.length_eq
          simp only [List.length_cons] at this hn
          omega
        obtain ⟨i1, i2, i3⟩ := ih cur _ hlen
        have hidx : cur.ptIndex = c.ptIndex := by rcases hsame with e | e <;> rw [e]
        refine ⟨?_, ?_, ?_⟩
        · rw [List.map_cons, hidx]
          exact (i1.cons _).trans (by simpa using hp.map CornerPt.ptIndex)
        · intro d hd
          rcases List.mem_cons.1 hd with rfl | hd
          · exact ⟨c, hp.subset List.mem_cons_self, hsame⟩
          · obtain ⟨c', h1, h2⟩ := i2 d hd
            exact ⟨c', hp.subset (List.mem_cons_of_mem _ h1), h2⟩
        · intro hb
          exact List.IsChain.cons_cons hj.symm (i3 hb)

theorem connectFace_spec (pt : List CornerPt) :
    ((connectFace pt).1.map CornerPt.ptIndex).Perm (pt.map CornerPt.ptIndex) ∧
    (∀ c ∈ (connectFace pt).1, ∃ c' ∈ pt, SameCorner c c') ∧
    ((connectFace pt).2 = true → List.IsChain (fun a b : CornerPt => a.k = b.j) (connectFace pt).1 ∧
      ∀ a z, (connectFace pt).1.head? = some a → (connectFace pt).1.getLast? = some z → z.k = a.j) := by
  cases pt with
  | nil => simp [connectFace]
  | cons p ps =>
    obtain ⟨h1, h2, h3⟩ := connectLoop_spec ps.length p ps rfl
    unfold connectFace
    refine ⟨by simpa using h1, ?_, ?_⟩
    · intro c hc
      rcases List.mem_cons.1 hc with rfl | hc
      · exact ⟨c, List.mem_cons_self, Or.inl rfl⟩
      · obtain ⟨c', e1, e2⟩ := h2 c hc
        exact ⟨c', List.mem_cons_of_mem _ e1, e2⟩
    · intro hb
      rw [Bool.and_eq_true] at hb
      refine ⟨h3 hb.1, fun a z ha hz => ?_⟩
      simp only [List.head?_cons, Option.some.injEq] at ha
      subst ha
      have := of_decide_eq_true hb.2
      dsimp only at hz
      rw [hz] at this
      simpa using this

end PBVolume
end MGL
