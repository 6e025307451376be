import Mathlib.Data.List.Rotate
import Mathlib.Data.List.Nodup
import Mathlib.Data.List.Perm.Basic
import Mathlib.Data.List.Dedup
import Mathlib.Data.List.GetD
import Mathlib.Data.Finset.Card
import Mathlib.Data.Finset.Image
import Mathlib.Data.Prod.Basic
import Mathlib.Tactic.Linarith
import Mathlib.Tactic.Push
import Verif.Spec.Mesh
import Verif.Model.Polyhedron

/-! Lemmas about the index structure of polyhedra. -/

namespace MGL
open Spec

/-! ### The ordered sets -/

theorem mem_stdSetInsert {β : Type*} {lt : β → β → Bool} (htri : ∀ a b, lt a b = false → lt b a = false → a = b)
    (e y : β) (s : List β) : y ∈ stdSetInsert lt e s ↔ y = e ∨ y ∈ s := by
  induction s with
  | nil => simp [stdSetInsert]
  | cons x xs ih =>
    rw [stdSetInsert]
    split_ifs with h1 h2
    · simp
    · simp only [List.mem_cons, ih]; tauto
    · have := htri e x (by simpa using h1) (by simpa using h2)
      subst this
      simp only [List.mem_cons]; tauto

theorem pairwise_stdSetInsert {β : Type*} {lt : β → β → Bool} (htri : ∀ a b, lt a b = false → lt b a = false → a = b)
    (htrans : ∀ a b c, lt a b → lt b c → lt a c) (e : β) (s : List β) (hs : s.Pairwise fun a b => lt a b = true) :
    (stdSetInsert lt e s).Pairwise fun a b => lt a b = true := by
  induction s with
  | nil => simp [stdSetInsert]
  | cons x xs ih =>
    rw [List.pairwise_cons] at hs
    rw [stdSetInsert]
    split_ifs with h1 h2
    · rw [List.pairwise_cons]
      refine ⟨fun y hy => ?_, List.pairwise_cons.2 hs⟩
      rcases List.mem_cons.1 hy with rfl | hy
      · exact h1
      · exact htrans _ _ _ h1 (hs.1 y hy)
    · rw [List.pairwise_cons]
      refine ⟨fun y hy => ?_, ih hs.2⟩
      rcases (mem_stdSetInsert htri _ _ _).1 hy with rfl | hy
      · exact h2
      · exact hs.1 y hy
    · exact List.pairwise_cons.2 hs

theorem pairLt_tri (a b : ℤ × ℤ) (h1 : pairLt a b = false) (h2 : pairLt b a = false) : a = b := by
  simp only [pairLt, decide_eq_false_iff_not] at h1 h2
  push Not at h1 h2
  ext <;> omega

theorem pairLt_trans (a b c : ℤ × ℤ) (h1 : pairLt a b) (h2 : pairLt b c) : pairLt a c := by
  simp only [pairLt, decide_eq_true_eq] at *
  omega

theorem intLt_tri (a b : ℤ) (h1 : decide (a < b) = false) (h2 : decide (b < a) = false) : a = b := by
  simp only [decide_eq_false_iff_not] at h1 h2
  omega

theorem intLt_trans (a b c : ℤ) (h1 : decide (a < b) = true) (h2 : decide (b < c) = true) : decide (a < c) = true := by
  simp only [decide_eq_true_eq] at *
  omega

namespace Polyhedron
variable {α : Type}

/-! ### The edges of a face in the order of the code -/

/-- The edges in the order in which the loops of the code visit them. -/
def loopEdges (x : ℤ) (f : List ℤ) : List (ℤ × ℤ) := (x :: f).zip f

@[simp] theorem loopEdges_nil (x : ℤ) : loopEdges x [] = [] := rfl
@[simp] theorem loopEdges_cons (x y : ℤ) (ys : List ℤ) : loopEdges x (y :: ys) = (x, y) :: loopEdges y ys := rfl

theorem loopEdges_perm {f : List ℤ} {x : ℤ} (h : f.getLast? = some x) : (loopEdges x f).Perm (faceEdges f) := by
  rw [List.getLast?_eq_some_iff] at h
  obtain ⟨g, rfl⟩ := h
  rcases hg : g ++ [x] with _ | ⟨a, t⟩
  · simp at hg
  have hl : g.length = t.length := by
    have := congrArg List.length hg
    simpa using this
  rw [faceEdges, List.rotate_cons_succ, List.rotate_zero]
  have e1 : loopEdges x (a :: t) = (x, a) :: g.zip t := by
    rw [loopEdges_cons, loopEdges, ← hg]
    congr 1
    have : t = t ++ [] := by simp
    conv_lhs => rw [this, List.zip_append (by omega)]
    simp
  have e2 : (a :: t).zip (t ++ [a]) = g.zip t ++ [(x, a)] := by
    rw [← hg, List.zip_append hl]; rfl
  rw [e1, e2]
  exact (List.perm_append_comm (l₁ := [(x, a)]))

theorem faceEdges_nil : faceEdges [] = [] := rfl

theorem length_faceEdges (f : List ℤ) : (faceEdges f).length = f.length := by
  simp [faceEdges]

theorem meshEdges_nil : meshEdges [] = [] := rfl

theorem meshEdges_cons (f : List ℤ) (fs : List (List ℤ)) :
    meshEdges (f :: fs) = (if 2 ≤ f.length then faceEdges f else []) ++ meshEdges fs := by
  rw [meshEdges, List.filter_cons]
  by_cases h : 2 ≤ f.length
  · simp [h, meshEdges]
  · simp [h, meshEdges]

theorem meshEdges_perm {fs gs : List (List ℤ)} (h : fs.Perm gs) : (meshEdges fs).Perm (meshEdges gs) :=
  (h.filter _).flatMap_right _

theorem meshEdges_append (fs gs : List (List ℤ)) : meshEdges (fs ++ gs) = meshEdges fs ++ meshEdges gs := by
  simp [meshEdges]

/-! ### Closedness -/

theorem closedFace_spec (f : List ℤ) : ∀ (x : ℤ) (s : List (ℤ × ℤ)),
    (closedFace x f s = none ∧ ¬ ((loopEdges x f).Nodup ∧ ∀ e ∈ loopEdges x f, e ∉ s)) ∨
    (∃ s', closedFace x f s = some s' ∧ (loopEdges x f).Nodup ∧ (∀ e ∈ loopEdges x f, e ∉ s) ∧
      ∀ e, e ∈ s' ↔ e ∈ s ∨ e ∈ loopEdges x f) := by
  induction f with
  | nil => intro x s; right; exact ⟨s, rfl, by simp⟩
  | cons y ys ih =>
    intro x s
    rw [closedFace]
    split_ifs with hm
    · left
      refine ⟨rfl, fun h => h.2 (x, y) (by simp) hm⟩
    · rcases ih y (stdSetInsert pairLt (x, y) s) with ⟨h1, h2⟩ | ⟨s', h1, h2, h3, h4⟩
      · left
        refine ⟨h1, fun h => h2 ?_⟩
        rw [loopEdges_cons, List.nodup_cons] at h
        refine ⟨h.1.2, fun e he hs => ?_⟩
        rcases (mem_stdSetInsert pairLt_tri _ _ _).1 hs with rfl | hs
        · exact h.1.1 he
        · exact h.2 e (List.mem_cons_of_mem _ he) hs
      · right
        refine ⟨s', h1, ?_, ?_, ?_⟩
        · rw [loopEdges_cons, List.nodup_cons]
          exact ⟨fun he => h3 _ he ((mem_stdSetInsert pairLt_tri _ _ _).2 (Or.inl rfl)), h2⟩
        · intro e he hs
          rw [loopEdges_cons] at he
          rcases List.mem_cons.1 he with rfl | he
          · exact hm hs
          · exact h3 e he ((mem_stdSetInsert pairLt_tri _ _ _).2 (Or.inr hs))
        · intro e
          rw [h4, mem_stdSetInsert pairLt_tri, loopEdges_cons, List.mem_cons]
          tauto

theorem closedFaces_spec (fs : List (List ℤ)) : ∀ (s : List (ℤ × ℤ)),
    (closedFaces fs s = none ∧ ¬ ((meshEdges fs).Nodup ∧ ∀ e ∈ meshEdges fs, e ∉ s)) ∨
    (∃ s', closedFaces fs s = some s' ∧ (meshEdges fs).Nodup ∧ (∀ e ∈ meshEdges fs, e ∉ s) ∧
      ∀ e, e ∈ s' ↔ e ∈ s ∨ e ∈ meshEdges fs) := by
  induction fs with
  | nil => intro s; right; exact ⟨s, rfl, by simp [meshEdges_nil]⟩
  | cons f fs ih =>
    intro s
    rw [closedFaces, meshEdges_cons]
    rcases hf : f.getLast? with _ | x
    · have : f = [] := by simpa using hf
      subst this
      simpa using ih s
    · dsimp only
      by_cases hl : f.length ≤ 1
      · rw [if_pos hl, if_neg (by omega)]
        simpa using ih s
      · rw [if_neg hl, if_pos (by omega)]
        have hp := loopEdges_perm hf
        have hmem : ∀ e, e ∈ faceEdges f ↔ e ∈ loopEdges x f := fun e => hp.mem_iff.symm
        rcases closedFace_spec f x s with ⟨h1, h2⟩ | ⟨s', h1, h2, h3, h4⟩
        · left
          rw [h1]
          refine ⟨rfl, fun h => h2 ?_⟩
          rw [List.nodup_append] at h
          exact ⟨hp.nodup_iff.2 h.1.1, fun e he => h.2 e (List.mem_append_left _ ((hmem e).2 he))⟩
        · rw [h1, Option.bind_some]
          rcases ih s' with ⟨k1, k2⟩ | ⟨s'', k1, k2, k3, k4⟩
          · left
            refine ⟨k1, fun h => k2 ?_⟩
            rw [List.nodup_append] at h
            refine ⟨h.1.2.1, fun e he hs => ?_⟩
            rcases (h4 e).1 hs with hs | hs
            · exact h.2 e (List.mem_append_right _ he) hs
            · exact h.1.2.2 e ((hmem e).2 hs) e he rfl
          · right
            refine ⟨s'', k1, ?_, ?_, ?_⟩
            · rw [List.nodup_append]
              refine ⟨hp.nodup_iff.1 h2, k2, fun a ha b hb hab => ?_⟩
              subst hab
              exact k3 a hb ((h4 a).2 (Or.inr ((hmem a).1 ha)))
            · intro e he hs
              rcases List.mem_append.1 he with he | he
              · exact h3 e ((hmem e).1 he) hs
              · exact k3 e he ((h4 e).2 (Or.inl hs))
            · intro e
              rw [k4, h4, List.mem_append, hmem]
              tauto

theorem isClosed_iff (p : Polyhedron α) : p.isClosed = true ↔ ClosedMesh p.f := by
  rw [isClosed]
  rcases closedFaces_spec p.f [] with ⟨h1, h2⟩ | ⟨s', h1, h2, -, h4⟩
  · rw [h1]
    constructor
    · intro h; cases h
    · intro h; exact absurd ⟨h.1, by simp⟩ h2
  · rw [h1]
    simp only [List.all_eq_true, decide_eq_true_eq]
    constructor
    · intro h
      refine ⟨h2, fun a b hab => ?_⟩
      have := h (a, b) ((h4 _).2 (Or.inr hab))
      simpa using (h4 _).1 this
    · rintro ⟨-, h⟩ ⟨a, b⟩ hab
      have := (h4 _).1 hab
      simp only [List.not_mem_nil, false_or] at this
      exact (h4 _).2 (Or.inr (h _ _ this))

/-! ### Valid indices -/

theorem faceIndicesValid_iff (p : Polyhedron α) : p.faceIndicesValid = true ↔ ValidFaces p.v.length p.f := by
  simp only [faceIndicesValid, Bool.and_eq_true, List.all_eq_true, Bool.not_eq_true', Bool.or_eq_false_iff,
    decide_eq_false_iff_not, List.mem_range, List.mem_range']
  constructor
  · rintro ⟨⟨h1, h2⟩, h3⟩ f hf
    refine ⟨by have := h2 f hf; omega, ?_, fun i hi => ?_⟩
    · rw [List.nodup_iff_injective_getElem]
      rintro ⟨j, hj⟩ ⟨k, hk⟩ h
      by_contra hne
      have hne' : j ≠ k := fun h => hne (by subst h; rfl)
      simp only at h
      rcases lt_or_gt_of_ne hne' with hlt | hlt
      · refine h3 f hf j hj k ⟨k - (j + 1), by omega, by omega⟩ ?_
        rw [List.getD_eq_getElem _ _ hj, List.getD_eq_getElem _ _ hk]; exact h
      · refine h3 f hf k hk j ⟨j - (k + 1), by omega, by omega⟩ ?_
        rw [List.getD_eq_getElem _ _ hj, List.getD_eq_getElem _ _ hk]; exact h.symm
    · have := h1 f hf i hi
      omega
  · intro h
    refine ⟨⟨fun f hf i hi => ?_, fun f hf => ?_⟩, fun f hf j hj k hk => ?_⟩
    · have := (h f hf).2.2 i hi
      omega
    · have := (h f hf).1
      omega
    · obtain ⟨m, hm, rfl⟩ := hk
      have hk : j + 1 + 1 * m < f.length := by omega
      rw [List.getD_eq_getElem _ _ hj, List.getD_eq_getElem _ _ hk]
      intro e
      have := (List.nodup_iff_injective_getElem.1 (h f hf).2.1) (a₁ := ⟨j, hj⟩) (a₂ := ⟨_, hk⟩) e
      simp only [Fin.mk.injEq] at this
      omega

/-! ### Winding order -/

theorem flipFace_fold (f : List ℤ) (k : ℕ) (hk : k ≤ f.length / 2) :
    ∃ g, (List.range k).foldl (fun g i => (g.set i (g.getD (f.length - 1 - i) 0)).set (f.length - 1 - i) (g.getD i 0)) f = g ∧
      g.length = f.length ∧ ∀ j < f.length, g.getD j 0 =
        if j < k ∨ f.length ≤ j + k then f.getD (f.length - 1 - j) 0 else f.getD j 0 := by
  induction k with
  | zero =>
    refine ⟨f, rfl, rfl, fun j hj => ?_⟩
    rw [if_neg (by omega)]
  | succ k ih =>
    obtain ⟨g, h1, h2, h3⟩ := ih (by omega)
    rw [List.range_succ, List.foldl_append, h1]
    refine ⟨_, rfl, by simp [h2], fun j hj => ?_⟩
    simp only [List.foldl_cons, List.foldl_nil]
    have hset : ∀ (l : List ℤ) (i m : ℕ) (x : ℤ), m < l.length → (l.set i x).getD m 0 = if i = m then x else l.getD m 0 := by
      intro l i m x hm
      rw [List.getD_eq_getElem _ _ (by simpa using hm), List.getElem_set, List.getD_eq_getElem _ _ hm]
    rw [hset _ _ _ _ (by simp [h2]; omega), hset _ _ _ _ (by omega)]
    by_cases e1 : f.length - 1 - k = j
    · rw [if_pos e1, if_pos (by omega), h3 k (by omega), if_neg (by omega)]
      congr 1; omega
    · rw [if_neg e1]
      by_cases e2 : k = j
      · rw [if_pos e2, if_pos (by omega), h3 _ (by omega), if_neg (by omega)]
        subst e2; rfl
      · rw [if_neg e2, h3 j hj]
        by_cases e3 : j < k ∨ f.length ≤ j + k
        · rw [if_pos e3, if_pos (by omega)]
        · rw [if_neg e3, if_neg (by omega)]

theorem flipFace_eq (f : List ℤ) : flipFace f = f.reverse := by
  obtain ⟨g, h1, h2, h3⟩ := flipFace_fold f (f.length / 2) le_rfl
  rw [flipFace, h1]
  apply List.ext_getElem (by simp [h2])
  intro j hj hj'
  have hjf : j < f.length := by omega
  have := h3 j hjf
  rw [List.getD_eq_getElem _ _ hj, List.getD_eq_getElem _ _ (show f.length - 1 - j < f.length by omega),
    List.getD_eq_getElem _ _ hjf] at this
  rw [this, List.getElem_reverse]
  split_ifs with h
  · rfl
  · congr 1; omega

theorem faceEdges_reverse (f : List ℤ) : (faceEdges f.reverse).Perm ((faceEdges f).map Prod.swap) := by
  have e1 : ((faceEdges f).map Prod.swap).reverse = (faceEdges f.reverse).rotate (f.length - 1) := by
    rw [← List.map_reverse, faceEdges, faceEdges, List.zip_eq_zipWith, List.zip_eq_zipWith]
    rw [List.zipWith_rotate_distrib _ _ _ _ (by simp), List.rotate_rotate]
    have e3 : (List.zipWith Prod.mk f (f.rotate 1)).reverse = List.zipWith Prod.mk f.reverse (f.rotate 1).reverse := by
      apply List.ext_getElem (by simp)
      intro i h1 h2
      simp only [List.getElem_reverse, List.getElem_zipWith, List.length_zipWith, List.length_rotate, min_self]
    rw [e3, List.map_zipWith]
    rcases Nat.eq_zero_or_pos f.length with h0 | h0
    · have : f = [] := List.length_eq_zero_iff.1 h0
      subst this; rfl
    · have e4 : 1 + (f.length - 1) = f.reverse.length := by simp; omega
      rw [e4, List.rotate_length, List.reverse_rotate]
      simp only [Prod.swap_prod_mk]
      rw [List.zipWith_comm]
      congr 1
      rcases Nat.lt_or_ge 1 f.length with h1 | h1
      · rw [Nat.mod_eq_of_lt h1]
      · have : f.length = 1 := by omega
        rw [this, show (1 : ℕ) - 1 % 1 = f.reverse.length by simp [this], List.rotate_length, Nat.sub_self, List.rotate_zero]
  exact ((List.rotate_perm _ _).symm.trans (List.Perm.of_eq e1.symm)).trans (List.reverse_perm _)

theorem meshEdges_reverse (fs : List (List ℤ)) :
    (meshEdges (fs.map List.reverse)).Perm ((meshEdges fs).map Prod.swap) := by
  induction fs with
  | nil => simp [meshEdges_nil]
  | cons f fs ih =>
    rw [List.map_cons, meshEdges_cons, meshEdges_cons, List.map_append, List.length_reverse]
    refine List.Perm.append ?_ ih
    split_ifs
    · exact faceEdges_reverse f
    · simp

theorem closedMesh_reverse {fs : List (List ℤ)} (h : ClosedMesh fs) : ClosedMesh (fs.map List.reverse) := by
  have hp := meshEdges_reverse fs
  refine ⟨hp.nodup_iff.2 (h.1.map Prod.swap_injective), fun a b hab => ?_⟩
  have hab := hp.mem_iff.1 hab
  apply hp.mem_iff.2
  simp only [List.mem_map, Prod.exists, Prod.swap_prod_mk, Prod.mk.injEq] at hab ⊢
  obtain ⟨c, d, hcd, rfl, rfl⟩ := hab
  exact ⟨d, c, h.2 _ _ hcd, rfl, rfl⟩

/-! ### The undirected edges -/

theorem mem_edgeIndicesFace (f : List ℤ) : ∀ (x : ℤ) (s : List (ℤ × ℤ)) (e : ℤ × ℤ),
    e ∈ edgeIndicesFace x f s ↔ e ∈ s ∨ ∃ d ∈ loopEdges x f, e = (min d.1 d.2, max d.1 d.2) := by
  induction f with
  | nil => intro x s e; simp [edgeIndicesFace]
  | cons y ys ih =>
    intro x s e
    rw [edgeIndicesFace, ih, mem_stdSetInsert pairLt_tri, loopEdges_cons]
    simp only [List.mem_cons, exists_eq_or_imp]
    tauto

theorem pairwise_edgeIndicesFace (f : List ℤ) : ∀ (x : ℤ) (s : List (ℤ × ℤ)),
    s.Pairwise (fun a b => pairLt a b = true) → (edgeIndicesFace x f s).Pairwise (fun a b => pairLt a b = true) := by
  induction f with
  | nil => intro x s h; exact h
  | cons y ys ih =>
    intro x s h
    exact ih _ _ (pairwise_stdSetInsert pairLt_tri pairLt_trans _ _ h)

theorem edgeIndices_fold (fs : List (List ℤ)) : ∀ s : List (ℤ × ℤ), s.Pairwise (fun a b => pairLt a b = true) →
    ∃ s', fs.foldl edgeIndicesStep s = s' ∧ s'.Pairwise (fun a b => pairLt a b = true) ∧
    ∀ e, e ∈ s' ↔ e ∈ s ∨ ∃ f ∈ fs, 3 ≤ f.length ∧ ∃ d ∈ faceEdges f, e = (min d.1 d.2, max d.1 d.2) := by
  induction fs with
  | nil => intro s hs; exact ⟨s, rfl, hs, by simp⟩
  | cons f fs ih =>
    intro s hs
    rw [List.foldl_cons, edgeIndicesStep]
    rcases hf : f.getLast? with _ | x
    · have : f = [] := by simpa using hf
      subst this
      obtain ⟨s', h1, h2, h3⟩ := ih s hs
      refine ⟨s', h1, h2, fun e => ?_⟩
      rw [h3]; simp
    · dsimp only
      by_cases hl : f.length < 3
      · rw [if_pos hl]
        obtain ⟨s', h1, h2, h3⟩ := ih s hs
        refine ⟨s', h1, h2, fun e => ?_⟩
        rw [h3]
        have : ¬ 3 ≤ f.length := by omega
        simp [this]
      · rw [if_neg hl]
        obtain ⟨s', h1, h2, h3⟩ := ih _ (pairwise_edgeIndicesFace f x s hs)
        refine ⟨s', h1, h2, fun e => ?_⟩
        rw [h3, mem_edgeIndicesFace]
        have hp := loopEdges_perm hf
        have : 3 ≤ f.length := by omega
        simp only [List.mem_cons, exists_eq_or_imp, this, true_and, hp.mem_iff, or_assoc]

theorem edgeIndices_spec (p : Polyhedron α) : p.edgeIndices.Pairwise (fun a b => pairLt a b = true) ∧
    ∀ e, e ∈ p.edgeIndices ↔ ∃ f ∈ p.f, 3 ≤ f.length ∧ ∃ d ∈ faceEdges f, e = (min d.1 d.2, max d.1 d.2) := by
  obtain ⟨s', h1, h2, h3⟩ := edgeIndices_fold p.f [] List.Pairwise.nil
  rw [edgeIndices, h1]
  exact ⟨h2, fun e => by rw [h3]; simp⟩

theorem pairLt_irrefl (a : ℤ × ℤ) : ¬ pairLt a a = true := by
  simp [pairLt]

theorem edgeIndices_nodup (p : Polyhedron α) : p.edgeIndices.Nodup :=
  (edgeIndices_spec p).1.imp fun {a b} h e => by subst e; exact pairLt_irrefl a h

theorem numEdges_eq (p : Polyhedron α) : p.numEdges = ((p.f.map List.length).sum : ℤ) / 2 := by
  rw [numEdges]
  congr 1
  have : ∀ (fs : List (List ℤ)) (z : ℤ), fs.foldl (fun n f => n + (f.length : ℤ)) z = z + ((fs.map List.length).sum : ℕ) := by
    intro fs
    induction fs with
    | nil => intro z; simp
    | cons f fs ih => intro z; rw [List.foldl_cons, ih]; simp; ring
  rw [this]; simp

theorem length_meshEdges {n : ℕ} {fs : List (List ℤ)} (h : ValidFaces n fs) : (meshEdges fs).length = (fs.map List.length).sum := by
  induction fs with
  | nil => rfl
  | cons f fs ih =>
    have h3 := (h f (by simp)).1
    rw [meshEdges_cons, if_pos (by omega), List.length_append, length_faceEdges, ih (fun g hg => h g (by simp [hg]))]
    simp

theorem mem_meshEdges {fs : List (List ℤ)} {e : ℤ × ℤ} : e ∈ meshEdges fs ↔ ∃ f ∈ fs, 2 ≤ f.length ∧ e ∈ faceEdges f := by
  simp only [meshEdges, List.mem_flatMap, List.mem_filter, decide_eq_true_eq, and_assoc]

theorem faceEdges_ne {f : List ℤ} (hn : f.Nodup) (hl : 2 ≤ f.length) {e : ℤ × ℤ} (he : e ∈ faceEdges f) : e.1 ≠ e.2 := by
  rw [faceEdges, List.mem_iff_getElem] at he
  obtain ⟨i, hi, rfl⟩ := he
  simp only [List.getElem_zip, List.getElem_rotate]
  intro h
  simp only [List.length_zip, List.length_rotate, min_self] at hi
  have := (List.nodup_iff_injective_getElem.1 hn) (a₁ := ⟨i, hi⟩) (a₂ := ⟨(i + 1) % f.length, Nat.mod_lt _ (by omega)⟩) h
  simp only [Fin.mk.injEq] at this
  rcases Nat.lt_or_ge (i + 1) f.length with h1 | h1
  · rw [Nat.mod_eq_of_lt h1] at this; omega
  · have h2 : i + 1 = f.length := by omega
    rw [h2, Nat.mod_self] at this
    omega

theorem edgeIndices_card {n : ℕ} (p : Polyhedron α) (hv : ValidFaces n p.f) (hc : ClosedMesh p.f) :
    (p.f.map List.length).sum = p.edgeIndices.length + p.edgeIndices.length := by
  have hmem : ∀ e, e ∈ p.edgeIndices ↔ e.1 < e.2 ∧ e ∈ meshEdges p.f := by
    intro e
    rw [(edgeIndices_spec p).2, mem_meshEdges]
    constructor
    · rintro ⟨f, hf, h3, d, hd, rfl⟩
      have hne := faceEdges_ne (hv f hf).2.1 (by omega) hd
      have hd' : (d.1, d.2) ∈ meshEdges p.f := mem_meshEdges.2 ⟨f, hf, by omega, hd⟩
      rcases lt_or_gt_of_ne hne with h | h
      · rw [min_eq_left h.le, max_eq_right h.le]
        exact ⟨h, mem_meshEdges.1 hd'⟩
      · rw [min_eq_right h.le, max_eq_left h.le]
        exact ⟨h, mem_meshEdges.1 (hc.2 _ _ hd')⟩
    · rintro ⟨h, f, hf, -, he⟩
      refine ⟨f, hf, (hv f hf).1, e, he, ?_⟩
      rw [min_eq_left h.le, max_eq_right h.le]
  have hE : (meshEdges p.f).toFinset.card = (meshEdges p.f).length := List.toFinset_card_of_nodup hc.1
  have hU : p.edgeIndices.toFinset.card = p.edgeIndices.length := List.toFinset_card_of_nodup (edgeIndices_nodup p)
  have hsplit : (meshEdges p.f).toFinset = p.edgeIndices.toFinset ∪ p.edgeIndices.toFinset.image Prod.swap := by
    ext ⟨a, b⟩
    simp only [List.mem_toFinset, Finset.mem_union, Finset.mem_image, hmem, Prod.exists, Prod.swap_prod_mk, Prod.mk.injEq]
    constructor
    · intro h
      obtain ⟨f, hf, h2, he⟩ := mem_meshEdges.1 h
      have hne := faceEdges_ne (hv f hf).2.1 h2 he
      rcases lt_or_gt_of_ne hne with hlt | hlt
      · exact Or.inl ⟨hlt, h⟩
      · exact Or.inr ⟨b, a, ⟨hlt, hc.2 _ _ h⟩, rfl, rfl⟩
    · rintro (⟨-, h⟩ | ⟨c, d, ⟨-, h⟩, rfl, rfl⟩)
      · exact h
      · exact hc.2 _ _ h
  have hdisj : Disjoint p.edgeIndices.toFinset (p.edgeIndices.toFinset.image Prod.swap) := by
    rw [Finset.disjoint_left]
    rintro ⟨a, b⟩ h1 h2
    simp only [List.mem_toFinset, Finset.mem_image, hmem, Prod.exists, Prod.swap_prod_mk, Prod.mk.injEq] at h1 h2
    obtain ⟨c, d, ⟨h, -⟩, rfl, rfl⟩ := h2
    omega
  have hcard := congrArg Finset.card hsplit
  rw [Finset.card_union_of_disjoint hdisj, Finset.card_image_of_injective _ Prod.swap_injective, hE, hU,
    length_meshEdges hv] at hcard
  exact hcard

theorem edgeIndices_length {n : ℕ} (p : Polyhedron α) (hv : ValidFaces n p.f) (hc : ClosedMesh p.f) :
    (p.edgeIndices.length : ℤ) = p.numEdges := by
  rw [numEdges_eq, edgeIndices_card p hv hc]
  push_cast
  omega

end Polyhedron
end MGL
