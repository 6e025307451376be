import Mathlib.Logic.Equiv.Basic
import Mathlib.Data.List.Forall2
import Mathlib.Data.List.Perm.Subperm
import Verif.Spec.Vec3
import Verif.Proofs.PolyhedronEdit
import Verif.Model.PolyhedronEq

/-! Lemmas about the canonical face order and the comparison of polyhedra. -/

set_option linter.unusedSectionVars false

namespace MGL
open Spec V3

namespace Polyhedron
variable {α : Type}

/-! ### The order of the faces -/

theorem cmp_cons (x y : ℤ) (xs ys : List ℤ) : (match ((x :: xs).zip (y :: ys)).find? fun e => e.1 ≠ e.2 with
      | some (x, y) => x - y
      | none => (0 : ℤ)) = if x ≠ y then x - y else match (xs.zip ys).find? fun e => e.1 ≠ e.2 with
      | some (x, y) => x - y
      | none => 0 := by
  rw [List.zip_cons_cons, List.find?_cons]
  by_cases h : x = y
  · simp [h]
  · simp [h]

theorem cmpFaces_of_len {a b : List ℤ} (h : a.length = b.length) : cmpFaces a b =
    match (a.zip b).find? fun e => e.1 ≠ e.2 with
      | some (x, y) => x - y
      | none => 0 := by
  rw [cmpFaces, if_neg (by simpa using h)]
  rcases (a.zip b).find? fun e => e.1 ≠ e.2 with _ | ⟨x, y⟩ <;> rfl

theorem cmpFaces_cons {x y : ℤ} {xs ys : List ℤ} (h : xs.length = ys.length) :
    cmpFaces (x :: xs) (y :: ys) = if x ≠ y then x - y else cmpFaces xs ys := by
  rw [cmpFaces_of_len (by simpa using h), cmp_cons, cmpFaces_of_len h]

theorem cmpFaces_eq_len : ∀ {a b : List ℤ}, a.length = b.length → cmpFaces a b ≤ 0 → cmpFaces b a ≤ 0 → a = b
  | [], [], _, _, _ => rfl
  | x :: xs, y :: ys, h, h1, h2 => by
    have hl : xs.length = ys.length := by simpa using h
    rw [cmpFaces_cons hl] at h1
    rw [cmpFaces_cons hl.symm] at h2
    by_cases e : x = y
    · subst e
      simp only [ne_eq, not_true_eq_false, if_false] at h1 h2
      rw [cmpFaces_eq_len hl h1 h2]
    · rw [if_pos e] at h1
      rw [if_pos (Ne.symm e)] at h2
      omega

theorem cmpFaces_antisymm {a b : List ℤ} (h1 : cmpFaces a b ≤ 0) (h2 : cmpFaces b a ≤ 0) : a = b := by
  by_cases h : a.length = b.length
  · exact cmpFaces_eq_len h h1 h2
  · rw [cmpFaces, if_pos h] at h1
    rw [cmpFaces, if_pos (Ne.symm h)] at h2
    omega

theorem cmpFaces_total_len : ∀ {a b : List ℤ}, a.length = b.length → 0 < cmpFaces a b → cmpFaces b a ≤ 0
  | [], [], _, h => by simp [cmpFaces] at h
  | x :: xs, y :: ys, h, h1 => by
    have hl : xs.length = ys.length := by simpa using h
    rw [cmpFaces_cons hl] at h1
    rw [cmpFaces_cons hl.symm]
    by_cases e : x = y
    · subst e
      simp only [ne_eq, not_true_eq_false, if_false] at h1 ⊢
      exact cmpFaces_total_len hl h1
    · rw [if_pos e] at h1
      rw [if_pos (Ne.symm e)]
      omega

theorem cmpFaces_total {a b : List ℤ} (h1 : ¬ cmpFaces a b ≤ 0) : cmpFaces b a ≤ 0 := by
  by_cases h : a.length = b.length
  · exact cmpFaces_total_len h (by omega)
  · rw [cmpFaces, if_pos h] at h1
    rw [cmpFaces, if_pos (Ne.symm h)]
    omega

theorem cmpFaces_trans_len : ∀ {a b c : List ℤ}, a.length = b.length → b.length = c.length → cmpFaces a b ≤ 0 →
    cmpFaces b c ≤ 0 → cmpFaces a c ≤ 0
  | [], [], [], _, _, _, _ => by simp [cmpFaces]
  | x :: xs, y :: ys, z :: zs, h, h', h1, h2 => by
    have hl : xs.length = ys.length := by simpa using h
    have hl' : ys.length = zs.length := by simpa using h'
    rw [cmpFaces_cons hl] at h1
    rw [cmpFaces_cons hl'] at h2
    rw [cmpFaces_cons (hl.trans hl')]
    by_cases e1 : x = y <;> by_cases e2 : y = z
    · subst e1; subst e2
      simp only [ne_eq, not_true_eq_false, if_false] at h1 h2 ⊢
      exact cmpFaces_trans_len hl hl' h1 h2
    · subst e1; rw [if_pos e2] at h2 ⊢; exact h2
    · subst e2; rw [if_pos e1] at h1 ⊢; exact h1
    · rw [if_pos e1] at h1; rw [if_pos e2] at h2
      rw [if_pos (by omega)]; omega

theorem cmpFaces_trans {a b c : List ℤ} (h1 : cmpFaces a b ≤ 0) (h2 : cmpFaces b c ≤ 0) : cmpFaces a c ≤ 0 := by
  by_cases e1 : a.length = b.length <;> by_cases e2 : b.length = c.length
  · exact cmpFaces_trans_len e1 e2 h1 h2
  · rw [cmpFaces, if_pos e2] at h2
    rw [cmpFaces, if_pos (by omega)]; omega
  · rw [cmpFaces, if_pos e1] at h1
    rw [cmpFaces, if_pos (by omega)]; omega
  · rw [cmpFaces, if_pos e1] at h1
    rw [cmpFaces, if_pos e2] at h2
    rw [cmpFaces, if_pos (by omega)]; omega

theorem cmpFaces_refl (a : List ℤ) : cmpFaces a a ≤ 0 := by
  by_contra h
  exact h (cmpFaces_total h)

theorem sweepFaces_spec (ys : List (List ℤ)) : ∀ x : List ℤ,
    ((sweepFaces x ys).1 :: (sweepFaces x ys).2).Perm (x :: ys) ∧ cmpFaces (sweepFaces x ys).1 x ≤ 0 ∧
      ∀ y ∈ (sweepFaces x ys).2, cmpFaces (sweepFaces x ys).1 y ≤ 0 := by
  induction ys with
  | nil => intro x; exact ⟨List.Perm.refl _, cmpFaces_refl x, by simp [sweepFaces]⟩
  | cons y ys ih =>
    intro x
    rw [sweepFaces]
    split_ifs with h
    · obtain ⟨h1, h2, h3⟩ := ih y
      have hyx : cmpFaces y x ≤ 0 := cmpFaces_total (by omega)
      refine ⟨?_, cmpFaces_trans h2 hyx, fun z hz => ?_⟩
      · exact (List.Perm.swap _ _ _).trans (h1.cons x)
      · rcases List.mem_cons.1 hz with rfl | hz
        · exact cmpFaces_trans h2 hyx
        · exact h3 z hz
    · obtain ⟨h1, h2, h3⟩ := ih x
      refine ⟨?_, h2, fun z hz => ?_⟩
      · exact (List.Perm.swap _ _ _).trans ((h1.cons y).trans (List.Perm.swap _ _ _))
      · rcases List.mem_cons.1 hz with rfl | hz
        · exact cmpFaces_trans h2 (by omega)
        · exact h3 z hz

theorem sweepFaces_length (ys : List (List ℤ)) (x : List ℤ) : (sweepFaces x ys).2.length = ys.length := by
  have := (sweepFaces_spec ys x).1.length_eq
  simpa using this

theorem sortFaces_spec : ∀ (n : ℕ) (fs : List (List ℤ)), fs.length = n →
    (sortFaces n fs).Perm fs ∧ (sortFaces n fs).Pairwise fun a b => cmpFaces a b ≤ 0
  | 0, fs, h => by
    have : fs = [] := List.length_eq_zero_iff.1 h
    subst this; exact ⟨List.Perm.refl _, List.Pairwise.nil⟩
  | n + 1, [], h => by simp at h
  | n + 1, x :: xs, h => by
    obtain ⟨h1, h2, h3⟩ := sweepFaces_spec xs x
    obtain ⟨k1, k2⟩ := sortFaces_spec n (sweepFaces x xs).2 (by rw [sweepFaces_length]; simpa using h)
    rw [sortFaces]
    refine ⟨(k1.cons _).trans h1, List.pairwise_cons.2 ⟨fun y hy => h3 y (k1.mem_iff.1 hy), k2⟩⟩

theorem sortFaces_eq {fs gs : List (List ℤ)} (h : fs.Perm gs) : sortFaces fs.length fs = sortFaces gs.length gs := by
  obtain ⟨h1, h2⟩ := sortFaces_spec fs.length fs rfl
  obtain ⟨k1, k2⟩ := sortFaces_spec gs.length gs rfl
  exact List.Perm.eq_of_pairwise (fun a b _ _ => cmpFaces_antisymm) h2 k2 ((h1.trans h).trans k1.symm)

/-! ### The first vertex of a face -/

theorem smallestJ_fold (f : List ℤ) (m : ℕ) (hm : m + 1 ≤ f.length) :
    let s := (List.range' 1 m).foldl (fun s j => if f.getD j 0 < f.getD s 0 then j else s) 0
    s ≤ m ∧ ∀ j ≤ m, f.getD s 0 ≤ f.getD j 0 := by
  induction m with
  | zero => simp
  | succ m ih =>
    obtain ⟨h1, h2⟩ := ih (by omega)
    simp only [List.range'_1_concat, List.foldl_append, List.foldl_cons, List.foldl_nil]
    split_ifs with h
    · refine ⟨by omega, fun j hj => ?_⟩
      rcases Nat.lt_or_ge j (m + 1) with h' | h'
      · exact h.le.trans (h2 j (by omega))
      · rw [show j = 1 + m by omega]
    · refine ⟨by omega, fun j hj => ?_⟩
      rcases Nat.lt_or_ge j (m + 1) with h' | h'
      · exact h2 j (by omega)
      · rw [show j = 1 + m by omega]; omega

theorem smallestJ_spec {f : List ℤ} (hf : f ≠ []) : smallestJ f < f.length ∧ ∀ x ∈ f, f.getD (smallestJ f) 0 ≤ x := by
  have hl : 0 < f.length := List.length_pos_iff.2 hf
  obtain ⟨h1, h2⟩ := smallestJ_fold f (f.length - 1) (by omega)
  refine ⟨by rw [smallestJ]; omega, fun x hx => ?_⟩
  obtain ⟨j, hj, rfl⟩ := List.mem_iff_getElem.1 hx
  have := h2 j (by omega)
  rwa [List.getD_eq_getElem f 0 hj] at this

theorem cycleFront_eq : ∀ (n : ℕ) (f : List ℤ), cycleFront n f = f.rotate n
  | 0, f => by simp [cycleFront]
  | n + 1, [] => by simp [cycleFront]
  | n + 1, x :: xs => by rw [cycleFront, cycleFront_eq n, List.rotate_cons_succ]

/-- The face turned so that it starts with its smallest index. -/
def canonFace (f : List ℤ) : List ℤ := cycleFront (smallestJ f) f

theorem canonFace_eq (f : List ℤ) : canonFace f = f.rotate (smallestJ f) := cycleFront_eq _ _

theorem sameFace_canonFace (f : List ℤ) : SameFace f (canonFace f) := ⟨_, canonFace_eq f⟩

theorem canonFace_head {f : List ℤ} (hf : f ≠ []) :
    ∃ h : 0 < (canonFace f).length, ∀ x ∈ canonFace f, (canonFace f)[0] ≤ x := by
  have hl : 0 < f.length := List.length_pos_iff.2 hf
  obtain ⟨h1, h2⟩ := smallestJ_spec hf
  have hc : (canonFace f).length = f.length := by rw [canonFace_eq, List.length_rotate]
  refine ⟨by omega, fun x hx => ?_⟩
  have hx' : x ∈ f := by rw [canonFace_eq] at hx; exact List.mem_rotate.1 hx
  have := h2 x hx'
  rw [List.getD_eq_getElem f 0 h1] at this
  have e : (canonFace f)[0]'(by omega) = f[smallestJ f] := by
    simp only [canonFace_eq, List.getElem_rotate, Nat.zero_add, Nat.mod_eq_of_lt h1]
  rw [e]; exact this

theorem rotate_eq_of_head {f : List ℤ} (hn : f.Nodup) (hf : f ≠ []) {a b : ℕ} (h : (f.rotate a).head? = (f.rotate b).head?) :
    f.rotate a = f.rotate b := by
  have hl : 0 < f.length := List.length_pos_iff.2 hf
  have ha : a % f.length < f.length := Nat.mod_lt _ hl
  have hb : b % f.length < f.length := Nat.mod_lt _ hl
  rw [List.head?_eq_getElem?, List.head?_eq_getElem?, List.getElem?_rotate hl, List.getElem?_rotate hl, Nat.zero_add, Nat.zero_add,
    List.getElem?_eq_getElem ha, List.getElem?_eq_getElem hb, Option.some_inj] at h
  have := (List.nodup_iff_injective_getElem.1 hn) (a₁ := ⟨_, ha⟩) (a₂ := ⟨_, hb⟩) h
  simp only [Fin.mk.injEq] at this
  rw [← List.rotate_mod f a, ← List.rotate_mod f b, this]

theorem sameFace_refl (f : List ℤ) : SameFace f f := ⟨0, by simp⟩

theorem sameFace_trans {f g h : List ℤ} (h1 : SameFace f g) (h2 : SameFace g h) : SameFace f h := by
  obtain ⟨a, rfl⟩ := h1
  obtain ⟨b, rfl⟩ := h2
  exact ⟨a + b, by rw [List.rotate_rotate]⟩

theorem sameFace_symm {f g : List ℤ} (h : SameFace f g) : SameFace g f := by
  obtain ⟨a, rfl⟩ := h
  have : f ~r f.rotate a := ⟨a, rfl⟩
  obtain ⟨b, hb⟩ := this.symm
  exact ⟨b, hb.symm⟩

theorem canonFace_congr {f g : List ℤ} (hn : f.Nodup) (h : SameFace f g) : canonFace f = canonFace g := by
  obtain ⟨k, rfl⟩ := h
  rcases f.eq_nil_or_concat with rfl | hne
  · simp
  have hf : f ≠ [] := by obtain ⟨_, _, rfl⟩ := hne; simp
  have hg : f.rotate k ≠ [] := by simpa using hf
  obtain ⟨p1, h1⟩ := canonFace_head hf
  obtain ⟨p2, h2⟩ := canonFace_head hg
  have hm : ∀ x, x ∈ canonFace f ↔ x ∈ canonFace (f.rotate k) := by
    intro x; rw [canonFace_eq, canonFace_eq, List.mem_rotate, List.mem_rotate, List.mem_rotate]
  have e : (canonFace f)[0] = (canonFace (f.rotate k))[0] :=
    le_antisymm (h1 _ ((hm _).2 (List.getElem_mem _))) (h2 _ ((hm _).1 (List.getElem_mem _)))
  have e1 := canonFace_eq f
  have e2 : canonFace (f.rotate k) = f.rotate (k + smallestJ (f.rotate k)) := by rw [canonFace_eq, List.rotate_rotate]
  rw [e1, e2]
  apply rotate_eq_of_head hn hf
  rw [← e1, ← e2, List.head?_eq_getElem?, List.head?_eq_getElem?, List.getElem?_eq_getElem p1, List.getElem?_eq_getElem p2, e]

theorem canonFace_inj {f g : List ℤ} (h : canonFace f = canonFace g) : SameFace f g :=
  sameFace_trans (sameFace_canonFace f) (h ▸ sameFace_symm (sameFace_canonFace g))

theorem cmpFaces_lex : ∀ {a b : List ℤ}, a.length = b.length → cmpFaces a b ≤ 0 → a = b ∨ a < b
  | [], [], _, _ => Or.inl rfl
  | x :: xs, y :: ys, h, h1 => by
    have hl : xs.length = ys.length := by simpa using h
    rw [cmpFaces_cons hl] at h1
    split_ifs at h1 with hxy
    · exact Or.inr (List.cons_lt_cons_iff.2 (Or.inl (by omega)))
    · push Not at hxy
      subst hxy
      rcases cmpFaces_lex hl h1 with rfl | h
      · exact Or.inl rfl
      · exact Or.inr (List.cons_lt_cons_iff.2 (Or.inr ⟨rfl, h⟩))
  | [], _ :: _, h, _ => by simp at h
  | _ :: _, [], h, _ => by simp at h

theorem lt_of_cmpFaces {f g : List ℤ} (h : cmpFaces f g ≤ 0) : g.length < f.length ∨ f.length = g.length ∧ (f = g ∨ f < g) := by
  by_cases e : f.length = g.length
  · exact Or.inr ⟨e, cmpFaces_lex e h⟩
  · rw [cmpFaces, if_pos e] at h
    left; omega

/-- Face lists with the same canonical faces hold the same faces. -/
theorem sameFaces_of_canon {A B : List (List ℤ)} (h : (A.map canonFace).Perm (B.map canonFace)) : SameFaces A B := by
  -- reorder `B` to follow `A`
  obtain ⟨l, hl1, hl2⟩ : ∃ l : List (List ℤ), l.Perm B ∧ l.map canonFace = A.map canonFace := by
    have hF : List.Forall₂ (fun (x y : List ℤ) => x = canonFace y) (B.map canonFace) B := by
      rw [List.forall₂_map_left_iff]
      exact List.forall₂_same.2 fun _ _ => rfl
    obtain ⟨l, h1, h2⟩ := List.perm_comp_forall₂ h hF
    refine ⟨l, h2, ?_⟩
    clear h2 hF h
    generalize A.map canonFace = C at h1
    induction h1 with
    | nil => rfl
    | cons hab _ ih => rw [List.map_cons, ih, hab]
  refine ⟨l, ?_, hl1⟩
  clear hl1 h
  induction A generalizing l with
  | nil => rw [List.map_nil, List.map_eq_nil_iff] at hl2; subst hl2; exact .nil
  | cons a t ih =>
    rcases l with _ | ⟨b, s⟩
    · cases hl2
    · rw [List.map_cons, List.map_cons, List.cons.injEq] at hl2
      exact .cons (canonFace_inj hl2.1.symm) (ih s hl2.2)

theorem canonicalizeFaceArray_f (p : Polyhedron α) : p.canonicalizeFaceArray.f = sortFaces (p.f.map canonFace).length (p.f.map canonFace) := rfl

theorem canonicalize_perm (p : Polyhedron α) : p.canonicalizeFaceArray.f.Perm (p.f.map canonFace) := by
  rw [canonicalizeFaceArray_f]
  exact (sortFaces_spec _ _ rfl).1

/-! ### `ContainsFace` -/

theorem faceMatches_sound {face f2 : List ℤ} (h : faceMatches face f2 = true) : SameFace f2 face := by
  rw [faceMatches.eq_def] at h
  split_ifs at h with hl
  push Not at hl
  rcases face with _ | ⟨a, t⟩
  · have : f2 = [] := List.length_eq_zero_iff.1 hl
    subst this; exact sameFace_refl _
  · dsimp only at h
    rcases hi : f2.findIdx? (· == a) with _ | shift
    · rw [hi] at h; cases h
    · rw [hi] at h
      simp only [List.all_eq_true, List.mem_range, beq_iff_eq] at h
      have hs : shift < f2.length := by
        rw [List.findIdx?_eq_some_iff_getElem] at hi
        exact hi.1
      refine ⟨f2.length - shift, ?_⟩
      apply List.ext_getElem (by rw [List.length_rotate]; exact hl.symm)
      intro j h1 h2
      have hj : j < f2.length := by rw [hl]; exact h1
      have := h j hj
      rw [List.getD_eq_getElem _ _ h1, List.getD_eq_getElem _ _ (Nat.mod_lt _ (by omega))] at this
      rw [← this, List.getElem_rotate]
      congr 2
      omega

theorem faceMatches_self (f : List ℤ) : faceMatches f f = true := by
  rw [faceMatches.eq_def, if_neg (by simp)]
  rcases f with _ | ⟨a, t⟩
  · rfl
  · simp only [List.findIdx?_cons, beq_self_eq_true, if_true]
    simp only [List.all_eq_true, List.mem_range, beq_iff_eq]
    intro j hj
    rw [Nat.sub_zero, Nat.add_mod_right, Nat.mod_eq_of_lt hj]

theorem containsFace_sound {p : Polyhedron α} {face : List ℤ} (h : p.containsFace face = true) : ∃ g ∈ p.f, SameFace g face := by
  rw [containsFace, List.any_eq_true] at h
  obtain ⟨g, hg, h⟩ := h
  exact ⟨g, hg, faceMatches_sound h⟩

theorem containsFace_mem {p : Polyhedron α} {face : List ℤ} (h : face ∈ p.f) : p.containsFace face = true := by
  rw [containsFace, List.any_eq_true]
  exact ⟨face, h, faceMatches_self face⟩

/-- `CanonicalizeFaceArray` turns and reorders the faces. -/
theorem sameFaces_canonicalize (p : Polyhedron α) : SameFaces p.f p.canonicalizeFaceArray.f := by
  refine ⟨p.f.map canonFace, ?_, (canonicalize_perm p).symm⟩
  rw [List.forall₂_map_right_iff]
  exact List.forall₂_same.2 fun f _ => sameFace_canonFace f

theorem sameFaces_map {β γ : Type*} {A B : List (List β)} (g : β → γ) (h : SameFaces A B) :
    SameFaces (A.map (List.map g)) (B.map (List.map g)) := by
  obtain ⟨l, h1, h2⟩ := h
  refine ⟨l.map (List.map g), ?_, h2.map _⟩
  rw [List.forall₂_map_left_iff, List.forall₂_map_right_iff]
  exact h1.imp fun a b ⟨k, hk⟩ => ⟨k, by rw [hk, List.map_rotate]⟩

theorem inRange_canonicalize {p : Polyhedron α} (hr : p.InRange) : p.canonicalizeFaceArray.InRange := by
  intro f hf i hi
  rw [(canonicalize_perm p).mem_iff, List.mem_map] at hf
  obtain ⟨g, hg, rfl⟩ := hf
  rw [canonFace_eq, List.mem_rotate] at hi
  exact hr g hg i hi

/-! ### Renumbered polyhedra -/

/-- `q'` is `q` with the vertices renumbered by `π`. -/
structure Relabel (q q' : Polyhedron α) (π : Equiv.Perm ℤ) : Prop where
  faces : q'.f = q.f.map (List.map π)
  len : q'.v.length = q.v.length
  range : ∀ k : ℤ, (0 ≤ k ∧ k < q.v.length) ↔ (0 ≤ π k ∧ π k < q.v.length)
  vert : ∀ k : ℤ, 0 ≤ k → k < q.v.length → q'.v[(π k).toNat]? = q.v[k.toNat]?

theorem Relabel.refl (q : Polyhedron α) : Relabel q q (Equiv.refl ℤ) :=
  ⟨by simp, rfl, fun _ => Iff.rfl, fun _ _ _ => rfl⟩

theorem Relabel.trans {q q' q'' : Polyhedron α} {π ρ : Equiv.Perm ℤ} (h : Relabel q q' π) (h' : Relabel q' q'' ρ) :
    Relabel q q'' (π.trans ρ) := by
  refine ⟨?_, h'.len.trans h.len, fun k => ?_, fun k h0 h1 => ?_⟩
  · rw [h'.faces, h.faces, List.map_map]
    congr 1
    funext f
    simp
  · have := h'.range (π k)
    rw [h.len] at this
    exact (h.range k).trans this
  · have := (h.range k).1 ⟨h0, h1⟩
    rw [Equiv.trans_apply, h'.vert _ this.1 (by rw [h.len]; exact this.2), h.vert k h0 h1]

theorem relabel_swap {p : Polyhedron α} {i j : ℤ} (hi : 0 ≤ i ∧ i < p.v.length) (hj : 0 ≤ j ∧ j < p.v.length) :
    ∃ q, p.swapVertices i j = some q ∧ Relabel p q (Equiv.swap i j) := by
  have e : ∀ k, Equiv.swap i j k = swapIndex i j k := fun k => by rw [Equiv.swap_apply_def, swapIndex]
  obtain ⟨w, h1, h2, h3⟩ := swapVertices_eq hi hj
  refine ⟨_, h1, ⟨?_, h2, fun k => ?_, fun k h0 hk => ?_⟩⟩
  · congr 1
  · rw [e]; unfold swapIndex; split_ifs <;> omega
  · rw [e]; exact h3 k h0

theorem Relabel.vertex {q q' : Polyhedron α} {π : Equiv.Perm ℤ} (h : Relabel q q' π) {k : ℤ} (h0 : 0 ≤ k ∧ k < q.v.length) :
    q'.vertex (π k) = q.vertex k := by
  rw [Polyhedron.vertex, Polyhedron.vertex, if_pos h0.1, if_pos ((h.range k).1 h0).1, h.vert k h0.1 h0.2]

theorem Relabel.inRange {q q' : Polyhedron α} {π : Equiv.Perm ℤ} (h : Relabel q q' π) (hr : q.InRange) : q'.InRange := by
  intro f hf i hi
  rw [h.faces, List.mem_map] at hf
  obtain ⟨g, hg, rfl⟩ := hf
  rw [List.mem_map] at hi
  obtain ⟨k, hk, rfl⟩ := hi
  rw [h.len]
  exact (h.range k).1 (hr g hg k hk)

theorem Relabel.facePolygon {q q' : Polyhedron α} {π : Equiv.Perm ℤ} (h : Relabel q q' π) (hr : q.InRange) (k : ℕ) :
    q'.facePolygon k = q.facePolygon k := by
  have : q' = ⟨q'.v, q.f.map (List.map π)⟩ := by rw [← h.faces]
  rw [this]
  apply facePolygon_map
  intro f hf i hi
  rw [← this]
  exact h.vertex (hr f hf i hi)

/-! ### The closest vertex -/

section Geometry
variable [Field α] [LinearOrder α] [IsStrictOrderedRing α]

theorem findClosestLoop_spec (pt : V3 α) : ∀ (xs pre : List (V3 α)) (c : ℤ) (d : Option α),
    (pre = [] ∧ c = -1 ∧ d = none ∨ ∃ (n : ℕ) (hn : n < pre.length), c = n ∧ d = some (lenSq (pt - pre[n])) ∧
      ∀ x ∈ pre, lenSq (pt - pre[n]) ≤ lenSq (pt - x)) →
    let r := findClosestLoop pt xs pre.length (c, d)
    pre ++ xs = [] ∧ r = (-1, none) ∨ ∃ (n : ℕ) (hn : n < (pre ++ xs).length), r = ((n : ℤ), some (lenSq (pt - (pre ++ xs)[n]))) ∧
      ∀ x ∈ pre ++ xs, lenSq (pt - (pre ++ xs)[n]) ≤ lenSq (pt - x) := by
  intro xs
  induction xs with
  | nil =>
    intro pre c d h
    simp only [findClosestLoop, List.append_nil]
    rcases h with ⟨h1, rfl, rfl⟩ | ⟨n, hn, rfl, rfl, h⟩
    · exact Or.inl ⟨h1, rfl⟩
    · exact Or.inr ⟨n, hn, rfl, h⟩
  | cons x xs ih =>
    intro pre c d h
    have e : pre ++ x :: xs = (pre ++ [x]) ++ xs := by simp
    have el : ((pre ++ [x]).length : ℤ) = pre.length + 1 := by simp
    simp only [findClosestLoop]
    rw [e]
    have hlast : (pre ++ [x])[pre.length]'(by simp) = x := by simp
    rcases h with ⟨rfl, rfl, rfl⟩ | ⟨n, hn, rfl, rfl, h⟩
    · have := ih [x] 0 (some (lenSq (pt - x))) (Or.inr ⟨0, by simp, rfl, rfl, by simp⟩)
      simpa using this
    · dsimp only
      by_cases hb : lenSq (pt - x) < lenSq (pt - pre[n])
      · have := ih (pre ++ [x]) pre.length (some (lenSq (pt - x))) (Or.inr ⟨pre.length, by simp, rfl, by rw [hlast], fun y hy => by
          rw [hlast]
          rcases List.mem_append.1 hy with hy | hy
          · exact hb.le.trans (h y hy)
          · rw [List.mem_singleton.1 hy]⟩)
        rw [el] at this
        simpa [hb] using this
      · have := ih (pre ++ [x]) n (some (lenSq (pt - pre[n]))) (Or.inr ⟨n, by simp; omega, rfl, by rw [List.getElem_append_left hn],
          fun y hy => by
          rw [List.getElem_append_left hn]
          rcases List.mem_append.1 hy with hy | hy
          · exact h y hy
          · rw [List.mem_singleton.1 hy]; exact not_lt.1 hb⟩)
        rw [el] at this
        simpa [hb] using this

theorem findClosestVertex_spec (p : Polyhedron α) (pt : V3 α) :
    p.v = [] ∧ p.findClosestVertex pt = (-1, none) ∨
    ∃ (n : ℕ) (hn : n < p.v.length), p.findClosestVertex pt = ((n : ℤ), some (lenSq (pt - p.v[n]))) ∧
      ∀ x ∈ p.v, lenSq (pt - p.v[n]) ≤ lenSq (pt - x) := by
  have := findClosestLoop_spec pt p.v [] (-1) none (Or.inl ⟨rfl, rfl, rfl⟩)
  simpa [findClosestVertex] using this

/-! ### Matching the vertices -/

theorem matchVertices_spec : ∀ (xs : List (V3 α)) (i : ℕ) (q : Polyhedron α), i + xs.length ≤ q.v.length →
    ∃ b q' π, matchVertices xs i q = some (b, q') ∧ Relabel q q' π ∧ (∀ k : ℤ, k < i → π k = k) ∧
      (b = true → ∀ j (hj : j < xs.length), ∃ y, q'.v[i + j]? = some y ∧ lenSq (xs[j] - y) ≤ 1 / 10000) := by
  intro xs
  induction xs with
  | nil =>
    intro i q _
    exact ⟨true, q, Equiv.refl ℤ, rfl, Relabel.refl q, fun _ _ => rfl, fun _ j hj => by simp at hj⟩
  | cons x xs ih =>
    intro i q hl
    simp only [List.length_cons] at hl
    rcases findClosestVertex_spec q x with ⟨h0, -⟩ | ⟨n, hn, h1, h2⟩
    · rw [h0] at hl; simp at hl
    rw [matchVertices, h1]
    dsimp only
    split_ifs with hc
    · exact ⟨false, q, Equiv.refl ℤ, rfl, Relabel.refl q, fun _ _ => rfl, by simp⟩
    · push Not at hc
      have hd : lenSq (x - q.v[n]) ≤ 1 / 10000 := by
        by_contra hlt
        exact hc.2 (decide_eq_true (not_le.1 hlt))
      obtain ⟨q1, hs, hr⟩ := relabel_swap (p := q) (i := i) (j := n) ⟨by omega, by omega⟩ ⟨by omega, by omega⟩
      rw [hs, Option.bind_some]
      obtain ⟨b, q', π, k1, k2, k3, k4⟩ := ih (i + 1) q1 (by rw [hr.len]; omega)
      refine ⟨b, q', _, k1, hr.trans k2, fun k hk => ?_, fun hb j hj => ?_⟩
      · rw [Equiv.trans_apply, Equiv.swap_apply_of_ne_of_ne (by omega) (by omega), k3 k (by push_cast; omega)]
      · rcases j with _ | j
        · refine ⟨q.v[n], ?_, hd⟩
          have e1 := hr.vert n (by omega) (by omega)
          rw [Equiv.swap_apply_right] at e1
          have e2 := k2.vert i (by omega) (by rw [hr.len]; omega)
          rw [k3 i (by push_cast; omega)] at e2
          simp only [Int.toNat_natCast] at e1 e2
          rw [Nat.add_zero, e2, e1, List.getElem?_eq_getElem hn]
        · obtain ⟨y, hy, hy'⟩ := k4 hb j (by simpa using hj)
          exact ⟨y, by rw [← hy]; congr 1; omega, by simpa using hy'⟩

theorem lenSq_self (x : V3 α) : lenSq (x - x) = 0 := by
  simp [lenSq, dot]

theorem eq_of_lenSq {x y : V3 α} (h : lenSq (x - y) ≤ 0) : x = y := by
  have h0 : (x.x - y.x) ^ 2 + (x.y - y.y) ^ 2 + (x.z - y.z) ^ 2 ≤ 0 := by
    have : lenSq (x - y) = (x.x - y.x) ^ 2 + (x.y - y.y) ^ 2 + (x.z - y.z) ^ 2 := by
      simp only [lenSq, dot, sub_x, sub_y, sub_z]; ring
    rwa [← this]
  have h1 : (x.x - y.x) ^ 2 = 0 := by nlinarith [sq_nonneg (x.x - y.x), sq_nonneg (x.y - y.y), sq_nonneg (x.z - y.z)]
  have h2 : (x.y - y.y) ^ 2 = 0 := by nlinarith [sq_nonneg (x.x - y.x), sq_nonneg (x.y - y.y), sq_nonneg (x.z - y.z)]
  have h3 : (x.z - y.z) ^ 2 = 0 := by nlinarith [sq_nonneg (x.x - y.x), sq_nonneg (x.y - y.y), sq_nonneg (x.z - y.z)]
  ext
  · exact sub_eq_zero.1 (pow_eq_zero_iff (two_ne_zero) |>.1 h1)
  · exact sub_eq_zero.1 (pow_eq_zero_iff (two_ne_zero) |>.1 h2)
  · exact sub_eq_zero.1 (pow_eq_zero_iff (two_ne_zero) |>.1 h3)

/-- If the vertices of the other polyhedron are the same ones in another order, the matching brings them into the same order. -/
theorem matchVertices_perm : ∀ (xs pre : List (V3 α)) (q : Polyhedron α), (pre ++ xs).Nodup → q.v.Perm (pre ++ xs) →
    (∀ j (hj : j < pre.length), q.v[j]? = some pre[j]) →
    ∃ q' π, matchVertices xs pre.length q = some (true, q') ∧ Relabel q q' π ∧ q'.v = pre ++ xs := by
  intro xs
  induction xs with
  | nil =>
    intro pre q hn hp hpre
    refine ⟨q, Equiv.refl ℤ, rfl, Relabel.refl q, ?_⟩
    have hlen := hp.length_eq
    rw [List.append_nil] at *
    apply List.ext_getElem hlen
    intro j h1 h2
    have := hpre j h2
    rw [List.getElem?_eq_getElem h1] at this
    exact Option.some.inj this
  | cons x xs ih =>
    intro pre q hn hp hpre
    have hlen := hp.length_eq
    rw [List.length_append, List.length_cons] at hlen
    have hxq : x ∈ q.v := hp.mem_iff.2 (by simp)
    rcases findClosestVertex_spec q x with ⟨h0, -⟩ | ⟨n, hn', h1, h2⟩
    · rw [h0] at hlen; simp at hlen
    have hz : lenSq (x - q.v[n]) ≤ 0 := (h2 x hxq).trans (lenSq_self x).le
    have hx : x = q.v[n] := eq_of_lenSq hz
    have hge : pre.length ≤ n := by
      by_contra hlt
      have := hpre n (by omega)
      rw [List.getElem?_eq_getElem hn', Option.some_inj, ← hx] at this
      rw [List.nodup_append] at hn
      exact hn.2.2 pre[n] (List.getElem_mem _) x (by simp) this.symm
    rw [matchVertices, h1]
    dsimp only
    rw [if_neg (by
      push Not
      refine ⟨by omega, ?_⟩
      simp only [ne_eq, decide_eq_true_eq, not_lt, gt_iff_lt]
      exact hz.trans (by norm_num))]
    obtain ⟨q1, hs, hr⟩ := relabel_swap (p := q) (i := (pre.length : ℤ)) (j := n) ⟨by omega, by omega⟩ ⟨by omega, by omega⟩
    rw [hs, Option.bind_some]
    have hget : ∀ j (hj : j < (pre ++ [x]).length), q1.v[j]? = some (pre ++ [x])[j] := by
      intro j hj
      rw [List.length_append, List.length_singleton] at hj
      rcases Nat.lt_or_ge j pre.length with hlt | hge'
      · have := hr.vert j (by omega) (by omega)
        rw [Equiv.swap_apply_of_ne_of_ne (by omega) (by omega)] at this
        simp only [Int.toNat_natCast] at this
        rw [this, hpre j hlt, List.getElem_append_left hlt]
      · have : j = pre.length := by omega
        subst this
        have := hr.vert n (by omega) (by omega)
        rw [Equiv.swap_apply_right] at this
        simp only [Int.toNat_natCast] at this
        rw [this, List.getElem?_eq_getElem hn', ← hx]
        simp
    have hq1 : q1.v.Perm q.v := by
      have hmem : ∀ y ∈ q.v, y ∈ q1.v := fun y hy => by
        obtain ⟨k, hk, rfl⟩ := List.mem_iff_getElem.1 hy
        have := hr.vert k (by omega) (by omega)
        rw [Int.toNat_natCast, List.getElem?_eq_getElem hk] at this
        exact List.mem_of_getElem? this
      have hsub : q.v.Subperm q1.v := List.subperm_of_subset (hp.nodup_iff.2 hn) hmem
      exact (hsub.perm_of_length_le hr.len.le).symm
    have e : pre ++ x :: xs = (pre ++ [x]) ++ xs := by simp
    obtain ⟨q', π, k1, k2, k3⟩ := ih (pre ++ [x]) q1 (by rw [← e]; exact hn) (by rw [← e]; exact hq1.trans hp) hget
    refine ⟨q', _, ?_, hr.trans k2, by rw [k3, e]⟩
    rw [← k1]; congr 1; simp

/-! ### `SetEquals` as a whole -/

/-- The face lists of a polyhedron whose indices are vertex numbers. -/
theorem faces_eq {p : Polyhedron α} (hr : p.InRange) :
    p.faces = some (p.f.map (List.map fun i => p.v.getD i.toNat ⟨0, 0, 0⟩)) := by
  have hf : ∀ f ∈ p.f, f.mapM p.vertex = some (f.map fun i => p.v.getD i.toNat ⟨0, 0, 0⟩) := by
    intro f hf
    have hi := hr f hf
    clear hf
    induction f with
    | nil => rfl
    | cons i t ih =>
      have h := hi i (by simp)
      have hlt : i.toNat < p.v.length := by omega
      rw [List.mapM_cons, ih fun j hj => hi j (List.mem_cons_of_mem _ hj), vertex, if_pos h.1, List.getElem?_eq_getElem hlt]
      simp [hlt]
  rw [faces]
  clear hr
  generalize p.f = l at hf ⊢
  induction l with
  | nil => rfl
  | cons f t ih =>
    rw [List.mapM_cons, ih fun g hg => hf g (List.mem_cons_of_mem _ hg), hf f (by simp)]
    rfl

theorem setEquals_run (p p2 : Polyhedron α) (h : ¬ (p.v.length ≠ p2.v.length ∨ p.f.length ≠ p2.f.length ∨ p.numEdges ≠ p2.numEdges)) :
    ∃ b q' π, matchVertices p.v 0 p2 = some (b, q') ∧ Relabel p2 q' π ∧
      (b = true → ∀ j (hj : j < p.v.length), ∃ y, q'.v[j]? = some y ∧ lenSq (p.v[j] - y) ≤ 1 / 10000) ∧
      p.setEquals p2 = some (if b then (p.canonicalizeFaceArray.f.all q'.canonicalizeFaceArray.containsFace,
        p.canonicalizeFaceArray, q'.canonicalizeFaceArray) else (false, p, q')) := by
  push Not at h
  obtain ⟨b, q', π, h1, h2, -, h4⟩ := matchVertices_spec p.v 0 p2 (by omega)
  refine ⟨b, q', π, h1, h2, fun hb j hj => by simpa using h4 hb j hj, ?_⟩
  rw [setEquals, if_neg (by push Not; exact h), h1]
  rcases b <;> rfl

theorem sameFaces_refl {β : Type*} (A : List (List β)) : SameFaces A A :=
  ⟨A, List.forall₂_same.2 fun a _ => ⟨0, by simp⟩, List.Perm.refl _⟩

theorem Relabel.faces_eq {q q' : Polyhedron α} {π : Equiv.Perm ℤ} (h : Relabel q q' π) (hr : q.InRange) : q'.faces = q.faces := by
  rw [Polyhedron.faces_eq hr, Polyhedron.faces_eq (h.inRange hr), h.faces, List.map_map]
  congr 1
  refine List.map_congr_left fun f hf => ?_
  rw [Function.comp, List.map_map]
  refine List.map_congr_left fun i hi => ?_
  have := hr f hf i hi
  rw [Function.comp, List.getD_eq_getElem?_getD, List.getD_eq_getElem?_getD, h.vert i this.1 this.2]

end Geometry
end Polyhedron
end MGL
