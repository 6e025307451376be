import Mathlib.Tactic.NormNum
import Mathlib.Tactic.IntervalCases
import Verif.Proofs.PolyhedronCanon
import Verif.Props.Polyhedron

/-! Properties C79 (canonical face arrays, face lookup) and C80: when `SetEquals` says that two polyhedra are equal. -/

set_option linter.unusedSectionVars false

namespace MGL
open Spec V3
namespace Polyhedron
variable {α : Type}

/-- C79: `CanonicalizeFaceArray` leaves the vertices, and the faces up to their order and the corner they start with; each face
then starts with its smallest corner, and the faces are sorted: longer faces first, faces of the same length in
lexicographic order. -/
theorem C79_canonicalize (p : Polyhedron α) : p.canonicalizeFaceArray.v = p.v ∧ SameFaces p.f p.canonicalizeFaceArray.f ∧
    (∀ f ∈ p.canonicalizeFaceArray.f, ∀ x ∈ f, ∀ a, f.head? = some a → a ≤ x) ∧
    p.canonicalizeFaceArray.f.Pairwise fun f g => g.length < f.length ∨ f.length = g.length ∧ (f = g ∨ f < g) := by
  refine ⟨rfl, sameFaces_canonicalize p, fun f hf x hx a ha => ?_, ?_⟩
  · rw [(canonicalize_perm p).mem_iff, List.mem_map] at hf
    obtain ⟨g, -, rfl⟩ := hf
    have hg : g ≠ [] := by
      rintro rfl
      simp [canonFace_eq] at hx
    obtain ⟨h, h'⟩ := canonFace_head hg
    have := h' x hx
    rw [List.head?_eq_getElem?, List.getElem?_eq_getElem h, Option.some_inj] at ha
    rwa [ha] at this
  · rw [canonicalizeFaceArray_f]
    exact (sortFaces_spec _ _ rfl).2.imp fun {f g} h => lt_of_cmpFaces h

example : (⟨[], [[3, 1, 2], [2, 0, 1, 3], [1, 3, 0]]⟩ : Polyhedron ℚ).canonicalizeFaceArray.f = [[0, 1, 3, 2], [0, 1, 3], [1, 2, 3]] := by
  decide +kernel

/-- C79: the result of `CanonicalizeFaceArray` depends on the faces only up to their order and their starting corners, if no
face has a corner twice. -/
theorem C79_canonicalize_unique (p q : Polyhedron α) (hn : ∀ f ∈ p.f, f.Nodup) (h : SameFaces p.f q.f) :
    p.canonicalizeFaceArray.f = q.canonicalizeFaceArray.f := by
  obtain ⟨l, h1, h2⟩ := h
  have e : p.f.map canonFace = l.map canonFace := by
    clear h2
    generalize p.f = A at hn h1
    induction h1 with
    | nil => rfl
    | cons hab _ ih =>
      rw [List.map_cons, List.map_cons, canonFace_congr (hn _ (by simp)) hab, ih fun f hf => hn f (List.mem_cons_of_mem _ hf)]
  rw [canonicalizeFaceArray_f, canonicalizeFaceArray_f, e]
  exact sortFaces_eq (h2.map _)

example : (⟨[], [[3, 1, 2], [1, 3, 0]]⟩ : Polyhedron ℚ).canonicalizeFaceArray.f = (⟨[], [[0, 1, 3], [2, 3, 1]]⟩ : Polyhedron ℚ).canonicalizeFaceArray.f :=
  C79_canonicalize_unique _ _ (by decide) ⟨[[2, 3, 1], [0, 1, 3]], .cons ⟨2, rfl⟩ (.cons ⟨2, rfl⟩ .nil), List.Perm.swap _ _ _⟩

/-- C79: `ContainsFace` never answers true unless the polyhedron has the face, up to the starting corner; and it answers true
when the polyhedron has the face with the same starting corner. -/
theorem C79_containsFace_partial (p : Polyhedron α) (face : List ℤ) :
    (p.containsFace face = true → ∃ g ∈ p.f, SameFace g face) ∧ (face ∈ p.f → p.containsFace face = true) :=
  ⟨containsFace_sound, containsFace_mem⟩

example : exTetra.containsFace [1, 2, 3] = true ∧ exTetra.containsFace [1, 3, 2] = false := by decide +kernel

/-- C79: a face that the polyhedron has, but with another starting corner, is not always found. -/
theorem C79_containsFace_violation : ∃ p : Polyhedron ℚ, p.faceIndicesValid = true ∧ p.isClosed = true ∧ ∃ g ∈ p.f, ∃ face,
    SameFace g face ∧ p.containsFace face = false :=
  ⟨exTetra, by decide +kernel, by decide +kernel, [1, 2, 3], by decide +kernel, [2, 3, 1], ⟨1, rfl⟩, by decide +kernel⟩

/-! ### C80 -/

section
variable [Field α] [LinearOrder α] [IsStrictOrderedRing α]

/-- C79: `NearestVertex` returns -1 for a polyhedron without vertices and otherwise the number of a vertex that no vertex is
nearer than. -/
theorem C79_nearestVertex (p : Polyhedron α) (pt : V3 α) : (p.v = [] ∧ p.nearestVertex pt = -1) ∨
    ∃ (n : ℕ) (hn : n < p.v.length), p.nearestVertex pt = n ∧ ∀ x ∈ p.v, distSq pt p.v[n] ≤ distSq pt x := by
  have e : p.nearestVertex pt = (p.findClosestVertex pt).1 := rfl
  rcases findClosestVertex_spec p pt with ⟨h0, h1⟩ | ⟨n, hn, h1, h2⟩
  · exact Or.inl ⟨h0, by rw [e, h1]⟩
  · exact Or.inr ⟨n, hn, by rw [e, h1], h2⟩

/-- C80: `SetEquals`, which is `const` for neither operand, ends without undefined behaviour on polyhedra whose face indices are
vertex numbers, and leaves both polyhedra with the faces they had in space, up to their order and starting corners. -/
theorem C80_unchanged (p p2 : Polyhedron α) (hr : ∀ f ∈ p.f, ∀ i ∈ f, 0 ≤ i ∧ i < p.v.length)
    (hr2 : ∀ f ∈ p2.f, ∀ i ∈ f, 0 ≤ i ∧ i < p2.v.length) :
    ∃ b q q2 A B A' B', p.setEquals p2 = some (b, q, q2) ∧ p.faces = some A ∧ q.faces = some A' ∧ SameFaces A A' ∧
      p2.faces = some B ∧ q2.faces = some B' ∧ SameFaces B B' := by
  have hr' : p.InRange := hr
  have hr2' : p2.InRange := hr2
  by_cases h : p.v.length ≠ p2.v.length ∨ p.f.length ≠ p2.f.length ∨ p.numEdges ≠ p2.numEdges
  · exact ⟨false, p, p2, _, _, _, _, by rw [setEquals, if_pos h], faces_eq hr', faces_eq hr', sameFaces_refl _,
      faces_eq hr2', faces_eq hr2', sameFaces_refl _⟩
  obtain ⟨b, q', π, -, h2, -, h4⟩ := setEquals_run p p2 h
  have hq := h2.inRange hr2'
  have e : p2.faces = _ := (h2.faces_eq hr2').symm.trans (faces_eq hq)
  rcases b
  · exact ⟨_, _, _, _, _, _, _, h4, faces_eq hr', faces_eq hr', sameFaces_refl _, e, faces_eq hq, sameFaces_refl _⟩
  · exact ⟨_, _, _, _, _, _, _, h4, faces_eq hr', faces_eq (inRange_canonicalize hr'), sameFaces_map _ (sameFaces_canonicalize p),
      e, faces_eq (inRange_canonicalize hq), sameFaces_map _ (sameFaces_canonicalize q')⟩

/-- C80: if `SetEquals` answers true, then there is a bijection of the vertex numbers under which corresponding vertices are at
most 1/100 apart and every face of the first polyhedron is, up to the starting corner, a face of the second; if moreover no
face of the first has a corner twice and no two of its faces are the same, then every face of the second is a face of the
first. -/
theorem C80_sound (p p2 q q2 : Polyhedron α) (h : p.setEquals p2 = some (true, q, q2)) :
    p2.v.length = p.v.length ∧ p2.f.length = p.f.length ∧ ∃ σ : Equiv.Perm ℤ,
      (∀ k (hk : k < p.v.length), ∃ y, p2.vertex (σ k) = some y ∧ lenSq (p.v[k] - y) ≤ (1 / 100) ^ 2) ∧
      (∀ f ∈ p.f, ∃ g ∈ p2.f, SameFace g (f.map σ)) ∧
      ((∀ f ∈ p.f, f.Nodup) → p.f.Pairwise (fun f g => ¬ SameFace f g) → SameFaces (p.f.map (List.map σ)) p2.f) := by
  by_cases hc : p.v.length ≠ p2.v.length ∨ p.f.length ≠ p2.f.length ∨ p.numEdges ≠ p2.numEdges
  · rw [setEquals, if_pos hc] at h
    cases h
  obtain ⟨b, q', π, -, h2, h3, h4⟩ := setEquals_run p p2 hc
  push Not at hc
  rw [h4] at h
  rcases b
  · cases h
  simp only [if_true, Option.some_inj, Prod.mk.injEq] at h
  obtain ⟨hall, -, -⟩ := h
  have hmatch : ∀ f ∈ p.f, ∃ g ∈ p2.f, SameFace (g.map π) f := by
    intro f hf
    have hm : canonFace f ∈ p.canonicalizeFaceArray.f := (canonicalize_perm p).mem_iff.2 (List.mem_map_of_mem hf)
    obtain ⟨g, hg, hs⟩ := containsFace_sound (List.all_eq_true.1 hall _ hm)
    rw [(canonicalize_perm q').mem_iff, List.mem_map] at hg
    obtain ⟨g', hg', rfl⟩ := hg
    rw [h2.faces, List.mem_map] at hg'
    obtain ⟨k, hk, rfl⟩ := hg'
    exact ⟨k, hk, sameFace_trans (sameFace_canonFace _) (sameFace_trans hs (sameFace_symm (sameFace_canonFace f)))⟩
  refine ⟨hc.1.symm, hc.2.1.symm, π.symm, fun k hk => ?_, fun f hf => ?_, fun hn hd => ?_⟩
  · obtain ⟨y, hy, hd⟩ := h3 rfl k hk
    refine ⟨y, ?_, by norm_num; norm_num at hd; exact hd⟩
    have hrange : 0 ≤ π.symm k ∧ π.symm k < p2.v.length := (h2.range _).2 (by rw [Equiv.apply_symm_apply]; omega)
    have := h2.vertex hrange
    rw [Equiv.apply_symm_apply] at this
    rw [← this, vertex, if_pos (by omega)]
    simpa using hy
  · obtain ⟨g, hg, k, hk⟩ := hmatch f hf
    refine ⟨g, hg, k, ?_⟩
    rw [hk, List.map_rotate, List.map_map]
    simp
  · -- each face of `p`, put into canonical form, is a canonical face of `q'`; the counts agree
    have hnd : (p.f.map canonFace).Nodup := by
      rw [List.Nodup, List.pairwise_map]
      exact hd.imp fun {f g} h e => h (canonFace_inj e)
    have hsub : p.f.map canonFace ⊆ q'.f.map canonFace := by
      intro x hx
      rw [List.mem_map] at hx
      obtain ⟨f, hf, rfl⟩ := hx
      obtain ⟨g, hg, hs⟩ := hmatch f hf
      rw [List.mem_map]
      refine ⟨g.map π, ?_, (canonFace_congr (hn f hf) (sameFace_symm hs)).symm⟩
      rw [h2.faces]
      exact List.mem_map_of_mem hg
    have hperm : (p.f.map canonFace).Perm (q'.f.map canonFace) := by
      refine (List.subperm_of_subset hnd hsub).perm_of_length_le ?_
      rw [List.length_map, List.length_map, h2.faces, List.length_map]
      omega
    have hS : SameFaces p.f q'.f := sameFaces_of_canon hperm
    have := sameFaces_map π.symm hS
    rw [h2.faces, List.map_map] at this
    have e : (List.map π.symm ∘ List.map π : List ℤ → List ℤ) = id := by
      funext l; simp
    rwa [e, List.map_id] at this

/-- The tetrahedron with vertices and faces in another order, faces started elsewhere. -/
def exTetra2 : Polyhedron ℚ := ⟨[⟨0, 0, 1⟩, ⟨0, 0, 0⟩, ⟨0, 1, 0⟩, ⟨1, 0, 0⟩], [[0, 1, 3], [1, 2, 3], [2, 0, 3], [0, 2, 1]]⟩

example : (exTetra.setEquals exTetra2).map Prod.fst = some true ∧ (exTetra.setEquals exTetra2.flipWindingOrder).map Prod.fst = some false := by
  decide +kernel

/-- C80: `SetEquals` answers true for every polyhedron that differs only in the numbering of the vertices, the order of the
faces and their starting corners, provided the vertices are different points and the face indices are valid. -/
theorem C80_complete (p p2 : Polyhedron α) (hv : p.faceIndicesValid = true) (hd : p.v.Nodup) (h : Renumbered p.v p.f p2.v p2.f) :
    (p.setEquals p2).map Prod.fst = some true := by
  have hv := (faceIndicesValid_iff p).1 hv
  obtain ⟨hlen, π, hπ, hS⟩ := h
  have hsub : p.v ⊆ p2.v := by
    intro x hx
    obtain ⟨k, hk, rfl⟩ := List.getElem_of_mem hx
    obtain ⟨m, -, hm⟩ := hπ k hk
    rw [List.getElem?_eq_getElem hk] at hm
    exact List.mem_of_getElem? hm
  have hperm : p2.v.Perm p.v := ((List.subperm_of_subset hd hsub).perm_of_length_le (by omega)).symm
  obtain ⟨q', ρ, h1, h2, h3⟩ := matchVertices_perm p.v [] p2 (by simpa using hd) (by simpa using hperm) (by simp)
  simp only [List.length_nil, List.nil_append] at h1 h3
  have hsum : (p2.f.map List.length).sum = (p.f.map List.length).sum := by
    obtain ⟨l, hl1, hl2⟩ := hS
    rw [← (hl2.map List.length).sum_nat]
    rw [List.forall₂_map_left_iff] at hl1
    clear hl2 hv
    generalize p.f = A at hl1
    induction hl1 with
    | nil => rfl
    | cons hab _ ih =>
      obtain ⟨k, rfl⟩ := hab
      simp only [List.map_cons, List.sum_cons, ih, List.length_rotate, List.length_map]
  have hfl : p2.f.length = p.f.length := by
    obtain ⟨l, hl1, hl2⟩ := hS
    have := hl1.length_eq
    rw [List.length_map] at this
    rw [← hl2.length_eq, this]
  have hfix : ∀ k : ℕ, k < p.v.length → ρ (π k) = k := by
    intro k hk
    obtain ⟨m, hm, hmv⟩ := hπ k hk
    rw [hm]
    rw [List.getElem?_eq_getElem hk] at hmv
    have hm2 : m < p2.v.length := (List.getElem?_eq_some_iff.1 hmv).1
    have hr := (h2.range m).1 ⟨by omega, by omega⟩
    have hq := h2.vert m (by omega) (by omega)
    rw [h3, Int.toNat_natCast, hmv] at hq
    obtain ⟨hlt, e⟩ := List.getElem?_eq_some_iff.1 hq
    have := (List.Nodup.getElem_inj_iff hd).1 e
    omega
  have hq' : SameFaces p.f q'.f := by
    have := sameFaces_map ρ hS
    rw [← h2.faces, List.map_map] at this
    have e : p.f.map (List.map ρ ∘ List.map π) = p.f := by
      conv_rhs => rw [← List.map_id p.f]
      refine List.map_congr_left fun f hf => ?_
      rw [Function.comp, List.map_map]
      conv_rhs => rw [id, ← List.map_id f]
      refine List.map_congr_left fun i hi => ?_
      have hir := (hv f hf).2.2 i hi
      obtain ⟨k, rfl⟩ : ∃ k : ℕ, i = k := ⟨i.toNat, by omega⟩
      exact hfix k (by omega)
    rwa [e] at this
  have hcan := C79_canonicalize_unique p q' (fun f hf => (hv f hf).2.1) hq'
  have hne : p.numEdges = p2.numEdges := by rw [numEdges_eq, numEdges_eq, hsum]
  rw [setEquals, if_neg (by push Not; exact ⟨hlen.symm, hfl.symm, hne⟩), h1]
  simp only [Option.map_some, if_true, Option.some_inj]
  rw [List.all_eq_true]
  intro f hf
  exact containsFace_mem (hcan ▸ hf)

/-- The renumbering between the two example tetrahedra. -/
example : Renumbered exTetra.v exTetra.f exTetra2.v exTetra2.f := by
  refine ⟨rfl, ⟨fun n => if n = 0 then 1 else if n = 1 then 3 else if n = 2 then 2 else if n = 3 then 0 else n,
    fun n => if n = 0 then 3 else if n = 1 then 0 else if n = 2 then 2 else if n = 3 then 1 else n,
    fun n => by dsimp only; split_ifs <;> omega, fun n => by dsimp only; split_ifs <;> omega⟩, ?_, ?_⟩
  · intro k hk
    have hk : k < 4 := hk
    interval_cases k
    exacts [⟨1, rfl, rfl⟩, ⟨3, rfl, rfl⟩, ⟨2, rfl, rfl⟩, ⟨0, rfl, rfl⟩]
  · exact ⟨[[1, 2, 3], [0, 1, 3], [2, 0, 3], [0, 2, 1]],
      .cons ⟨0, by decide⟩ (.cons ⟨2, by decide⟩ (.cons ⟨1, by decide⟩ (.cons ⟨1, by decide⟩ .nil))), List.Perm.swap _ _ _⟩

/-- C80: when a face is listed twice, `SetEquals` can answer true although the second polyhedron has a face that the first
does not have; the answer is then not symmetric. -/
theorem C80_duplicate_violation : ∃ p p2 : Polyhedron ℚ, p.faceIndicesValid = true ∧ p2.faceIndicesValid = true ∧ p.v = p2.v ∧ p.v.Nodup ∧
    (p.setEquals p2).map Prod.fst = some true ∧ (p2.setEquals p).map Prod.fst = some false :=
  ⟨⟨exTetra.v, [[0, 1, 2], [0, 1, 2]]⟩, ⟨exTetra.v, [[0, 1, 2], [0, 1, 3]]⟩, by decide +kernel⟩

end

end Polyhedron
end MGL
