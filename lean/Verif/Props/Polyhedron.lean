import Mathlib.Tactic.NormNum
import Verif.Proofs.PolyhedronEdit

/-! Properties C78 and C79: the index structure of polyhedra, and the operations that renumber it. -/

set_option linter.unusedSectionVars false

namespace MGL
open Spec
namespace Polyhedron
variable {α : Type}

/-- A tetrahedron, as an example. -/
def exTetra : Polyhedron ℚ := ⟨[⟨0, 0, 0⟩, ⟨1, 0, 0⟩, ⟨0, 1, 0⟩, ⟨0, 0, 1⟩], [[0, 2, 1], [0, 1, 3], [1, 2, 3], [0, 3, 2]]⟩

/-- The same with two vertices that no face uses. -/
def exLoose : Polyhedron ℚ :=
  ⟨[⟨9, 9, 9⟩, ⟨0, 0, 0⟩, ⟨1, 0, 0⟩, ⟨8, 8, 8⟩, ⟨0, 1, 0⟩, ⟨0, 0, 1⟩], [[1, 4, 2], [1, 2, 5], [2, 4, 5], [1, 5, 4]]⟩

/-! ### C78 -/

/-- C78: `IsClosed` answers true exactly when no directed edge occurs twice and every directed edge occurs in reverse. -/
theorem C78_isClosed (p : Polyhedron α) : p.isClosed = true ↔ ClosedMesh p.f := isClosed_iff p

example : exTetra.isClosed = true ∧ (⟨exTetra.v, [[0, 2, 1], [0, 1, 3], [1, 2, 3]]⟩ : Polyhedron ℚ).isClosed = false
    ∧ (⟨exTetra.v, [[0, 2, 1], [0, 1, 3], [1, 2, 3], [0, 2, 3]]⟩ : Polyhedron ℚ).isClosed = false := by decide +kernel

/-- C78: `FaceIndicesValid` answers true exactly when every face has at least three corners, no corner twice, and every corner
is a vertex number. -/
theorem C78_faceIndicesValid (p : Polyhedron α) : p.faceIndicesValid = true ↔ ValidFaces p.v.length p.f := faceIndicesValid_iff p

example : exTetra.faceIndicesValid = true ∧ (⟨exTetra.v, [[0, 2, 4]]⟩ : Polyhedron ℚ).faceIndicesValid = false
    ∧ (⟨exTetra.v, [[0, 2, 1, 2]]⟩ : Polyhedron ℚ).faceIndicesValid = false := by decide +kernel

/-- C78: `EdgeIndices` lists every pair of vertices that follow each other in a face of at least three corners, smaller index
first, once, in lexicographic order. -/
theorem C78_edgeIndices (p : Polyhedron α) :
    (∀ a b, (a, b) ∈ p.edgeIndices ↔ a ≤ b ∧ ∃ f ∈ p.f, 3 ≤ f.length ∧ ((a, b) ∈ faceEdges f ∨ (b, a) ∈ faceEdges f)) ∧
    p.edgeIndices.Pairwise fun d e => d.1 < e.1 ∨ d.1 = e.1 ∧ d.2 < e.2 := by
  obtain ⟨h1, h2⟩ := edgeIndices_spec p
  refine ⟨fun a b => ?_, h1.imp fun {d e} h => ?_⟩
  · rw [h2]
    constructor
    · rintro ⟨f, hf, h3, ⟨c, d⟩, hd, he⟩
      simp only [Prod.mk.injEq] at he
      obtain ⟨rfl, rfl⟩ := he
      refine ⟨min_le_max, f, hf, h3, ?_⟩
      rcases le_total c d with h | h
      · left; rwa [min_eq_left h, max_eq_right h]
      · right; rwa [min_eq_right h, max_eq_left h]
    · rintro ⟨hab, f, hf, h3, he | he⟩
      · exact ⟨f, hf, h3, _, he, by simp [hab]⟩
      · exact ⟨f, hf, h3, _, he, by simp [hab]⟩
  · simp only [pairLt, decide_eq_true_eq] at h
    omega

example : exTetra.edgeIndices = [(0, 1), (0, 2), (0, 3), (1, 2), (1, 3), (2, 3)] := by decide +kernel

/-- C78: for a closed polyhedron with valid indices, `NumEdges` is the number of edges that `EdgeIndices` lists, so that
`EulerFormulaHolds` tests Euler's formula; twice that number is the number of face corners. -/
theorem C78_numEdges (p : Polyhedron α) (hv : p.faceIndicesValid = true) (hc : p.isClosed = true) :
    p.numEdges = p.edgeIndices.length ∧ 2 * p.edgeIndices.length = (p.f.map List.length).sum ∧
      (p.eulerFormulaHolds = true ↔ p.v.length + p.f.length = p.edgeIndices.length + 2) := by
  have hv := (faceIndicesValid_iff p).1 hv
  have h := edgeIndices_length p hv ((isClosed_iff p).1 hc)
  refine ⟨h.symm, ?_, ?_⟩
  · have h2 := edgeIndices_card p hv ((isClosed_iff p).1 hc)
    omega
  · rw [eulerFormulaHolds, decide_eq_true_eq, ← h]
    omega

example : exTetra.numEdges = 6 ∧ exTetra.eulerFormulaHolds = true := by decide +kernel

/-- C78: without closedness `NumEdges` can be wrong: a single triangle has three edges, `NumEdges` says one. -/
theorem C78_numEdges_open : ∃ p : Polyhedron ℚ, p.faceIndicesValid = true ∧ p.isClosed = false ∧ p.edgeIndices.length = 3 ∧ p.numEdges = 1 :=
  ⟨⟨[⟨0, 0, 0⟩, ⟨1, 0, 0⟩, ⟨0, 1, 0⟩], [[0, 1, 2]]⟩, by decide +kernel⟩

/-- C78: `FlipWindingOrder` reverses every face and leaves the vertices; done twice it does nothing. Closedness, validity, the
edges and Euler's formula are the same afterwards. -/
theorem C78_flip (p : Polyhedron α) : p.flipWindingOrder.v = p.v ∧ p.flipWindingOrder.f = p.f.map List.reverse ∧
    p.flipWindingOrder.flipWindingOrder = p ∧ p.flipWindingOrder.isClosed = p.isClosed ∧
    p.flipWindingOrder.faceIndicesValid = p.faceIndicesValid ∧ p.flipWindingOrder.numEdges = p.numEdges ∧
    (∀ e, e ∈ p.flipWindingOrder.edgeIndices ↔ e ∈ p.edgeIndices) ∧ p.flipWindingOrder.eulerFormulaHolds = p.eulerFormulaHolds := by
  have hf : p.flipWindingOrder.f = p.f.map List.reverse := by
    rw [flipWindingOrder]
    exact List.map_congr_left fun f _ => flipFace_eq f
  have hrr : (p.f.map List.reverse).map List.reverse = p.f := by rw [List.map_map]; simp
  have hn : p.flipWindingOrder.numEdges = p.numEdges := by
    rw [numEdges_eq, numEdges_eq, hf, List.map_map]
    congr 3
    simp
  have hlen : p.flipWindingOrder.f.length = p.f.length := by rw [hf]; simp
  refine ⟨rfl, hf, ?_, ?_, ?_, hn, fun e => ?_, ?_⟩
  · have : p.flipWindingOrder.flipWindingOrder.f = p.f := by
      rw [flipWindingOrder, hf]
      exact (List.map_congr_left fun f _ => flipFace_eq f).trans hrr
    rcases p with ⟨v, f⟩
    exact congrArg (Polyhedron.mk v) this
  · rw [Bool.eq_iff_iff, isClosed_iff, isClosed_iff, hf]
    exact ⟨fun h => by have := closedMesh_reverse h; rwa [hrr] at this, closedMesh_reverse⟩
  · rw [Bool.eq_iff_iff, faceIndicesValid_iff, faceIndicesValid_iff, hf]
    simp only [ValidFaces, flipWindingOrder, List.mem_map, forall_exists_index, and_imp, forall_apply_eq_imp_iff₂,
      List.length_reverse, List.nodup_reverse, List.mem_reverse]
  · rw [(edgeIndices_spec _).2, (edgeIndices_spec _).2, hf]
    simp only [List.mem_map, exists_exists_and_eq_and, List.length_reverse, (faceEdges_reverse _).mem_iff, Prod.swap]
    simp only [min_comm, max_comm]
  · rw [eulerFormulaHolds, eulerFormulaHolds, hn, hlen]; rfl

example : exTetra.flipWindingOrder.f = [[1, 2, 0], [3, 1, 0], [3, 2, 1], [2, 3, 0]] := by decide +kernel

/-- C78: `GenerateVertexAdjacencyData` on valid faces gives one row per vertex, with exactly the vertices that follow it in
some face. For a closed polyhedron no row has an entry twice and adjacency is symmetric. -/
theorem C78_adjacency (p : Polyhedron α) (hv : p.faceIndicesValid = true) : ∃ rows, p.vertexAdjacency = some rows ∧
    rows.length = p.v.length ∧ ∀ k < p.v.length, ∃ row, rows[k]? = some row ∧ (∀ j, j ∈ row ↔ ((k : ℤ), j) ∈ meshEdges p.f) ∧
      (p.isClosed = true → row.Nodup ∧ ∀ j : ℕ, (j : ℤ) ∈ row → ∃ row', rows[j]? = some row' ∧ (k : ℤ) ∈ row') := by
  have hv := (faceIndicesValid_iff p).1 hv
  obtain ⟨a', h1, h2, h3⟩ := adjacency_fold p.f (List.replicate p.v.length []) (fun f hf => by
    have := hv f hf
    refine ⟨?_, by simpa using this.2.2⟩
    rintro rfl; simp at this)
  have hperm := allLoopEdges_perm (fs := p.f) (fun f hf => by have := (hv f hf).1; omega)
  have hrow : ∀ k < p.v.length, a'[k]? = some (((allLoopEdges p.f).filter fun e => e.1 = (k : ℤ)).map Prod.snd) := by
    intro k hk
    have := h3 k [] (by simp [hk])
    simpa using this
  have hmem : ∀ (k : ℕ) j, j ∈ ((allLoopEdges p.f).filter fun e => e.1 = (k : ℤ)).map Prod.snd ↔ ((k : ℤ), j) ∈ meshEdges p.f := by
    intro k j
    simp only [List.mem_map, List.mem_filter, hperm.mem_iff, decide_eq_true_eq, Prod.exists]
    constructor
    · rintro ⟨a, b, ⟨h, rfl⟩, rfl⟩; exact h
    · intro h; exact ⟨_, _, ⟨h, rfl⟩, rfl⟩
  refine ⟨a', h1, by simpa using h2, fun k hk => ⟨_, hrow k hk, hmem k, fun hc => ?_⟩⟩
  have hc := (isClosed_iff p).1 hc
  constructor
  · refine List.Nodup.map_on ?_ ((hperm.nodup_iff.2 hc.1).filter _)
    rintro ⟨a, b⟩ h ⟨c, d⟩ h' e
    simp only [List.mem_filter, decide_eq_true_eq] at h h'
    rw [Prod.mk.injEq]
    exact ⟨h.2.trans h'.2.symm, e⟩
  · intro j hj
    have hjk := hc.2 _ _ ((hmem k j).1 hj)
    obtain ⟨f, hf, -, hfe⟩ := mem_meshEdges.1 hjk
    have hjr := (hv f hf).2.2 j (mem_of_faceEdges hfe).1
    exact ⟨_, hrow j (by omega), (hmem j k).2 hjk⟩

example : exTetra.vertexAdjacency = some [[2, 1, 3], [0, 3, 2], [1, 3, 0], [0, 1, 2]] := by decide +kernel

/-! ### C79 -/

/-- C79: `SwapVertices` with two vertex numbers exchanges the two vertices and leaves every face where it is in space;
closedness and validity are the same afterwards. -/
theorem C79_swapVertices (p : Polyhedron α) (hr : ∀ f ∈ p.f, ∀ i ∈ f, 0 ≤ i ∧ i < p.v.length) (i j : ℤ)
    (hi : 0 ≤ i ∧ i < p.v.length) (hj : 0 ≤ j ∧ j < p.v.length) :
    ∃ q, p.swapVertices i j = some q ∧ q.vertex i = p.vertex j ∧ q.vertex j = p.vertex i ∧
      (∀ k, k ≠ i → k ≠ j → q.vertex k = p.vertex k) ∧ (∀ k, q.facePolygon k = p.facePolygon k) ∧ q.f.length = p.f.length ∧
      q.isClosed = p.isClosed ∧ q.faceIndicesValid = p.faceIndicesValid := by
  obtain ⟨w, h1, h2, h3⟩ := swapVertices_eq hi hj
  have hv : ∀ fs (k : ℤ), 0 ≤ k → (⟨w, fs⟩ : Polyhedron α).vertex (swapIndex i j k) = p.vertex k := by
    intro fs k hk
    have h0 : 0 ≤ swapIndex i j k := by unfold swapIndex; split_ifs <;> omega
    rw [vertex, vertex, if_pos hk, if_pos h0, h3 k hk]
  have hvi := hv (p.f.map (List.map (swapIndex i j)))
  refine ⟨_, h1, ?_, ?_, fun k hki hkj => ?_, fun k => ?_, by simp, ?_, ?_⟩
  · have e : swapIndex i j j = i := by unfold swapIndex; split_ifs <;> omega
    have := hvi j hj.1
    rwa [e] at this
  · have e : swapIndex i j i = j := by unfold swapIndex; rw [if_pos rfl]
    have := hvi i hi.1
    rwa [e] at this
  · rcases le_or_gt 0 k with h0 | h0
    · have e : swapIndex i j k = k := by unfold swapIndex; rw [if_neg hki, if_neg hkj]
      have := hvi k h0
      rwa [e] at this
    · rw [vertex, vertex, if_neg (by omega), if_neg (by omega)]
  · exact facePolygon_map (fun f hf m hm => hvi m (hr f hf m hm).1) k
  · rw [Bool.eq_iff_iff, isClosed_iff, isClosed_iff]
    exact closedMesh_map fun _ _ _ _ _ _ _ _ h => swapIndex_inj h
  · rw [Bool.eq_iff_iff, faceIndicesValid_iff, faceIndicesValid_iff]
    simp only [ValidFaces, List.mem_map, forall_exists_index, and_imp, forall_apply_eq_imp_iff₂, List.length_map, h2]
    refine forall₂_congr fun f hf => ?_
    rw [nodup_map_iff_of_inj fun a _ b _ h => swapIndex_inj h]
    refine and_congr Iff.rfl (and_congr Iff.rfl ?_)
    refine forall₂_congr fun m hm => ?_
    have := hr f hf m hm
    unfold swapIndex; split_ifs <;> omega

example : (exTetra.swapVertices 0 2).map (fun q => (q.vertex 0, q.f, q.isClosed)) =
    some (some ⟨0, 1, 0⟩, [[2, 0, 1], [2, 1, 3], [1, 0, 3], [2, 3, 0]], true) := by decide +kernel

/-- C79: `RemoveDegenerateFaces` keeps exactly the faces with three or more corners, in order, and all vertices. -/
theorem C79_removeDegenerateFaces (p : Polyhedron α) : p.removeDegenerateFaces.v = p.v ∧
    p.removeDegenerateFaces.f.Sublist p.f ∧ ∀ f, f ∈ p.removeDegenerateFaces.f ↔ f ∈ p.f ∧ 3 ≤ f.length :=
  ⟨rfl, List.filter_sublist, fun f => by simp [removeDegenerateFaces]⟩

example : (⟨exTetra.v, [[0, 1], [0, 2, 1], [3], []]⟩ : Polyhedron ℚ).removeDegenerateFaces.f = [[0, 2, 1]] := by decide +kernel

/-- C79: `RemoveRedundantVertices`, for a polyhedron whose face indices are all vertex numbers (at most 2³⁰ vertices, so that
the sums of the binary search do not overflow), ends without undefined behaviour; every face is where it was in space, the
vertices that are left are exactly the used ones, in their old order, and each of them is used. -/
theorem C79_removeRedundantVertices (p : Polyhedron α) (hr : ∀ f ∈ p.f, ∀ i ∈ f, 0 ≤ i ∧ i < p.v.length)
    (hn : p.v.length ≤ 2 ^ 30) (fuel : ℕ) (hf : p.v.length ≤ fuel) :
    ∃ q, p.removeRedundantVertices fuel = some q ∧ (∀ k, q.facePolygon k = p.facePolygon k) ∧ q.f.length = p.f.length ∧
      (∃ used : List ℤ, used.Pairwise (· < ·) ∧ (∀ i, i ∈ used ↔ ∃ f ∈ p.f, i ∈ f) ∧ q.v.map some = used.map p.vertex) ∧
      (∀ j : ℕ, j < q.v.length ↔ ∃ f ∈ q.f, (j : ℤ) ∈ f) ∧
      q.isClosed = p.isClosed ∧ q.faceIndicesValid = p.faceIndicesValid := by
  obtain ⟨w, h1, h2, h3⟩ := removeRedundantVertices_eq hr (by omega) hf
  have hs := usedVertices_sorted p
  have hmem := mem_usedVertices p
  have hb : ∀ x ∈ p.usedVertices, 0 ≤ x ∧ x < p.v.length := fun x hx => by
    obtain ⟨f, hf, hx⟩ := (hmem x).1 hx
    exact hr f hf x hx
  have hinj : ∀ f ∈ p.f, ∀ g ∈ p.f, ∀ a ∈ f, ∀ b ∈ g, newIndex p.usedVertices a = newIndex p.usedVertices b → a = b :=
    fun f hf _ _ a ha _ _ h => newIndex_inj ((hmem a).2 ⟨f, hf, ha⟩) h
  have hlt : ∀ f ∈ p.f, ∀ i ∈ f, 0 ≤ newIndex p.usedVertices i ∧ newIndex p.usedVertices i < w.length := by
    intro f hf i hi
    have := List.idxOf_lt_length_of_mem ((hmem i).2 ⟨f, hf, hi⟩)
    rw [newIndex, h2]; omega
  refine ⟨_, h1, fun k => ?_, by simp, ⟨p.usedVertices, hs, hmem, ?_⟩, fun j => ?_, ?_, ?_⟩
  · exact facePolygon_map (fun f hf i hi => vertex_newIndex h3 ((hmem i).2 ⟨f, hf, hi⟩) (hr f hf i hi).1) k
  · apply List.ext_getElem (by simpa using h2)
    intro j hj hj'
    simp only [List.length_map] at hj hj'
    have := h3 j hj'
    simp only [List.getElem_map]
    rw [vertex, if_pos (hb _ (List.getElem_mem _)).1, ← this, List.getElem?_eq_getElem hj]
  · simp only [List.mem_map, exists_exists_and_eq_and]
    constructor
    · intro hj
      rw [h2] at hj
      obtain ⟨f, hf, hi⟩ := (hmem _).1 (List.getElem_mem hj)
      refine ⟨f, hf, _, hi, ?_⟩
      rw [newIndex, List.Nodup.idxOf_getElem (hs.imp fun h => ne_of_lt h)]
    · rintro ⟨f, hf, i, hi, he⟩
      have := hlt f hf i hi
      omega
  · rw [Bool.eq_iff_iff, isClosed_iff, isClosed_iff]
    exact closedMesh_map hinj
  · rw [Bool.eq_iff_iff, faceIndicesValid_iff, faceIndicesValid_iff]
    simp only [ValidFaces, List.mem_map, forall_exists_index, and_imp, forall_apply_eq_imp_iff₂, List.length_map]
    refine forall₂_congr fun f hf => ?_
    rw [nodup_map_iff_of_inj fun a ha b hb h => hinj f hf f hf a ha b hb h]
    exact and_congr Iff.rfl (and_congr Iff.rfl (forall₂_congr fun m hm => iff_of_true (hlt f hf m hm) (hr f hf m hm)))

example : exLoose.removeRedundantVertices 6 = some exTetra := by decide +kernel

/-- C79: the binary search used there does not end when the number looked for is missing but lies between the first and the
last entry: however many rounds are allowed, no answer is reached. (All calls in the library look for a number that is there.) -/
theorem C79_search_violation (l : List ℤ) (hr : ∀ x ∈ l, 0 ≤ x ∧ x < 2 ^ 31) (hl : l.length ≤ 2 ^ 30)
    (value : ℤ) (hv : value ∉ l) (a b : ℤ) (ha : l.head? = some a) (hb : l.getLast? = some b) (h1 : a < value) (h2 : value < b) :
    ∀ fuel, arrayBinarySearch fuel l value = none := by
  intro fuel
  have hr' : ∀ x ∈ l, 0 ≤ x ∧ x < 2147483648 := fun x hx => by have := hr x hx; norm_num at this; exact this
  have h0 : 0 < l.length := by
    rcases l with _ | ⟨x, xs⟩
    · cases ha
    · simp
  have hlen : l.length ≤ 1073741824 := by norm_num at hl; exact hl
  have ea := ha
  rw [List.head?_eq_getElem?, List.getElem?_eq_getElem h0, Option.some_inj] at ea
  have eb := hb
  rw [List.getLast?_eq_getElem?, List.getElem?_eq_getElem (by omega), Option.some_inj] at eb
  have ba := hr' a (ea ▸ List.getElem_mem _)
  have bb := hr' b (eb ▸ List.getElem_mem _)
  rw [arrayBinarySearch, ha]
  simp only [Option.bind_eq_bind, Option.bind_some]
  rw [intTriCmp, chk32_some (by omega) (by omega), Option.bind_some, if_neg (by omega), if_neg (by omega), hb, Option.bind_some,
    intTriCmp, chk32_some (by omega) (by omega), Option.bind_some, if_neg (by omega), if_neg (by omega)]
  have hlr : 0 < l.length - 1 := by
    by_contra h
    have : l.length - 1 = 0 := by omega
    simp only [this] at eb
    omega
  have := binarySearchLoop_stuck hr' hlen hv (by omega) (by omega) fuel 0 (l.length - 1) 0 hlr (by omega) (by rw [ea]; exact h1)
    (by rw [eb]; exact h2) (Or.inl rfl)
  rw [← this]
  congr 1; omega

example : ∀ fuel, arrayBinarySearch fuel [1, 4, 7, 9] 5 = none :=
  C79_search_violation _ (by decide) (by decide) 5 (by decide) 1 9 rfl rfl (by decide) (by decide)

/-- C79: on a strictly increasing list of at most 2³⁰ numbers that fit into `int`, the search finds the place of every number
in the list. -/
theorem C79_search (l : List ℤ) (hs : l.Pairwise (· < ·)) (hr : ∀ x ∈ l, 0 ≤ x ∧ x < 2 ^ 31) (hl : l.length ≤ 2 ^ 30) (k : ℕ)
    (hk : k < l.length) (fuel : ℕ) (hf : l.length ≤ fuel) : arrayBinarySearch fuel l l[k] = some (k : ℤ) :=
  arrayBinarySearch_found hs (fun x hx => by have := hr x hx; norm_num at this; exact this) (by norm_num at hl; exact hl) hk hf

example : arrayBinarySearch 4 [1, 4, 7, 9] 7 = some 2 := C79_search [1, 4, 7, 9] (by decide) (by decide) (by decide) 2 (by decide) 4 (by decide)

/-- C79: a number below the first or above the last entry is reported as missing. -/
theorem C79_search_missing (l : List ℤ) (hr : ∀ x ∈ l, 0 ≤ x ∧ x < 2 ^ 31) (a b value : ℤ) (ha : l.head? = some a)
    (hb : l.getLast? = some b) (h0 : 0 ≤ value) (h1 : value < 2 ^ 31) (h : value < a ∨ a < value ∧ b < value) (fuel : ℕ) :
    arrayBinarySearch fuel l value = some (-1) := by
  have ba := hr a (List.mem_of_mem_head? ha)
  have bb := hr b (List.mem_of_getLast? hb)
  norm_num at ba bb h1
  rw [arrayBinarySearch, ha]
  simp only [Option.bind_eq_bind, Option.bind_some]
  rw [intTriCmp, chk32_some (by omega) (by omega), Option.bind_some]
  rcases h with h | ⟨h, h'⟩
  · rw [if_pos (by omega)]
  · rw [if_neg (by omega), if_neg (by omega), hb, Option.bind_some, intTriCmp, chk32_some (by omega) (by omega), Option.bind_some,
      if_pos (by omega)]

example : arrayBinarySearch 0 [1, 4, 7, 9] 10 = some (-1) :=
  C79_search_missing [1, 4, 7, 9] (by decide) 1 9 10 rfl rfl (by decide) (by decide) (by decide) 0

end Polyhedron
end MGL
