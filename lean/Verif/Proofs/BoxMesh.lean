import Verif.Model.BoxMesh
import Verif.Spec.BoxMesh
import Verif.Props.AABB
import Verif.Proofs.Vec3
import Mathlib.Algebra.BigOperators.Group.List.Basic

set_option linter.unusedSectionVars false

namespace MGL
open V3

namespace Spec

theorem triples_append {β : Type*} : ∀ (n : ℕ) (l r : List β), l.length = 3 * n → triples (l ++ r) = triples l ++ triples r := by
  intro n
  induction n with
  | zero =>
    intro l r h
    obtain rfl := List.length_eq_zero_iff.1 (by omega : l.length = 0)
    simp [triples]
  | succ n ih =>
    intro l r h
    match l, h with
    | a :: b :: c :: l, h => simp [triples, ih l r (by simp at h; omega)]
    | [], h => simp at h; 
    | [_], h => simp at h; omega
    | [_, _], h => simp at h; omega

theorem triples_flatMap {ι β : Type*} (f : ι → List β) (k : ℕ) (hf : ∀ i, (f i).length = 3 * k) (l : List ι) :
    triples (l.flatMap f) = l.flatMap fun i => triples (f i) := by
  induction l with
  | nil => rfl
  | cons a l ih => rw [List.flatMap_cons, List.flatMap_cons, triples_append k _ _ (hf a), ih]

theorem triples_flatMap' {ι β : Type*} (f : ι → List β) (k : ι → ℕ) (hf : ∀ i, (f i).length = 3 * k i) (l : List ι) :
    triples (l.flatMap f) = l.flatMap fun i => triples (f i) := by
  induction l with
  | nil => rfl
  | cons a l ih => rw [List.flatMap_cons, List.flatMap_cons, triples_append (k a) _ _ (hf a), ih]

theorem triples_map {β γ : Type*} (g : β → γ) (l : List β) :
    triples (l.map g) = (triples l).map fun t => (g t.1, g t.2.1, g t.2.2) := by
  induction l using triples.induct with
  | case1 a b c r ih => simp [triples, ih]
  | case2 l h =>
    match l, h with
    | [], _ => rfl
    | [_], _ => rfl
    | [_, _], _ => rfl
    | a :: b :: c :: r, h => exact absurd rfl (h a b c r)

end Spec

section
variable {α : Type*} [Field α] [LinearOrder α] [IsStrictOrderedRing α]
namespace AABB

theorem length_gridVertices {β : Type*} (f : α → α → β) (nu nv : ℕ) (flip : Bool) :
    (gridVertices f nu nv flip).length = 6 * (nu * nv) := by
  unfold gridVertices
  simp [List.length_flatMap]
  ring

theorem gridVertices_map {β γ : Type*} (g : β → γ) (f : α → α → β) (nu nv : ℕ) (flip : Bool) :
    (gridVertices f nu nv flip).map g = gridVertices (fun u v => g (f u v)) nu nv flip := by
  unfold gridVertices
  cases flip <;> simp [List.map_flatMap]

theorem triangulateWith_map {β γ : Type*} (g : β → γ) (f : Fin 6 → α → α → β) (nx ny nz : ℕ) (ccw : Bool) :
    (triangulateWith f nx ny nz ccw).map g = triangulateWith (fun i u v => g (f i u v)) nx ny nz ccw := by
  unfold triangulateWith
  simp only [List.map_flatMap, gridVertices_map]

/-- The two triangles of a cell of the grid. -/
def cellTris {β : Type*} (f : α → α → β) (nu nv : ℕ) (flip : Bool) (x y : ℕ) : List (β × β × β) :=
  let u : α := (x : α) / nu
  let v : α := (y : α) / nv
  let u2 : α := ((x : α) + 1) / nu
  let v2 : α := ((y : α) + 1) / nv
  let p := if flip then f u2 v else f u v2
  let q := if flip then f u v2 else f u2 v
  [(f u v, p, q), (q, p, f u2 v2)]

theorem triples_gridVertices {β : Type*} (f : α → α → β) (nu nv : ℕ) (flip : Bool) :
    Spec.triples (gridVertices f nu nv flip) =
      (List.range nu).flatMap fun x => (List.range nv).flatMap fun y => cellTris f nu nv flip x y := by
  unfold gridVertices
  rw [Spec.triples_flatMap _ (2 * nv) (fun x => by simp [List.length_flatMap]; ring)]
  congr 1; funext x
  rw [Spec.triples_flatMap _ 2 (fun y => by simp)]
  rfl

theorem triples_triangulateWith {β : Type*} (f : Fin 6 → α → α → β) (nx ny nz : ℕ) (ccw : Bool) :
    Spec.triples (triangulateWith f nx ny nz ccw) = (List.finRange 6).flatMap fun i =>
      (List.range (gridSize nx ny nz i).1).flatMap fun x => (List.range (gridSize nx ny nz i).2).flatMap fun y =>
        cellTris (f i) (gridSize nx ny nz i).1 (gridSize nx ny nz i).2 (gridFlip ccw i) x y := by
  unfold triangulateWith
  rw [Spec.triples_flatMap' _ (fun i => 2 * ((gridSize nx ny nz i).1 * (gridSize nx ny nz i).2))
    (fun i => by rw [length_gridVertices]; ring)]
  simp only [triples_gridVertices]

theorem mem_triangulateWith {β : Type*} (f : Fin 6 → α → α → β) (nx ny nz : ℕ) (ccw : Bool) (t : β × β × β) :
    t ∈ Spec.triples (triangulateWith f nx ny nz ccw) ↔ ∃ i x y, x < (gridSize nx ny nz i).1 ∧ y < (gridSize nx ny nz i).2 ∧
      t ∈ cellTris (f i) (gridSize nx ny nz i).1 (gridSize nx ny nz i).2 (gridFlip ccw i) x y := by
  rw [triples_triangulateWith]
  simp [List.mem_flatMap]

/-- The two directions of a face. -/
def faceU (b : AABB α) (i : Fin 6) : V3 α :=
  let d := b.maxPoint - b.minPoint
  ![⟨0, d.y, 0⟩, ⟨0, d.y, 0⟩, ⟨d.x, 0, 0⟩, ⟨d.x, 0, 0⟩, ⟨d.x, 0, 0⟩, ⟨d.x, 0, 0⟩] i

def faceV (b : AABB α) (i : Fin 6) : V3 α :=
  let d := b.maxPoint - b.minPoint
  ![⟨0, 0, d.z⟩, ⟨0, 0, d.z⟩, ⟨0, 0, d.z⟩, ⟨0, 0, d.z⟩, ⟨0, d.y, 0⟩, ⟨0, d.y, 0⟩] i

/-- The area of a face. -/
def faceArea (b : AABB α) (i : Fin 6) : α :=
  let d := b.maxPoint - b.minPoint
  ![d.y * d.z, d.y * d.z, d.x * d.z, d.x * d.z, d.x * d.y, d.x * d.y] i

theorem facePoint_affine (b : AABB α) (i : Fin 6) (u v : α) :
    b.facePoint i u v = b.facePoint i 0 0 + (u • b.faceU i + v • b.faceV i) := by
  fin_cases i <;> ext <;> simp [facePoint, faceU, faceV]

theorem faceCross (b : AABB α) (i : Fin 6) (ccw : Bool) :
    (if gridFlip ccw i then cross (b.faceU i) (b.faceV i) else cross (b.faceV i) (b.faceU i)) =
      ((if ccw then -1 else 1) * b.faceArea i) • (Spec.outward i : V3 α) := by
  fin_cases i <;> cases ccw <;> ext <;> simp [gridFlip, faceU, faceV, faceArea, Spec.outward, cross] <;> ring

/-- The doubled area vector of every triangle of a face. -/
theorem cell_normal (b : AABB α) (i : Fin 6) (ccw : Bool) (nu nv x y : ℕ) (t : V3 α × V3 α × V3 α)
    (h : t ∈ cellTris (b.facePoint i) nu nv (gridFlip ccw i) x y) :
    cross (t.2.1 - t.1) (t.2.2 - t.1) = ((if ccw then -1 else 1) * (b.faceArea i / (nu * nv))) • (Spec.outward i : V3 α) := by
  have e : ((if ccw then -1 else 1) * (b.faceArea i / (nu * nv))) • (Spec.outward i : V3 α) =
      (1 / ((nu : α) * nv)) • (if gridFlip ccw i then cross (b.faceU i) (b.faceV i) else cross (b.faceV i) (b.faceU i)) := by
    rw [faceCross]
    cases ccw <;> ext <;> simp <;> ring
  rw [e]
  unfold cellTris at h
  dsimp only at h
  rw [facePoint_affine b i ((x : α) / nu), facePoint_affine b i (((x : α) + 1) / nu), facePoint_affine b i ((x : α) / nu),
    facePoint_affine b i (((x : α) + 1) / nu)] at h
  generalize b.facePoint i 0 0 = P at h
  generalize b.faceU i = U at h ⊢
  generalize b.faceV i = V at h ⊢
  rcases hf : gridFlip ccw i with _ | _
  · simp only [hf, Bool.false_eq_true, if_false, List.mem_cons, List.not_mem_nil, or_false] at h ⊢
    rcases h with rfl | rfl <;> ext <;> simp [cross] <;> ring
  · simp only [hf, if_true, List.mem_cons, List.not_mem_nil, or_false] at h ⊢
    rcases h with rfl | rfl <;> ext <;> simp [cross] <;> ring

theorem exists_cell (n : ℕ) (hn : 1 ≤ n) : ∀ w : α, 0 ≤ w → w ≤ n → ∃ x < n, (x : α) ≤ w ∧ w ≤ x + 1 := by
  induction n with
  | zero => omega
  | succ n ih =>
    intro w h0 h1
    rcases Nat.eq_zero_or_pos n with rfl | hp
    · exact ⟨0, by omega, by simpa using h0, by simpa using h1⟩
    · rcases le_or_gt w n with hw | hw
      · obtain ⟨x, hx, a, b⟩ := ih hp w h0 hw
        exact ⟨x, by omega, a, b⟩
      · exact ⟨n, by omega, hw.le, by push_cast at h1; exact h1⟩

theorem boxFace_iff (b : AABB α) (hb : b.Proper) (i : Fin 6) (p : V3 α) :
    p ∈ Spec.boxFace b.minPoint b.maxPoint i ↔ ∃ u v : α, 0 ≤ u ∧ u ≤ 1 ∧ 0 ≤ v ∧ v ≤ 1 ∧ p = b.facePoint i u v := by
  rw [← C19_facePoint b hb i p]
  unfold Spec.boxFace
  refine and_congr_right fun _ => ?_
  show _ ↔ dot _ _ = _
  fin_cases i <;> simp [facePlane, faceNormal, faceCenterPoint, dot]

theorem tri_subset_boxFace (mn mx : V3 α) (i : Fin 6) (a b c : V3 α) (ha : a ∈ Spec.boxFace mn mx i)
    (hb : b ∈ Spec.boxFace mn mx i) (hc : c ∈ Spec.boxFace mn mx i) : Spec.tri a b c ⊆ Spec.boxFace mn mx i := by
  have lo : ∀ {u v w x y z m : α}, 0 ≤ u → 0 ≤ v → 0 ≤ w → u + v + w = 1 → m ≤ x → m ≤ y → m ≤ z → m ≤ u * x + v * y + w * z := by
    intro u v w x y z m hu hv hw h hx hy hz
    have := mul_le_mul_of_nonneg_left hx hu
    have := mul_le_mul_of_nonneg_left hy hv
    have := mul_le_mul_of_nonneg_left hz hw
    have : u * m + v * m + w * m = m := by rw [← add_mul, ← add_mul, h, one_mul]
    linarith
  have hi : ∀ {u v w x y z m : α}, 0 ≤ u → 0 ≤ v → 0 ≤ w → u + v + w = 1 → x ≤ m → y ≤ m → z ≤ m → u * x + v * y + w * z ≤ m := by
    intro u v w x y z m hu hv hw h hx hy hz
    have := mul_le_mul_of_nonneg_left hx hu
    have := mul_le_mul_of_nonneg_left hy hv
    have := mul_le_mul_of_nonneg_left hz hw
    have : u * m + v * m + w * m = m := by rw [← add_mul, ← add_mul, h, one_mul]
    linarith
  rintro p ⟨u, v, w, hu, hv, hw, h, rfl⟩
  obtain ⟨⟨a1, a2, a3, a4, a5, a6⟩, a7⟩ := ha
  obtain ⟨⟨b1, b2, b3, b4, b5, b6⟩, b7⟩ := hb
  obtain ⟨⟨c1, c2, c3, c4, c5, c6⟩, c7⟩ := hc
  have k : ∀ m : α, u * m + v * m + w * m = m := fun m => by rw [← add_mul, ← add_mul, h, one_mul]
  refine ⟨⟨lo hu hv hw h a1 b1 c1, hi hu hv hw h a2 b2 c2, lo hu hv hw h a3 b3 c3, hi hu hv hw h a4 b4 c4,
    lo hu hv hw h a5 b5 c5, hi hu hv hw h a6 b6 c6⟩, ?_⟩
  fin_cases i <;> simp at a7 b7 c7 ⊢ <;> rw [a7, b7, c7] <;> exact k _

/-- The triangles of a cell are part of their face. -/
theorem cell_subset (b : AABB α) (hb : b.Proper) (i : Fin 6) (flip : Bool) (nu nv x y : ℕ) (hx : x < nu) (hy : y < nv)
    (t : V3 α × V3 α × V3 α) (h : t ∈ cellTris (b.facePoint i) nu nv flip x y) :
    Spec.tri t.1 t.2.1 t.2.2 ⊆ Spec.boxFace b.minPoint b.maxPoint i := by
  have n1 : (0 : α) < nu := by exact_mod_cast (by omega : 0 < nu)
  have n2 : (0 : α) < nv := by exact_mod_cast (by omega : 0 < nv)
  have x1 : (x : α) + 1 ≤ nu := by exact_mod_cast hx
  have y1 : (y : α) + 1 ≤ nv := by exact_mod_cast hy
  have x0 : (0 : α) ≤ x := by positivity
  have y0 : (0 : α) ≤ y := by positivity
  have m : ∀ u v : α, 0 ≤ u → u ≤ 1 → 0 ≤ v → v ≤ 1 → b.facePoint i u v ∈ Spec.boxFace b.minPoint b.maxPoint i :=
    fun u v a b' c d => (boxFace_iff b hb i _).2 ⟨u, v, a, b', c, d, rfl⟩
  have u0 : 0 ≤ (x : α) / nu := by positivity
  have u1 : (x : α) / nu ≤ 1 := by rw [div_le_one n1]; linarith
  have u2 : 0 ≤ ((x : α) + 1) / nu := by positivity
  have u3 : ((x : α) + 1) / nu ≤ 1 := by rw [div_le_one n1]; linarith
  have v0 : 0 ≤ (y : α) / nv := by positivity
  have v1 : (y : α) / nv ≤ 1 := by rw [div_le_one n2]; linarith
  have v2 : 0 ≤ ((y : α) + 1) / nv := by positivity
  have v3 : ((y : α) + 1) / nv ≤ 1 := by rw [div_le_one n2]; linarith
  unfold cellTris at h
  dsimp only at h
  cases flip <;> simp only [Bool.false_eq_true, if_false, if_true, List.mem_cons, List.not_mem_nil, or_false] at h <;>
    rcases h with rfl | rfl <;> apply tri_subset_boxFace <;> apply m <;> assumption

/-- Every point of a face is in one of its triangles. -/
theorem cell_cover (b : AABB α) (i : Fin 6) (flip : Bool) (nu nv : ℕ) (hu : 1 ≤ nu) (hv : 1 ≤ nv)
    (u v : α) (u0 : 0 ≤ u) (u1 : u ≤ 1) (v0 : 0 ≤ v) (v1 : v ≤ 1) :
    ∃ x y, x < nu ∧ y < nv ∧ ∃ t ∈ cellTris (b.facePoint i) nu nv flip x y, b.facePoint i u v ∈ Spec.tri t.1 t.2.1 t.2.2 := by
  have n1 : (0 : α) < nu := by exact_mod_cast hu
  have n2 : (0 : α) < nv := by exact_mod_cast hv
  obtain ⟨x, hx, xa, xb⟩ := exists_cell nu hu (u * nu) (by positivity) (by nlinarith)
  obtain ⟨y, hy, ya, yb⟩ := exists_cell nv hv (v * nv) (by positivity) (by nlinarith)
  refine ⟨x, y, hx, hy, ?_⟩
  obtain ⟨s, hs⟩ : ∃ s, s = u * nu - x := ⟨_, rfl⟩
  obtain ⟨t, ht⟩ : ∃ t, t = v * nv - y := ⟨_, rfl⟩
  have eu : u = (x + s) / nu := by rw [hs]; field_simp; ring
  have ev : v = (y + t) / nv := by rw [ht]; field_simp; ring
  unfold cellTris
  dsimp only
  rw [facePoint_affine b i ((x : α) / nu), facePoint_affine b i (((x : α) + 1) / nu), facePoint_affine b i ((x : α) / nu),
    facePoint_affine b i (((x : α) + 1) / nu), facePoint_affine b i u, eu, ev]
  generalize b.facePoint i 0 0 = P
  generalize b.faceU i = U
  generalize b.faceV i = V
  have s0 : 0 ≤ s := by linarith
  have s1 : s ≤ 1 := by linarith
  have t0 : 0 ≤ t := by linarith
  have t1 : t ≤ 1 := by linarith
  rcases le_total (s + t) 1 with hst | hst
  · refine ⟨_, List.mem_cons_self, ?_⟩
    cases flip
    · refine ⟨1 - s - t, t, s, by linarith, t0, s0, by ring, ?_⟩
      ext <;> simp <;> field_simp <;> ring
    · refine ⟨1 - s - t, s, t, by linarith, s0, t0, by ring, ?_⟩
      ext <;> simp <;> field_simp <;> ring
  · refine ⟨_, List.mem_cons_of_mem _ List.mem_cons_self, ?_⟩
    cases flip
    · refine ⟨1 - t, 1 - s, s + t - 1, by linarith, by linarith, by linarith, by ring, ?_⟩
      ext <;> simp <;> field_simp <;> ring
    · refine ⟨1 - s, 1 - t, s + t - 1, by linarith, by linarith, by linarith, by ring, ?_⟩
      ext <;> simp <;> field_simp <;> ring

end AABB
end
end MGL
