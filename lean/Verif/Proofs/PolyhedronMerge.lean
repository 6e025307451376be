import Mathlib.Tactic.LinearCombination
import Mathlib.Tactic.Linarith
import Mathlib.Tactic.Positivity
import Verif.Model.PolyhedronMerge
import Verif.Spec.ConvexSurface
import Verif.Proofs.PolyhedronMake
import Verif.Proofs.Dist

/-! Lemmas for merging a point into a convex polyhedron. -/

set_option linter.unusedSectionVars false

namespace MGL
open V3 Spec
namespace Polyhedron

/-! ### Removing faces and closing the hole with a fan -/

section Mesh

theorem faceEdges_fst (f : List ℤ) : (faceEdges f).map Prod.fst = f := by
  rw [faceEdges, List.map_fst_zip (by simp)]

theorem faceEdges_snd (f : List ℤ) : ((faceEdges f).map Prod.snd).Perm f := by
  rw [faceEdges, List.map_snd_zip (by simp)]
  exact List.rotate_perm f 1

theorem meshEdges_inout (fs : List (List ℤ)) : ((meshEdges fs).map Prod.fst).Perm ((meshEdges fs).map Prod.snd) := by
  induction fs with
  | nil => simp [meshEdges_nil]
  | cons f fs ih =>
    rw [meshEdges_cons, List.map_append, List.map_append]
    refine List.Perm.append ?_ ih
    split_ifs
    · rw [faceEdges_fst]; exact (faceEdges_snd f).symm
    · simp

/-- The part of a list of edges without partner runs into every vertex as often as out of it. -/
theorem unpaired_inout {L H : List (ℤ × ℤ)} (hL : L.Nodup) (hio : (L.map Prod.fst).Perm (L.map Prod.snd)) (hH : H.Nodup)
    (hm : ∀ e, e ∈ H ↔ e ∈ L ∧ e.swap ∉ L) : (H.map Prod.fst).Perm (H.map Prod.snd) := by
  classical
  let P := L.filter fun e => decide (e.swap ∈ L)
  have hP : P.Nodup := hL.filter _
  have hPm : ∀ e, e ∈ P ↔ e ∈ L ∧ e.swap ∈ L := by intro e; simp [P]
  have hsplit : L.Perm (H ++ P) := by
    rw [List.perm_ext_iff_of_nodup hL]
    · intro e
      rw [List.mem_append, hm, hPm]
      tauto
    · rw [List.nodup_append]
      refine ⟨hH, hP, fun x hx y hy => ?_⟩
      rintro rfl
      exact ((hm x).1 hx).2 ((hPm x).1 hy).2
  have hswap : (P.map Prod.swap).Perm P := by
    rw [List.perm_ext_iff_of_nodup ((List.nodup_map_iff Prod.swap_injective).2 hP) hP]
    intro e
    rw [List.mem_map, hPm]
    constructor
    · rintro ⟨d, hd, rfl⟩
      rw [hPm] at hd
      simpa using hd.symm
    · intro h
      exact ⟨e.swap, (hPm _).2 (by simpa using h.symm), by simp⟩
  have hPio : (P.map Prod.fst).Perm (P.map Prod.snd) := by
    have h1 := hswap.map Prod.fst
    rw [List.map_map] at h1
    have : (Prod.fst ∘ Prod.swap : ℤ × ℤ → ℤ) = Prod.snd := by funext x; rfl
    rw [this] at h1
    exact h1.symm
  have h1 : ((H ++ P).map Prod.fst).Perm ((H ++ P).map Prod.snd) := (hsplit.map _).symm.trans (hio.trans (hsplit.map _))
  rw [List.map_append, List.map_append] at h1
  exact (List.perm_append_right_iff _).1 (h1.trans (List.Perm.append_left _ hPio.symm))

/-- The fan that joins the edges `H` to the vertex `n`. -/
def fan (n : ℤ) (H : List (ℤ × ℤ)) : List (List ℤ) := H.map fun e => [e.1, e.2, n]

theorem count_fan (n a b : ℤ) (H : List (ℤ × ℤ)) : (meshEdges (fan n H)).count (a, b) =
    H.count (a, b) + (if b = n then (H.map Prod.snd).count a else 0) + (if a = n then (H.map Prod.fst).count b else 0) := by
  induction H with
  | nil => simp [fan, meshEdges_nil]
  | cons e H ih =>
    obtain ⟨x, y⟩ := e
    have : meshEdges (fan n ((x, y) :: H)) = [(x, y), (y, n), (n, x)] ++ meshEdges (fan n H) := by
      show meshEdges ([x, y, n] :: fan n H) = _
      rw [meshEdges_cons]; rfl
    rw [this, List.count_append, ih]
    have c1 : List.count (a, b) [(x, y), (y, n), (n, x)] = (if (x, y) = (a, b) then 1 else 0) +
        (if b = n then (if y = a then 1 else 0) else 0) + (if a = n then (if x = b then 1 else 0) else 0) := by
      simp only [List.count_cons, List.count_nil, beq_iff_eq, Prod.mk.injEq]
      by_cases h1 : x = a <;> by_cases h2 : y = b <;> by_cases h3 : y = a <;> by_cases h4 : b = n <;> by_cases h5 : a = n <;>
        by_cases h6 : x = b <;> simp_all [eq_comm]
    rw [c1]
    simp only [List.count_cons, List.map_cons, beq_iff_eq]
    split_ifs <;> omega

variable {fs K R : List (List ℤ)} {H : List (ℤ × ℤ)} {n : ℤ}

theorem count_split (hp : fs.Perm (K ++ R)) (e : ℤ × ℤ) :
    (meshEdges fs).count e = (meshEdges K).count e + (meshEdges R).count e := by
  rw [(meshEdges_perm hp).count_eq, meshEdges_append, List.count_append]

theorem closed_count (hc : ClosedMesh fs) (a b : ℤ) : (meshEdges fs).count (a, b) = (meshEdges fs).count (b, a) := by
  by_cases h : (a, b) ∈ meshEdges fs
  · rw [List.count_eq_one_of_mem hc.1 h, List.count_eq_one_of_mem hc.1 (hc.2 _ _ h)]
  · have h' : (b, a) ∉ meshEdges fs := fun h' => h (hc.2 _ _ h')
    rw [List.count_eq_zero_of_not_mem h, List.count_eq_zero_of_not_mem h']

/-- The counts of the edges that are no spokes of the fan. -/
theorem rim_count (hc : ClosedMesh fs) (hp : fs.Perm (K ++ R)) (hH : H.Nodup)
    (hm : ∀ e, e ∈ H ↔ e ∈ meshEdges R ∧ e.swap ∉ meshEdges R) (a b : ℤ) :
    (meshEdges K).count (a, b) + H.count (a, b) ≤ 1 ∧
    (meshEdges K).count (a, b) + H.count (a, b) = (meshEdges K).count (b, a) + H.count (b, a) := by
  have h1 := count_split hp (a, b)
  have h2 := count_split hp (b, a)
  have h3 := closed_count hc a b
  have h4 : (meshEdges fs).count (a, b) ≤ 1 := List.nodup_iff_count_le_one.1 hc.1 _
  have key : ∀ x y : ℤ, H.count (x, y) = if (y, x) ∈ meshEdges R then 0 else (meshEdges R).count (x, y) := by
    intro x y
    split_ifs with h
    · exact List.count_eq_zero_of_not_mem fun hx => ((hm _).1 hx).2 (by simpa using h)
    · by_cases hx : (x, y) ∈ meshEdges R
      · rw [List.count_eq_one_of_mem hH ((hm _).2 ⟨hx, by simpa using h⟩)]
        have := count_split hp (x, y)
        have h5 : (meshEdges fs).count (x, y) ≤ 1 := List.nodup_iff_count_le_one.1 hc.1 _
        have h6 : 1 ≤ (meshEdges R).count (x, y) := List.one_le_count_iff.2 hx
        omega
      · rw [List.count_eq_zero_of_not_mem hx, List.count_eq_zero_of_not_mem fun h' => hx ((hm _).1 h').1]
  have k1 := key a b
  have k2 := key b a
  by_cases ha : (a, b) ∈ meshEdges R <;> by_cases hb : (b, a) ∈ meshEdges R
  · rw [if_pos hb] at k1; rw [if_pos ha] at k2
    have := List.one_le_count_iff.2 ha
    have := List.one_le_count_iff.2 hb
    omega
  · rw [if_neg hb] at k1; rw [if_pos ha] at k2
    have := List.count_eq_zero_of_not_mem hb
    omega
  · rw [if_pos hb] at k1; rw [if_neg ha] at k2
    have := List.count_eq_zero_of_not_mem ha
    omega
  · rw [if_neg hb] at k1; rw [if_neg ha] at k2
    omega

theorem nodup_removed (hc : ClosedMesh fs) (hp : fs.Perm (K ++ R)) : (meshEdges R).Nodup := by
  have := (meshEdges_perm hp).nodup_iff.1 hc.1
  rw [meshEdges_append] at this
  exact (List.nodup_append.1 this).2.1

theorem fan_noBoundary (hc : ClosedMesh fs) (hp : fs.Perm (K ++ R)) (hH : H.Nodup)
    (hm : ∀ e, e ∈ H ↔ e ∈ meshEdges R ∧ e.swap ∉ meshEdges R) : NoBoundary (K ++ fan n H) := by
  intro a b
  rw [meshEdges_append, List.count_append, List.count_append, count_fan, count_fan]
  have hio := unpaired_inout (nodup_removed hc hp) (meshEdges_inout R) hH hm
  rw [hio.count_eq, hio.count_eq]
  have := (rim_count hc hp hH hm a b).2
  split_ifs <;> omega

theorem fan_closed (hc : ClosedMesh fs) (hp : fs.Perm (K ++ R)) (hH : H.Nodup)
    (hm : ∀ e, e ∈ H ↔ e ∈ meshEdges R ∧ e.swap ∉ meshEdges R) (hn : ∀ f ∈ fs, n ∉ f)
    (hone : ∀ a b c, (a, b) ∈ H → (a, c) ∈ H → b = c) : ClosedMesh (K ++ fan n H) := by
  have hnb := fan_noBoundary (n := n) hc hp hH hm
  have hio := unpaired_inout (nodup_removed hc hp) (meshEdges_inout R) hH hm
  have hfst : (H.map Prod.fst).Nodup := by
    rw [List.Nodup, List.pairwise_map]
    refine List.Pairwise.imp_of_mem ?_ hH
    rintro ⟨a, b⟩ ⟨c, d⟩ h1 h2 hne h
    simp only at h
    subst h
    exact hne (by rw [hone _ _ _ h1 h2])
  have hmem : ∀ {x y}, (x, y) ∈ meshEdges fs → x ≠ n ∧ y ≠ n := by
    intro x y h
    obtain ⟨f, hf, -, he⟩ := mem_meshEdges.1 h
    obtain ⟨h1, h2⟩ := List.of_mem_zip he
    exact ⟨fun h => hn f hf (h ▸ h1), fun h => hn f hf (h ▸ (List.mem_rotate.1 h2))⟩
  have hK : ∀ {x y}, (x, y) ∈ meshEdges K → x ≠ n ∧ y ≠ n := fun h => hmem ((meshEdges_perm hp).mem_iff.2 (by
    rw [meshEdges_append]; exact List.mem_append_left _ h))
  have hHm : ∀ {x y}, (x, y) ∈ H → x ≠ n ∧ y ≠ n := fun h => hmem ((meshEdges_perm hp).mem_iff.2 (by
    rw [meshEdges_append]; exact List.mem_append_right _ ((hm _).1 h).1))
  have hnf : n ∉ H.map Prod.fst := by
    rw [List.mem_map]; rintro ⟨⟨x, y⟩, h, h'⟩
    simp only at h'
    exact (hHm h).1 h'
  constructor
  · rw [List.nodup_iff_count_le_one]
    rintro ⟨a, b⟩
    rw [meshEdges_append, List.count_append, count_fan, ← hio.count_eq]
    have h1 := (rim_count hc hp hH hm a b).1
    by_cases hb : b = n
    · subst hb
      rw [List.count_eq_zero_of_not_mem fun h => (hK h).2 rfl, List.count_eq_zero_of_not_mem fun h => (hHm h).2 rfl,
        if_pos rfl, List.count_eq_zero_of_not_mem hnf]
      have := List.nodup_iff_count_le_one.1 hfst a
      split_ifs <;> omega
    · rw [if_neg hb]
      by_cases ha : a = n
      · subst ha
        rw [List.count_eq_zero_of_not_mem fun h => (hK h).1 rfl, List.count_eq_zero_of_not_mem fun h => (hHm h).1 rfl, if_pos rfl]
        have := List.nodup_iff_count_le_one.1 hfst b
        omega
      · rw [if_neg ha]; omega
  · intro a b h
    rw [← List.one_le_count_iff] at h ⊢
    rw [← hnb a b]; exact h

end Mesh

/-! ### The loop of the code -/

section Scan

theorem mem_deletedFace (f : List ℤ) : ∀ (x : ℤ) (s : List (ℤ × ℤ)) (e : ℤ × ℤ),
    e ∈ deletedFace x f s ↔ e ∈ loopEdges x f ∨ e ∈ s := by
  induction f with
  | nil => intro x s e; simp [deletedFace]
  | cons y ys ih =>
    intro x s e
    rw [deletedFace, ih, mem_stdSetInsert pairLt_tri, loopEdges_cons, List.mem_cons]
    tauto

theorem pairwise_deletedFace (f : List ℤ) : ∀ (x : ℤ) (s : List (ℤ × ℤ)),
    s.Pairwise (fun a b => pairLt a b = true) → (deletedFace x f s).Pairwise (fun a b => pairLt a b = true) := by
  induction f with
  | nil => intro x s h; exact h
  | cons y ys ih => intro x s h; exact ih _ _ (pairwise_stdSetInsert pairLt_tri pairLt_trans _ _ h)

theorem mergeScan_spec (p : Polyhedron ℝ) (x : V3 ℝ) (S : List ℤ → Prop) [DecidablePred S] (fs : List (List ℤ))
    (h : ∀ f ∈ fs, 2 ≤ f.length ∧ ∃ pl, p.facePlane f = some pl ∧ (pl.signedDistance x ≤ 0 ↔ ¬ S f)) :
    ∀ (kept : List (List ℤ)) (s : List (ℤ × ℤ)), s.Pairwise (fun a b => pairLt a b = true) →
    ∃ t, mergeScan p x fs kept s = some (kept ++ fs.filter (fun f => decide (¬ S f)), t) ∧ t.Pairwise (fun a b => pairLt a b = true) ∧
      ∀ e, e ∈ t ↔ e ∈ meshEdges (fs.filter fun f => decide (S f)) ∨ e ∈ s := by
  induction fs with
  | nil => intro kept s hs; exact ⟨s, by simp [mergeScan], hs, by simp [meshEdges_nil]⟩
  | cons f fs ih =>
    intro kept s hs
    obtain ⟨h2, pl, hpl, hS⟩ := h f (by simp)
    have ih' := ih (fun g hg => h g (by simp [hg]))
    by_cases hf : S f
    · obtain ⟨v0, hv0⟩ : ∃ v0, f.getLast? = some v0 := by
        rcases f with _ | ⟨a, t⟩
        · simp at h2
        · exact ⟨_, List.getLast?_cons⟩
      obtain ⟨t, ht, hp, hm⟩ := ih' kept (deletedFace v0 f s) (pairwise_deletedFace f v0 s hs)
      refine ⟨t, ?_, hp, fun e => ?_⟩
      · rw [mergeScan, hpl]
        simp only [Option.bind_eq_bind, Option.bind_some, hv0]
        rw [if_neg (by rw [hS]; exact not_not_intro hf), ht]
        simp [hf]
      · rw [hm, mem_deletedFace, (loopEdges_perm hv0).mem_iff, List.filter_cons, if_pos (by simpa using hf), meshEdges_cons, if_pos h2,
          List.mem_append]
        tauto
    · obtain ⟨t, ht, hp, hm⟩ := ih' (kept ++ [f]) s hs
      refine ⟨t, ?_, hp, fun e => ?_⟩
      · rw [mergeScan, hpl]
        simp only [Option.bind_eq_bind, Option.bind_some]
        rw [if_pos (hS.2 hf), ht]
        simp [hf]
      · rw [hm, List.filter_cons, if_neg (by simpa using hf)]

end Scan

/-! ### The planes of the faces -/

section Planes

theorem signedDistance_setPoints (a b c x : V3 ℝ) :
    (Plane.setPoints a b c).signedDistance x = (1 / len (cross (b - a) (c - a))) * dot (cross (b - a) (c - a)) (x - a) := by
  show dot ((1 / len (cross (b - a) (c - a))) • cross (b - a) (c - a)) x - dot ((1 / len (cross (b - a) (c - a))) • cross (b - a) (c - a)) a = _
  generalize 1 / len (cross (b - a) (c - a)) = k
  generalize cross (b - a) (c - a) = n
  simp only [dot, smul_x, smul_y, smul_z, sub_x, sub_y, sub_z]
  ring

theorem len_pos_of {n : V3 ℝ} (h : n ≠ 0) : 0 < len n := by
  rcases (len_nonneg n).lt_or_eq with h1 | h1
  · exact h1
  · exact absurd (len_eq_zero.1 h1.symm) h

theorem vertex_corner {p : Polyhedron ℝ} {i : ℤ} (h0 : 0 ≤ i) (h1 : i < p.v.length) : p.vertex i = some (corner p.v i) := by
  obtain ⟨m, rfl⟩ := Int.eq_ofNat_of_zero_le h0
  have hm : m < p.v.length := by exact_mod_cast h1
  rw [vertex, if_pos h0]
  simp [corner, List.getElem?_eq_getElem hm, List.getD_eq_getElem?_getD]

/-- A valid nondegenerate face has a plane, and the sign of the distance from it is the side of the face. -/
theorem facePlane_spec {p : Polyhedron ℝ} {f : List ℤ} (hl : 3 ≤ f.length) (hr : ∀ i ∈ f, 0 ≤ i ∧ i < p.v.length)
    (hn : cornerNormal (f.map (corner p.v)) ≠ 0) (x : V3 ℝ) :
    ∃ pl, p.facePlane f = some pl ∧ (pl.signedDistance x ≤ 0 ↔ ¬ InFront x (f.map (corner p.v))) := by
  rcases f with _ | ⟨a, _ | ⟨b, _ | ⟨c, t⟩⟩⟩
  · simp at hl
  · simp at hl
  · simp at hl
  refine ⟨Plane.setPoints (corner p.v a) (corner p.v b) (corner p.v c), ?_, ?_⟩
  · have ha := hr a (by simp)
    have hb := hr b (by simp)
    have hc := hr c (by simp)
    simp only [facePlane, vertex_corner ha.1 ha.2, vertex_corner hb.1 hb.2, vertex_corner hc.1 hc.2, Option.bind_eq_bind,
      Option.bind_some]
  · rw [signedDistance_setPoints]
    simp only [List.map_cons, InFront, cornerNormal] at hn ⊢
    have hp := one_div_pos.2 (len_pos_of hn)
    rw [not_lt]
    constructor
    · intro h
      by_contra hx
      have := mul_pos hp (not_le.1 hx)
      linarith
    · intro h
      exact mul_nonpos_of_nonneg_of_nonpos hp.le h

end Planes

/-! ### Geometry of the silhouette -/

section Silhouette
variable {α : Type} [Field α] [LinearOrder α] [IsStrictOrderedRing α]

/-- The plane through a silhouette edge (direction `u`) and the point (direction `q`) has all points `Y` on one side. -/
theorem silhouette_plane {u q w nF nG : V3 α} {Y : Set (V3 α)} {c : α} (hFu : dot nF u = 0) (hGu : dot nG u = 0) (hFq : 0 < dot nF q)
    (hGq : dot nG q ≤ 0) (hc : 0 < c) (hw : cross u w = c • nF) (hwY : w ∈ Y) (hF : ∀ y ∈ Y, dot nF y ≤ 0) (hG : ∀ y ∈ Y, dot nG y ≤ 0)
    (hF0 : ∃ y ∈ Y, dot nF y < 0) (hG0 : ∃ y ∈ Y, dot nG y < 0) :
    dot (cross u q) w < 0 ∧ ∀ y ∈ Y, dot (cross u q) y ≤ 0 := by
  have e1 : dot (cross u q) w = - (c * dot nF q) := by
    have : dot (cross u q) w = - dot (cross u w) q := by simp only [dot, cross]; ring
    rw [this, hw]; simp only [dot, smul_x, smul_y, smul_z]; ring
  have h1 : dot (cross u q) w < 0 := by rw [e1]; have := mul_pos hc hFq; linarith
  refine ⟨h1, ?_⟩
  have hFw : dot nF w = 0 := by
    have h2 : dot (cross u w) w = 0 := by simp only [dot, cross]; ring
    rw [hw] at h2
    have h3 : dot (c • nF) w = c * dot nF w := by simp only [dot, smul_x, smul_y, smul_z]; ring
    rw [h3] at h2
    exact (mul_eq_zero.1 h2).resolve_left hc.ne'
  set N := cross u q with hN
  -- M = λ nF + μ nG is perpendicular to u and q
  have key : ∀ y, dot N N * (- dot nG q * dot nF y + dot nF q * dot nG y) =
      (- dot nG q * dot nF N + dot nF q * dot nG N) * dot N y := by
    intro y
    have hMu : - dot nG q * dot nF u + dot nF q * dot nG u = 0 := by rw [hFu, hGu]; ring
    rw [hN]
    simp only [dot, cross] at hMu ⊢
    linear_combination (-(((u.z * q.x - u.x * q.z) * q.z - (u.x * q.y - u.y * q.x) * q.y) * y.x +
      ((u.x * q.y - u.y * q.x) * q.x - (u.y * q.z - u.z * q.y) * q.z) * y.y +
      ((u.y * q.z - u.z * q.y) * q.y - (u.z * q.x - u.x * q.z) * q.x) * y.z)) * hMu
  set lam := - dot nG q with hlam
  set mu := dot nF q with hmu
  have hl : 0 ≤ lam := by linarith
  set D := lam * dot nF N + mu * dot nG N with hD
  have hNN : 0 < dot N N := by
    rcases (show 0 ≤ dot N N from by simp only [dot]; nlinarith [mul_self_nonneg N.x, mul_self_nonneg N.y, mul_self_nonneg N.z]).lt_or_eq with h | h
    · exact h
    · exfalso
      have hx : N.x = 0 := by
        simp only [dot] at h
        nlinarith [mul_self_nonneg N.x, mul_self_nonneg N.y, mul_self_nonneg N.z, mul_self_eq_zero.1 (le_antisymm (by nlinarith [mul_self_nonneg N.x, mul_self_nonneg N.y, mul_self_nonneg N.z] : N.x * N.x ≤ 0) (mul_self_nonneg _))]
      have hy : N.y = 0 := by
        simp only [dot] at h
        exact mul_self_eq_zero.1 (le_antisymm (by nlinarith [mul_self_nonneg N.x, mul_self_nonneg N.y, mul_self_nonneg N.z]) (mul_self_nonneg _))
      have hz : N.z = 0 := by
        simp only [dot] at h
        exact mul_self_eq_zero.1 (le_antisymm (by nlinarith [mul_self_nonneg N.x, mul_self_nonneg N.y, mul_self_nonneg N.z]) (mul_self_nonneg _))
      simp only [dot, hx, hy, hz, zero_mul, add_zero, lt_irrefl] at h1
  have hMy : ∀ y ∈ Y, lam * dot nF y + mu * dot nG y ≤ 0 := fun y hy => by
    have := mul_nonneg hl (neg_nonneg.2 (hF y hy))
    have := mul_nonneg hFq.le (neg_nonneg.2 (hG y hy))
    linarith
  have hD0 : 0 ≤ D := by
    have k := key w
    rw [hFw, mul_zero, zero_add] at k
    by_contra hneg
    have h2 : 0 < D * dot N w := mul_pos_of_neg_of_neg (not_le.1 hneg) h1
    have h3 : dot N N * (mu * dot nG w) ≤ 0 := mul_nonpos_of_nonneg_of_nonpos hNN.le (mul_nonpos_of_nonneg_of_nonpos hFq.le (hG w hwY))
    linarith
  have hDpos : 0 < D := by
    rcases hD0.lt_or_eq with h | h
    · exact h
    · exfalso
      have hz : ∀ y, lam * dot nF y + mu * dot nG y = 0 := by
        intro y
        have k := key y
        rw [← h, zero_mul] at k
        exact (mul_eq_zero.1 k).resolve_left hNN.ne'
      obtain ⟨y0, hy0, hn0⟩ := hF0
      obtain ⟨y1, hy1, hn1⟩ := hG0
      have a1 := hz y1
      have a2 := mul_neg_of_pos_of_neg hFq hn1
      have a3 := mul_nonneg hl (neg_nonneg.2 (hF y1 hy1))
      linarith
  intro y hy
  have k := key y
  by_contra hpos
  have h2 := mul_pos hDpos (not_le.1 hpos)
  have h3 := mul_nonpos_of_nonneg_of_nonpos hNN.le (hMy y hy)
  linarith

/-- Two silhouette edges that leave the same vertex point in the same direction. -/
theorem silhouette_unique {u1 u2 q w1 w2 n1 n2 : V3 α} (h1q : 0 < dot n1 q) (h2q : 0 < dot n2 q) (h11 : dot n1 u1 = 0) (h22 : dot n2 u2 = 0)
    (h12 : dot n1 u2 ≤ 0) (h21 : dot n2 u1 ≤ 0) (hw1 : dot (cross u1 q) w1 < 0) (hw2 : dot (cross u2 q) w2 < 0)
    (hw21 : dot (cross u2 q) w1 ≤ 0) (ha : dot (cross u1 q) u2 ≤ 0) (hb : dot (cross u2 q) u1 ≤ 0) : ∃ s : α, 0 < s ∧ u2 = s • u1 := by
  have hz : dot (cross u1 q) u2 = 0 := by
    have : dot (cross u2 q) u1 = - dot (cross u1 q) u2 := by simp only [dot, cross]; ring
    rw [this] at hb
    exact le_antisymm ha (by linarith)
  set N1 := cross u1 q with hN1
  set N2 := cross u2 q with hN2
  have hNN : 0 < dot N1 N1 := by
    rcases (show 0 ≤ dot N1 N1 from by simp only [dot]; nlinarith [mul_self_nonneg N1.x, mul_self_nonneg N1.y, mul_self_nonneg N1.z]).lt_or_eq with h | h
    · exact h
    · exfalso
      simp only [dot] at h
      have hx : N1.x = 0 := mul_self_eq_zero.1 (le_antisymm (by nlinarith [mul_self_nonneg N1.x, mul_self_nonneg N1.y, mul_self_nonneg N1.z]) (mul_self_nonneg _))
      have hy : N1.y = 0 := mul_self_eq_zero.1 (le_antisymm (by nlinarith [mul_self_nonneg N1.x, mul_self_nonneg N1.y, mul_self_nonneg N1.z]) (mul_self_nonneg _))
      have hz' : N1.z = 0 := mul_self_eq_zero.1 (le_antisymm (by nlinarith [mul_self_nonneg N1.x, mul_self_nonneg N1.y, mul_self_nonneg N1.z]) (mul_self_nonneg _))
      simp only [dot, hx, hy, hz', zero_mul, add_zero, lt_irrefl] at hw1
  -- |N1|² u2 = (N2·N1) u1 + T q
  set S := dot N2 N1 with hS
  set T := dot (cross u1 u2) N1 with hT
  have kx : dot N1 N1 * u2.x = S * u1.x + T * q.x := by
    rw [hS, hT, hN2, hN1]
    simp only [dot, cross] at hz hN1 ⊢
    rw [hN1] at hz
    simp only at hz
    linear_combination (u1.y * q.z - u1.z * q.y) * hz
  have ky : dot N1 N1 * u2.y = S * u1.y + T * q.y := by
    rw [hS, hT, hN2, hN1]
    simp only [dot, cross] at hz hN1 ⊢
    rw [hN1] at hz
    simp only at hz
    linear_combination (u1.z * q.x - u1.x * q.z) * hz
  have kz : dot N1 N1 * u2.z = S * u1.z + T * q.z := by
    rw [hS, hT, hN2, hN1]
    simp only [dot, cross] at hz hN1 ⊢
    rw [hN1] at hz
    simp only at hz
    linear_combination (u1.x * q.y - u1.y * q.x) * hz
  have hdot : ∀ n : V3 α, dot N1 N1 * dot n u2 = S * dot n u1 + T * dot n q := by
    intro n
    simp only [dot] at kx ky kz ⊢
    linear_combination n.x * kx + n.y * ky + n.z * kz
  have hcross : ∀ w : V3 α, dot N1 N1 * dot N2 w = S * dot N1 w := by
    intro w
    have e2 : dot N2 w = dot (cross q w) u2 := by rw [hN2]; simp only [dot, cross]; ring
    have e1 : dot N1 w = dot (cross q w) u1 := by rw [hN1]; simp only [dot, cross]; ring
    have e3 : dot (cross q w) q = 0 := by simp only [dot, cross]; ring
    rw [e2, e1, hdot, e3, mul_zero, add_zero]
  have hS0 : 0 < S := by
    have c1 := hcross w1
    have c2 := hcross w2
    by_contra hn
    rcases (not_lt.1 hn).lt_or_eq with h | h
    · have h3 : 0 < S * dot N1 w1 := mul_pos_of_neg_of_neg h hw1
      have h4 := mul_nonpos_of_nonneg_of_nonpos hNN.le hw21
      linarith
    · rw [h, zero_mul] at c2
      have := mul_neg_of_pos_of_neg hNN hw2
      linarith
  have hT0 : T = 0 := by
    have d1 := hdot n1
    rw [h11, mul_zero, zero_add] at d1
    have t1 : T ≤ 0 := by
      by_contra hp
      have := mul_pos (not_le.1 hp) h1q
      have := mul_nonpos_of_nonneg_of_nonpos hNN.le h12
      linarith
    have d2 := hdot n2
    rw [h22, mul_zero] at d2
    by_contra hne
    have t2 : T < 0 := lt_of_le_of_ne t1 hne
    have := mul_neg_of_neg_of_pos t2 h2q
    have := mul_nonpos_of_nonneg_of_nonpos hS0.le h21
    linarith
  refine ⟨S / dot N1 N1, div_pos hS0 hNN, ?_⟩
  rw [hT0] at kx ky kz
  have := hNN.ne'
  ext
  · rw [smul_x]; field_simp; linear_combination kx
  · rw [smul_y]; field_simp; linear_combination ky
  · rw [smul_z]; field_simp; linear_combination kz

end Silhouette

end Polyhedron
end MGL
