import Verif.Proofs.Farkas
import Verif.Proofs.PolyhedronMergeGeo
import Verif.Spec.Convex3

/-! The region behind all faces of a convex surface is the convex hull of the vertices. -/

set_option linter.unusedSectionVars false

namespace MGL
open V3 Spec
namespace Polyhedron

variable {α : Type} [Field α] [LinearOrder α] [IsStrictOrderedRing α]

/-! ### Points outside a hull can be separated from it -/

/-- The weighted sum of a list of points. -/
def wsum : List (α × V3 α) → V3 α
  | [] => 0
  | (l, x) :: r => l • x + wsum r

/-- The sum of the weights. -/
def wtot : List (α × V3 α) → α
  | [] => 0
  | (l, _) :: r => l + wtot r

theorem wtot_nonneg (L : List (α × V3 α)) (h : ∀ e ∈ L, 0 ≤ e.1) : 0 ≤ wtot L := by
  induction L with
  | nil => exact le_rfl
  | cons e L ih =>
    obtain ⟨l, x⟩ := e
    have h1 := h (l, x) (by simp)
    have h2 := ih fun e he => h e (by simp [he])
    simp only [wtot] at *
    linarith

theorem wsum_zero (L : List (α × V3 α)) (h : ∀ e ∈ L, 0 ≤ e.1) (h0 : wtot L = 0) : wsum L = 0 := by
  induction L with
  | nil => rfl
  | cons e L ih =>
    obtain ⟨l, x⟩ := e
    have h1 : 0 ≤ l := h (l, x) (by simp)
    have h2 := wtot_nonneg L fun e he => h e (by simp [he])
    simp only [wtot] at h0
    have hl : l = 0 := by linarith
    have ht : wtot L = 0 := by linarith
    rw [wsum, ih (fun e he => h e (by simp [he])) ht, hl]
    ext <;> simp

theorem wsum_mem {K : Set (V3 α)} (hK : Convex3 K) (L : List (α × V3 α)) (h : ∀ e ∈ L, 0 ≤ e.1 ∧ e.2 ∈ K) (h0 : 0 < wtot L) :
    (1 / wtot L) • wsum L ∈ K := by
  induction L with
  | nil => simp [wtot] at h0
  | cons e L ih =>
    obtain ⟨l, x⟩ := e
    obtain ⟨h1, hx⟩ : 0 ≤ l ∧ x ∈ K := h (l, x) (by simp)
    have hL : ∀ e ∈ L, 0 ≤ e.1 := fun e he => (h e (by simp [he])).1
    have h2 := wtot_nonneg L hL
    simp only [wtot] at h0 ⊢
    rcases h2.lt_or_eq with h3 | h3
    · have h4 := ih (fun e he => h e (by simp [he])) h3
      have := hK x hx _ h4 (l / (l + wtot L)) (wtot L / (l + wtot L)) (by positivity) (by positivity) (by field_simp)
      convert this using 1
      rw [wsum]
      have e1 := h3.ne'
      have e2 := h0.ne'
      ext <;> simp only [smul_x, smul_y, smul_z, add_x, add_y, add_z] <;> field_simp
    · have hs := wsum_zero L hL h3.symm
      rw [wsum, hs, ← h3, add_zero]
      rw [← h3, add_zero] at h0
      have : (1 / l) • (l • x + 0) = x := by
        have := h0.ne'
        ext <;> simp only [smul_x, smul_y, smul_z, add_x, add_y, add_z, zero_x, zero_y, zero_z, add_zero] <;> field_simp
      rw [this]; exact hx

open Classical in
/-- A point that is not in the hull of a list of points has a direction in which all the points lie. -/
theorem separate {V : List (V3 α)} {y : V3 α} (hy : y ∉ hull3 V) : ∃ d : V3 α, ∀ v ∈ V, 1 ≤ dot d (v - y) := by
  let c : Fin V.length → (Fin 3 → α) × α := fun i => (![-(V[i].x - y.x), -(V[i].y - y.y), -(V[i].z - y.z)], -1)
  rcases Farkas.farkas (Finset.univ.image c) with ⟨x, hx⟩ | ⟨b, hb, hc⟩
  · refine ⟨⟨x 0, x 1, x 2⟩, fun v hv => ?_⟩
    obtain ⟨i, hi, rfl⟩ := List.mem_iff_getElem.1 hv
    have := hx (c ⟨i, hi⟩) (Finset.mem_image_of_mem _ (Finset.mem_univ _))
    simp only [Farkas.Sat, c, Fin.sum_univ_three, Matrix.cons_val_zero, Matrix.cons_val_one, Matrix.cons_val, Fin.getElem_fin] at this
    simp only [dot, sub_x, sub_y, sub_z]
    linarith
  · exfalso
    obtain ⟨l, hl, hs⟩ := Farkas.cone_coeff c _ hc
    have hs1 := congrArg Prod.fst hs
    have hs2 := congrArg Prod.snd hs
    simp only [Prod.fst_sum, Prod.snd_sum, Prod.smul_fst, Prod.smul_snd, smul_eq_mul, c] at hs1 hs2
    have h0 := congrFun hs1 0
    have h1 := congrFun hs1 1
    have h2 := congrFun hs1 2
    simp only [Finset.sum_apply, Pi.smul_apply, smul_eq_mul, Matrix.cons_val_zero, Matrix.cons_val_one, Matrix.cons_val, Pi.zero_apply,
      Fin.getElem_fin] at h0 h1 h2
    -- the list of weights
    let L : List (α × V3 α) := List.ofFn fun i : Fin V.length => (l i, V[i])
    have gen : ∀ (n : ℕ) (g : Fin n → α × V3 α), wtot (List.ofFn g) = ∑ i, (g i).1 ∧ (wsum (List.ofFn g)).x = ∑ i, (g i).1 * (g i).2.x ∧
        (wsum (List.ofFn g)).y = ∑ i, (g i).1 * (g i).2.y ∧ (wsum (List.ofFn g)).z = ∑ i, (g i).1 * (g i).2.z := by
      intro n
      induction n with
      | zero => intro g; simp [wtot, wsum]
      | succ n ih =>
        intro g
        obtain ⟨a1, a2, a3, a4⟩ := ih fun i => g i.succ
        rw [List.ofFn_succ]
        simp only [Fin.sum_univ_succ]
        refine ⟨?_, ?_, ?_, ?_⟩
        · rw [← a1]; rfl
        · rw [← a2]; rfl
        · rw [← a3]; rfl
        · rw [← a4]; rfl
    obtain ⟨t1, tx, ty, tz⟩ := gen _ fun i : Fin V.length => (l i, V[i])
    simp only [Fin.getElem_fin] at t1 tx ty tz
    have hW : wtot L = -b := by
      show wtot (List.ofFn _) = _
      rw [show wtot (List.ofFn fun i : Fin V.length => (l i, V[i])) = ∑ i, l i from t1, ← hs2]
      simp
    have hWpos : 0 < wtot L := by rw [hW]; linarith
    apply hy
    intro K hK hV
    have hm := wsum_mem hK L (by
      intro e he
      rw [List.mem_ofFn] at he
      obtain ⟨i, rfl⟩ := he
      exact ⟨hl i, hV _ (List.getElem_mem _)⟩) hWpos
    have e0 : wsum L = wtot L • y := by
      have e : ∀ (f : Fin V.length → α) (k : α), ∑ i, l i * -(f i - k) = 0 → ∑ i, l i * f i = (∑ i, l i) * k := by
        intro f k h
        rw [Finset.sum_mul, ← sub_eq_zero, ← Finset.sum_sub_distrib, ← neg_eq_zero, ← Finset.sum_neg_distrib, ← h]
        exact Finset.sum_congr rfl fun i _ => by ring
      have et : wtot L = ∑ i, l i := t1
      ext
      · rw [smul_x, et]; exact tx.trans (e _ _ h0)
      · rw [smul_y, et]; exact ty.trans (e _ _ h1)
      · rw [smul_z, et]; exact tz.trans (e _ _ h2)
    rw [e0] at hm
    have : (1 / wtot L) • (wtot L • y) = y := by
      have := hWpos.ne'
      ext <;> simp only [smul_x, smul_y, smul_z] <;> field_simp
    rwa [this] at hm

/-! ### The areas of the faces as seen from a point -/

theorem list_sum_swap {fs : List (List ℤ)} (hc : ClosedMesh fs) (φ : ℤ × ℤ → α) (hφ : ∀ e, φ e.swap = -φ e) :
    ((meshEdges fs).map φ).sum = 0 := by
  have hp : ((meshEdges fs).map Prod.swap).Perm (meshEdges fs) := by
    rw [List.perm_ext_iff_of_nodup ((List.nodup_map_iff Prod.swap_injective).2 hc.1) hc.1]
    rintro ⟨a, b⟩
    rw [List.mem_map]
    constructor
    · rintro ⟨⟨c, d⟩, h, h'⟩
      simp only [Prod.swap_prod_mk, Prod.mk.injEq] at h'
      rw [← h'.1, ← h'.2]
      exact hc.2 _ _ h
    · intro h
      exact ⟨(b, a), hc.2 _ _ h, rfl⟩
  have h1 := (hp.map φ).sum_eq
  rw [List.map_map] at h1
  have h2 : ((meshEdges fs).map (φ ∘ Prod.swap)).sum = -((meshEdges fs).map φ).sum := by
    induction meshEdges fs with
    | nil => simp
    | cons e l ih => simp only [List.map_cons, List.sum_cons, Function.comp_apply, hφ, ih]; ring
  rw [h2] at h1
  linarith

theorem mesh_sum (fs : List (List ℤ)) (hl : ∀ f ∈ fs, 2 ≤ f.length) (φ : ℤ × ℤ → α) :
    ((meshEdges fs).map φ).sum = (fs.map fun f => ((faceEdges f).map φ).sum).sum := by
  induction fs with
  | nil => simp [meshEdges_nil]
  | cons f fs ih =>
    rw [meshEdges_cons, if_pos (hl f (by simp)), List.map_append, List.sum_append, ih fun g hg => hl g (by simp [hg])]
    simp

theorem face_sum_const (f : List ℤ) (ψ : ℤ → α) : ((faceEdges f).map fun e => ψ e.1 - ψ e.2).sum = 0 := by
  have h1 : ((faceEdges f).map fun e => ψ e.1 - ψ e.2).sum = (((faceEdges f).map Prod.fst).map ψ).sum - (((faceEdges f).map Prod.snd).map ψ).sum := by
    induction faceEdges f with
    | nil => simp
    | cons e l ih => simp only [List.map_cons, List.sum_cons, ih]; ring
  rw [h1, faceEdges_fst, ((faceEdges_snd f).map ψ).sum_eq, sub_self]

theorem sum_map_add (l : List (ℤ × ℤ)) (g h : ℤ × ℤ → α) : (l.map fun e => g e + h e).sum = (l.map g).sum + (l.map h).sum := by
  induction l with
  | nil => simp
  | cons e l ih => simp only [List.map_cons, List.sum_cons, ih]; ring

theorem sum_pos_of {l : List (ℤ × ℤ)} {g : ℤ × ℤ → α} (h : ∀ e ∈ l, 0 ≤ g e) (h' : ∃ e ∈ l, 0 < g e) : 0 < (l.map g).sum := by
  induction l with
  | nil => simp at h'
  | cons e l ih =>
    have hn : 0 ≤ (l.map g).sum := List.sum_nonneg (by
      intro x hx
      obtain ⟨e, he, rfl⟩ := List.mem_map.1 hx
      exact h e (by simp [he]))
    have h0 := h e (by simp)
    rw [List.map_cons, List.sum_cons]
    obtain ⟨d, hd, hd'⟩ := h'
    rw [List.mem_cons] at hd
    rcases hd with rfl | hd
    · linarith
    · have := ih (fun e he => h e (by simp [he])) ⟨d, hd, hd'⟩
      linarith

/-- The area form of the view from `y` in direction `d`. -/
def viewArea (V : List (V3 α)) (d y : V3 α) (e : ℤ × ℤ) : α :=
  dot d (cross (corner V e.1 - y) (corner V e.2 - y)) / (dot d (corner V e.1 - y) * dot d (corner V e.2 - y))

theorem viewArea_swap (V : List (V3 α)) (d y : V3 α) (e : ℤ × ℤ) : viewArea V d y e.swap = -viewArea V d y e := by
  unfold viewArea
  simp only [Prod.fst_swap, Prod.snd_swap]
  rw [mul_comm (dot d (corner V e.2 - y)), ← neg_div]
  congr 1
  simp only [dot, cross]; ring

/-- The view of a triangle. -/
theorem viewArea_triangle (d a b c : V3 α) (ha : dot d a ≠ 0) (hb : dot d b ≠ 0) (hc : dot d c ≠ 0) :
    dot d (cross a b) / (dot d a * dot d b) + dot d (cross b c) / (dot d b * dot d c) + dot d (cross c a) / (dot d c * dot d a) =
      dot d d * dot (cross (b - a) (c - a)) a / (dot d a * dot d b * dot d c) := by
  have key : dot d (cross a b) * dot d c + dot d (cross b c) * dot d a + dot d (cross c a) * dot d b = dot d d * dot (cross (b - a) (c - a)) a := by
    simp only [dot, cross, sub_x, sub_y, sub_z]; ring
  rw [← key]
  field_simp

/-- The area of a face as seen from a point strictly behind its plane is positive. -/
theorem face_view_pos {V : List (V3 α)} {fs : List (List ℤ)} (hs : ConvexSurface V fs) {f : List ℤ} (hf : f ∈ fs) {d y : V3 α}
    (hd : ∀ v ∈ V, 0 < dot d (v - y)) (hy : ∀ i ∈ f, dot (cornerNormal (f.map (corner V))) (y - corner V i) < 0) :
    0 < ((faceEdges f).map (viewArea V d y)).sum := by
  obtain ⟨A, B, C, r, e, hn, hP, hpl⟩ := hs.outward f hf
  obtain ⟨a, b, c, t, rfl⟩ : ∃ a b c t, f = a :: b :: c :: t := by
    have := (hs.valid f hf).1
    rcases f with _ | ⟨a, _ | ⟨b, _ | ⟨c, t⟩⟩⟩
    · simp at this
    · simp at this
    · simp at this
    · exact ⟨a, b, c, t, rfl⟩
  have hr := (hs.valid _ hf).2.2
  set f := a :: b :: c :: t with hfdef
  have hw : ∀ i ∈ f, 0 < dot d (corner V i - y) := fun i hi => hd _ (corner_mem (hr i hi).1 (hr i hi).2)
  have hd0 : 0 < dot d d := by
    refine dot_self_pos fun h0 => ?_
    have := hw a (by simp [hfdef])
    rw [h0] at this
    simp [dot] at this
  have hN : cornerNormal (f.map (corner V)) = cross (corner V b - corner V a) (corner V c - corner V a) := rfl
  have hNe : cornerNormal (f.map (corner V)) = cross (B - A) (C - A) := by rw [e]; rfl
  rw [← hNe] at hn hpl
  set n := cornerNormal (f.map (corner V)) with hndef
  have hplane : ∀ i ∈ f, dot n (corner V i - corner V a) = 0 := by
    intro i hi
    rw [dot_sub_base (hpl _ (List.mem_map.2 ⟨a, by simp [hfdef], rfl⟩))]
    exact hpl _ (List.mem_map.2 ⟨i, hi, rfl⟩)
  have hh : 0 < dot n (corner V a - y) := by
    have := hy a (by simp [hfdef])
    have e1 : dot n (corner V a - y) = - dot n (y - corner V a) := by simp only [dot, sub_x, sub_y, sub_z]; ring
    rw [e1]; linarith
  -- each edge with the first corner makes a triangle
  let g : ℤ × ℤ → α := fun e => viewArea V d y (a, e.1) + viewArea V d y e + viewArea V d y (e.2, a)
  have hsum : ((faceEdges f).map (viewArea V d y)).sum = ((faceEdges f).map g).sum := by
    have h1 : ((faceEdges f).map g).sum = ((faceEdges f).map fun e => viewArea V d y e +
        (viewArea V d y (a, e.1) - viewArea V d y (a, e.2))).sum := by
      congr 1
      refine List.map_congr_left fun e _ => ?_
      have := viewArea_swap V d y (a, e.2)
      simp only [Prod.swap_prod_mk] at this
      show _ + _ + _ = _
      rw [this]; ring
    rw [h1, sum_map_add, face_sum_const f fun i => viewArea V d y (a, i), add_zero]
  have hg : ∀ e ∈ faceEdges f, ∃ k : α, 0 < k ∧ g e = k * dot n (cross (corner V e.2 - corner V e.1) (corner V a - corner V e.1)) := by
    rintro ⟨i, j⟩ he
    obtain ⟨hi, hj⟩ := List.of_mem_zip he
    rw [List.mem_rotate] at hj
    have w1 := hw a (by simp [hfdef])
    have w2 := hw i hi
    have w3 := hw j hj
    have htri := viewArea_triangle d (corner V a - y) (corner V i - y) (corner V j - y) w1.ne' w2.ne' w3.ne'
    refine ⟨dot d d * dot n (corner V a - y) / (dot n n * (dot d (corner V a - y) * dot d (corner V i - y) * dot d (corner V j - y))), ?_, ?_⟩
    · have := dot_self_pos hn
      positivity
    · have hg' : g (i, j) = dot d d * dot (cross (corner V i - y - (corner V a - y)) (corner V j - y - (corner V a - y))) (corner V a - y) /
          (dot d (corner V a - y) * dot d (corner V i - y) * dot d (corner V j - y)) := htri
      have e1 : cross (corner V i - y - (corner V a - y)) (corner V j - y - (corner V a - y)) =
          cross (corner V j - corner V i) (corner V a - corner V i) := by
        ext <;> simp only [cross, sub_x, sub_y, sub_z] <;> ring
      have e2 := cross_parallel (n := n) (u := corner V j - corner V i) (w := corner V a - corner V i)
        (by rw [dot_sub_base (b := corner V a) (hplane i hi)]; exact hplane j hj)
        (by rw [dot_sub_base (b := corner V a) (hplane i hi)]; simp only [dot, sub_x, sub_y, sub_z]; ring) (dot_self_pos hn)
      rw [hg', e1]
      rw [show dot (cross (corner V j - corner V i) (corner V a - corner V i)) (corner V a - y) =
        dot n (cross (corner V j - corner V i) (corner V a - corner V i)) / dot n n * dot n (corner V a - y) by
          conv_lhs => rw [e2]
          simp only [dot, smul_x, smul_y, smul_z]; ring]
      have := (dot_self_pos hn).ne'
      field_simp
  have hleft : ∀ e ∈ faceEdges f, 0 ≤ dot n (cross (corner V e.2 - corner V e.1) (corner V a - corner V e.1)) := by
    intro e he
    exact (hs.turning f hf (corner V e.1, corner V e.2) (by
      rw [zip_rotate_map]; exact List.mem_map.2 ⟨e, he, rfl⟩)).1 _ (List.mem_map.2 ⟨a, by simp [hfdef], rfl⟩)
  rw [hsum]
  refine sum_pos_of (fun e he => ?_) ⟨(b, c), ?_, ?_⟩
  · obtain ⟨k, hk, h⟩ := hg e he
    rw [h]; exact mul_nonneg hk.le (hleft e he)
  · rw [hfdef, faceEdges, List.rotate_cons_succ, List.rotate_zero]
    simp
  · obtain ⟨k, hk, h⟩ := hg (b, c) (by rw [hfdef, faceEdges, List.rotate_cons_succ, List.rotate_zero]; simp)
    rw [h]
    refine mul_pos hk (lt_of_lt_of_eq (dot_self_pos hn) ?_)
    simp only [hN]
    simp only [dot, cross, sub_x, sub_y, sub_z]; ring

/-- The mean of a nonempty list lies strictly behind what all points lie behind and one strictly. -/
theorem mean_behind {V : List (V3 α)} (n a : V3 α) (h : ∀ x ∈ V, dot n (x - a) ≤ 0) (h' : ∃ x ∈ V, dot n (x - a) < 0) :
    dot n ((1 / wtot (V.map fun x => ((1 : α), x))) • wsum (V.map fun x => ((1 : α), x)) - a) < 0 := by
  have hpos : 0 < wtot (V.map fun x => ((1 : α), x)) := by
    obtain ⟨x, hx, -⟩ := h'
    rcases V with _ | ⟨v, V⟩
    · simp at hx
    · have := wtot_nonneg (V.map fun x => ((1 : α), x)) (by simp)
      simp only [List.map_cons, wtot]; linarith
  have hsum : ∀ V : List (V3 α), (∀ x ∈ V, dot n (x - a) ≤ 0) →
      dot n (wsum (V.map fun x => ((1 : α), x))) - wtot (V.map fun x => ((1 : α), x)) * dot n a ≤ 0 ∧
      ((∃ x ∈ V, dot n (x - a) < 0) → dot n (wsum (V.map fun x => ((1 : α), x))) - wtot (V.map fun x => ((1 : α), x)) * dot n a < 0) := by
    intro V
    induction V with
    | nil => intro _; simp [wsum, wtot, dot]
    | cons v V ih =>
      intro h
      obtain ⟨h1, h2⟩ := ih fun x hx => h x (by simp [hx])
      have hv := h v (by simp)
      have e : dot n (wsum ((v :: V).map fun x => ((1 : α), x))) - wtot ((v :: V).map fun x => ((1 : α), x)) * dot n a =
          dot n (v - a) + (dot n (wsum (V.map fun x => ((1 : α), x))) - wtot (V.map fun x => ((1 : α), x)) * dot n a) := by
        simp only [List.map_cons, wsum, wtot, dot, add_x, add_y, add_z, smul_x, smul_y, smul_z, sub_x, sub_y, sub_z]; ring
      rw [e]
      refine ⟨by linarith, ?_⟩
      rintro ⟨x, hx, hneg⟩
      rw [List.mem_cons] at hx
      rcases hx with rfl | hx
      · linarith
      · have := h2 ⟨x, hx, hneg⟩
        linarith
  have := (hsum V h).2 h'
  set W := wtot (V.map fun x => ((1 : α), x))
  set S := wsum (V.map fun x => ((1 : α), x))
  have e : dot n ((1 / W) • S - a) = (1 / W) * (dot n S - W * dot n a) := by
    have := hpos.ne'
    simp only [dot, sub_x, sub_y, sub_z, smul_x, smul_y, smul_z]
    field_simp
    ring
  rw [e]
  exact mul_neg_of_pos_of_neg (one_div_pos.2 hpos) this

/-- The region behind all faces of a convex surface with at least one face is the hull of the vertices. -/
theorem region_eq_hull {V : List (V3 α)} {fs : List (List ℤ)} (hs : ConvexSurface V fs) (h0 : fs ≠ []) (y : V3 α) :
    (∀ f ∈ fs, ¬ InFront y (f.map (corner V))) ↔ y ∈ hull3 V := by
  have hreg : ∀ f ∈ fs, ∀ z, ¬ InFront z (f.map (corner V)) ↔ ∀ i ∈ f, dot (cornerNormal (f.map (corner V))) (z - corner V i) ≤ 0 := by
    intro f hf z
    obtain ⟨A, B, C, r, e, hn, hP, hpl⟩ := hs.outward f hf
    have hN : cornerNormal (f.map (corner V)) = cross (B - A) (C - A) := by rw [e]; rfl
    have hI : ¬ InFront z (f.map (corner V)) ↔ dot (cross (B - A) (C - A)) (z - A) ≤ 0 := by rw [e]; exact not_lt
    rw [hI, hN]
    constructor
    · intro h i hi
      rw [dot_sub_base (hpl _ (List.mem_map.2 ⟨i, hi, rfl⟩))]; exact h
    · intro h
      have hl := (hs.valid f hf).1
      obtain ⟨i, hi⟩ : ∃ i, i ∈ f := by
        rcases f with _ | ⟨a, t⟩
        · simp at hl
        · exact ⟨a, by simp⟩
      have := h i hi
      rwa [dot_sub_base (hpl _ (List.mem_map.2 ⟨i, hi, rfl⟩))] at this
  constructor
  · intro hy
    by_contra hnot
    obtain ⟨d, hd⟩ := separate hnot
    -- the mean of the vertices
    set z := (1 / wtot (V.map fun x => ((1 : α), x))) • wsum (V.map fun x => ((1 : α), x)) with hz
    have hzb : ∀ f ∈ fs, ∀ i ∈ f, dot (cornerNormal (f.map (corner V))) (z - corner V i) < 0 := by
      intro f hf i hi
      refine mean_behind _ _ (fun x hx => (hreg f hf x).1 (not_inFront hs hx hf) i hi) ?_
      obtain ⟨x, hx, a, ha, hneg⟩ := hs.solid f hf
      refine ⟨x, hx, ?_⟩
      obtain ⟨A, B, C, r, e, hn, hP, hpl⟩ := hs.outward f hf
      have hN : cornerNormal (f.map (corner V)) = cross (B - A) (C - A) := by rw [e]; rfl
      rw [hN] at hneg ⊢
      rw [dot_sub_base (hpl _ (List.mem_map.2 ⟨i, hi, rfl⟩))]
      rwa [dot_sub_base (hpl _ (List.mem_map.2 ⟨a, ha, rfl⟩))] at hneg
    -- a point near y, strictly behind all faces
    obtain ⟨ε, he0, he1, hed⟩ : ∃ ε : α, 0 < ε ∧ ε ≤ 1 ∧ ε * dot d (z - y) < 1 := by
      rcases le_or_gt (dot d (z - y)) 0 with h | h
      · refine ⟨1, one_pos, le_rfl, by linarith⟩
      · refine ⟨1 / (1 + dot d (z - y)), by positivity, ?_, ?_⟩
        · rw [div_le_one (by linarith)]; linarith
        · rw [one_div, inv_mul_lt_iff₀ (by linarith)]; linarith
    set y' := y + ε • (z - y) with hy'
    have hdy : ∀ v ∈ V, 0 < dot d (v - y') := by
      intro v hv
      have e : dot d (v - y') = dot d (v - y) - ε * dot d (z - y) := by
        rw [hy']; simp only [dot, sub_x, sub_y, sub_z, add_x, add_y, add_z, smul_x, smul_y, smul_z]; ring
      have := hd v hv
      rw [e]; linarith
    have hyb : ∀ f ∈ fs, ∀ i ∈ f, dot (cornerNormal (f.map (corner V))) (y' - corner V i) < 0 := by
      intro f hf i hi
      have e : dot (cornerNormal (f.map (corner V))) (y' - corner V i) = (1 - ε) * dot (cornerNormal (f.map (corner V))) (y - corner V i) +
          ε * dot (cornerNormal (f.map (corner V))) (z - corner V i) := by
        rw [hy']; simp only [dot, sub_x, sub_y, sub_z, add_x, add_y, add_z, smul_x, smul_y, smul_z]; ring
      have h1 := mul_nonpos_of_nonneg_of_nonpos (sub_nonneg.2 he1) ((hreg f hf y).1 (hy f hf) i hi)
      have h2 := mul_neg_of_pos_of_neg he0 (hzb f hf i hi)
      rw [e]; linarith
    have hsum := list_sum_swap hs.closed (viewArea V d y') (viewArea_swap V d y')
    rw [mesh_sum fs (fun f hf => by have := (hs.valid f hf).1; omega)] at hsum
    have hpos : ∀ gs : List (List ℤ), gs ≠ [] → (∀ f ∈ gs, f ∈ fs) → 0 < (gs.map fun f => ((faceEdges f).map (viewArea V d y')).sum).sum := by
      intro gs
      induction gs with
      | nil => intro h _; exact absurd rfl h
      | cons f gs ih =>
        intro _ hg
        have hf := face_view_pos hs (hg f (by simp)) hdy (hyb f (hg f (by simp)))
        rcases gs with _ | ⟨g, gs⟩
        · simpa using hf
        · have := ih (by simp) fun f hf => hg f (by simp [hf])
          rw [List.map_cons, List.sum_cons]
          exact add_pos hf this
    have := hpos fs h0 fun f hf => hf
    linarith
  · intro hy f hf
    rw [hreg f hf]
    refine hy {z | ∀ i ∈ f, dot (cornerNormal (f.map (corner V))) (z - corner V i) ≤ 0} ?_ ?_
    · intro p hp q hq s t hs0 ht0 hst i hi
      have e : dot (cornerNormal (f.map (corner V))) (s • p + t • q - corner V i) = s * dot (cornerNormal (f.map (corner V))) (p - corner V i) +
          t * dot (cornerNormal (f.map (corner V))) (q - corner V i) := by
        have : s = 1 - t := by linarith
        rw [this]
        simp only [dot, sub_x, sub_y, sub_z, add_x, add_y, add_z, smul_x, smul_y, smul_z]; ring
      rw [e]
      have := mul_nonpos_of_nonneg_of_nonpos hs0 (hp i hi)
      have := mul_nonpos_of_nonneg_of_nonpos ht0 (hq i hi)
      linarith
    · intro v hv
      exact (hreg f hf v).1 (not_inFront hs hv hf)

theorem hull_le {V : List (V3 α)} (g : V3 α) {M : α} (h : ∀ v ∈ V, dot g v ≤ M) {y : V3 α} (hy : y ∈ hull3 V) : dot g y ≤ M := by
  refine hy {z | dot g z ≤ M} ?_ h
  intro p hp q hq s t hs ht hst
  have e : dot g (s • p + t • q) = s * dot g p + t * dot g q := by
    simp only [dot, add_x, add_y, add_z, smul_x, smul_y, smul_z]; ring
  show dot g (s • p + t • q) ≤ M
  rw [e]
  have h1 := mul_le_mul_of_nonneg_left (show dot g p ≤ M from hp) hs
  have h2 := mul_le_mul_of_nonneg_left (show dot g q ≤ M from hq) ht
  have h3 : s * M + t * M = M := by rw [← add_mul, hst, one_mul]
  linarith

theorem exists_bound (V : List (V3 α)) (g : V3 α) : ∃ M, ∀ v ∈ V, dot g v ≤ M := by
  induction V with
  | nil => exact ⟨0, by simp⟩
  | cons v V ih =>
    obtain ⟨M, hM⟩ := ih
    refine ⟨max M (dot g v), fun u hu => ?_⟩
    rw [List.mem_cons] at hu
    rcases hu with rfl | hu
    · exact le_max_right _ _
    · exact (hM u hu).trans (le_max_left _ _)

/-- No point sees all faces of a convex surface. -/
theorem exists_unseen {V : List (V3 α)} {fs : List (List ℤ)} (hs : ConvexSurface V fs) (h0 : fs ≠ []) (x : V3 α) :
    ∃ f ∈ fs, ¬ InFront x (f.map (corner V)) := by
  by_contra hall
  have hx : ∀ f ∈ fs, InFront x (f.map (corner V)) := fun f hf => by
    by_contra h
    exact hall ⟨f, hf, h⟩
  obtain ⟨f0, hf0⟩ := List.exists_mem_of_ne_nil _ h0
  obtain ⟨z, hz, -⟩ := hs.solid f0 hf0
  have hzb := not_inFront hs hz hf0
  have hne : z ≠ x := by
    rintro rfl
    exact hzb (hx f0 hf0)
  have hpos : 0 < dot (z - x) (z - x) := dot_self_pos fun h => hne (sub_eq_zero.1 h)
  obtain ⟨M, hM⟩ := exists_bound V (z - x)
  have hray : ∀ t : α, 0 ≤ t → z + t • (z - x) ∈ hull3 V := by
    intro t ht
    rw [← region_eq_hull hs h0]
    intro f hf hin
    obtain ⟨A, B, C, r, e, -, hP, -⟩ := hs.outward f hf
    have h1 := hx f hf
    rw [e] at hin h1
    have h1' : 0 < dot (cross (B - A) (C - A)) (x - A) := h1
    have h2' : 0 < dot (cross (B - A) (C - A)) (z + t • (z - x) - A) := hin
    have e2 : dot (cross (B - A) (C - A)) (z + t • (z - x) - A) = (1 + t) * dot (cross (B - A) (C - A)) (z - A) -
        t * dot (cross (B - A) (C - A)) (x - A) := by
      simp only [dot, sub_x, sub_y, sub_z, add_x, add_y, add_z, smul_x, smul_y, smul_z]; ring
    have h3 := mul_nonpos_of_nonneg_of_nonpos (by linarith : (0 : α) ≤ 1 + t) (hP z hz)
    have h4 := mul_nonneg ht h1'.le
    linarith
  have hMz := hM z hz
  have := hull_le (z - x) hM (hray ((M - dot (z - x) z + 1) / dot (z - x) (z - x)) (by
    apply div_nonneg _ hpos.le
    linarith))
  have e : dot (z - x) (z + ((M - dot (z - x) z + 1) / dot (z - x) (z - x)) • (z - x)) = dot (z - x) z + (M - dot (z - x) z + 1) := by
    generalize hk : (M - dot (z - x) z + 1) / dot (z - x) (z - x) = k
    have hk' : M - dot (z - x) z + 1 = k * dot (z - x) (z - x) := by rw [← hk]; field_simp
    rw [hk']
    simp only [dot, add_x, add_y, add_z, smul_x, smul_y, smul_z]; ring
  rw [e] at this
  linarith

theorem hull_mono {V W : List (V3 α)} (h : ∀ v ∈ V, v ∈ hull3 W) {y : V3 α} (hy : y ∈ hull3 V) : y ∈ hull3 W :=
  fun K hK hW => hy K hK fun v hv => h v hv K hK hW

theorem mem_hull {V : List (V3 α)} {v : V3 α} (h : v ∈ V) : v ∈ hull3 V := fun _ _ hV => hV v h

end Polyhedron
end MGL
