import Verif.Proofs.ConvexSurface

/-! On a convex surface a vertex that is not beaten by its neighbours in a direction is not beaten by any vertex. -/

set_option linter.unusedSectionVars false

namespace MGL
open V3 Spec
namespace Polyhedron

variable {α : Type} [Field α] [LinearOrder α] [IsStrictOrderedRing α]

/-- What the edges at the vertex `v` contribute. -/
def linkTerm (v : ℤ) (m : ℤ → α) (e : ℤ × ℤ) : α := (if e.2 = v then m e.1 else 0) - (if e.1 = v then m e.2 else 0)

theorem linkTerm_swap (v : ℤ) (m : ℤ → α) (e : ℤ × ℤ) : linkTerm v m e.swap = -linkTerm v m e := by
  simp only [linkTerm, Prod.fst_swap, Prod.snd_swap]; ring

theorem linkTerm_zero {v : ℤ} {m : ℤ → α} {l : List (ℤ × ℤ)} (h : ∀ e ∈ l, e.1 ≠ v ∧ e.2 ≠ v) : (l.map (linkTerm v m)).sum = 0 := by
  induction l with
  | nil => rfl
  | cons e l ih =>
    rw [List.map_cons, List.sum_cons, ih fun e he => h e (by simp [he])]
    have := h e (by simp)
    simp [linkTerm, this.1, this.2]

theorem faceEdges_rotate_perm (f : List ℤ) (k : ℕ) : (faceEdges (f.rotate k)).Perm (faceEdges f) := by
  have : faceEdges (f.rotate k) = (faceEdges f).rotate k := by
    rw [faceEdges, faceEdges, List.rotate_rotate, Nat.add_comm, ← List.rotate_rotate]
    exact (List.zipWith_rotate_distrib Prod.mk f (f.rotate 1) k (by simp)).symm
  rw [this]
  exact List.rotate_perm _ _

/-- The edges of a face at one of its corners. -/
theorem face_link {f : List ℤ} (hn : f.Nodup) (hl : 3 ≤ f.length) {v : ℤ} (hv : v ∈ f) (m : ℤ → α) :
    ∃ b c, (v, b) ∈ faceEdges f ∧ (c, v) ∈ faceEdges f ∧ b ≠ c ∧ ((faceEdges f).map (linkTerm v m)).sum = m c - m b := by
  obtain ⟨k, hk, rfl⟩ := List.mem_iff_getElem.1 hv
  set v := f[k] with hvdef
  obtain ⟨t, ht⟩ : ∃ t, f.rotate k = v :: t := by
    rw [List.rotate_eq_drop_append_take (le_of_lt hk), List.drop_eq_getElem_cons hk]
    exact ⟨_, rfl⟩
  have hperm := faceEdges_rotate_perm f k
  have hnd : (v :: t).Nodup := by rw [← ht]; exact List.nodup_rotate.2 hn
  have hlen : (v :: t).length = f.length := by rw [← ht]; exact List.length_rotate _ _
  rw [ht] at hperm
  rcases t with _ | ⟨b, t'⟩
  · simp at hlen; omega
  have ht' : t' ≠ [] := by
    rintro rfl
    simp at hlen; omega
  obtain ⟨c, hc⟩ : ∃ c, (v :: b :: t').getLast? = some c := ⟨_, List.getLast?_cons⟩
  have hct : c ∈ t' := by
    rw [List.getLast?_cons_cons, ] at hc
    rcases t' with _ | ⟨x, t''⟩
    · exact absurd rfl ht'
    · rw [List.getLast?_cons_cons] at hc
      exact List.mem_of_getLast? hc
  have hle := (loopEdges_perm hc).trans hperm
  rw [loopEdges_cons, loopEdges_cons] at hle
  rw [List.nodup_cons, List.nodup_cons, List.mem_cons, not_or] at hnd
  obtain ⟨⟨hvb, hvt⟩, hbt, -⟩ := hnd
  refine ⟨b, c, hle.mem_iff.1 (by simp), hle.mem_iff.1 (by simp), fun h => hbt (h ▸ hct), ?_⟩
  rw [← (hle.map (linkTerm v m)).sum_eq]
  simp only [List.map_cons, List.sum_cons]
  rw [linkTerm_zero (l := loopEdges b t') ?_]
  · have h1 : c ≠ v := fun h => hvt (h ▸ hct)
    have h2 : b ≠ v := fun h => hvb h.symm
    simp [linkTerm, h1, h2]; ring
  · rintro ⟨x, y⟩ he
    obtain ⟨h1, h2⟩ := List.of_mem_zip he
    rw [List.mem_cons] at h1
    refine ⟨?_, fun h => hvt (by rw [← h]; exact h2)⟩
    rintro rfl
    rcases h1 with h1 | h1
    · exact hvb h1
    · exact hvt h1

theorem exists_eps {a b c d : α} (ha : 0 < a) (hc : 0 < c) : ∃ ε : α, 0 < ε ∧ 0 < a + ε * b ∧ 0 < c + ε * d := by
  refine ⟨min (a / (1 + |b|)) (c / (1 + |d|)), ?_, ?_, ?_⟩
  · exact lt_min (by positivity) (by positivity)
  · have h1 : min (a / (1 + |b|)) (c / (1 + |d|)) ≤ a / (1 + |b|) := min_le_left _ _
    have h0 : 0 < min (a / (1 + |b|)) (c / (1 + |d|)) := lt_min (by positivity) (by positivity)
    have h2 : a / (1 + |b|) * |b| < a := by
      rw [div_mul_eq_mul_div, div_lt_iff₀ (by positivity)]
      nlinarith [abs_nonneg b]
    have h3 := mul_le_mul_of_nonneg_right h1 (abs_nonneg b)
    have h4 : -(min (a / (1 + |b|)) (c / (1 + |d|)) * |b|) ≤ min (a / (1 + |b|)) (c / (1 + |d|)) * b := by
      have := mul_le_mul_of_nonneg_left (neg_abs_le b) h0.le
      linarith
    linarith
  · have h1 : min (a / (1 + |b|)) (c / (1 + |d|)) ≤ c / (1 + |d|) := min_le_right _ _
    have h0 : 0 < min (a / (1 + |b|)) (c / (1 + |d|)) := lt_min (by positivity) (by positivity)
    have h2 : c / (1 + |d|) * |d| < c := by
      rw [div_mul_eq_mul_div, div_lt_iff₀ (by positivity)]
      nlinarith [abs_nonneg d]
    have h3 := mul_le_mul_of_nonneg_right h1 (abs_nonneg d)
    have h4 : -(min (a / (1 + |b|)) (c / (1 + |d|)) * |d|) ≤ min (a / (1 + |b|)) (c / (1 + |d|)) * d := by
      have := mul_le_mul_of_nonneg_left (neg_abs_le d) h0.le
      linarith
    linarith

theorem list_sum_neg {l : List (List ℤ)} {g : List ℤ → α} (h : ∀ f ∈ l, g f ≤ 0) (h' : ∃ f ∈ l, g f < 0) : (l.map g).sum < 0 := by
  induction l with
  | nil => simp at h'
  | cons e l ih =>
    have hn : (l.map g).sum ≤ 0 := by
      clear ih h'
      induction l with
      | nil => simp
      | cons a l ih =>
        have h1 := h a (by simp)
        have h2 := ih fun f hf => h f (by
          rw [List.mem_cons] at hf
          rcases hf with rfl | hf
          · simp
          · simp [hf])
        rw [List.map_cons, List.sum_cons]; linarith
    have h0 := h e (by simp)
    rw [List.map_cons, List.sum_cons]
    obtain ⟨d, hd, hd'⟩ := h'
    rw [List.mem_cons] at hd
    rcases hd with rfl | hd
    · linarith
    · have := ih (fun e he => h e (by simp [he])) ⟨d, hd, hd'⟩
      linarith

theorem dot_sub_smul (d g u : V3 α) (k : α) : dot (d - k • g) u = dot d u - k * dot g u := by
  simp only [dot, sub_x, sub_y, sub_z, smul_x, smul_y, smul_z]; ring

theorem local_max_global {V : List (V3 α)} {fs : List (List ℤ)} (hs : ConvexSurface V fs) {v : ℤ} (hv : ∃ f ∈ fs, v ∈ f)
    (hprop : ∃ g : V3 α, ∀ j : ℤ, 0 ≤ j → j < V.length → j ≠ v → 0 < dot g (corner V j - corner V v)) {d : V3 α}
    (hloc : ∀ b, (v, b) ∈ meshEdges fs → dot d (corner V b) ≤ dot d (corner V v)) : ∀ x ∈ V, dot d x ≤ dot d (corner V v) := by
  intro x hx
  by_contra hgt
  rw [not_le] at hgt
  obtain ⟨g, hg⟩ := hprop
  obtain ⟨f0, hf0, hvf0⟩ := hv
  have hdx : 0 < dot d (x - corner V v) := by
    have : dot d (x - corner V v) = dot d x - dot d (corner V v) := by simp only [dot, sub_x, sub_y, sub_z]; ring
    rw [this]; linarith
  have hgx : 0 < dot g (x - corner V v) := by
    obtain ⟨j, hj, hjx⟩ := List.mem_iff_getElem.1 hx
    have hc : corner V (j : ℤ) = x := by simp [corner, List.getD_eq_getElem?_getD, hj, hjx]
    have := hg j (by positivity) (by exact_mod_cast hj) (by
      rintro rfl
      rw [hc] at hdx
      simp [dot] at hdx)
    rwa [hc] at this
  -- the mean of the vertices lies strictly behind all faces
  set z := (1 / wtot (V.map fun x => ((1 : α), x))) • wsum (V.map fun x => ((1 : α), x)) with hz
  have hface : ∀ f ∈ fs, v ∈ f → ∃ n : V3 α, n = cornerNormal (f.map (corner V)) ∧ (∀ y ∈ V, dot n (y - corner V v) ≤ 0) ∧
      (∀ i ∈ f, dot n (corner V i - corner V v) = 0) ∧ dot n (z - corner V v) < 0 ∧ n ≠ 0 := by
    intro f hf hvf
    obtain ⟨A, B, C, r, e, hn, hP, hpl⟩ := hs.outward f hf
    have hN : cornerNormal (f.map (corner V)) = cross (B - A) (C - A) := by rw [e]; rfl
    have hb : ∀ y, dot (cross (B - A) (C - A)) (y - corner V v) = dot (cross (B - A) (C - A)) (y - A) :=
      fun y => dot_sub_base (hpl _ (List.mem_map.2 ⟨v, hvf, rfl⟩))
    refine ⟨cross (B - A) (C - A), hN.symm, fun y hy => by rw [hb]; exact hP y hy,
      fun i hi => by rw [hb]; exact hpl _ (List.mem_map.2 ⟨i, hi, rfl⟩), ?_, hn⟩
    refine mean_behind _ _ (fun y hy => by rw [hb]; exact hP y hy) ?_
    obtain ⟨y, hy, a, ha, hneg⟩ := hs.solid f hf
    refine ⟨y, hy, ?_⟩
    rw [hN, dot_sub_base (hpl _ (List.mem_map.2 ⟨a, ha, rfl⟩))] at hneg
    rw [hb]; exact hneg
  obtain ⟨ε, he, he1, he2⟩ := exists_eps (b := dot d (z - corner V v)) (d := dot g (z - corner V v)) hdx hgx
  set w := (x - corner V v) + ε • (z - corner V v) with hw
  have hdot : ∀ n : V3 α, dot n w = dot n (x - corner V v) + ε * dot n (z - corner V v) := by
    intro n; rw [hw]; simp only [dot, add_x, add_y, add_z, smul_x, smul_y, smul_z]; ring
  rw [← hdot] at he1 he2
  set k := dot d w / dot g w with hk
  have hk0 : 0 < k := div_pos he1 he2
  set dt := d - k • g with hdt
  have hdtw : dot dt w = 0 := by
    rw [hdt, dot_sub_smul, hk]
    have := he2.ne'
    field_simp
    ring
  have hnb : ∀ b, (v, b) ∈ meshEdges fs → 0 < dot g (corner V b - corner V v) ∧ dot dt (corner V b - corner V v) < 0 := by
    intro b hb
    obtain ⟨f, hf, hl, hef⟩ := mem_meshEdges.1 hb
    have hr := mem_edge_range hs.valid hf hef
    have hne := faceEdges_ne (hs.valid f hf).2.1 hl hef
    have h1 := hg b hr.2.1 hr.2.2 (fun h => hne h.symm)
    refine ⟨h1, ?_⟩
    rw [hdt, dot_sub_smul]
    have h2 : dot d (corner V b - corner V v) ≤ 0 := by
      have := hloc b hb
      have e : dot d (corner V b - corner V v) = dot d (corner V b) - dot d (corner V v) := by simp only [dot, sub_x, sub_y, sub_z]; ring
      rw [e]; linarith
    have := mul_pos hk0 h1
    linarith
  set m : ℤ → α := fun i => dot (cross w dt) (corner V i - corner V v) / dot dt (corner V i - corner V v) with hm
  -- the contribution of one face
  have hterm : ∀ f ∈ fs, v ∈ f → ((faceEdges f).map (linkTerm v m)).sum < 0 := by
    intro f hf hvf
    obtain ⟨b, c, hb, hc, hbc, hsum⟩ := face_link (hs.valid f hf).2.1 (hs.valid f hf).1 hvf m
    obtain ⟨n, hn, hnV, hnf, hnz, hn0⟩ := hface f hf hvf
    have hl : 2 ≤ f.length := by have := (hs.valid f hf).1; omega
    have mb : (v, b) ∈ meshEdges fs := mem_meshEdges.2 ⟨f, hf, hl, hb⟩
    have mc : (v, c) ∈ meshEdges fs := hs.closed.2 _ _ (mem_meshEdges.2 ⟨f, hf, hl, hc⟩)
    obtain ⟨gb, tb⟩ := hnb b mb
    obtain ⟨gc, tc⟩ := hnb c mc
    have hbf : b ∈ f := by have := (List.of_mem_zip hb).2; rwa [List.mem_rotate] at this
    have hcf : c ∈ f := (List.of_mem_zip hc).1
    set ub := corner V b - corner V v with hub
    set uc := corner V c - corner V v with huc
    have hcr := cross_parallel (n := n) (u := ub) (w := uc) (hnf b hbf) (hnf c hcf) (dot_self_pos hn0)
    have hk1 : 0 ≤ dot n (cross ub uc) := by
      rw [hn]
      exact (hs.turning f hf (corner V v, corner V b) (by
        rw [zip_rotate_map]; exact List.mem_map.2 ⟨(v, b), hb, rfl⟩)).1 _ (List.mem_map.2 ⟨c, hcf, rfl⟩)
    have hk2 : 0 < dot n (cross ub uc) := by
      rcases hk1.lt_or_eq with h | h
      · exact h
      · exfalso
        rw [← h, zero_div] at hcr
        have hz0 : cross ub uc = 0 := by rw [hcr]; ext <;> simp
        refine hs.directions v b c mb mc hbc (dot g uc / dot g ub) (div_pos gc gb) ?_
        have hx0 := congrArg V3.x hz0
        have hy0 := congrArg V3.y hz0
        have hz0' := congrArg V3.z hz0
        simp only [cross, zero_x, zero_y, zero_z] at hx0 hy0 hz0'
        show uc = (dot g uc / dot g ub) • ub
        have := gb.ne'
        ext
        · rw [smul_x]; field_simp; simp only [dot]; linear_combination g.z * hy0 - g.y * hz0'
        · rw [smul_y]; field_simp; simp only [dot]; linear_combination g.x * hz0' - g.z * hx0
        · rw [smul_z]; field_simp; simp only [dot]; linear_combination g.y * hx0 - g.x * hy0
    have hnw : dot n w < 0 := by
      rw [hdot]
      have := hnV x hx
      have := mul_neg_of_pos_of_neg he hnz
      linarith
    have hdt0 : 0 < dot dt dt := dot_self_pos fun h => by
      rw [h] at tb
      simp [dot] at tb
    rw [hsum]
    have hmm : m c - m b = dot dt dt * dot w (cross ub uc) / (dot dt ub * dot dt uc) := by
      simp only [hm]
      rw [← hub, ← huc, div_sub_div _ _ tc.ne tb.ne, mul_comm (dot dt uc) (dot dt ub)]
      congr 1
      have : dot (cross w dt) uc * dot dt ub - dot dt uc * dot (cross w dt) ub = dot dt dt * dot w (cross ub uc) - dot dt w * dot dt (cross ub uc) := by
        simp only [dot, cross]; ring
      rw [this, hdtw]; ring
    rw [hmm]
    refine div_neg_of_neg_of_pos (mul_neg_of_pos_of_neg hdt0 ?_) (mul_pos_of_neg_of_neg tb tc)
    rw [hcr]
    have : dot w ((dot n (cross ub uc) / dot n n) • n) = dot n (cross ub uc) / dot n n * dot n w := by
      simp only [dot, smul_x, smul_y, smul_z]; ring
    rw [this]
    exact mul_neg_of_pos_of_neg (div_pos hk2 (dot_self_pos hn0)) hnw
  have hzero := list_sum_swap hs.closed (linkTerm v m) (linkTerm_swap v m)
  rw [mesh_sum fs (fun f hf => by have := (hs.valid f hf).1; omega)] at hzero
  have hneg := list_sum_neg (l := fs) (g := fun f => ((faceEdges f).map (linkTerm v m)).sum) (fun f hf => by
    by_cases hvf : v ∈ f
    · exact (hterm f hf hvf).le
    · refine (linkTerm_zero ?_).le
      rintro ⟨a, b⟩ he
      obtain ⟨h1, h2⟩ := List.of_mem_zip he
      rw [List.mem_rotate] at h2
      exact ⟨fun h => hvf (h ▸ h1), fun h => hvf (h ▸ h2)⟩) ⟨f0, hf0, hterm f0 hf0 hvf0⟩
  linarith

end Polyhedron
end MGL
