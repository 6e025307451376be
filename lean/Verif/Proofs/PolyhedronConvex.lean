import Verif.Model.PolyhedronConvex
import Verif.Proofs.ConvexLocalMax
import Verif.Proofs.Scalar
import Verif.Proofs.Dist

/-! Lemmas about the convex queries of polyhedra. -/

set_option linter.unusedSectionVars false

namespace MGL
open V3 Spec
namespace Polyhedron

/-! ### The planes of the faces -/

/-- A face with a plane: its unit normal and offset. -/
theorem facePlane_data {p : Polyhedron ℝ} {f : List ℤ} (hl : 3 ≤ f.length) (hr : ∀ i ∈ f, 0 ≤ i ∧ i < p.v.length)
    (hn : cornerNormal (f.map (corner p.v)) ≠ 0) :
    ∃ pl, p.facePlane f = some pl ∧ pl.normal = (1 / len (cornerNormal (f.map (corner p.v)))) • cornerNormal (f.map (corner p.v)) ∧
      dot pl.normal pl.normal = 1 ∧
      (∀ x, ¬ InFront x (f.map (corner p.v)) ↔ pl.signedDistance x ≤ 0) ∧
      ∀ a ∈ f.head?, ∀ x, pl.signedDistance x = 1 / len (cornerNormal (f.map (corner p.v))) * dot (cornerNormal (f.map (corner p.v))) (x - corner p.v a) := by
  rcases f with _ | ⟨a, _ | ⟨b, _ | ⟨c, t⟩⟩⟩
  · simp at hl
  · simp at hl
  · simp at hl
  have hpl : p.facePlane (a :: b :: c :: t) = some (Plane.setPoints (corner p.v a) (corner p.v b) (corner p.v c)) := by
    have ha := hr a (by simp)
    have hb := hr b (by simp)
    have hc := hr c (by simp)
    simp only [facePlane, vertex_corner ha.1 ha.2, vertex_corner hb.1 hb.2, vertex_corner hc.1 hc.2, Option.bind_eq_bind,
      Option.bind_some]
  refine ⟨_, hpl, rfl, ?_, fun x => ?_, fun y hy x => ?_⟩
  · show dot ((1 / len _) • _) ((1 / len _) • _) = 1
    simp only [List.map_cons, cornerNormal] at hn
    have h1 := len_pos_of hn
    have h2 : _ = dot _ _ := len_mul_self (cross (corner p.v b - corner p.v a) (corner p.v c - corner p.v a))
    rw [show ∀ (k : ℝ) (n : V3 ℝ), dot (k • n) (k • n) = k * k * dot n n from fun k n => by
      simp only [dot, smul_x, smul_y, smul_z]; ring, ← h2]
    field_simp
  · obtain ⟨pl, h1, h2⟩ := facePlane_spec hl hr hn x
    rw [hpl] at h1
    cases h1
    exact h2.symm
  · have : a = y := by simpa using hy
    subst this
    exact signedDistance_setPoints _ _ _ _

variable {p : Polyhedron ℝ}

theorem cornerNormal_ne_zero (hs : ConvexSurface p.v p.f) {f : List ℤ} (hf : f ∈ p.f) : cornerNormal (f.map (corner p.v)) ≠ 0 := by
  obtain ⟨A, B, C, r, e, hn, -, -⟩ := hs.outward f hf
  rw [e]; exact hn

theorem surface_plane (hs : ConvexSurface p.v p.f) {f : List ℤ} (hf : f ∈ p.f) :
    ∃ pl, p.facePlane f = some pl ∧ pl.normal = (1 / len (cornerNormal (f.map (corner p.v)))) • cornerNormal (f.map (corner p.v)) ∧
      dot pl.normal pl.normal = 1 ∧ ∀ x, ¬ InFront x (f.map (corner p.v)) ↔ pl.signedDistance x ≤ 0 := by
  obtain ⟨pl, h1, h2, h3, h4, -⟩ := facePlane_data (hs.valid f hf).1 (hs.valid f hf).2.2 (cornerNormal_ne_zero hs hf)
  exact ⟨pl, h1, h2, h3, h4⟩

/-! ### Contains -/

theorem containsLoop_spec (x : V3 ℝ) (ε : ℝ) (fs : List (List ℤ)) (h : ∀ f ∈ fs, ∃ pl, p.facePlane f = some pl) :
    ∃ b, p.containsLoop x ε fs = some b ∧ (b = true ↔ ∀ f ∈ fs, ∀ pl, p.facePlane f = some pl → pl.signedDistance x ≤ ε) := by
  induction fs with
  | nil => exact ⟨true, rfl, by simp⟩
  | cons f fs ih =>
    obtain ⟨pl, hpl⟩ := h f (by simp)
    obtain ⟨b, hb, hb'⟩ := ih fun g hg => h g (by simp [hg])
    rw [containsLoop, hpl]
    simp only [Option.bind_eq_bind, Option.bind_some]
    by_cases hd : pl.signedDistance x > ε
    · refine ⟨false, by rw [if_pos hd], ?_⟩
      simp only [Bool.false_eq_true, List.mem_cons, forall_eq_or_imp, false_iff, not_and]
      intro h1
      exact absurd (h1 pl hpl) (not_le.2 hd)
    · refine ⟨b, by rw [if_neg hd, hb], ?_⟩
      rw [hb']
      simp only [List.mem_cons, forall_eq_or_imp]
      refine ⟨fun h1 => ⟨fun pl' h2 => ?_, h1⟩, fun h1 => h1.2⟩
      rw [hpl] at h2
      cases h2
      exact not_lt.1 hd

theorem contains_spec (hs : ConvexSurface p.v p.f) (x : V3 ℝ) (ε : ℝ) :
    ∃ b, p.containsConvex x ε = some b ∧ (b = true ↔ ∀ f ∈ p.f, ∀ pl, p.facePlane f = some pl → pl.signedDistance x ≤ ε) :=
  containsLoop_spec x ε p.f fun f hf => by
    obtain ⟨pl, h, -⟩ := surface_plane hs hf
    exact ⟨pl, h⟩

theorem signedDistance_combo (pl : Plane ℝ) (x y : V3 ℝ) {s t : ℝ} (h : s + t = 1) :
    pl.signedDistance (s • x + t • y) = s * pl.signedDistance x + t * pl.signedDistance y := by
  have : s = 1 - t := by linarith
  subst this
  simp only [Plane.signedDistance, dot, add_x, add_y, add_z, smul_x, smul_y, smul_z]; ring

theorem unit_dot_le {n u : V3 ℝ} (hn : dot n n = 1) : dot n u ≤ len u := by
  have h1 : len n = 1 := by
    have : _ = dot n n := len_mul_self n
    rw [hn] at this
    nlinarith [len_nonneg n]
  have := dot_le_len n u
  rwa [h1, one_mul] at this

/-! ### Clipping -/

theorem clipLoop_spec (A dir : V3 ℝ) (fs : List (List ℤ)) : ∀ (t1 t2 : ℝ), t1 ≤ t2 →
    (∀ f ∈ fs, ∃ pl, p.facePlane f = some pl ∧ (dot pl.normal dir = 0 ∨ 1 / 100000 ≤ |dot pl.normal dir|)) →
    ∃ b u1 u2, p.clipLoop A dir fs t1 t2 = some (b, u1, u2) ∧
      (b = true → u1 ≤ u2 ∧ ∀ t, (u1 ≤ t ∧ t ≤ u2) ↔ (t1 ≤ t ∧ t ≤ t2) ∧
        ∀ f ∈ fs, ∀ pl, p.facePlane f = some pl → pl.signedDistance (A + t • dir) ≤ 0) ∧
      (b = false → ∀ t, t1 ≤ t → t ≤ t2 → ∃ f ∈ fs, ∃ pl, p.facePlane f = some pl ∧ 0 < pl.signedDistance (A + t • dir)) := by
  induction fs with
  | nil =>
    intro t1 t2 h12 _
    exact ⟨true, t1, t2, rfl, fun _ => ⟨h12, fun t => by simp⟩, by simp⟩
  | cons f fs ih =>
    intro t1 t2 h12 h
    obtain ⟨pl, hpl, hden⟩ := h f (by simp)
    have hsd : ∀ t, pl.signedDistance (A + t • dir) = t * dot pl.normal dir - (pl.d - dot pl.normal A) := by
      intro t
      simp only [Plane.signedDistance, dot, add_x, add_y, add_z, smul_x, smul_y, smul_z]; ring
    have hall : ∀ t, (∀ g ∈ f :: fs, ∀ pl, p.facePlane g = some pl → pl.signedDistance (A + t • dir) ≤ 0) ↔
        t * dot pl.normal dir ≤ pl.d - dot pl.normal A ∧ ∀ g ∈ fs, ∀ pl, p.facePlane g = some pl → pl.signedDistance (A + t • dir) ≤ 0 := by
      intro t
      simp only [List.mem_cons, forall_eq_or_imp]
      constructor
      · intro ⟨h1, h2⟩
        have := h1 pl hpl
        rw [hsd] at this
        exact ⟨by linarith, h2⟩
      · intro ⟨h1, h2⟩
        refine ⟨fun pl' h' => ?_, h2⟩
        rw [hpl] at h'
        cases h'
        rw [hsd]; linarith
    have hout : ∀ t, pl.d - dot pl.normal A < t * dot pl.normal dir → ∃ g ∈ f :: fs, ∃ pl, p.facePlane g = some pl ∧ 0 < pl.signedDistance (A + t • dir) := by
      intro t ht
      exact ⟨f, by simp, pl, hpl, by rw [hsd]; linarith⟩
    rw [clipLoop, hpl]
    simp only [Option.bind_eq_bind, Option.bind_some, absF_eq, max2_eq, min2_eq]
    set D := dot pl.normal dir with hD
    set E := pl.d - dot pl.normal A with hE
    have hrest := fun g hg => h g (List.mem_cons_of_mem f hg)
    by_cases h0 : D = 0
    · rw [if_pos (by rw [h0]; norm_num)]
      by_cases he : E < 0
      · rw [if_pos he]
        refine ⟨false, t1, t2, rfl, by simp, fun _ t _ _ => hout t ?_⟩
        rw [h0, mul_zero]; exact he
      · rw [if_neg he]
        obtain ⟨b, u1, u2, e, ht, hf⟩ := ih t1 t2 h12 hrest
        refine ⟨b, u1, u2, e, fun hb => ⟨(ht hb).1, fun t => ?_⟩, fun hb t h1 h2 => ?_⟩
        · rw [(ht hb).2 t, hall, h0, mul_zero]
          simp [not_lt.1 he]
        · obtain ⟨g, hg, q⟩ := hf hb t h1 h2
          exact ⟨g, by simp [hg], q⟩
    · have hbig : 1 / 100000 ≤ |D| := hden.resolve_left h0
      rw [if_neg (not_lt.2 hbig)]
      rcases lt_or_gt_of_ne h0 with hneg | hpos
      · simp only [if_pos hneg]
        have key : ∀ t, t * D ≤ E ↔ E / D ≤ t := fun t => by rw [div_le_iff_of_neg hneg]
        by_cases hc : max (E / D) t1 > t2
        · rw [if_pos hc]
          refine ⟨false, _, _, rfl, by simp, fun _ t ha hb => hout t ?_⟩
          by_contra hcon
          have := (key t).1 (not_lt.1 hcon)
          have h3 : max (E / D) t1 ≤ t := max_le this ha
          linarith
        · rw [if_neg hc]
          obtain ⟨b, u1, u2, e, ht, hf⟩ := ih _ t2 (not_lt.1 hc) hrest
          refine ⟨b, u1, u2, e, fun hb => ⟨(ht hb).1, fun t => ?_⟩, fun hb t h1 h2 => ?_⟩
          · rw [(ht hb).2 t, hall, key, max_le_iff]; tauto
          · by_cases hk : t * D ≤ E
            · obtain ⟨g, hg, q⟩ := hf hb t (max_le ((key t).1 hk) h1) h2
              exact ⟨g, by simp [hg], q⟩
            · exact hout t (not_le.1 hk)
      · simp only [if_neg (not_lt.2 hpos.le)]
        have key : ∀ t, t * D ≤ E ↔ t ≤ E / D := fun t => by rw [le_div_iff₀ hpos]
        by_cases hc : t1 > min (E / D) t2
        · rw [if_pos hc]
          refine ⟨false, _, _, rfl, by simp, fun _ t ha hb => hout t ?_⟩
          by_contra hcon
          have := (key t).1 (not_lt.1 hcon)
          have h3 : t ≤ min (E / D) t2 := le_min this hb
          linarith
        · rw [if_neg hc]
          obtain ⟨b, u1, u2, e, ht, hf⟩ := ih t1 _ (not_lt.1 hc) hrest
          refine ⟨b, u1, u2, e, fun hb => ⟨(ht hb).1, fun t => ?_⟩, fun hb t h1 h2 => ?_⟩
          · rw [(ht hb).2 t, hall, key, le_min_iff]; tauto
          · by_cases hk : t * D ≤ E
            · obtain ⟨g, hg, q⟩ := hf hb t h1 (le_min ((key t).1 hk) h2)
              exact ⟨g, by simp [hg], q⟩
            · exact hout t (not_le.1 hk)

/-! ### Extreme vertices -/

theorem extremeLoop_spec (d : V3 ℝ) (L : List (V3 ℝ)) : ∀ (i best : ℤ) (bestD : ℝ),
    (extremeLoop d L i best bestD = best ∧ ∀ x ∈ L, dot d x ≤ bestD) ∨
    ∃ k : ℕ, extremeLoop d L i best bestD = i + k ∧ ∃ y, L[k]? = some y ∧ bestD < dot d y ∧ ∀ x ∈ L, dot d x ≤ dot d y := by
  induction L with
  | nil => intro i best bestD; exact Or.inl ⟨rfl, by simp⟩
  | cons x L ih =>
    intro i best bestD
    rw [extremeLoop]
    by_cases hx : dot d x > bestD
    · simp only [if_pos hx]
      rcases ih (i + 1) i (dot d x) with ⟨h1, h2⟩ | ⟨k, h1, y, h2, h3, h4⟩
      · exact Or.inr ⟨0, by simpa using h1, x, by simp, hx, by simpa using h2⟩
      · refine Or.inr ⟨k + 1, by rw [h1]; push_cast; ring, y, by simpa using h2, hx.trans h3, ?_⟩
        simp only [List.mem_cons, forall_eq_or_imp]
        exact ⟨h3.le, h4⟩
    · simp only [if_neg hx]
      rcases ih (i + 1) best bestD with ⟨h1, h2⟩ | ⟨k, h1, y, h2, h3, h4⟩
      · refine Or.inl ⟨h1, ?_⟩
        simp only [List.mem_cons, forall_eq_or_imp]
        exact ⟨not_lt.1 hx, h2⟩
      · refine Or.inr ⟨k + 1, by rw [h1]; push_cast; ring, y, by simpa using h2, h3, ?_⟩
        simp only [List.mem_cons, forall_eq_or_imp]
        exact ⟨(not_lt.1 hx).trans h3.le, h4⟩

/-! ### Climbing -/

theorem neighbourLoop_spec (d : V3 ℝ) (vis : List ℕ) (color : ℕ) (curD : ℝ) (hvl : vis.length = p.v.length) (row : List ℤ)
    (hr : ∀ n ∈ row, 0 ≤ n ∧ n < p.v.length) : ∀ (second : ℤ) (sd : ℝ), (second = -1 ∨ 0 ≤ second ∧ second < p.v.length) →
    (∃ n ∈ row, neighbourLoop p d vis color curD row second sd = some (.inl n) ∧ vis[n.toNat]? ≠ some color ∧ curD < dot d (corner p.v n)) ∨
    ∃ s, neighbourLoop p d vis color curD row second sd = some (.inr s) ∧ (s = -1 ∨ 0 ≤ s ∧ s < p.v.length) ∧
      ∀ n ∈ row, vis[n.toNat]? = some color ∨ dot d (corner p.v n) ≤ curD := by
  induction row with
  | nil => intro second sd h2; exact Or.inr ⟨second, rfl, h2, by simp⟩
  | cons n row ih =>
    intro second sd h2
    have ih := ih fun n hn => hr n (by simp [hn])
    obtain ⟨hn0, hn1⟩ := hr n (by simp)
    have hnv : n.toNat < vis.length := by omega
    have fin : ∀ (s' : ℤ) (sd' : ℝ) (res : Option (ℤ ⊕ ℤ)), (s' = -1 ∨ 0 ≤ s' ∧ s' < p.v.length) →
        (vis[n.toNat]? = some color ∨ dot d (corner p.v n) ≤ curD) → res = neighbourLoop p d vis color curD row s' sd' →
        (∃ m ∈ n :: row, res = some (.inl m) ∧ vis[m.toNat]? ≠ some color ∧ curD < dot d (corner p.v m)) ∨
        ∃ s, res = some (.inr s) ∧ (s = -1 ∨ 0 ≤ s ∧ s < p.v.length) ∧
          ∀ m ∈ n :: row, vis[m.toNat]? = some color ∨ dot d (corner p.v m) ≤ curD := by
      rintro s' sd' res hs' hn' rfl
      rcases ih s' sd' hs' with ⟨m, hm, h⟩ | ⟨s, h1, h3, h4⟩
      · exact Or.inl ⟨m, by simp [hm], h⟩
      · refine Or.inr ⟨s, h1, h3, ?_⟩
        simp only [List.mem_cons, forall_eq_or_imp]
        exact ⟨hn', h4⟩
    rw [neighbourLoop, if_pos hn0, List.getElem?_eq_getElem hnv]
    simp only [Option.bind_eq_bind, Option.bind_some]
    by_cases hm : vis[n.toNat] = color
    · rw [if_neg (by simpa using hm)]
      exact fin second sd _ h2 (Or.inl (by rw [List.getElem?_eq_getElem hnv, hm])) rfl
    · rw [if_pos hm, vertex_corner hn0 hn1]
      simp only [Option.bind_some]
      by_cases hd : dot d (corner p.v n) > curD
      · rw [if_pos hd]
        refine Or.inl ⟨n, by simp, rfl, ?_, hd⟩
        rw [List.getElem?_eq_getElem hnv]
        simpa using hm
      · rw [if_neg hd]
        by_cases hd2 : dot d (corner p.v n) > sd
        · rw [if_pos hd2]
          exact fin n _ _ (Or.inr ⟨hn0, hn1⟩) (Or.inr (not_lt.1 hd)) rfl
        · rw [if_neg hd2]
          exact fin second sd _ h2 (Or.inr (not_lt.1 hd)) rfl

theorem count_set {l : List ℕ} {i : ℕ} {c : ℕ} (hi : i < l.length) (hne : l[i]? ≠ some c) : (l.set i c).count c = l.count c + 1 := by
  induction l generalizing i with
  | nil => simp at hi
  | cons a l ih =>
    rcases i with _ | i
    · have : a ≠ c := by simpa using hne
      simp [this]
    · simp only [List.set_cons_succ, List.count_cons]
      rw [ih (by simpa using hi) (by simpa using hne)]
      ring

/-- What `ExtremeVertexConvex` needs of the adjacency data. -/
structure AdjOK (p : Polyhedron ℝ) (adj : List (List ℤ)) : Prop where
  row : ∀ v : ℤ, 0 ≤ v → v < p.v.length → ∃ row, adj[v.toNat]? = some row ∧ row ≠ [] ∧ ∀ n ∈ row, 0 ≤ n ∧ n < p.v.length

theorem climb_total {adj : List (List ℤ)} (ha : AdjOK p adj) (d : V3 ℝ) (color : ℕ) : ∀ (fuel : ℕ) (vis : List ℕ) (start : ℤ),
    vis.length = p.v.length → 0 ≤ start → start < p.v.length → vis[start.toNat]? ≠ some color → p.v.length - vis.count color ≤ fuel →
    ∃ i vis', extremeVertexConvex p adj d color fuel vis start = some (i, dot d (corner p.v i), vis') ∧ 0 ≤ i ∧ i < p.v.length := by
  intro fuel
  induction fuel with
  | zero =>
    intro vis start hl h0 h1 hne hfuel
    exfalso
    have hs : start.toNat < vis.length := by omega
    have := List.count_le_length (l := vis.set start.toNat color) (a := color)
    rw [count_set hs hne, List.length_set] at this
    omega
  | succ fuel ih =>
    intro vis start hl h0 h1 hne hfuel
    have hs : start.toNat < vis.length := by omega
    obtain ⟨row, hrow, hrne, hr⟩ := ha.row start h0 h1
    have hl' : (vis.set start.toNat color).length = p.v.length := by rw [List.length_set, hl]
    have hcnt := count_set hs hne
    rw [extremeVertexConvex, vertex_corner h0 h1, hrow]
    simp only [Option.bind_eq_bind, Option.bind_some]
    rw [if_neg (by rw [not_or]; exact ⟨hrne, by omega⟩)]
    rcases neighbourLoop_spec d (vis.set start.toNat color) color (dot d (corner p.v start)) hl' row hr (-1) _ (Or.inl rfl) with
      ⟨n, hn, he, hnc, hlt⟩ | ⟨s, he, hsr, hall⟩
    · rw [he]
      simp only [Option.bind_some]
      exact ih _ n hl' (hr n hn).1 (hr n hn).2 hnc (by omega)
    · rw [he]
      simp only [Option.bind_some]
      by_cases hc : s ≠ -1 ∧ (vis.set start.toNat color)[s.toNat]? ≠ some color
      · rw [if_pos hc]
        obtain ⟨i, vis', e, hi0, hi1⟩ := ih _ s hl' (hsr.resolve_left hc.1).1 (hsr.resolve_left hc.1).2 hc.2 (by omega)
        rw [e]
        simp only [Option.bind_some]
        by_cases hgt : dot d (corner p.v i) > dot d (corner p.v start)
        · rw [if_pos hgt]; exact ⟨i, vis', rfl, hi0, hi1⟩
        · rw [if_neg hgt]; exact ⟨start, vis', rfl, h0, h1⟩
      · rw [if_neg hc]; exact ⟨start, _, rfl, h0, h1⟩

theorem climb_best {adj : List (List ℤ)} (ha : AdjOK p adj) (d : V3 ℝ) (color : ℕ)
    (hloc : ∀ v : ℤ, 0 ≤ v → v < p.v.length → (∀ row, adj[v.toNat]? = some row → ∀ n ∈ row, dot d (corner p.v n) ≤ dot d (corner p.v v)) →
      ∀ x ∈ p.v, dot d x ≤ dot d (corner p.v v)) : ∀ (fuel : ℕ) (vis : List ℕ) (start : ℤ),
    vis.length = p.v.length → 0 ≤ start → start < p.v.length → vis[start.toNat]? ≠ some color → p.v.length - vis.count color ≤ fuel →
    (∀ j : ℕ, vis[j]? = some color → dot d (corner p.v j) ≤ dot d (corner p.v start)) →
    ∃ i vis', extremeVertexConvex p adj d color fuel vis start = some (i, dot d (corner p.v i), vis') ∧ 0 ≤ i ∧ i < p.v.length ∧
      ∀ x ∈ p.v, dot d x ≤ dot d (corner p.v i) := by
  intro fuel
  induction fuel with
  | zero =>
    intro vis start hl h0 h1 hne hfuel _
    exfalso
    have hs : start.toNat < vis.length := by omega
    have := List.count_le_length (l := vis.set start.toNat color) (a := color)
    rw [count_set hs hne, List.length_set] at this
    omega
  | succ fuel ih =>
    intro vis start hl h0 h1 hne hfuel hinv
    have hs : start.toNat < vis.length := by omega
    obtain ⟨row, hrow, hrne, hr⟩ := ha.row start h0 h1
    have hl' : (vis.set start.toNat color).length = p.v.length := by rw [List.length_set, hl]
    have hcnt := count_set hs hne
    have hinv' : ∀ j : ℕ, (vis.set start.toNat color)[j]? = some color → dot d (corner p.v j) ≤ dot d (corner p.v start) := by
      intro j hj
      by_cases hjs : j = start.toNat
      · subst hjs
        rw [Int.toNat_of_nonneg h0]
      · rw [List.getElem?_set_ne (fun h => hjs h.symm)] at hj
        exact hinv j hj
    rw [extremeVertexConvex, vertex_corner h0 h1, hrow]
    simp only [Option.bind_eq_bind, Option.bind_some]
    rw [if_neg (by rw [not_or]; exact ⟨hrne, by omega⟩)]
    rcases neighbourLoop_spec d (vis.set start.toNat color) color (dot d (corner p.v start)) hl' row hr (-1)
      (dot d (corner p.v start) - 1 / 1000) (Or.inl rfl) with
      ⟨n, hn, he, hnc, hlt⟩ | ⟨s, he, hsr, hall⟩
    · rw [he]
      simp only [Option.bind_some]
      exact ih _ n hl' (hr n hn).1 (hr n hn).2 hnc (by omega) fun j hj => (hinv' j hj).trans hlt.le
    · rw [he]
      simp only [Option.bind_some]
      have hbest : ∀ x ∈ p.v, dot d x ≤ dot d (corner p.v start) := by
        refine hloc start h0 h1 fun row' hrow' n hn => ?_
        rw [hrow] at hrow'
        cases hrow'
        rcases hall n hn with h | h
        · have := hinv' n.toNat h
          rwa [Int.toNat_of_nonneg (hr n hn).1] at this
        · exact h
      by_cases hc : s ≠ -1 ∧ (vis.set start.toNat color)[s.toNat]? ≠ some color
      · rw [if_pos hc]
        obtain ⟨i, vis', e, hi0, hi1⟩ := climb_total ha d color fuel _ s hl' (hsr.resolve_left hc.1).1 (hsr.resolve_left hc.1).2 hc.2 (by omega)
        rw [e]
        simp only [Option.bind_some]
        have hi : corner p.v i ∈ p.v := by
          have : i.toNat < p.v.length := by omega
          rw [corner, List.getD_eq_getElem?_getD, List.getElem?_eq_getElem this]
          simp
        rw [if_neg (not_lt.2 (hbest _ hi))]
        exact ⟨start, vis', rfl, h0, h1, hbest⟩
      · rw [if_neg hc]; exact ⟨start, _, rfl, h0, h1, hbest⟩

/-! ### The mean of the vertices -/

theorem foldl_sum (L : List (V3 ℝ)) : ∀ c : V3 ℝ, L.foldl (fun c x => c + x) c = c + wsum (L.map fun x => ((1 : ℝ), x)) := by
  induction L with
  | nil => intro c; ext <;> simp [wsum]
  | cons x L ih =>
    intro c
    rw [List.foldl_cons, ih, List.map_cons, wsum]
    ext <;> simp only [add_x, add_y, add_z, smul_x, smul_y, smul_z] <;> ring

theorem wtot_length (L : List (V3 ℝ)) : wtot (L.map fun x => ((1 : ℝ), x)) = L.length := by
  induction L with
  | nil => simp [wtot]
  | cons x L ih => rw [List.map_cons, wtot, ih]; push_cast [List.length_cons]; ring

theorem approx_eq (p : Polyhedron ℝ) : p.approximateConvexCentroid =
    (1 / wtot (p.v.map fun x => ((1 : ℝ), x))) • wsum (p.v.map fun x => ((1 : ℝ), x)) := by
  rw [approximateConvexCentroid, foldl_sum, wtot_length]
  ext <;> simp

theorem orientCenter_eq (hv : p.v ≠ []) : p.orientCenter =
    some ((1 / wtot (p.v.map fun x => ((1 : ℝ), x))) • wsum (p.v.map fun x => ((1 : ℝ), x))) := by
  rw [orientCenter]
  split
  · contradiction
  · rename_i x xs e
    rw [foldl_sum, wtot_length, e, List.map_cons, wsum]
    congr 2
    ext <;> simp

theorem mapM_flip {fs : List (List ℤ)} {F : List ℤ → Option (List ℤ)} {g : List ℤ → List ℤ} (h : ∀ f ∈ fs, F f = some (g f)) :
    fs.mapM F = some (fs.map g) := by
  induction fs with
  | nil => rfl
  | cons f fs ih =>
    rw [List.mapM_cons, h f (by simp), ih fun f hf => h f (by simp [hf])]
    rfl

/-- Turning a convex plane face round negates its normal, up to a positive factor. -/
theorem cornerNormal_reverse {poly : List (V3 ℝ)} (hl : 3 ≤ poly.length) (hn : cornerNormal poly ≠ 0)
    (hpl : ∀ x ∈ poly, ∀ y ∈ poly, dot (cornerNormal poly) (x - y) = 0) (hturn : LeftTurning poly) (hrev : cornerNormal poly.reverse ≠ 0) :
    ∃ k : ℝ, 0 < k ∧ cornerNormal poly.reverse = -(k • cornerNormal poly) := by
  obtain ⟨t, x, y, z, rfl⟩ : ∃ t x y z, poly = t ++ [x, y, z] := by
    have e : poly.reverse.reverse = poly := List.reverse_reverse poly
    rcases hr : poly.reverse with _ | ⟨z, _ | ⟨y, _ | ⟨x, r⟩⟩⟩
    · have : poly.length = 0 := by rw [← List.length_reverse, hr]; rfl
      omega
    · have : poly.length = 1 := by rw [← List.length_reverse, hr]; rfl
      omega
    · have : poly.length = 2 := by rw [← List.length_reverse, hr]; rfl
      omega
    · refine ⟨r.reverse, x, y, z, ?_⟩
      rw [← e, hr]; simp
  have hR : cornerNormal (t ++ [x, y, z]).reverse = cross (y - z) (x - z) := by simp [cornerNormal]
  set n := cornerNormal (t ++ [x, y, z]) with hndef
  have h1 : dot n (y - x) = 0 := hpl y (by simp) x (by simp)
  have h2 : dot n (z - x) = 0 := hpl z (by simp) x (by simp)
  have hc := cross_parallel h1 h2 (dot_self_pos hn)
  have hneg : cross (y - z) (x - z) = -cross (y - x) (z - x) := by
    ext <;> simp only [cross, sub_x, sub_y, sub_z, neg_x, neg_y, neg_z] <;> ring
  rw [hR, hneg] at hrev ⊢
  have hxy : (x, y) ∈ (t ++ [x, y, z]).zip ((t ++ [x, y, z]).rotate 1) := by
    rcases t with _ | ⟨a, t⟩
    · simp
    · rw [List.cons_append, List.rotate_cons_succ, List.rotate_zero]
      rw [List.mem_iff_getElem]
      refine ⟨t.length + 1, by simp, ?_⟩
      simp [List.getElem_zip, List.getElem_append]
  have hle := (hturn _ hxy).1 z (by simp)
  change 0 ≤ dot n (cross (y - x) (z - x)) at hle
  have hpos : 0 < dot n (cross (y - x) (z - x)) := by
    rcases hle.lt_or_eq with h | h
    · exact h
    · exfalso
      rw [← h, zero_div] at hc
      apply hrev
      rw [hc]; ext <;> simp
  exact ⟨_, div_pos hpos (dot_self_pos hn), congrArg Neg.neg hc⟩

end Polyhedron
end MGL
