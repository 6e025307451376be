import Verif.Spec.RayMesh
import Verif.Model.TriangleMesh
import Verif.Props.TriangleLine

/-! C91: the nearest hit of a ray with a triangle mesh. -/

set_option linter.unusedSectionVars false

namespace MGL.TriangleMesh
open V3 Spec
variable {α : Type*} [Field α] [LinearOrder α] [IsStrictOrderedRing α]

/-- A best hit so far among the triangles with property `P`, where `H i` says what a hit of triangle `i` is. -/
def Best (H : ℕ → α → α → α → Prop) (P : ℕ → Prop) : Option (α × ℕ × α × α) → Prop
  | none => ∀ i, P i → ∀ t u v, ¬ H i t u v
  | some (t, i, u, v) => P i ∧ H i t u v ∧ ∀ i', P i' → ∀ t' u' v', H i' t' u' v' → t ≤ t'

theorem Best.congr {H : ℕ → α → α → α → Prop} {P Q : ℕ → Prop} (h : ∀ i, P i ↔ Q i) {b : Option (α × ℕ × α × α)} (hb : Best H P b) : Best H Q b := by
  have : P = Q := funext fun i => propext (h i)
  rw [← this]; exact hb

/-- Merging the best of two families. -/
theorem Best.merge {H : ℕ → α → α → α → Prop} {P Q : ℕ → Prop} {b c : Option (α × ℕ × α × α)} (hb : Best H P b) (hc : Best H Q c) {r : Option (α × ℕ × α × α)}
    (hr : (c = none ∧ r = b) ∨ (∃ x, c = some x ∧ ((r = c ∧ ∀ y, b = some y → x.1 ≤ y.1) ∨ (r = b ∧ ∃ y, b = some y ∧ y.1 ≤ x.1)))) :
    Best H (fun i => P i ∨ Q i) r := by
  rcases hr with ⟨rfl, rfl⟩ | ⟨⟨t, i, u, v⟩, rfl, ⟨rfl, h⟩ | ⟨rfl, ⟨t', i', u', v'⟩, rfl, h⟩⟩
  · match r, hb with
    | none, hb => exact fun i hi => hi.elim (hb i) (hc i)
    | some (t, i, u, v), hb => exact ⟨Or.inl hb.1, hb.2.1, fun i' hi' t' u' v' h => hi'.elim (fun k => hb.2.2 i' k t' u' v' h) fun k => absurd h (hc i' k t' u' v')⟩
  · refine ⟨Or.inr hc.1, hc.2.1, fun i' hi' t' u' v' h' => hi'.elim (fun k => ?_) fun k => hc.2.2 i' k t' u' v' h'⟩
    match b, hb with
    | none, hb => exact absurd h' (hb i' k t' u' v')
    | some (s, j, y, z), hb => exact (h _ rfl).trans (hb.2.2 i' k t' u' v' h')
  · refine ⟨Or.inl hb.1, hb.2.1, fun j hj s y z h' => hj.elim (fun k => hb.2.2 j k s y z h') fun k => ?_⟩
    exact h.trans (hc.2.2 j k s y z h')

/-- The hits of one triangle. -/
theorem Best.single {H : ℕ → α → α → α → Prop} {i : ℕ} {h : Option (α × α × α)} (hh : ∀ t u v, h = some (t, u, v) ↔ H i t u v) :
    Best H (· = i) (h.map fun r => (r.1, i, r.2.1, r.2.2)) := by
  match h, hh with
  | none, hh => rintro _ rfl t u v k; exact absurd ((hh t u v).2 k) (by simp)
  | some (t, u, v), hh =>
    refine ⟨rfl, (hh t u v).1 rfl, ?_⟩
    rintro _ rfl t' u' v' k
    have := (hh t' u' v').2 k
    rw [Option.some.injEq, Prod.mk.injEq] at this
    exact this.1.le

/-- The solution of the equation of a point of a line and a point of a plane. -/
theorem line_tri_solve {o d a b c : V3 α} (hD : dot (b - a) (cross d (c - a)) ≠ 0) (t u v : α) :
    o + t • d = a + (u • (b - a) + v • (c - a)) ↔ t = dot (c - a) (cross (o - a) (b - a)) * (1 / dot (b - a) (cross d (c - a))) ∧
      u = dot (o - a) (cross d (c - a)) * (1 / dot (b - a) (cross d (c - a))) ∧ v = dot d (cross (o - a) (b - a)) * (1 / dot (b - a) (cross d (c - a))) := by
  have edet : dot (b - a) (cross d (c - a)) = -dot d (cross (b - a) (c - a)) := by simp only [dot, cross]; ring
  have hn : dot d (cross (b - a) (c - a)) ≠ 0 := by rw [edet] at hD; exact neg_ne_zero.1 hD
  have sol : o + (dot (c - a) (cross (o - a) (b - a)) * (1 / dot (b - a) (cross d (c - a)))) • d =
      a + ((dot (o - a) (cross d (c - a)) * (1 / dot (b - a) (cross d (c - a)))) • (b - a) +
        (dot d (cross (o - a) (b - a)) * (1 / dot (b - a) (cross d (c - a)))) • (c - a)) := by
    have e : dot (b - a) (cross d (c - a)) • (o - a) + dot (c - a) (cross (o - a) (b - a)) • d =
        dot (o - a) (cross d (c - a)) • (b - a) + dot d (cross (o - a) (b - a)) • (c - a) := by
      ext <;> simp only [dot, cross] <;> simp <;> ring
    generalize dot (b - a) (cross d (c - a)) = D at *
    have ex := congrArg V3.x e
    have ey := congrArg V3.y e
    have ez := congrArg V3.z e
    simp only [V3.smul_x, V3.smul_y, V3.smul_z, V3.add_x, V3.add_y, V3.add_z, V3.sub_x, V3.sub_y, V3.sub_z] at ex ey ez
    ext
    · simp only [V3.smul_x, V3.add_x, V3.sub_x]; field_simp; linear_combination ex
    · simp only [V3.smul_y, V3.add_y, V3.sub_y]; field_simp; linear_combination ey
    · simp only [V3.smul_z, V3.add_z, V3.sub_z]; field_simp; linear_combination ez
  constructor
  · intro h; exact line_tri_unique hn h sol
  · rintro ⟨rfl, rfl, rfl⟩; exact sol

/-- What the code counts as a hit, lane by lane. -/
theorem laneHit_spec (avx : Bool) (l d a b c : V3 α) (t u v : α) : laneHit avx l d a (b - a) (c - a) = some (t, u, v) ↔
    RayHits (if avx then Set.Ici (1 / 10000) else Set.Ioi (1 / 10000)) 0 l d a b c t u v := by
  have edet : |dot d (cross (b - a) (c - a))| = |dot (b - a) (cross d (c - a))| := by
    rw [← abs_neg]; congr 1; simp only [dot, cross]; ring
  have hD : ∀ x : α, |x| ∈ (if avx then Set.Ici (1 / 10000) else Set.Ioi (1 / 10000) : Set α) → x ≠ 0 := by
    rintro x hx rfl
    rw [abs_zero] at hx
    split at hx
    · exact absurd hx (not_le.2 (by positivity))
    · exact absurd hx (not_lt.2 (by positivity))
  have habs : ∀ x : α, absF x = |x| := fun x => absF_eq x
  have hmem : ∀ x : α, (if avx then decide (absF x < 1 / 10000) else decide (absF x ≤ 1 / 10000)) = false ↔
      |x| ∈ (if avx then Set.Ici (1 / 10000) else Set.Ioi (1 / 10000) : Set α) := by
    intro x
    rw [habs]
    cases avx
    · simp [Set.mem_Ioi]
    · simp [Set.mem_Ici]
  have e : laneHit avx l d a (b - a) (c - a) = some (t, u, v) ↔
      |dot (b - a) (cross d (c - a))| ∈ (if avx then Set.Ici (1 / 10000) else Set.Ioi (1 / 10000) : Set α) ∧
      (t = dot (c - a) (cross (l - a) (b - a)) * (1 / dot (b - a) (cross d (c - a))) ∧
      u = dot (l - a) (cross d (c - a)) * (1 / dot (b - a) (cross d (c - a))) ∧ v = dot d (cross (l - a) (b - a)) * (1 / dot (b - a) (cross d (c - a)))) ∧
      0 ≤ u ∧ u ≤ 1 ∧ 0 ≤ v ∧ u + v ≤ 1 ∧ 0 ≤ t := by
    rw [← hmem]
    have hdot : ∀ x y : V3 α, x.x * y.x + x.y * y.y + x.z * y.z = dot x y := fun _ _ => rfl
    unfold laneHit
    simp only [hdot]
    generalize dot (c - a) (cross (l - a) (b - a)) * (1 / dot (b - a) (cross d (c - a))) = T
    generalize dot (l - a) (cross d (c - a)) * (1 / dot (b - a) (cross d (c - a))) = U
    generalize dot d (cross (l - a) (b - a)) * (1 / dot (b - a) (cross d (c - a))) = V
    generalize (if avx = true then decide (absF (dot (b - a) (cross d (c - a))) < 1 / 10000) else decide (absF (dot (b - a) (cross d (c - a))) ≤ 1 / 10000)) = O
    constructor
    · intro h
      split at h
      · exact absurd h (by simp)
      · next h' =>
        simp only [Bool.or_eq_true, decide_eq_true_eq, not_or, not_lt, Bool.not_eq_true] at h'
        simp only [Option.some.injEq, Prod.mk.injEq] at h
        obtain ⟨rfl, rfl, rfl⟩ := h
        obtain ⟨⟨⟨⟨⟨h1, h2⟩, h3⟩, h4⟩, h5⟩, h6⟩ := h'
        exact ⟨h1, ⟨rfl, rfl, rfl⟩, h2, h3, h4, h5, h6⟩
    · rintro ⟨h1, ⟨rfl, rfl, rfl⟩, h2, h3, h4, h5, h6⟩
      rw [if_neg]
      simp only [Bool.or_eq_true, decide_eq_true_eq, not_or, not_lt, Bool.not_eq_true]
      exact ⟨⟨⟨⟨⟨h1, h2⟩, h3⟩, h4⟩, h5⟩, h6⟩
  rw [e, ← edet]
  constructor
  · rintro ⟨h1, h2, h3, h4, h5, h6, h7⟩
    have hd := hD _ (edet ▸ h1)
    exact ⟨h1, (line_tri_solve hd t u v).2 h2, h7, by linarith, by linarith, by linarith, by linarith⟩
  · rintro ⟨h1, h2, h7, h3, h4, h5, h6⟩
    have hd := hD _ (edet ▸ h1)
    exact ⟨h1, (line_tri_solve hd t u v).1 h2, by linarith, by linarith, by linarith, by linarith, h7⟩

theorem intersectLineTri_spec (l d a b c : V3 α) (t u v : α) : (Tri.intersectLineTri l d a b c = some (t, u, v) ∧ 0 ≤ t) ↔
    RayHits (Set.Ioi (1 / 10000)) (1 / 10000) l d a b c t u v := by
  rw [C33_intersectLineTri]
  exact ⟨fun ⟨⟨h1, h2, h3, h4, h5, h6⟩, h7⟩ => ⟨h1, h2, h7, h3, h4, h5, h6⟩, fun ⟨h1, h2, h7, h3, h4, h5, h6⟩ => ⟨⟨h1, h2, h3, h4, h5, h6⟩, h7⟩⟩

/-! ### The plain loop -/

theorem triAt_setAoS (m : TriangleMesh α) (mem : ℕ → α) (n i : ℕ) :
    (m.setAoS mem n 3).triAt i = ⟨meshVertex mem 3 i 0, meshVertex mem 3 i 1, meshVertex mem 3 i 2⟩ := by
  have e0 : (3 * i + 0) * 3 = 9 * i := by ring
  have e1 : (3 * i + 1) * 3 = 9 * i + 3 := by ring
  have e2 : (3 * i + 2) * 3 = 9 * i + 6 := by ring
  simp only [triAt, setAoS, meshVertex, e0, e1, e2]

theorem cpp_best (mem : ℕ → α) (m : TriangleMesh α) (n : ℕ) (o d : V3 α) : ∀ k,
    Best (fun i => RayHits (Set.Ioi (1 / 10000)) (1 / 10000) o d (meshVertex mem 3 i 0) (meshVertex mem 3 i 1) (meshVertex mem 3 i 2)) (· < k)
      ((List.range k).foldl ((m.setAoS mem n 3).cppStep o d) none) := by
  intro k
  induction k with
  | zero => intro i hi; exact absurd hi (Nat.not_lt_zero i)
  | succ k ih =>
    rw [List.range_succ, List.foldl_append, List.foldl_cons, List.foldl_nil]
    generalize (List.range k).foldl ((m.setAoS mem n 3).cppStep o d) none = best at ih
    set h : Option (α × α × α) := (Tri.intersectLineTri o d (meshVertex mem 3 k 0) (meshVertex mem 3 k 1) (meshVertex mem 3 k 2)).filter fun r => decide (0 ≤ r.1) with hh
    have hs := Best.single (H := fun i => RayHits (Set.Ioi (1 / 10000)) (1 / 10000) o d (meshVertex mem 3 i 0) (meshVertex mem 3 i 1) (meshVertex mem 3 i 2)) (i := k) (h := h)
      (fun t u v => by
        rw [← intersectLineTri_spec, hh, Option.filter_eq_some_iff]
        simp)
    refine (ih.merge hs (r := (m.setAoS mem n 3).cppStep o d best k) ?_).congr fun i => by omega
    unfold cppStep
    simp only []
    rw [triAt_setAoS]
    simp only []
    rw [hh]
    rcases Tri.intersectLineTri o d (meshVertex mem 3 k 0) (meshVertex mem 3 k 1) (meshVertex mem 3 k 2) with _ | ⟨t, u, v⟩
    · exact Or.inl ⟨rfl, rfl⟩
    · by_cases ht : 0 ≤ t
      · refine Or.inr ⟨(t, k, u, v), by simp [ht], ?_⟩
        match best with
        | none => left; simp [ht]
        | some (s, j, y, z) =>
          by_cases hts : t < s
          · left; simp [ht, hts, hts.le]
          · right; simp [hts, not_lt.1 hts]
      · left; have := not_le.1 ht; simp [ht, this]

/-- C91: without SIMD, `Set` followed by `IntersectRay_TriangleIndex_UV` gives a nearest hit of the ray with the triangles passed to `Set`, if the
vertices are packed (three floats each, as `Set(const float3 *)` and `Set(const Triangle *)` pass them). Missing: other vertex sizes, for which the
claim is false (`C91_stride_violation`). -/
theorem C91_nearest_partial (m : TriangleMesh α) (mem : ℕ → α) (n : ℕ) (o d : V3 α) :
    NearestHit (Set.Ioi (1 / 10000)) (1 / 10000) mem 3 n o d ((m.set .none mem n 3).intersectRay .none o d) := by
  have := cpp_best mem m n o d n
  show NearestHit _ _ _ _ _ _ _ ((List.range n).foldl ((m.setAoS mem n 3).cppStep o d) none)
  match (List.range n).foldl ((m.setAoS mem n 3).cppStep o d) none, this with
  | none, h => exact h
  | some _, h => exact h

/-! ### The lanes -/

theorem soa_at {w : ℕ} (hw : 0 < w) (mem : ℕ → α) (vs : ℕ) {block j k l : ℕ} (hj : j < 3) (hk : k < 3) (hl : l < w) :
    soaFirst w mem vs (block * (9 * w) + (j * (3 * w) + (k * w + l))) = mem ((3 * (block * w + l) + j) * vs + k) := by
  have b1 : k * w + l < 3 * w := by nlinarith
  have b2 : j * (3 * w) + (k * w + l) < 9 * w := by nlinarith
  have e1 : (block * (9 * w) + (j * (3 * w) + (k * w + l))) / (9 * w) = block := by
    rw [mul_comm block, Nat.mul_add_div (by omega), Nat.div_eq_of_lt b2, add_zero]
  have e2 : (block * (9 * w) + (j * (3 * w) + (k * w + l))) % (9 * w) = j * (3 * w) + (k * w + l) := by
    rw [mul_comm block, Nat.mul_add_mod, Nat.mod_eq_of_lt b2]
  have e3 : (j * (3 * w) + (k * w + l)) / (3 * w) = j := by
    rw [mul_comm j, Nat.mul_add_div (by omega), Nat.div_eq_of_lt b1, add_zero]
  have e4 : (block * (9 * w) + (j * (3 * w) + (k * w + l))) % (3 * w) = k * w + l := by
    rw [show block * (9 * w) + (j * (3 * w) + (k * w + l)) = 3 * w * (3 * block + j) + (k * w + l) by ring, Nat.mul_add_mod, Nat.mod_eq_of_lt b1]
  have e5 : (k * w + l) / w = k := by
    rw [mul_comm k, Nat.mul_add_div hw, Nat.div_eq_of_lt hl, add_zero]
  have e6 : (block * (9 * w) + (j * (3 * w) + (k * w + l))) % w = l := by
    rw [show block * (9 * w) + (j * (3 * w) + (k * w + l)) = w * (9 * block + 3 * j + k) + l by ring, Nat.mul_add_mod, Nat.mod_eq_of_lt hl]
  unfold soaFirst
  simp only []
  rw [e1, e2, e3, e4, e5, e6]
  congr 1
  obtain ⟨w', rfl⟩ : ∃ w', w = w' + 1 := ⟨w - 1, by omega⟩
  rw [Nat.add_sub_cancel]
  ring

theorem laneVec_setSoA {w : ℕ} (hw : 0 < w) (m : TriangleMesh α) (mem : ℕ → α) (n vs : ℕ) {block l : ℕ} (hl : l < w) :
    (m.setSoA w mem n vs).laneVec w (block * (9 * w) + l) = meshVertex mem vs (block * w + l) 0 ∧
    (m.setSoA w mem n vs).laneVec w (block * (9 * w) + 3 * w + l) = meshVertex mem vs (block * w + l) 1 - meshVertex mem vs (block * w + l) 0 ∧
    (m.setSoA w mem n vs).laneVec w (block * (9 * w) + 6 * w + l) = meshVertex mem vs (block * w + l) 2 - meshVertex mem vs (block * w + l) 0 := by
  have at' : ∀ j k, j < 3 → k < 3 → ∀ p, p = block * (9 * w) + (j * (3 * w) + (k * w + l)) → soaEdges w (soaFirst w mem vs) p =
      if j = 0 then mem ((3 * (block * w + l) + j) * vs + k) else mem ((3 * (block * w + l) + j) * vs + k) - mem ((3 * (block * w + l) + 0) * vs + k) := by
    rintro j k hj hk p rfl
    have b1 : k * w + l < 3 * w := by nlinarith
    have b2 : j * (3 * w) + (k * w + l) < 9 * w := by nlinarith
    have e2 : (block * (9 * w) + (j * (3 * w) + (k * w + l))) % (9 * w) = j * (3 * w) + (k * w + l) := by
      rw [mul_comm block, Nat.mul_add_mod, Nat.mod_eq_of_lt b2]
    unfold soaEdges
    simp only []
    rw [e2, soa_at hw mem vs hj hk hl]
    have hj' : j = 0 ∨ j = 1 ∨ j = 2 := by omega
    rcases hj' with rfl | rfl | rfl
    · rw [if_pos (by omega), if_pos rfl]
    · rw [if_neg (by omega), if_pos (by omega), if_neg (by omega),
        show block * (9 * w) + (1 * (3 * w) + (k * w + l)) - 3 * w = block * (9 * w) + (0 * (3 * w) + (k * w + l)) by omega, soa_at hw mem vs (by omega) hk hl]
    · rw [if_neg (by omega), if_neg (by omega), if_neg (by omega),
        show block * (9 * w) + (2 * (3 * w) + (k * w + l)) - 6 * w = block * (9 * w) + (0 * (3 * w) + (k * w + l)) by omega, soa_at hw mem vs (by omega) hk hl]
  refine ⟨?_, ?_, ?_⟩
  · ext
    · exact at' 0 0 (by omega) (by omega) _ (by ring)
    · exact at' 0 1 (by omega) (by omega) _ (by ring)
    · exact at' 0 2 (by omega) (by omega) _ (by ring)
  · ext
    · exact at' 1 0 (by omega) (by omega) _ (by ring)
    · exact at' 1 1 (by omega) (by omega) _ (by ring)
    · exact at' 1 2 (by omega) (by omega) _ (by ring)
  · ext
    · exact at' 2 0 (by omega) (by omega) _ (by ring)
    · exact at' 2 1 (by omega) (by omega) _ (by ring)
    · exact at' 2 2 (by omega) (by omega) _ (by ring)

theorem lane_best (avx : Bool) {w : ℕ} (hw : 0 < w) (mem : ℕ → α) (vs : ℕ) (m : TriangleMesh α) (n : ℕ) (o d : V3 α) {l : ℕ} (hl : l < w) : ∀ k,
    ∃ b, ((List.range k).foldl ((m.setSoA w mem n vs).laneStep avx w o d l) none = b) ∧
    Best (fun i => RayHits (if avx then Set.Ici (1 / 10000) else Set.Ioi (1 / 10000)) 0 o d (meshVertex mem vs i 0) (meshVertex mem vs i 1) (meshVertex mem vs i 2))
      (fun i => i % w = l ∧ i / w < k) (b.map fun r => (r.1, r.2.1 + l, r.2.2)) := by
  intro k
  refine ⟨_, rfl, ?_⟩
  induction k with
  | zero => rintro i ⟨-, hi⟩; exact absurd hi (Nat.not_lt_zero _)
  | succ k ih =>
    rw [List.range_succ, List.foldl_append, List.foldl_cons, List.foldl_nil]
    generalize (List.range k).foldl ((m.setSoA w mem n vs).laneStep avx w o d l) none = best at ih
    obtain ⟨x0, x1, x2⟩ := laneVec_setSoA hw m mem n vs (block := k) hl
    have hs := Best.single (H := fun i => RayHits (if avx then Set.Ici (1 / 10000) else Set.Ioi (1 / 10000)) 0 o d (meshVertex mem vs i 0) (meshVertex mem vs i 1)
      (meshVertex mem vs i 2)) (i := k * w + l) (laneHit_spec avx o d _ _ _)
    refine (ih.merge hs (r := ((m.setSoA w mem n vs).laneStep avx w o d l best k).map fun r => (r.1, r.2.1 + l, r.2.2)) ?_).congr fun i => ?_
    · unfold laneStep
      simp only []
      rw [x0, x1, x2]
      rcases laneHit avx o d (meshVertex mem vs (k * w + l) 0) (meshVertex mem vs (k * w + l) 1 - meshVertex mem vs (k * w + l) 0)
        (meshVertex mem vs (k * w + l) 2 - meshVertex mem vs (k * w + l) 0) with _ | ⟨t, u, v⟩
      · exact Or.inl ⟨rfl, rfl⟩
      · refine Or.inr ⟨(t, k * w + l, u, v), rfl, ?_⟩
        match best with
        | none => left; simp
        | some (s, j, y, z) =>
          by_cases hts : s ≤ t
          · right; simp [hts]
          · left; simp [hts, (not_le.1 hts).le]
    · constructor
      · rintro (⟨h1, h2⟩ | rfl)
        · exact ⟨h1, by omega⟩
        · refine ⟨?_, ?_⟩
          · rw [mul_comm, Nat.mul_add_mod, Nat.mod_eq_of_lt hl]
          · rw [mul_comm, Nat.mul_add_div hw, Nat.div_eq_of_lt hl]; omega
      · rintro ⟨h1, h2⟩
        by_cases h : i / w < k
        · exact Or.inl ⟨h1, h⟩
        · right
          have := Nat.div_add_mod i w
          have : i / w = k := by omega
          rw [← this, ← h1, mul_comm, Nat.div_add_mod]

theorem simd_best (avx : Bool) {w : ℕ} (hw : 0 < w) (mem : ℕ → α) (vs : ℕ) (m : TriangleMesh α) (n : ℕ) (o d : V3 α) : ∀ k ≤ w,
    Best (fun i => RayHits (if avx then Set.Ici (1 / 10000) else Set.Ioi (1 / 10000)) 0 o d (meshVertex mem vs i 0) (meshVertex mem vs i 1) (meshVertex mem vs i 2))
      (fun i => i % w < k ∧ i / w < n / w) (((List.range k).map fun l => ((m.setSoA w mem n vs).lane avx w o d l, l)).foldl mergeStep none) := by
  intro k
  induction k with
  | zero => rintro _ i ⟨hi, -⟩; exact absurd hi (Nat.not_lt_zero _)
  | succ k ih =>
    intro hk
    have ih := ih (by omega)
    rw [List.range_succ, List.map_append, List.foldl_append, List.map_cons, List.map_nil, List.foldl_cons, List.foldl_nil]
    generalize ((List.range k).map fun l => ((m.setSoA w mem n vs).lane avx w o d l, l)).foldl mergeStep none = best at ih
    obtain ⟨b, e, hs⟩ := lane_best avx hw mem vs m n o d (l := k) (by omega) (n / w)
    have e' : (m.setSoA w mem n vs).lane avx w o d k = b := e
    rw [e']
    refine (ih.merge hs (r := mergeStep best (b, k)) ?_).congr fun i => ?_
    · unfold mergeStep
      rcases b with _ | ⟨t, j, u, v⟩
      · exact Or.inl ⟨rfl, rfl⟩
      · refine Or.inr ⟨(t, j + k, u, v), rfl, ?_⟩
        match best with
        | none => left; simp
        | some (s, j, y, z) =>
          by_cases hts : t < s
          · left; simp [hts, hts.le]
          · right; simp [hts, not_lt.1 hts]
    · constructor
      · rintro (⟨h1, h2⟩ | ⟨h1, h2⟩)
        · exact ⟨by omega, h2⟩
        · exact ⟨by omega, h2⟩
      · rintro ⟨h1, h2⟩
        by_cases h : i % w = k
        · exact Or.inr ⟨h, h2⟩
        · exact Or.inl ⟨by omega, h2⟩

/-- C91: with the triangles laid out for SSE (`w = 4`) or AVX (`w = 8`), the SIMD query gives a nearest hit with the triangles passed to `SetSoA4` or
`SetSoA8`, for any vertex size, if their number is a multiple of `w`. -/
theorem C91_simd_nearest (avx : Bool) (w : ℕ) (hw : 0 < w) (m : TriangleMesh α) (mem : ℕ → α) (stride n : ℕ) (hn : w ∣ n) (o d : V3 α) :
    NearestHit (if avx then Set.Ici (1 / 10000) else Set.Ioi (1 / 10000)) 0 mem stride n o d ((m.setSoA w mem n stride).intersectRaySimd avx w o d) := by
  have := (simd_best avx hw mem stride m n o d w (le_refl w)).congr (Q := (· < n)) fun i => by
    obtain ⟨q, rfl⟩ := hn
    rw [Nat.mul_div_cancel_left _ hw, Nat.div_lt_iff_lt_mul hw, mul_comm w]
    exact ⟨fun h => h.2, fun h => ⟨Nat.mod_lt _ hw, h⟩⟩
  show NearestHit _ _ _ _ _ _ _ (((List.range w).map fun l => ((m.setSoA w mem n stride).lane avx w o d l, l)).foldl mergeStep none)
  match ((List.range w).map fun l => ((m.setSoA w mem n stride).lane avx w o d l, l)).foldl mergeStep none, this with
  | none, h => exact h
  | some _, h => exact h

/-- One triangle across the z axis at height 2, in memory with `stride` numbers for each vertex. -/
def exMem (stride : ℕ) (p : ℕ) : ℚ :=
  if p = 2 ∨ p = stride + 2 ∨ p = 2 * stride + 2 then 2 else if p = 0 ∨ p = 1 ∨ p = stride + 1 ∨ p = 2 * stride then -1 else if p = stride ∨ p = 2 * stride + 1 then 3 else 0

example : (empty.set .none (exMem 3) 1 3).intersectRay .none ⟨0, 0, 0⟩ ⟨0, 0, 1⟩ = some (2, 0, 1 / 4, 1 / 4) := by
  norm_num [set, setAoS, intersectRay, intersectRayCpp, cppStep, triAt, exMem, Tri.intersectLineTri, List.range_succ, dot, cross, absF]

example := C91_simd_nearest (α := ℚ) true 8 (by norm_num) empty (exMem 4) 4 8 (by norm_num)

/-- C91: with SIMD, `Set` on a new mesh stores no triangle at all, as it passes on the old number of triangles: the ray hits the triangle passed
to `Set`, but the query finds nothing, for `SSE` and for `AVX`. -/
theorem C91_set_violation : ∀ s : Simd, s ≠ .none → ∃ (mem : ℕ → ℚ) (o d : V3 ℚ), ¬ NearestHit (Set.Ioi (1 / 10000)) 0 mem 3 8 o d ((empty.set s mem 8 3).intersectRay s o d) ∧
    (empty.set s mem 8 3).intersectRay s o d = none := by
  intro s hs
  have hit : RayHits (Set.Ioi (1 / 10000)) (0 : ℚ) ⟨0, 0, 0⟩ ⟨0, 0, 1⟩ (meshVertex (exMem 3) 3 0 0) (meshVertex (exMem 3) 3 0 1) (meshVertex (exMem 3) 3 0 2) 2 (1 / 4) (1 / 4) := by
    constructor
    · norm_num [meshVertex, exMem, dot, cross]
    · ext <;> norm_num [meshVertex, exMem]
    all_goals norm_num
  have none' : (empty.set s (exMem 3) 8 3).intersectRay s ⟨0, 0, 0⟩ ⟨0, 0, 1⟩ = none := by
    cases s
    · exact absurd rfl hs
    · decide +kernel
    · decide +kernel
  refine ⟨exMem 3, ⟨0, 0, 0⟩, ⟨0, 0, 1⟩, fun h => ?_, none'⟩
  rw [none'] at h
  exact h 0 (by norm_num) 2 (1 / 4) (1 / 4) hit

/-- C91: without SIMD, vertices of another size than three floats are read as if they were packed: the only triangle, whose vertices take four numbers
each, is met by the ray at distance 2, but the query reports a hit at distance 7/11. -/
theorem C91_stride_violation : ∃ (mem : ℕ → ℚ) (o d : V3 ℚ), ¬ NearestHit (Set.Ioi (1 / 10000)) (1 / 10000) mem 4 1 o d ((empty.set .none mem 1 4).intersectRay .none o d) ∧
    RayHits (Set.Ioi (1 / 10000)) (1 / 10000) o d (meshVertex mem 4 0 0) (meshVertex mem 4 0 1) (meshVertex mem 4 0 2) 2 (1 / 4) (1 / 4) ∧
    ((empty.set .none mem 1 4).intersectRay .none o d).map Prod.fst = some (7 / 11) := by
  have hit : RayHits (Set.Ioi (1 / 10000)) (1 / 10000 : ℚ) ⟨0, 0, 0⟩ ⟨0, 0, 1⟩ (meshVertex (exMem 4) 4 0 0) (meshVertex (exMem 4) 4 0 1) (meshVertex (exMem 4) 4 0 2) 2 (1 / 4) (1 / 4) := by
    constructor
    · norm_num [meshVertex, exMem, dot, cross]
    · ext <;> norm_num [meshVertex, exMem]
    all_goals norm_num
  have e : (empty.set .none (exMem 4) 1 4).intersectRay .none ⟨0, 0, 0⟩ ⟨0, 0, 1⟩ = some (7 / 11, 0, 2 / 11, 3 / 11) := by
    norm_num [set, setAoS, intersectRay, intersectRayCpp, cppStep, triAt, exMem, Tri.intersectLineTri, List.range_succ, dot, cross, absF]
  refine ⟨exMem 4, ⟨0, 0, 0⟩, ⟨0, 0, 1⟩, fun h => ?_, hit, by rw [e]; rfl⟩
  rw [e] at h
  have := congrArg V3.z h.2.1.point
  norm_num [meshVertex, exMem] at this

end MGL.TriangleMesh
