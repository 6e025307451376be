import Verif.Model.AABB
import Verif.Proofs.Scalar
import Verif.Proofs.Dist
import Mathlib.Tactic.NormNum

/-! Property C21: line, ray and segment against an `AABB`. -/

namespace MGL

open V3 Spec

section Field
variable {α : Type*} [Field α] [LinearOrder α] [IsStrictOrderedRing α]

/-- A direction component which the code does not confuse with zero: it is zero, or its magnitude is at
least the tolerance `1e-4`. -/
def ClearDir (d : α) : Prop := d = 0 ∨ 1 / 10000 ≤ |d|

theorem equalAbs_zero (d : α) (h : ClearDir d) : equalAbs d 0 = true ↔ d = 0 := by
  unfold equalAbs
  simp only [sub_zero, absF_eq, decide_eq_true_eq]
  rcases h with rfl | h
  · simp
  · constructor
    · intro h'; exact absurd h' (not_lt.2 h)
    · rintro rfl; simp

omit [Field α] [IsStrictOrderedRing α] in
theorem Ext.of_le {a b : α} : Ext.of a ≤ Ext.of b ↔ a ≤ b := by simp [Ext.of]
omit [Field α] [IsStrictOrderedRing α] in
theorem Ext.of_lt {a b : α} : Ext.of a < Ext.of b ↔ a < b := by simp [Ext.of]

/-- Solving `lo ≤ pos + t * dir ≤ hi` for `t`. -/
theorem slab_interval (pos dir lo hi t : α) (hd : dir ≠ 0) (h : lo ≤ hi) :
    (lo ≤ pos + t * dir ∧ pos + t * dir ≤ hi) ↔
      (min ((lo - pos) * (1 / dir)) ((hi - pos) * (1 / dir)) ≤ t ∧
        t ≤ max ((lo - pos) * (1 / dir)) ((hi - pos) * (1 / dir))) := by
  rcases lt_or_gt_of_ne hd with hn | hp
  · have e : (hi - pos) * (1 / dir) ≤ (lo - pos) * (1 / dir) := by
      have : 1 / dir < 0 := one_div_neg.2 hn
      nlinarith
    rw [min_eq_right e, max_eq_left e, mul_one_div, mul_one_div, div_le_iff_of_neg hn, le_div_iff_of_neg hn]
    constructor <;> rintro ⟨a, b⟩ <;> constructor <;> linarith
  · have e : (lo - pos) * (1 / dir) ≤ (hi - pos) * (1 / dir) := by
      have : 0 < 1 / dir := one_div_pos.2 hp
      nlinarith
    rw [min_eq_left e, max_eq_right e, mul_one_div, mul_one_div, div_le_iff₀ hp, le_div_iff₀ hp]
    constructor <;> rintro ⟨a, b⟩ <;> constructor <;> linarith

/-- What one axis block does to the parameter interval. -/
theorem slab_spec (pos dir lo hi : α) (hd : ClearDir dir) (h : lo ≤ hi) (N F : Ext α) (hNF : N ≤ F)
    (hN : N ≠ ⊤) (hF : F ≠ ⊥) :
    match AABB.slab pos dir lo hi N F with
    | none => ∀ t : α, ¬ (N ≤ Ext.of t ∧ Ext.of t ≤ F ∧ lo ≤ pos + t * dir ∧ pos + t * dir ≤ hi)
    | some (n, f) => n ≤ f ∧ n ≠ ⊤ ∧ f ≠ ⊥ ∧ ∀ t : α, (n ≤ Ext.of t ∧ Ext.of t ≤ f) ↔
        (N ≤ Ext.of t ∧ Ext.of t ≤ F ∧ lo ≤ pos + t * dir ∧ pos + t * dir ≤ hi) := by
  unfold AABB.slab
  rcases eq_or_ne dir 0 with rfl | hne
  · have : equalAbs (0 : α) 0 = true := (equalAbs_zero 0 (Or.inl rfl)).2 rfl
    simp only [this, Bool.not_true, Bool.false_eq_true, if_false]
    by_cases ho : (decide (pos < lo) || decide (pos > hi)) = true
    · simp only [ho, if_true]
      rintro t ⟨-, -, a, b⟩
      simp only [mul_zero, add_zero] at a b
      simp only [Bool.or_eq_true, decide_eq_true_eq] at ho
      rcases ho with ho | ho
      · exact absurd a (not_le.2 ho)
      · exact absurd b (not_le.2 ho)
    · simp only [ho, if_false]
      simp only [Bool.or_eq_true, decide_eq_true_eq, not_or, not_lt] at ho
      refine ⟨hNF, hN, hF, fun t => ?_⟩
      simp [ho.1, ho.2]
  · have hE : equalAbs dir 0 = false := by
      rw [Bool.eq_false_iff]; intro hc; exact hne ((equalAbs_zero dir hd).1 hc)
    simp only [hE, Bool.not_false, if_true]
    set t1 := (lo - pos) * (1 / dir) with ht1
    set t2 := (hi - pos) * (1 / dir) with ht2
    have hn : (if Ext.of t1 < Ext.of t2 then max2 (Ext.of t1) N else max2 (Ext.of t2) N) = max (Ext.of (min t1 t2)) N := by
      simp only [max2_eq, Ext.of_lt]
      split
      · rename_i hc; rw [min_eq_left hc.le]
      · rename_i hc; rw [min_eq_right (not_lt.1 hc)]
    have hf : (if Ext.of t1 < Ext.of t2 then min2 (Ext.of t2) F else min2 (Ext.of t1) F) = min (Ext.of (max t1 t2)) F := by
      simp only [min2_eq, Ext.of_lt]
      split
      · rename_i hc; rw [max_eq_right hc.le]
      · rename_i hc; rw [max_eq_left (not_lt.1 hc)]
    rw [hn, hf]
    have key : ∀ t : α, (max (Ext.of (min t1 t2)) N ≤ Ext.of t ∧ Ext.of t ≤ min (Ext.of (max t1 t2)) F) ↔
        (N ≤ Ext.of t ∧ Ext.of t ≤ F ∧ lo ≤ pos + t * dir ∧ pos + t * dir ≤ hi) := by
      intro t
      have := slab_interval pos dir lo hi t hne h
      rw [← ht1, ← ht2] at this
      rw [this, max_le_iff, le_min_iff, Ext.of_le, Ext.of_le]
      tauto
    by_cases hgt : max (Ext.of (min t1 t2)) N > min (Ext.of (max t1 t2)) F
    · simp only [hgt, if_true]
      intro t ht
      obtain ⟨a, b⟩ := (key t).2 ht
      exact absurd (a.trans b) (not_le.2 hgt)
    · simp only [hgt, if_false]
      refine ⟨not_lt.1 hgt, ?_, ?_, key⟩
      · rcases max_choice (Ext.of (min t1 t2)) N with e | e <;> rw [e]
        · simp [Ext.of]
        · exact hN
      · rcases min_choice (Ext.of (max t1 t2)) F with e | e <;> rw [e]
        · simp [Ext.of]
        · exact hF

omit [IsStrictOrderedRing α] in
/-- A non-empty interval with no infinite end on the wrong side contains a finite number. -/
theorem exists_mem (n f : Ext α) (h : n ≤ f) (hn : n ≠ ⊤) (hf : f ≠ ⊥) :
    ∃ t : α, n ≤ Ext.of t ∧ Ext.of t ≤ f := by
  induction n using WithBot.recBotCoe with
  | bot =>
    induction f using WithBot.recBotCoe with
    | bot => exact absurd rfl hf
    | coe f =>
      induction f using WithTop.recTopCoe with
      | top => exact ⟨0, bot_le, le_top⟩
      | coe f => exact ⟨f, bot_le, le_rfl⟩
  | coe n =>
    induction n using WithTop.recTopCoe with
    | top => exact absurd rfl hn
    | coe n => exact ⟨n, le_rfl, h⟩

/-- `IntersectLineAABB` on the sub-range `[N, F]` of the line parameter: it reports a miss exactly
when no parameter in the range gives a point of the box, and otherwise the returned values delimit
exactly the parameters in the range whose point is in the box. This needs a proper box and a
direction whose components are zero or at least `1e-4` in magnitude (see
`C21_tolerance_counterexample`). -/
theorem C21_intersectLine_partial (b : AABB α) (pos dir : V3 α)
    (hb : b.minPoint.x ≤ b.maxPoint.x ∧ b.minPoint.y ≤ b.maxPoint.y ∧ b.minPoint.z ≤ b.maxPoint.z)
    (hx : ClearDir dir.x) (hy : ClearDir dir.y) (hz : ClearDir dir.z)
    (N F : Ext α) (hNF : N ≤ F) (hN : N ≠ ⊤) (hF : F ≠ ⊥) :
    (b.intersectLine pos dir N F = none ↔
      ¬ ∃ t : α, N ≤ Ext.of t ∧ Ext.of t ≤ F ∧ pos + t • dir ∈ Spec.box b.minPoint b.maxPoint) ∧
    (∀ n f, b.intersectLine pos dir N F = some (n, f) → n ≤ f ∧ n ≠ ⊤ ∧ f ≠ ⊥ ∧
      ∀ t : α, (n ≤ Ext.of t ∧ Ext.of t ≤ f) ↔
        (N ≤ Ext.of t ∧ Ext.of t ≤ F ∧ pos + t • dir ∈ Spec.box b.minPoint b.maxPoint)) := by
  obtain ⟨h1, h2, h3⟩ := hb
  -- one statement about both outcomes
  have main : match b.intersectLine pos dir N F with
      | none => ∀ t : α, ¬ (N ≤ Ext.of t ∧ Ext.of t ≤ F ∧ pos + t • dir ∈ Spec.box b.minPoint b.maxPoint)
      | some (n, f) => n ≤ f ∧ n ≠ ⊤ ∧ f ≠ ⊥ ∧ ∀ t : α, (n ≤ Ext.of t ∧ Ext.of t ≤ f) ↔
        (N ≤ Ext.of t ∧ Ext.of t ≤ F ∧ pos + t • dir ∈ Spec.box b.minPoint b.maxPoint) := by
    unfold AABB.intersectLine
    have sx := slab_spec pos.x dir.x _ _ hx h1 N F hNF hN hF
    rcases ex : AABB.slab pos.x dir.x b.minPoint.x b.maxPoint.x N F with _ | ⟨n1, f1⟩
    · rw [ex] at sx
      simp only [Option.bind_eq_bind, Option.bind_none]
      rintro t ⟨a, c, d⟩
      exact sx t ⟨a, c, d.1, d.2.1⟩
    rw [ex] at sx
    obtain ⟨le1, nt1, fb1, k1⟩ := sx
    simp only [Option.bind_eq_bind, Option.bind_some]
    have sy := slab_spec pos.y dir.y _ _ hy h2 n1 f1 le1 nt1 fb1
    rcases ey : AABB.slab pos.y dir.y b.minPoint.y b.maxPoint.y n1 f1 with _ | ⟨n2, f2⟩
    · rw [ey] at sy
      simp only [Option.bind_none]
      rintro t ⟨a, c, d⟩
      have := (k1 t).2 ⟨a, c, d.1, d.2.1⟩
      exact sy t ⟨this.1, this.2, d.2.2.1, d.2.2.2.1⟩
    rw [ey] at sy
    obtain ⟨le2, nt2, fb2, k2⟩ := sy
    simp only [Option.bind_some]
    have sz := slab_spec pos.z dir.z _ _ hz h3 n2 f2 le2 nt2 fb2
    rcases ez : AABB.slab pos.z dir.z b.minPoint.z b.maxPoint.z n2 f2 with _ | ⟨n3, f3⟩
    · rw [ez] at sz
      simp only [Option.bind_none]
      rintro t ⟨a, c, d⟩
      have := (k1 t).2 ⟨a, c, d.1, d.2.1⟩
      have := (k2 t).2 ⟨this.1, this.2, d.2.2.1, d.2.2.2.1⟩
      exact sz t ⟨this.1, this.2, d.2.2.2.2.1, d.2.2.2.2.2⟩
    rw [ez] at sz
    obtain ⟨le3, nt3, fb3, k3⟩ := sz
    simp only [Option.bind_some]
    rw [if_pos le3]
    refine ⟨le3, nt3, fb3, fun t => ?_⟩
    rw [k3 t, ← and_assoc, k2 t]
    simp only [Spec.box, Set.mem_ofPred_eq, add_x, add_y, add_z, smul_x, smul_y, smul_z]
    have := k1 t
    tauto
  rcases e : b.intersectLine pos dir N F with _ | ⟨n, f⟩
  · rw [e] at main
    exact ⟨⟨fun _ ⟨t, ht⟩ => main t ht, fun _ => rfl⟩, by simp⟩
  · rw [e] at main
    obtain ⟨le, nt, fb, k⟩ := main
    constructor
    · constructor
      · intro hc; cases hc
      · intro hc
        obtain ⟨t, ht⟩ := exists_mem n f le nt fb
        exact absurd ⟨t, (k t).1 ht⟩ hc
    · rintro n' f' hc
      cases hc
      exact ⟨le, nt, fb, k⟩

example : ClearDir (3/5 : ℚ) ∧ ClearDir (0 : ℚ) ∧ ((⊥ : Ext ℚ) ≤ ⊤) ∧ ((⊥ : Ext ℚ) ≠ ⊤) := by
  refine ⟨Or.inr ?_, Or.inl rfl, bot_le, bot_ne_top⟩
  rw [abs_of_pos] <;> norm_num

/-- `Intersects(Line)`: true exactly when some point of the line is in the box; the returned
parameters delimit exactly the part of the line inside. -/
theorem C21_line_partial (b : AABB α) (pos dir : V3 α)
    (hb : b.minPoint.x ≤ b.maxPoint.x ∧ b.minPoint.y ≤ b.maxPoint.y ∧ b.minPoint.z ≤ b.maxPoint.z)
    (hx : ClearDir dir.x) (hy : ClearDir dir.y) (hz : ClearDir dir.z) :
    ((b.intersectsLine pos dir).isSome ↔
      (Spec.line pos dir ∩ Spec.box b.minPoint b.maxPoint).Nonempty) ∧
    (∀ n f, b.intersectsLine pos dir = some (n, f) → ∀ t : α,
      (n ≤ Ext.of t ∧ Ext.of t ≤ f) ↔ pos + t • dir ∈ Spec.box b.minPoint b.maxPoint) := by
  obtain ⟨H1, H2⟩ := C21_intersectLine_partial b pos dir hb hx hy hz ⊥ ⊤ bot_le bot_ne_top top_ne_bot
  constructor
  · rw [Option.isSome_iff_ne_none, ne_eq, AABB.intersectsLine, H1, not_not]
    constructor
    · rintro ⟨t, -, -, h⟩; exact ⟨_, ⟨t, rfl⟩, h⟩
    · rintro ⟨_, ⟨t, rfl⟩, h⟩; exact ⟨t, bot_le, le_top, h⟩
  · intro n f e t
    rw [(H2 n f e).2.2.2 t]
    simp

example := C21_line_partial (⟨⟨0, 0, 0⟩, ⟨1, 2, 3⟩⟩ : AABB ℚ) ⟨-3, 0, 0⟩ ⟨3/5, 4/5, 0⟩ (by norm_num) (by norm_num [ClearDir, absF]) (by norm_num [ClearDir, absF]) (by norm_num [ClearDir, absF])

/-- `Intersects(Ray)`: true exactly when some point of the ray is in the box; the returned distances
delimit exactly the part of the ray inside. -/
theorem C21_ray_partial (b : AABB α) (pos dir : V3 α)
    (hb : b.minPoint.x ≤ b.maxPoint.x ∧ b.minPoint.y ≤ b.maxPoint.y ∧ b.minPoint.z ≤ b.maxPoint.z)
    (hx : ClearDir dir.x) (hy : ClearDir dir.y) (hz : ClearDir dir.z) :
    ((b.intersectsRay pos dir).isSome ↔
      (Spec.ray pos dir ∩ Spec.box b.minPoint b.maxPoint).Nonempty) ∧
    (∀ n f, b.intersectsRay pos dir = some (n, f) → ∀ t : α,
      (n ≤ Ext.of t ∧ Ext.of t ≤ f) ↔ 0 ≤ t ∧ pos + t • dir ∈ Spec.box b.minPoint b.maxPoint) := by
  obtain ⟨H1, H2⟩ := C21_intersectLine_partial b pos dir hb hx hy hz (Ext.of 0) ⊤ le_top
    (by simp [Ext.of]; exact fun h => by cases h) top_ne_bot
  constructor
  · rw [Option.isSome_iff_ne_none, ne_eq, AABB.intersectsRay, H1, not_not]
    constructor
    · rintro ⟨t, h0, -, h⟩; exact ⟨_, ⟨t, Ext.of_le.1 h0, rfl⟩, h⟩
    · rintro ⟨_, ⟨t, h0, rfl⟩, h⟩; exact ⟨t, Ext.of_le.2 h0, le_top, h⟩
  · intro n f e t
    rw [(H2 n f e).2.2.2 t, Ext.of_le]
    simp

example := C21_ray_partial (⟨⟨0, 0, 0⟩, ⟨1, 2, 3⟩⟩ : AABB ℚ) ⟨-3, 0, 0⟩ ⟨3/5, 4/5, 0⟩ (by norm_num) (by norm_num [ClearDir, absF]) (by norm_num [ClearDir, absF]) (by norm_num [ClearDir, absF])

end Field

theorem Ext.map_mul (n : Ext ℝ) (c t : ℝ) (hc : 0 < c) :
    (n.map (WithTop.map (· * c)) ≤ Ext.of t ↔ n ≤ Ext.of (t / c)) ∧
    (Ext.of t ≤ n.map (WithTop.map (· * c)) ↔ Ext.of (t / c) ≤ n) := by
  induction n using WithBot.recBotCoe with
  | bot => simp [Ext.of]
  | coe n =>
    rw [WithBot.map_coe]
    induction n using WithTop.recTopCoe with
    | top => rw [WithTop.map_top]; exact ⟨⟨fun h => absurd h (by simp [Ext.of]), fun h => absurd h (by simp [Ext.of])⟩,
        ⟨fun _ => le_top, fun _ => le_top⟩⟩
    | coe n =>
      rw [WithTop.map_coe]
      exact ⟨Ext.of_le.trans ((le_div_iff₀ hc).symm.trans Ext.of_le.symm),
        Ext.of_le.trans ((div_le_iff₀ hc).symm.trans Ext.of_le.symm)⟩

/-- `Intersects(LineSegment)`, for segments longer than `1e-4`: true exactly when some point of the
segment is in the box, and the returned values delimit exactly the normalised parameters in `[0,1]`
whose point is inside. The direction components must be zero or at least `1e-4` of the length. -/
theorem C21_segment_partial (b : AABB ℝ) (p q : V3 ℝ)
    (hb : b.minPoint.x ≤ b.maxPoint.x ∧ b.minPoint.y ≤ b.maxPoint.y ∧ b.minPoint.z ≤ b.maxPoint.z)
    (hlen : 1 / 10000 < len (q - p))
    (hx : ClearDir ((q.x - p.x) / len (q - p))) (hy : ClearDir ((q.y - p.y) / len (q - p)))
    (hz : ClearDir ((q.z - p.z) / len (q - p))) :
    ((b.intersectsSegment p q).isSome ↔
      (Spec.seg p q ∩ Spec.box b.minPoint b.maxPoint).Nonempty) ∧
    (∀ n f, b.intersectsSegment p q = some (n, f) → ∀ t : ℝ,
      (n ≤ Ext.of t ∧ Ext.of t ≤ f) ↔
        0 ≤ t ∧ t ≤ 1 ∧ p + t • (q - p) ∈ Spec.box b.minPoint b.maxPoint) := by
  have hpos : 0 < len (q - p) := lt_trans (by norm_num) hlen
  have hl : ¬ (len (q - p) ≤ 1 / 10000) := not_le.2 hlen
  have hdir : ∀ t : ℝ, p + t • ((1 / len (q - p)) • (q - p)) = p + (t * (1 / len (q - p))) • (q - p) := by
    intro t; ext <;> simp <;> ring
  have hx' : ClearDir ((1 / len (q - p)) • (q - p)).x := by simpa [div_eq_inv_mul] using hx
  have hy' : ClearDir ((1 / len (q - p)) • (q - p)).y := by simpa [div_eq_inv_mul] using hy
  have hz' : ClearDir ((1 / len (q - p)) • (q - p)).z := by simpa [div_eq_inv_mul] using hz
  obtain ⟨H1, H2⟩ := C21_intersectLine_partial b p ((1 / len (q - p)) • (q - p)) hb hx' hy' hz'
    (Ext.of 0) (Ext.of (len (q - p))) (Ext.of_le.2 hpos.le) (by simp [Ext.of]; exact fun h => by cases h)
    (by simp [Ext.of])
  have heq : b.intersectsSegment p q = match b.intersectLine p ((1 / len (q - p)) • (q - p)) (Ext.of 0) (Ext.of (len (q - p))) with
    | none => none
    | some (n, f) => some (n.map (WithTop.map (· * (1 / len (q - p)))), f.map (WithTop.map (· * (1 / len (q - p))))) := by
    unfold AABB.intersectsSegment
    exact if_neg hl
  have hc : 0 < 1 / len (q - p) := one_div_pos.2 hpos
  rw [heq]
  rcases e : b.intersectLine p ((1 / len (q - p)) • (q - p)) (Ext.of 0) (Ext.of (len (q - p))) with _ | ⟨n, f⟩
  · refine ⟨?_, by simp⟩
    simp only [Option.isSome_none, Bool.false_eq_true, false_iff]
    rintro ⟨_, ⟨t, t0, t1, rfl⟩, hm⟩
    apply (H1.1 e)
    refine ⟨t * len (q - p), Ext.of_le.2 (by positivity), Ext.of_le.2 (by nlinarith), ?_⟩
    rw [hdir]
    have : t * len (q - p) * (1 / len (q - p)) = t := by field_simp
    rwa [this]
  · obtain ⟨hle, hnt, hfb, k⟩ := H2 n f e
    have k' : ∀ t : ℝ, (n ≤ Ext.of (t / (1 / len (q - p))) ∧ Ext.of (t / (1 / len (q - p))) ≤ f) ↔
        0 ≤ t ∧ t ≤ 1 ∧ p + t • (q - p) ∈ Spec.box b.minPoint b.maxPoint := by
      intro t
      rw [k, Ext.of_le, Ext.of_le, hdir]
      have e1 : t / (1 / len (q - p)) * (1 / len (q - p)) = t := by field_simp
      have e2 : t / (1 / len (q - p)) = t * len (q - p) := by field_simp
      rw [e1, e2]
      have a1 : 0 ≤ t * len (q - p) ↔ 0 ≤ t := by
        constructor
        · intro h; by_contra hneg; nlinarith [mul_neg_of_neg_of_pos (not_le.1 hneg) hpos]
        · intro h; positivity
      have a2 : t * len (q - p) ≤ len (q - p) ↔ t ≤ 1 := by
        constructor
        · intro h; by_contra hneg; nlinarith [not_le.1 hneg]
        · intro h; nlinarith
      rw [a1, a2]
    constructor
    · simp only [Option.isSome_some, true_iff]
      obtain ⟨t, ht⟩ := exists_mem n f hle hnt hfb
      have := (k' (t * (1 / len (q - p)))).1 (by
        have : t * (1 / len (q - p)) / (1 / len (q - p)) = t := by field_simp
        rw [this]; exact ht)
      exact ⟨_, ⟨_, this.1, this.2.1, rfl⟩, this.2.2⟩
    · rintro n' f' hc' t
      cases hc'
      rw [(Ext.map_mul n _ t hc).1, (Ext.map_mul f _ t hc).2]
      exact k' t

example : (1 : ℝ) / 10000 < len ((⟨0, 0, 2⟩ : V3 ℝ) - ⟨0, 0, 0⟩) := by
  have : len ((⟨0, 0, 2⟩ : V3 ℝ) - ⟨0, 0, 0⟩) = 2 := by
    unfold len
    rw [show lenSq ((⟨0, 0, 2⟩ : V3 ℝ) - ⟨0, 0, 0⟩) = 2 ^ 2 by simp [lenSq_eq]; norm_num]
    exact Real.sqrt_sq (by norm_num)
  rw [this]; norm_num

/-- The tolerance makes the full statement false: a unit direction with a small y component passes
through a (long) box and is reported as a miss. -/
theorem C21_tolerance_counterexample :
    ∃ (b : AABB ℚ) (pos dir : V3 ℚ), lenSq dir = 1 ∧
      (b.minPoint.x ≤ b.maxPoint.x ∧ b.minPoint.y ≤ b.maxPoint.y ∧ b.minPoint.z ≤ b.maxPoint.z) ∧
      (Spec.ray pos dir ∩ Spec.box b.minPoint b.maxPoint).Nonempty ∧ b.intersectsRay pos dir = none := by
  refine ⟨⟨⟨0, 0, 0⟩, ⟨100000, 1, 1⟩⟩, ⟨0, -1, 0⟩,
    ⟨(40000 ^ 2 - 1) / (40000 ^ 2 + 1), 2 * 40000 / (40000 ^ 2 + 1), 0⟩, ?_, ?_, ?_, ?_⟩
  · norm_num [lenSq_eq]
  · norm_num
  · refine ⟨⟨(40000 ^ 2 - 1) / (2 * 40000), 0, 0⟩, ⟨(40000 ^ 2 + 1) / (2 * 40000), by norm_num, ?_⟩, ?_⟩
    · ext <;> norm_num
    · simp only [Spec.box, Set.mem_ofPred_eq]; norm_num
  · decide +kernel

/-- Segments not longer than `1e-4` are treated as their first end point: one whose other end is in
the box is reported as a miss. -/
theorem C21_short_segment_counterexample :
    ∃ (b : AABB ℝ) (p q : V3 ℝ), q ∈ Spec.box b.minPoint b.maxPoint ∧ b.intersectsSegment p q = none := by
  refine ⟨⟨⟨0, 0, 0⟩, ⟨1, 1, 1⟩⟩, ⟨-1 / 20000, 0, 0⟩, ⟨0, 0, 0⟩, by simp [Spec.box], ?_⟩
  unfold AABB.intersectsSegment
  have hl : Real.sqrt (lenSq ((⟨0, 0, 0⟩ : V3 ℝ) - ⟨-1 / 20000, 0, 0⟩)) ≤ 1 / 10000 := by
    rw [Real.sqrt_le_left (by norm_num)]
    simp [lenSq_eq]; norm_num
  simp only [hl, if_true]
  rw [if_neg]
  simp only [AABB.containsPoint, Bool.and_eq_true, decide_eq_true_eq]
  intro h
  have := h.1.1.1.1.1
  norm_num at this

end MGL
