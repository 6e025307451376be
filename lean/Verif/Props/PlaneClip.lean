import Verif.Props.Plane

/-! C26: clipping by a plane. -/

namespace MGL
open V3

section Field
variable {α : Type*} [Field α] [LinearOrder α] [IsStrictOrderedRing α]

/-- C26: `Clip(a, b)` keeps exactly the part of the segment in the closed positive half space; it discards
the segment only when no point of it lies strictly in front of the plane. The case left out, a first
end point exactly on the plane and a second one in front of it, is `C26_clip_violation`. -/
theorem C26_clip_partial (p : Plane α) (a b : V3 α) (h : p.signedDistance a ≠ 0 ∨ p.signedDistance b ≤ 0) :
    match p.clip a b with
    | none => ∀ x ∈ Spec.seg a b, dot p.normal x ≤ p.d
    | some (a', b') => Spec.seg a' b' = Spec.seg a b ∩ {x | p.d ≤ dot p.normal x} := by
  have sd : ∀ y, dot p.normal y = p.signedDistance y + p.d := by intro y; unfold Plane.signedDistance; ring
  have hden : dot p.normal (b - a) = p.signedDistance b - p.signedDistance a := by
    rw [dot_sub, sd, sd]; ring
  have hnum : p.d - dot p.normal a = -p.signedDistance a := by rw [sd]; ring
  have f := p.sd_seg a b
  have hc := intersectLinePlane_cases p.normal p.d a (b - a)
  rw [hden, hnum] at hc
  -- all points of the segment on one side
  have keepall : (∀ t : α, 0 ≤ t → t ≤ 1 → 0 ≤ p.signedDistance a + t * (p.signedDistance b - p.signedDistance a)) →
      Spec.seg a b = Spec.seg a b ∩ {x | p.d ≤ dot p.normal x} := by
    intro hk
    ext x; constructor
    · rintro ⟨t, h0, h1, rfl⟩
      refine ⟨⟨t, h0, h1, rfl⟩, ?_⟩
      show _ ≤ dot _ _
      rw [sd, f]; linarith [hk t h0 h1]
    · exact fun hx => hx.1
  have dropall : (∀ t : α, 0 ≤ t → t ≤ 1 → p.signedDistance a + t * (p.signedDistance b - p.signedDistance a) ≤ 0) →
      ∀ x ∈ Spec.seg a b, dot p.normal x ≤ p.d := by
    rintro hk _ ⟨t, h0, h1, rfl⟩
    rw [sd, f]; linarith [hk t h0 h1]
  have hclip : p.clip a b =
    if (Plane.intersectLinePlane p.normal p.d a (b - a)).1 = false ∨ (Plane.intersectLinePlane p.normal p.d a (b - a)).2 ≤ 0 ∨
      (Plane.intersectLinePlane p.normal p.d a (b - a)).2 ≥ 1 then
      if p.signedDistance a ≤ 0 then none else some (a, b)
    else if p.isOnPositiveSide a then some (a, a + (Plane.intersectLinePlane p.normal p.d a (b - a)).2 • (b - a))
      else some (a + (Plane.intersectLinePlane p.normal p.d a (b - a)).2 • (b - a), b) := rfl
  have hpos : p.isOnPositiveSide a = true ↔ 0 ≤ p.signedDistance a := by
    unfold Plane.isOnPositiveSide; rw [decide_eq_true_iff]
  rw [hclip]
  generalize p.signedDistance a = x at *
  generalize p.signedDistance b = y at *
  rcases hc with ⟨hne, he⟩ | ⟨h0, hpar, -⟩
  · rw [he]
    simp only [Bool.true_eq_false, false_or]
    generalize ht : -x / (y - x) = t at *
    have htx : t * (y - x) = -x := by rw [← ht]; exact div_mul_cancel₀ _ hne
    split_ifs with h1 h2 h3
    · -- no crossing inside, first point behind
      show ∀ _ ∈ _, _
      apply dropall
      intro s hs0 hs1
      rcases h1 with h1 | h1
      · rcases h2.lt_or_eq with hx | hx
        · have : y - x < 0 := by
            by_contra hc; push Not at hc
            have hc := lt_of_le_of_ne hc (Ne.symm hne); nlinarith
          nlinarith
        · subst hx
          rcases h with h | h
          · exact absurd rfl h
          · nlinarith
      · have : y ≤ 0 := by
          by_contra hy; push Not at hy
          have : 0 < y - x := by linarith
          nlinarith
        nlinarith
    · show Spec.seg a b = _
      apply keepall
      push Not at h2
      intro s hs0 hs1
      have hy : 0 ≤ y := by
        by_contra hy; push Not at hy
        have hd : y - x < 0 := by linarith
        rcases h1 with h1 | h1 <;> nlinarith
      nlinarith
    · rw [hpos] at h3
      push Not at h1
      show Spec.seg a (a + t • (b - a)) = _
      rw [subseg_left a b t h1.1.le h1.2.le]
      have hd : y - x < 0 := by
        by_contra hc; push Not at hc
        have hc := lt_of_le_of_ne hc (Ne.symm hne)
        nlinarith
      ext q; constructor
      · rintro ⟨s, hs0, hs1, rfl⟩
        refine ⟨⟨s, hs0, by linarith, rfl⟩, ?_⟩
        show _ ≤ dot _ _
        rw [sd, f]; nlinarith
      · rintro ⟨⟨s, hs0, hs1, rfl⟩, hs⟩
        have hs : p.d ≤ dot p.normal (a + s • (b - a)) := hs
        rw [sd, f] at hs
        exact ⟨s, hs0, by nlinarith, rfl⟩
    · rw [hpos] at h3
      push Not at h1 h3
      show Spec.seg (a + t • (b - a)) b = _
      rw [subseg_right a b t h1.1.le h1.2.le]
      have hd : 0 < y - x := by nlinarith
      ext q; constructor
      · rintro ⟨s, hs0, hs1, rfl⟩
        refine ⟨⟨s, by linarith, by linarith, rfl⟩, ?_⟩
        show _ ≤ dot _ _
        rw [sd, f]; nlinarith
      · rintro ⟨⟨s, hs0, hs1, rfl⟩, hs⟩
        have hs : p.d ≤ dot p.normal (a + s • (b - a)) := hs
        rw [sd, f] at hs
        exact ⟨s, by nlinarith, hs1, rfl⟩
  · rw [if_pos (Or.inr (Or.inl h0.le))]
    have noc : ∀ s : α, 0 ≤ s → s ≤ 1 → (x < 0 → x + s * (y - x) < 0) ∧ (0 < x → 0 < x + s * (y - x)) ∧
        (x = 0 → y = 0) := by
      intro s hs0 hs1
      rcases hpar with hp | ⟨hp1, hp2⟩
      · have : y = x := by linarith
        subst this
        simp
      · by_cases hne : y - x = 0
        · have : y = x := by linarith
          subst this
          simp
        · have hx : x ≠ 0 := by
            rintro rfl; rw [neg_zero, zero_div, abs_zero] at hp2; norm_num at hp2
          rw [abs_div, abs_neg, le_div_iff₀ (abs_pos.2 hne)] at hp2
          have h3 : s * |y - x| < |x| := by
            have := abs_pos.2 hne
            nlinarith [mul_le_mul_of_nonneg_right hs1 (abs_nonneg (y - x))]
          have h4 : |s * (y - x)| < |x| := by rw [abs_mul, abs_of_nonneg hs0]; exact h3
          refine ⟨fun hx => ?_, fun hx => ?_, fun h => absurd h hx⟩
          · rw [abs_of_neg hx] at h4; linarith [(abs_lt.1 h4).2]
          · rw [abs_of_pos hx] at h4; linarith [(abs_lt.1 h4).1]
    split_ifs with h2
    · show ∀ _ ∈ _, _
      apply dropall
      intro s hs0 hs1
      rcases h2.lt_or_eq with hx | hx
      · exact ((noc s hs0 hs1).1 hx).le
      · have := (noc s hs0 hs1).2.2 hx
        rw [hx, this]; simp
    · show Spec.seg a b = _
      apply keepall
      intro s hs0 hs1
      exact ((noc s hs0 hs1).2.1 (not_le.1 h2)).le

/-- The hypothesis, a crossing and its result. -/
example : (Plane.mk (⟨0, 0, 1⟩ : V3 ℚ) 1).signedDistance ⟨0, 0, 3⟩ ≠ 0 ∧
    (Plane.mk (⟨0, 0, 1⟩ : V3 ℚ) 1).clip ⟨0, 0, 3⟩ ⟨4, 0, -1⟩ = some (⟨0, 0, 3⟩, ⟨2, 0, 1⟩) := by
  constructor
  · norm_num [Plane.signedDistance, dot]
  · have : Plane.intersectLinePlane (⟨0, 0, 1⟩ : V3 ℚ) 1 ⟨0, 0, 3⟩ (⟨4, 0, -1⟩ - ⟨0, 0, 3⟩) = (true, 1 / 2) := by
      unfold Plane.intersectLinePlane; norm_num [dot, absF]
    unfold Plane.clip
    rw [this]
    norm_num [Plane.isOnPositiveSide, Plane.signedDistance, dot]
    ext <;> norm_num

/-- C26 fails when the first end point is exactly on the plane and the second one in front of it: the whole
segment is discarded although all of it is in the positive half space. -/
theorem C26_clip_violation : ∃ (p : Plane ℚ) (a b : V3 ℚ), lenSq p.normal = 1 ∧ p.clip a b = none ∧
    ∀ x ∈ Spec.seg a b, p.d ≤ dot p.normal x := by
  refine ⟨⟨⟨0, 0, 1⟩, 0⟩, ⟨0, 0, 0⟩, ⟨0, 0, 1⟩, by norm_num [lenSq, dot], ?_, ?_⟩
  · norm_num [Plane.clip, Plane.intersectLinePlane, Plane.signedDistance, dot, absF]
  · rintro _ ⟨t, h0, -, rfl⟩
    simpa [dot] using h0

/-- The set of points a `Clip(Line)` result stands for. -/
def Plane.LineClip.points (l : Line α) : Plane.LineClip α → Set (V3 α)
  | .nothing => ∅
  | .whole => Spec.line l.pos l.dir
  | .ray r => Spec.ray r.pos r.dir

/-- C26: `Clip(Line)` keeps exactly the part of the line in the closed positive half space, for lines that
are not within 1e-4 of parallel, and for exactly parallel lines that are at least 1e-3 away from the plane.
For the other lines see `C26_clipLine_violation`. -/
theorem C26_clipLine_partial (p : Plane α) (l : Line α)
    (h : 1 / 10000 < |dot p.normal l.dir| ∨ (dot p.normal l.dir = 0 ∧ 1 / 1000 ≤ |p.signedDistance l.pos|)) :
    (p.clipLine l).points l = Spec.line l.pos l.dir ∩ {x | p.d ≤ dot p.normal x} := by
  have e : ∀ t : α, dot p.normal (l.pos + t • l.dir) = dot p.normal l.pos + t * dot p.normal l.dir := by
    intro t; rw [dot_add, dot_smul]
  rcases h with h | ⟨h, hd⟩
  · have hne : dot p.normal l.dir ≠ 0 := by
      intro h0; rw [h0, abs_zero] at h; norm_num at h
    have hi : Plane.intersectLinePlane p.normal p.d l.pos l.dir = (true, (p.d - dot p.normal l.pos) / dot p.normal l.dir) := by
      exact if_pos (by rw [absF_eq]; exact h)
    unfold Plane.clipLine
    rw [hi]
    simp only [Bool.true_eq_false, if_false]
    generalize ht : (p.d - dot p.normal l.pos) / dot p.normal l.dir = t
    have htx : t * dot p.normal l.dir = p.d - dot p.normal l.pos := by rw [← ht]; exact div_mul_cancel₀ _ hne
    rw [dot_comm l.dir]
    ext x
    constructor
    · rintro ⟨s, hs, rfl⟩
      show _ ∧ _ ≤ dot _ _
      dsimp only
      split_ifs with h0
      · refine ⟨⟨t + s, by ext <;> simp <;> ring⟩, ?_⟩
        rw [dot_add, dot_smul, e, htx]; nlinarith
      · refine ⟨⟨t - s, by ext <;> simp <;> ring⟩, ?_⟩
        push Not at h0
        rw [dot_add, dot_smul, dot_neg, e, htx]; nlinarith
    · rintro ⟨⟨s, rfl⟩, hs⟩
      have hs : p.d ≤ dot p.normal (l.pos + s • l.dir) := hs
      rw [e] at hs
      show ∃ k, _
      dsimp only
      split_ifs with h0
      · refine ⟨s - t, ?_, by ext <;> simp <;> ring⟩
        have h0 := lt_of_le_of_ne h0 (Ne.symm hne)
        by_contra hc; push Not at hc; nlinarith
      · refine ⟨t - s, ?_, by ext <;> simp <;> ring⟩
        push Not at h0
        by_contra hc; push Not at hc; nlinarith
  · have hd' : |dot p.normal l.pos - p.d| = |p.signedDistance l.pos| := rfl
    have hi : Plane.intersectLinePlane p.normal p.d l.pos l.dir = (false, 0) := by
      unfold Plane.intersectLinePlane
      rw [h]
      simp only [absF_eq, abs_zero, equalAbs, hd']
      norm_num
      norm_num at hd; exact hd
    unfold Plane.clipLine
    rw [hi]
    simp only [if_true]
    have e' : ∀ t : α, dot p.normal (l.pos + t • l.dir) = p.signedDistance l.pos + p.d := by
      intro t; rw [e, h]; unfold Plane.signedDistance; ring
    have hne : p.signedDistance l.pos ≠ 0 := by
      intro h0; rw [h0, abs_zero] at hd; norm_num at hd
    ext x
    split_ifs with h0
    · constructor
      · intro hx; exact absurd hx (Set.notMem_empty x)
      · rintro ⟨⟨s, rfl⟩, hs⟩
        have hs : p.d ≤ dot p.normal (l.pos + s • l.dir) := hs
        rw [e'] at hs
        exact absurd (le_antisymm h0 (by linarith)) hne
    · push Not at h0
      constructor
      · rintro ⟨s, rfl⟩
        refine ⟨⟨s, rfl⟩, ?_⟩
        show _ ≤ dot _ _
        rw [e']; linarith
      · exact fun hx => hx.1

example : 1 / 10000 < |dot (⟨0, 0, 1⟩ : V3 ℚ) ⟨3/5, 0, 4/5⟩| := by norm_num [dot]

/-- C26 fails for a line parallel to the plane and less than 1e-3 in front of it: a ray is returned that does
not even start on the plane, though the whole line is in the positive half space. -/
theorem C26_clipLine_violation : ∃ (p : Plane ℚ) (l : Line ℚ) (x : V3 ℚ), lenSq p.normal = 1 ∧ lenSq l.dir = 1 ∧
    x ∈ Spec.line l.pos l.dir ∩ {x | p.d ≤ dot p.normal x} ∧ x ∉ (p.clipLine l).points l := by
  refine ⟨⟨⟨0, 0, 1⟩, 0⟩, ⟨⟨0, 0, 1/2000⟩, ⟨1, 0, 0⟩⟩, ⟨-1, 0, 1/2000⟩, by norm_num [lenSq, dot], by norm_num [lenSq, dot], ?_, ?_⟩
  · refine ⟨⟨-1, by ext <;> norm_num⟩, ?_⟩
    show (0 : ℚ) ≤ dot (⟨0, 0, 1⟩ : V3 ℚ) ⟨-1, 0, 1/2000⟩
    norm_num [dot]
  · have hi : Plane.intersectLinePlane (⟨0, 0, 1⟩ : V3 ℚ) 0 ⟨0, 0, 1/2000⟩ ⟨1, 0, 0⟩ = (true, 0) := by
      norm_num [Plane.intersectLinePlane, dot, absF, equalAbs]
    unfold Plane.clipLine
    rw [hi]
    simp only [Bool.true_eq_false, if_false]
    rintro ⟨t, h0, ht⟩
    have := congrArg V3.x ht
    norm_num [dot] at this
    linarith

end Field

/-! ### Triangles -/

theorem tri_cycle (a b c : V3 ℝ) : Spec.tri b c a = Spec.tri a b c := by
  ext x; constructor
  · rintro ⟨u, v, w, hu, hv, hw, h1, rfl⟩
    exact ⟨w, u, v, hw, hu, hv, by linarith, by abel⟩
  · rintro ⟨u, v, w, hu, hv, hw, h1, rfl⟩
    exact ⟨v, w, u, hv, hw, hu, by linarith, by abel⟩

/-- The edges the plane cuts are longer than 1e-6 and shorter than 1e4. -/
theorem Plane.edgeCrossing_eq (p : Plane ℝ) (a b : V3 ℝ) (h1 : 1 / 1000000 < V3.dist a b) (h2 : V3.dist a b < 10000)
    (hs : (0 ≤ p.signedDistance a ∧ p.signedDistance b < 0) ∨ (p.signedDistance a < 0 ∧ 0 ≤ p.signedDistance b)) :
    p.edgeCrossing a b = a + (-p.signedDistance a / (p.signedDistance b - p.signedDistance a)) • (b - a) := by
  have sd : ∀ y, dot p.normal y = p.signedDistance y + p.d := by intro y; unfold Plane.signedDistance; ring
  have hL : f3Length (b - a) = V3.dist a b := by rw [V3.dist_comm]; rfl
  set L := V3.dist a b with hLd
  have hLpos : 0 < L := by linarith
  have hdir : LineSeg.dir ⟨a, b⟩ = (1 / L) • (b - a) := by
    unfold LineSeg.dir f3Normalized f3Normalize
    rw [hL, if_pos h1]
  have hden : dot p.normal (LineSeg.dir ⟨a, b⟩) = (p.signedDistance b - p.signedDistance a) / L := by
    rw [hdir, dot_smul, dot_sub, sd, sd]; ring
  have hnum : p.d - dot p.normal a = -p.signedDistance a := by rw [sd]; ring
  have hc := intersectLinePlane_cases p.normal p.d a (LineSeg.dir ⟨a, b⟩)
  rw [hden, hnum] at hc
  have hlen : LineSeg.length ⟨a, b⟩ = L := rfl
  have hxy : p.signedDistance b - p.signedDistance a ≠ 0 := by rcases hs with hs | hs <;> intro h0 <;> linarith [hs.1, hs.2]
  have hle : |p.signedDistance a| ≤ |p.signedDistance b - p.signedDistance a| := by
    rcases hs with ⟨h3, h4⟩ | ⟨h3, h4⟩
    · rw [abs_of_nonneg h3, abs_of_neg (by linarith)]; linarith
    · rw [abs_of_neg h3, abs_of_pos (by linarith)]; linarith
  unfold Plane.edgeCrossing Plane.intersectsSeg
  dsimp only
  rw [hlen]
  generalize p.signedDistance a = x at *
  generalize p.signedDistance b = y at *
  rcases hc with ⟨-, he⟩ | ⟨-, hpar, -⟩
  · rw [he]
    have : -x / ((y - x) / L) / L = -x / (y - x) := by field_simp
    rw [this]
  · exfalso
    rcases hpar with h0 | ⟨-, h0⟩
    · exact (div_ne_zero hxy hLpos.ne') h0
    · have e : -x / ((y - x) / L) = -x / (y - x) * L := by field_simp
      rw [e, abs_mul, abs_div, abs_neg, abs_of_pos hLpos] at h0
      have : |x| / |y - x| ≤ 1 := (div_le_one (abs_pos.2 hxy)).2 hle
      nlinarith

/-- One vertex in front. -/
theorem Plane.clip_one (p : Plane ℝ) (a b c : V3 ℝ) (ha : 0 ≤ p.signedDistance a) (hb : p.signedDistance b < 0)
    (hc : p.signedDistance c < 0) :
    Spec.tri a (a + (-p.signedDistance a / (p.signedDistance b - p.signedDistance a)) • (b - a))
      (a + (-p.signedDistance a / (p.signedDistance c - p.signedDistance a)) • (c - a)) =
    Spec.tri a b c ∩ {x | p.d ≤ dot p.normal x} := by
  have sd : ∀ u v w : ℝ, u + v + w = 1 → dot p.normal (u • a + v • b + w • c) =
      u * p.signedDistance a + v * p.signedDistance b + w * p.signedDistance c + p.d := by
    intro u v w h; simp only [dot_add, dot_smul, Plane.signedDistance]
    linear_combination p.d * h
  generalize p.signedDistance a = x at *
  generalize p.signedDistance b = y at *
  generalize p.signedDistance c = z at *
  have hy : y - x < 0 := by linarith
  have hz : z - x < 0 := by linarith
  generalize hs : -x / (y - x) = s
  generalize hr : -x / (z - x) = r
  have es : s * (y - x) = -x := by rw [← hs]; exact div_mul_cancel₀ _ hy.ne
  have er : r * (z - x) = -x := by rw [← hr]; exact div_mul_cancel₀ _ hz.ne
  have s0 : 0 ≤ s := by rw [← hs]; exact div_nonneg_of_nonpos (by linarith) hy.le
  have r0 : 0 ≤ r := by rw [← hr]; exact div_nonneg_of_nonpos (by linarith) hz.le
  have s1 : s ≤ 1 := by rw [← hs]; rw [div_le_one_of_neg hy]; linarith
  have r1 : r ≤ 1 := by rw [← hr]; rw [div_le_one_of_neg hz]; linarith
  ext q; constructor
  · rintro ⟨u, v, w, hu, hv, hw, h1, rfl⟩
    have e : u • a + v • (a + s • (b - a)) + w • (a + r • (c - a)) = (u + v * (1 - s) + w * (1 - r)) • a + (v * s) • b + (w * r) • c := by
      ext <;> simp <;> ring
    rw [e]
    have h2 : u + v * (1 - s) + w * (1 - r) + v * s + w * r = 1 := by linarith
    refine ⟨⟨_, _, _, ?_, mul_nonneg hv s0, mul_nonneg hw r0, h2, rfl⟩, ?_⟩
    · have := mul_nonneg hv (sub_nonneg.2 s1)
      have := mul_nonneg hw (sub_nonneg.2 r1)
      linarith
    · show p.d ≤ dot p.normal _
      rw [sd _ _ _ h2]
      have : (u + v * (1 - s) + w * (1 - r)) * x + v * s * y + w * r * z = u * x := by
        linear_combination v * es + w * er
      rw [this]; linarith [mul_nonneg hu ha]
  · rintro ⟨⟨u, v, w, hu, hv, hw, h1, rfl⟩, hq⟩
    have hq : p.d ≤ dot p.normal (u • a + v • b + w • c) := hq
    rw [sd _ _ _ h1] at hq
    rcases ha.lt_or_eq with hx | hx
    · have sne : 0 < s := by rw [← hs]; exact div_pos_of_neg_of_neg (by linarith) hy
      have rne : 0 < r := by rw [← hr]; exact div_pos_of_neg_of_neg (by linarith) hz
      have ev : v / s * s = v := div_mul_cancel₀ _ sne.ne'
      have ew : w / r * r = w := div_mul_cancel₀ _ rne.ne'
      generalize v / s = v' at *
      generalize w / r = w' at *
      have hv' : 0 ≤ v' := by by_contra hcc; push Not at hcc; nlinarith
      have hw' : 0 ≤ w' := by by_contra hcc; push Not at hcc; nlinarith
      refine ⟨1 - v' - w', v', w', ?_, hv', hw', by ring, ?_⟩
      · have : u * x + v * y + w * z = (1 - v' - w') * x := by
          rw [← ev, ← ew] at h1 ⊢
          linear_combination v' * es + w' * er + x * h1
        by_contra hcc; push Not at hcc; nlinarith
      · rw [← ev, ← ew] at h1 ⊢
        have hu' : u = 1 - v' * s - w' * r := by linarith
        subst hu'
        ext <;> simp <;> ring
    · subst hx
      have h3 : v * y ≤ 0 := by nlinarith
      have h4 : w * z ≤ 0 := by nlinarith
      have v0 : v = 0 := by
        by_contra hne; have := lt_of_le_of_ne hv (Ne.symm hne); nlinarith
      have w0 : w = 0 := by
        by_contra hne; have := lt_of_le_of_ne hw (Ne.symm hne); nlinarith
      subst v0 w0
      have : u = 1 := by linarith
      subst this
      exact ⟨1, 0, 0, zero_le_one, le_rfl, le_rfl, by ring, by ext <;> simp⟩

/-- One vertex behind. -/
theorem Plane.clip_two (p : Plane ℝ) (a b c : V3 ℝ) (ha : p.signedDistance a < 0) (hb : 0 ≤ p.signedDistance b)
    (hc : 0 ≤ p.signedDistance c) :
    Spec.tri (a + (-p.signedDistance a / (p.signedDistance b - p.signedDistance a)) • (b - a)) b c ∪
    Spec.tri c (a + (-p.signedDistance a / (p.signedDistance c - p.signedDistance a)) • (c - a))
      (a + (-p.signedDistance a / (p.signedDistance b - p.signedDistance a)) • (b - a)) =
    Spec.tri a b c ∩ {x | p.d ≤ dot p.normal x} := by
  have sd : ∀ u v w : ℝ, u + v + w = 1 → dot p.normal (u • a + v • b + w • c) =
      u * p.signedDistance a + v * p.signedDistance b + w * p.signedDistance c + p.d := by
    intro u v w h; simp only [dot_add, dot_smul, Plane.signedDistance]
    linear_combination p.d * h
  generalize p.signedDistance a = x at *
  generalize p.signedDistance b = y at *
  generalize p.signedDistance c = z at *
  have hy : 0 < y - x := by linarith
  have hz : 0 < z - x := by linarith
  generalize hs : -x / (y - x) = s
  generalize hr : -x / (z - x) = r
  have es : s * (y - x) = -x := by rw [← hs]; exact div_mul_cancel₀ _ hy.ne'
  have er : r * (z - x) = -x := by rw [← hr]; exact div_mul_cancel₀ _ hz.ne'
  have s0 : 0 < s := by rw [← hs]; exact div_pos (by linarith) hy
  have r0 : 0 < r := by rw [← hr]; exact div_pos (by linarith) hz
  have s1 : s ≤ 1 := by rw [← hs]; rw [div_le_one hy]; linarith
  have r1 : r ≤ 1 := by rw [← hr]; rw [div_le_one hz]; linarith
  ext q; constructor
  · rintro (⟨u, v, w, hu, hv, hw, h1, rfl⟩ | ⟨u, v, w, hu, hv, hw, h1, rfl⟩)
    · have e : u • (a + s • (b - a)) + v • b + w • c = (u * (1 - s)) • a + (u * s + v) • b + w • c := by
        ext <;> simp <;> ring
      rw [e]
      have h2 : u * (1 - s) + (u * s + v) + w = 1 := by linarith
      refine ⟨⟨_, _, _, mul_nonneg hu (by linarith), add_nonneg (mul_nonneg hu s0.le) hv, hw, h2, rfl⟩, ?_⟩
      show p.d ≤ dot p.normal _
      rw [sd _ _ _ h2]
      have : u * (1 - s) * x + (u * s + v) * y + w * z = v * y + w * z := by linear_combination u * es
      rw [this]; linarith [mul_nonneg hv hb, mul_nonneg hw hc]
    · have e : u • c + v • (a + r • (c - a)) + w • (a + s • (b - a)) =
          (v * (1 - r) + w * (1 - s)) • a + (w * s) • b + (u + v * r) • c := by
        ext <;> simp <;> ring
      rw [e]
      have h2 : v * (1 - r) + w * (1 - s) + w * s + (u + v * r) = 1 := by linarith
      refine ⟨⟨_, _, _, add_nonneg (mul_nonneg hv (by linarith)) (mul_nonneg hw (by linarith)), mul_nonneg hw s0.le,
        add_nonneg hu (mul_nonneg hv r0.le), h2, rfl⟩, ?_⟩
      show p.d ≤ dot p.normal _
      rw [sd _ _ _ h2]
      have : (v * (1 - r) + w * (1 - s)) * x + w * s * y + (u + v * r) * z = u * z := by
        linear_combination w * es + v * er
      rw [this]; linarith [mul_nonneg hu hc]
  · rintro ⟨⟨u, v, w, hu, hv, hw, h1, rfl⟩, hq⟩
    have hq : p.d ≤ dot p.normal (u • a + v • b + w • c) := hq
    rw [sd _ _ _ h1] at hq
    by_cases hcase : 0 ≤ v * y + u * x
    · left
      rcases hb.lt_or_eq with hy0 | hy0
      · have s1' : 0 < 1 - s := by nlinarith
        have eu : u / (1 - s) * (1 - s) = u := div_mul_cancel₀ _ s1'.ne'
        generalize u / (1 - s) = k at *
        have hk : 0 ≤ k := by by_contra hcc; push Not at hcc; nlinarith
        refine ⟨k, v - k * s, w, hk, ?_, hw, by linear_combination h1 + eu, ?_⟩
        · have : (v - k * s) * y = v * y + u * x := by
            rw [← eu]; linear_combination (-k) * es
          by_contra hcc; push Not at hcc; nlinarith
        · rw [← eu]; ext <;> simp <;> ring
      · subst hy0
        have u0 : u = 0 := by
          by_contra hne; have := lt_of_le_of_ne hu (Ne.symm hne); nlinarith
        subst u0
        exact ⟨0, v, w, le_rfl, hv, hw, by linarith, by ext <;> simp⟩
    · right
      push Not at hcase
      have hz0 : 0 < z := by
        rcases hc.lt_or_eq with h | h
        · exact h
        · subst h; linarith
      have r1' : 0 < 1 - r := by nlinarith
      have ev : v / s * s = v := div_mul_cancel₀ _ s0.ne'
      generalize v / s = v' at *
      have hv' : 0 ≤ v' := by by_contra hcc; push Not at hcc; nlinarith
      have ek : (u - v' * (1 - s)) / (1 - r) * (1 - r) = u - v' * (1 - s) := div_mul_cancel₀ _ r1'.ne'
      generalize (u - v' * (1 - s)) / (1 - r) = k at *
      have hk : 0 ≤ k := by
        have e1 : (u - v' * (1 - s)) * x = v * y + u * x := by rw [← ev]; linear_combination (-v') * es
        have : 0 < u - v' * (1 - s) := by by_contra hcc; push Not at hcc; nlinarith
        by_contra hcc; push Not at hcc; nlinarith
      refine ⟨w - k * r, k, v', ?_, hk, hv', by linear_combination h1 + ek + ev, ?_⟩
      · have : (w - k * r) * z = u * x + v * y + w * z := by
          rw [← ev]; linear_combination (-k) * er + x * ek - v' * es
        by_contra hcc; push Not at hcc; nlinarith
      · have hu' : u = k * (1 - r) + v' * (1 - s) := by linarith
        rw [hu', ← ev]
        ext <;> simp <;> ring

/-- C26: the triangles returned by `Clip(Triangle)` cover exactly the part of the triangle in the closed
positive half space (at most two triangles come back), if the edges are longer than 1e-6 and shorter than
1e4. For shorter edges see `C26_clipTri_violation`. -/
theorem C26_clipTri_partial (p : Plane ℝ) (t : Tri ℝ)
    (hab : 1 / 1000000 < V3.dist t.a t.b ∧ V3.dist t.a t.b < 10000)
    (hbc : 1 / 1000000 < V3.dist t.b t.c ∧ V3.dist t.b t.c < 10000)
    (hca : 1 / 1000000 < V3.dist t.c t.a ∧ V3.dist t.c t.a < 10000) :
    {x | ∃ s ∈ p.clipTri t, x ∈ Spec.tri s.a s.b s.c} = Spec.tri t.a t.b t.c ∩ {x | p.d ≤ dot p.normal x} ∧
    (p.clipTri t).length ≤ 2 := by
  have hba := hab; rw [V3.dist_comm] at hba
  have hcb := hbc; rw [V3.dist_comm] at hcb
  have hac := hca; rw [V3.dist_comm] at hac
  have hpos : ∀ v, p.isOnPositiveSide v = true ↔ 0 ≤ p.signedDistance v := by
    intro v; unfold Plane.isOnPositiveSide; rw [decide_eq_true_iff]
  have hneg : ∀ v, p.isOnPositiveSide v = false ↔ p.signedDistance v < 0 := by
    intro v; rw [← Bool.not_eq_true, hpos, not_le]
  have one : ∀ s : Tri ℝ, {x | ∃ s' ∈ [s], x ∈ Spec.tri s'.a s'.b s'.c} = Spec.tri s.a s.b s.c := by
    intro s; ext x; simp
  have two : ∀ s s' : Tri ℝ, {x | ∃ k ∈ [s, s'], x ∈ Spec.tri k.a k.b k.c} = Spec.tri s.a s.b s.c ∪ Spec.tri s'.a s'.b s'.c := by
    intro s s'; ext x; simp
  have sd : ∀ u v w : ℝ, u + v + w = 1 → dot p.normal (u • t.a + v • t.b + w • t.c) =
      u * p.signedDistance t.a + v * p.signedDistance t.b + w * p.signedDistance t.c + p.d := by
    intro u v w h; simp only [dot_add, dot_smul, Plane.signedDistance]
    linear_combination p.d * h
  unfold Plane.clipTri
  cases ha : p.isOnPositiveSide t.a <;> cases hb : p.isOnPositiveSide t.b <;> cases hc : p.isOnPositiveSide t.c <;>
    simp only [Bool.toNat_true, Bool.toNat_false, Nat.add_zero, Nat.zero_add, Nat.reduceAdd, OfNat.ofNat_ne_zero,
      one_ne_zero, if_true, if_false, reduceCtorEq, Bool.not_true, Bool.not_false, Nat.reduceEqDiff, OfNat.ofNat_eq_ofNat,
      OfNat.ofNat_ne_one, Bool.false_eq_true, OfNat.one_ne_ofNat, OfNat.zero_ne_ofNat] <;>
    (first | rw [hpos] at ha | rw [hneg] at ha) <;> (first | rw [hpos] at hb | rw [hneg] at hb) <;>
    (first | rw [hpos] at hc | rw [hneg] at hc)
  · refine ⟨?_, by simp⟩
    ext x; constructor
    · rintro ⟨s, hs, -⟩; simp at hs
    · rintro ⟨⟨u, v, w, hu, hv, hw, h1, rfl⟩, hq⟩
      exfalso
      have hq : p.d ≤ dot p.normal (u • t.a + v • t.b + w • t.c) := hq
      rw [sd _ _ _ h1] at hq
      have h3 : v * p.signedDistance t.b ≤ 0 := by nlinarith
      have h4 : w * p.signedDistance t.c ≤ 0 := by nlinarith
      have h5 : u * p.signedDistance t.a ≤ 0 := by nlinarith
      have v0 : v = 0 := by
        by_contra hne; have := lt_of_le_of_ne hv (Ne.symm hne); nlinarith
      have w0 : w = 0 := by
        by_contra hne; have := lt_of_le_of_ne hw (Ne.symm hne); nlinarith
      have u0 : u = 0 := by
        by_contra hne; have := lt_of_le_of_ne hu (Ne.symm hne); nlinarith
      subst u0 v0 w0; simp at h1
  · refine ⟨?_, by simp⟩
    rw [one]
    show Spec.tri t.c (p.edgeCrossing t.c t.a) (p.edgeCrossing t.c t.b) = _
    rw [p.edgeCrossing_eq _ _ hca.1 hca.2 (Or.inl ⟨hc, ha⟩), p.edgeCrossing_eq _ _ hcb.1 hcb.2 (Or.inl ⟨hc, hb⟩),
      p.clip_one _ _ _ hc ha hb, ← tri_cycle]
  · refine ⟨?_, by simp⟩
    rw [one]
    show Spec.tri t.b (p.edgeCrossing t.b t.c) (p.edgeCrossing t.b t.a) = _
    rw [p.edgeCrossing_eq _ _ hbc.1 hbc.2 (Or.inl ⟨hb, hc⟩), p.edgeCrossing_eq _ _ hba.1 hba.2 (Or.inl ⟨hb, ha⟩),
      p.clip_one _ _ _ hb hc ha, tri_cycle]
  · refine ⟨?_, by simp⟩
    rw [two]
    show Spec.tri (p.edgeCrossing t.a t.b) t.b t.c ∪ Spec.tri t.c (p.edgeCrossing t.a t.c) (p.edgeCrossing t.a t.b) = _
    rw [p.edgeCrossing_eq _ _ hab.1 hab.2 (Or.inr ⟨ha, hb⟩), p.edgeCrossing_eq _ _ hac.1 hac.2 (Or.inr ⟨ha, hc⟩),
      p.clip_two _ _ _ ha hb hc]
  · refine ⟨?_, by simp⟩
    rw [one]
    show Spec.tri t.a (p.edgeCrossing t.a t.b) (p.edgeCrossing t.a t.c) = _
    rw [p.edgeCrossing_eq _ _ hab.1 hab.2 (Or.inl ⟨ha, hb⟩), p.edgeCrossing_eq _ _ hac.1 hac.2 (Or.inl ⟨ha, hc⟩),
      p.clip_one _ _ _ ha hb hc]
  · refine ⟨?_, by simp⟩
    rw [two]
    show Spec.tri (p.edgeCrossing t.b t.c) t.c t.a ∪ Spec.tri t.a (p.edgeCrossing t.b t.a) (p.edgeCrossing t.b t.c) = _
    rw [p.edgeCrossing_eq _ _ hbc.1 hbc.2 (Or.inr ⟨hb, hc⟩), p.edgeCrossing_eq _ _ hba.1 hba.2 (Or.inr ⟨hb, ha⟩),
      p.clip_two _ _ _ hb hc ha, tri_cycle]
  · refine ⟨?_, by simp⟩
    rw [two]
    show Spec.tri (p.edgeCrossing t.c t.a) t.a t.b ∪ Spec.tri t.b (p.edgeCrossing t.c t.b) (p.edgeCrossing t.c t.a) = _
    rw [p.edgeCrossing_eq _ _ hca.1 hca.2 (Or.inr ⟨hc, ha⟩), p.edgeCrossing_eq _ _ hcb.1 hcb.2 (Or.inr ⟨hc, hb⟩),
      p.clip_two _ _ _ hc ha hb, ← tri_cycle]
  · refine ⟨?_, by simp⟩
    rw [one]
    ext x; constructor
    · rintro ⟨u, v, w, hu, hv, hw, h1, rfl⟩
      refine ⟨⟨u, v, w, hu, hv, hw, h1, rfl⟩, ?_⟩
      show p.d ≤ dot p.normal _
      rw [sd _ _ _ h1]
      linarith [mul_nonneg hu ha, mul_nonneg hv hb, mul_nonneg hw hc]
    · exact fun hx => hx.1


/-- A triangle with edges of length 5, 4 and 3, cut by a plane. -/
example : V3.dist (⟨3, 0, 0⟩ : V3 ℝ) ⟨0, 0, 4⟩ = 5 ∧ V3.dist (⟨0, 0, 4⟩ : V3 ℝ) ⟨0, 0, 0⟩ = 4 ∧
    V3.dist (⟨0, 0, 0⟩ : V3 ℝ) ⟨3, 0, 0⟩ = 3 ∧ (Plane.mk (⟨0, 0, 1⟩ : V3 ℝ) 1).isOnPositiveSide ⟨0, 0, 4⟩ = true ∧
    (Plane.mk (⟨0, 0, 1⟩ : V3 ℝ) 1).isOnPositiveSide ⟨0, 0, 0⟩ = false := by
  refine ⟨?_, ?_, ?_, ?_, ?_⟩
  · unfold V3.dist; rw [Real.sqrt_eq_iff_mul_self_eq_of_pos (by norm_num)]; norm_num [distSq, lenSq, dot]
  · unfold V3.dist; rw [Real.sqrt_eq_iff_mul_self_eq_of_pos (by norm_num)]; norm_num [distSq, lenSq, dot]
  · unfold V3.dist; rw [Real.sqrt_eq_iff_mul_self_eq_of_pos (by norm_num)]; norm_num [distSq, lenSq, dot]
  · norm_num [Plane.isOnPositiveSide, Plane.signedDistance, dot]
  · norm_num [Plane.isOnPositiveSide, Plane.signedDistance, dot]

/-- C26 fails for a triangle with an edge shorter than 1e-6: its direction is taken to be the x axis and the
crossing is lost, so a point of the triangle on the plane is not in the returned triangle. -/
theorem C26_clipTri_violation : ∃ (p : Plane ℝ) (t : Tri ℝ) (x : V3 ℝ), lenSq p.normal = 1 ∧
    x ∈ Spec.tri t.a t.b t.c ∧ p.d ≤ dot p.normal x ∧ ∀ s ∈ p.clipTri t, x ∉ Spec.tri s.a s.b s.c := by
  refine ⟨⟨⟨0, 0, 1⟩, 0⟩, ⟨⟨0, 0, 1/10000000⟩, ⟨0, 0, -1/10000000⟩, ⟨0, 1, -1⟩⟩, ⟨0, 0, 0⟩, by norm_num [lenSq, dot], ?_, ?_, ?_⟩
  · exact ⟨1/2, 1/2, 0, by norm_num, by norm_num, by norm_num, by norm_num, by ext <;> norm_num⟩
  · norm_num [dot]
  · set p : Plane ℝ := ⟨⟨0, 0, 1⟩, 0⟩ with hp
    have ha : p.isOnPositiveSide ⟨0, 0, 1/10000000⟩ = true := by norm_num [hp, Plane.isOnPositiveSide, Plane.signedDistance, dot]
    have hb : p.isOnPositiveSide ⟨0, 0, -1/10000000⟩ = false := by norm_num [hp, Plane.isOnPositiveSide, Plane.signedDistance, dot]
    have hc : p.isOnPositiveSide ⟨0, 1, -1⟩ = false := by norm_num [hp, Plane.isOnPositiveSide, Plane.signedDistance, dot]
    have hdir : LineSeg.dir ⟨⟨0, 0, 1/10000000⟩, ⟨0, 0, -1/10000000⟩⟩ = ⟨1, 0, 0⟩ := by
      unfold LineSeg.dir f3Normalized f3Normalize
      rw [if_neg]
      unfold f3Length
      rw [not_lt, Real.sqrt_le_left (by norm_num)]
      norm_num [lenSq, dot]
    have he : p.edgeCrossing ⟨0, 0, 1/10000000⟩ ⟨0, 0, -1/10000000⟩ = ⟨0, 0, 1/10000000⟩ := by
      unfold Plane.edgeCrossing Plane.intersectsSeg
      dsimp only
      rw [hdir]
      have : (Plane.intersectLinePlane p.normal p.d ⟨0, 0, 1/10000000⟩ ⟨1, 0, 0⟩).2 = 0 := by
        norm_num [hp, Plane.intersectLinePlane, dot, absF]
      rw [this]
      ext <;> simp
    unfold Plane.clipTri
    simp only [ha, hb, hc]
    simp only [Bool.toNat_true, Bool.toNat_false, Nat.add_zero, one_ne_zero, if_false, Nat.reduceEqDiff, if_true, Bool.false_eq_true,
      OfNat.one_ne_ofNat]
    rw [he]
    intro s hs
    rw [List.mem_singleton] at hs
    subst hs
    rintro ⟨u, v, w, -, -, -, h1, hx⟩
    unfold Plane.edgeCrossing at hx
    generalize (p.intersectsSeg _).2 = k at hx
    have hy := congrArg V3.y hx
    have hz := congrArg V3.z hx
    simp at hy hz
    have hwk : w * k = 0 := by rcases hy with h | h <;> simp [h]
    have : u + v + w = 0 := by linear_combination (-10000000 : ℝ) * hz + (10000000 * (1 + 1 / 10000000) : ℝ) * hwk
    linarith

end MGL
