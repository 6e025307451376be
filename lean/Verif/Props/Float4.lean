import Verif.Proofs.Float4
import Verif.Props.Float3
import Verif.Proofs.Scalar

/-! C104: vector operations of `float4`. -/

namespace MGL
open V4 Float4

/-- **C104** (partial): `Swizzled` picks the elements with the given indices, in their order; `xxxx` repeats the first element and
`xxxw`, `yyyw`, `zzzw` repeat one element and keep `w`. `yyyy`, `zzzz` and `wwww` are missing: see `C104_swizzle_violation`. -/
theorem C104_swizzle_partial (v : V4 ℝ) (i j k l : Fin 4) :
    (swizzled v i j k l).get = ![v.get i, v.get j, v.get k, v.get l] ∧ (swizzled3 v i j k) = ⟨v.get i, v.get j, v.get k⟩ ∧
    xxxx v = swizzled v 0 0 0 0 ∧ xxxw v = swizzled v 0 0 0 3 ∧ yyyw v = swizzled v 1 1 1 3 ∧ zzzw v = swizzled v 2 2 2 3 :=
  ⟨rfl, rfl, rfl, rfl, rfl, rfl⟩

/-- **C104**: `yyyy()`, `zzzz()` and `wwww()`, which should repeat the second, third and fourth element, all repeat the first. They are
right only for vectors in which that element equals the first. -/
theorem C104_swizzle_violation (v : V4 ℝ) :
    (yyyy v = swizzled v 1 1 1 1 ↔ v.y = v.x) ∧ (zzzz v = swizzled v 2 2 2 2 ↔ v.z = v.x) ∧ (wwww v = swizzled v 3 3 3 3 ↔ v.w = v.x) ∧
    yyyy ⟨1, 2, 3, 4⟩ = ⟨1, 1, 1, 1⟩ ∧ zzzz ⟨1, 2, 3, 4⟩ = ⟨1, 1, 1, 1⟩ ∧ wwww ⟨1, 2, 3, 4⟩ = ⟨1, 1, 1, 1⟩ := by
  refine ⟨?_, ?_, ?_, rfl, rfl, rfl⟩ <;>
    simp only [yyyy, zzzz, wwww, fromScalar, swizzled, V4.get, V4.mk.injEq, Matrix.cons_val] <;>
    exact ⟨fun h => h.1.symm, fun h => ⟨h.symm, h.symm, h.symm, h.symm⟩⟩

/-- **C104**: `Length`, `Distance` and `Dot` with suffix 3 are those of the first three elements; with suffix 4 or none they are those of
all four. -/
theorem C104_length (a b : V4 ℝ) :
    length3 a = V3.len a.xyz ∧ lengthSq3 a = V3.lenSq a.xyz ∧ length4 a = len a ∧ lengthSq4 a = lenSq a ∧
    distance3 a b = V3.dist a.xyz b.xyz ∧ distance4 a b = len (a - b) ∧ dot3 a b = V3.dot a.xyz b.xyz ∧ dot4 a b = dot a b :=
  ⟨rfl, rfl, rfl, rfl, by rw [V3.dist_eq_len]; rfl, rfl, rfl, rfl⟩

/-- **C104**: `IsZero` with its default tolerance accepts exactly the vectors of length at most 1e-3. -/
theorem C104_isZero (v : V4 ℝ) :
    (isZero4 v = true ↔ len v ≤ 1 / 1000) ∧ (isZero3 v = true ↔ V3.len v.xyz ≤ 1 / 1000) := by
  constructor
  · unfold isZero4; rw [decide_eq_true_iff, lengthSq4_eq, ← not_lt, lenSq_gt, not_lt]
  · unfold isZero3; rw [decide_eq_true_iff, lengthSq3_eq, ← not_lt, lenSq3_gt, not_lt]

/-- **C104**: `IsNormalized` accepts every unit vector, and accepts only vectors whose length differs from 1 by at most 1e-5. -/
theorem C104_isNormalized (v : V4 ℝ) :
    (len v = 1 → isNormalized4 v = true) ∧ (isNormalized4 v = true → |len v - 1| ≤ 1 / 100000) ∧
    (V3.len v.xyz = 1 → isNormalized3 v = true) ∧ (isNormalized3 v = true → |V3.len v.xyz - 1| ≤ 1 / 100000) := by
  have key : ∀ l : ℝ, 0 ≤ l → |l * l - 1| ≤ 1 / 100000 → |l - 1| ≤ 1 / 100000 := by
    intro l h0 h
    have e : l * l - 1 = (l - 1) * (l + 1) := by ring
    rw [e, abs_mul, abs_of_nonneg (by linarith : 0 ≤ l + 1)] at h
    nlinarith [abs_nonneg (l - 1)]
  unfold isNormalized4 isNormalized3
  simp only [decide_eq_true_iff]
  rw [lengthSq4_eq, lengthSq3_eq, ← Float4.len_mul_self, ← V3.len_mul_self]
  exact ⟨fun h => by rw [h]; norm_num, key _ (Float4.len_nonneg v), fun h => by rw [h]; norm_num, key _ (V3.len_nonneg _)⟩

example : len ⟨1 / 2, 1 / 2, 1 / 2, 1 / 2⟩ = 1 ∧ V3.len (⟨3 / 5, 0, 4 / 5, 7⟩ : V4 ℝ).xyz = 1 := by
  constructor
  · unfold len; rw [show lenSq (⟨1 / 2, 1 / 2, 1 / 2, 1 / 2⟩ : V4 ℝ) = 1 by simp only [lenSq, dot]; norm_num, Real.sqrt_one]
  · unfold V3.len
    rw [show V3.lenSq (⟨3 / 5, 0, 4 / 5, 7⟩ : V4 ℝ).xyz = 1 by simp only [V3.lenSq, V3.dot, xyz]; norm_num, Real.sqrt_one]

/-- **C104**: `Normalize` gives a unit vector. When `IsZero` does not regard the vector as zero it is the vector divided by its length, which
is returned; otherwise it is `(1, 0, 0, 0)` and 0 is returned. -/
theorem C104_normalize4 (v : V4 ℝ) :
    len (normalize4 v).1 = 1 ∧
    (isZero4 v = false → (normalize4 v).2 = len v ∧ len v • (normalize4 v).1 = v) ∧
    (isZero4 v = true → normalize4 v = (⟨1, 0, 0, 0⟩, 0)) := by
  have hz := (C104_isZero v).1
  refine ⟨?_, fun h => ?_, fun h => ?_⟩
  · have := Float4.lenSq_normalized v
    unfold len; rw [show (normalize4 v).1 = normalized4 v from rfl, this, Real.sqrt_one]
  · have h' : 1 / 1000 < len v := by by_contra hc; rw [hz.2 (not_lt.1 hc)] at h; cases h
    rw [normalize4_pos h']
    have h0 : len v ≠ 0 := by intro h0; rw [h0] at h'; norm_num at h'
    refine ⟨rfl, ?_⟩
    ext <;> simp <;> field_simp
  · exact normalize4_neg (not_lt.2 (hz.1 h))

example : isZero4 ⟨1, 2, 3, 4⟩ = false ∧ isZero4 ⟨0, 0, 0, 1 / 2000⟩ = true := by
  constructor <;> simp [isZero4, lengthSq4] <;> norm_num

/-- **C104**: `Normalize3` keeps `w` and gives a vector whose first three elements have length 1. When `IsZero3` does not regard the vector as
zero these are the old ones divided by their length, which is returned; otherwise they are `(1, 0, 0)` and 0 is returned. -/
theorem C104_normalize3 (v : V4 ℝ) :
    V3.len (normalize3 v).1.xyz = 1 ∧ (normalize3 v).1.w = v.w ∧
    (isZero3 v = false → (normalize3 v).2 = V3.len v.xyz ∧ V3.len v.xyz • (normalize3 v).1.xyz = v.xyz) ∧
    (isZero3 v = true → normalize3 v = (⟨1, 0, 0, v.w⟩, 0)) := by
  have hz := (C104_isZero v).2
  by_cases h' : 1 / 1000 < V3.len v.xyz
  · have h0 : V3.len v.xyz ≠ 0 := by intro h0; rw [h0] at h'; norm_num at h'
    rw [normalize3_pos h']
    refine ⟨?_, rfl, fun _ => ⟨rfl, ?_⟩, fun h => absurd (hz.1 h) (not_le.2 h')⟩
    · show V3.len ((1 / V3.len v.xyz) • v.xyz) = 1
      rw [V3.len_smul, abs_of_nonneg (by have := V3.len_nonneg v.xyz; positivity)]; field_simp
    · show V3.len v.xyz • ((1 / V3.len v.xyz) • v.xyz) = v.xyz
      ext <;> simp <;> field_simp
  · rw [normalize3_neg h']
    refine ⟨?_, rfl, fun h => ?_, fun _ => rfl⟩
    · show V3.len ⟨1, 0, 0⟩ = 1
      unfold V3.len; rw [show V3.lenSq (⟨1, 0, 0⟩ : V3 ℝ) = 1 by simp [V3.lenSq, V3.dot], Real.sqrt_one]
    · rw [hz.2 (not_lt.1 h')] at h; cases h

example : isZero3 ⟨1, 2, 3, 4⟩ = false ∧ isZero3 ⟨0, 0, 0, 5⟩ = true := by
  constructor <;> simp [isZero3, lengthSq3]; norm_num

/-- **C104**: `ScaleToLength3` keeps `w` and, unless `IsZero3` regards the vector as zero, gives the other elements the requested length and
returns the old one. -/
theorem C104_scaleToLength3 (v : V4 ℝ) (l : ℝ) (h : isZero3 v = false) :
    V3.len (scaleToLength3 v l).1.xyz = |l| ∧ (scaleToLength3 v l).1.w = v.w ∧ (scaleToLength3 v l).2 = V3.len v.xyz ∧
      (scaleToLength3 v l).1.xyz = (l / V3.len v.xyz) • v.xyz := by
  have h' : 1 / 1000 < V3.len v.xyz := by by_contra hc; rw [(C104_isZero v).2.2 (not_lt.1 hc)] at h; cases h
  have h0 : V3.len v.xyz ≠ 0 := by intro h0; rw [h0] at h'; norm_num at h'
  have e : scaleToLength3 v l = (.mk3 ((l / V3.len v.xyz) • v.xyz) v.w, V3.len v.xyz) := by
    unfold scaleToLength3
    rw [lengthSq3_eq]
    dsimp only
    rw [if_neg (not_lt.2 (lenSq3_gt.2 h').le)]
    refine Prod.ext ?_ rfl
    ext
    · exact mul_comm _ _
    · exact mul_comm _ _
    · exact mul_comm _ _
    · rfl
  rw [e]
  refine ⟨?_, rfl, rfl, rfl⟩
  show V3.len ((l / V3.len v.xyz) • v.xyz) = |l|
  rw [V3.len_smul, abs_div, abs_of_nonneg (V3.len_nonneg v.xyz)]; field_simp

example := C104_scaleToLength3 ⟨1, 2, 3, 4⟩ 7 (by simp [isZero3, lengthSq3]; norm_num)

/-- **C104**: `ScaleToLength` gives every non-zero vector the requested length and returns the old one. For the zero vector it divides by
zero. -/
theorem C104_scaleToLength (v : V4 ℝ) (l : ℝ) :
    (v = 0 → scaleToLength v l = none) ∧
    (v ≠ 0 → ∃ r, scaleToLength v l = some (r, len v) ∧ len r = |l| ∧ r = (l / len v) • v) := by
  constructor
  · rintro rfl
    unfold scaleToLength
    rw [if_pos (by simp [length4])]
  · intro h
    have h0 := Float4.len_pos h
    refine ⟨(l / len v) • v, ?_, ?_, rfl⟩
    · unfold scaleToLength
      rw [if_neg (show length4 v ≠ 0 from h0.ne')]
      rfl
    · rw [Float4.len_smul, abs_div, abs_of_pos h0]; field_simp

example : (⟨0, 0, 0, 1⟩ : V4 ℝ) ≠ 0 := fun h => by have := congrArg V4.w h; simp at this

/-- **C104**: `IsPerpendicular` compares the cosine of the angle with the tolerance, so it does not depend on the lengths of the vectors; it
accepts perpendicular vectors, and no vector that is not zero is perpendicular to itself. -/
theorem C104_isPerpendicular (a b : V4 ℝ) (s t : ℝ) (hs : s ≠ 0) (ht : t ≠ 0) :
    (dot a b = 0 → isPerpendicular a b = true) ∧ isPerpendicular (s • a) (t • b) = isPerpendicular a b ∧
    (isPerpendicular a a = true ↔ a = 0) := by
  refine ⟨fun h => ?_, ?_, ?_⟩
  · unfold isPerpendicular
    rw [decide_eq_true_iff, dot4_eq, h, lengthSq4_eq, lengthSq4_eq]
    have := mul_nonneg (Float4.lenSq_nonneg a) (Float4.lenSq_nonneg b)
    nlinarith
  · unfold isPerpendicular
    rw [dot4_eq, lengthSq4_eq, lengthSq4_eq, dot4_eq, lengthSq4_eq, lengthSq4_eq, Float4.lenSq_smul, Float4.lenSq_smul]
    have e : dot (s • a) (t • b) = s * t * dot a b := by simp only [dot, smul_x, smul_y, smul_z, smul_w]; ring
    have hp : 0 < (s * t) * (s * t) := mul_self_pos.2 (mul_ne_zero hs ht)
    rw [e]
    apply decide_eq_decide.2
    rw [show s * t * dot a b * (s * t * dot a b) = (s * t) * (s * t) * (dot a b * dot a b) by ring,
      show 1 / 100000 * (s * s * lenSq a) * (t * t * lenSq b) = (s * t) * (s * t) * (1 / 100000 * lenSq a * lenSq b) by ring]
    exact mul_le_mul_iff_right₀ hp
  · unfold isPerpendicular
    rw [decide_eq_true_iff, dot4_eq, lengthSq4_eq, show dot a a = lenSq a from rfl]
    constructor
    · intro h
      by_contra hn
      have := Float4.lenSq_pos hn
      nlinarith [mul_pos this this]
    · rintro rfl
      simp [lenSq, dot]

example := C104_isPerpendicular ⟨1, 2, 0, 0⟩ ⟨2, -1, 0, 5⟩ 3 (-2) (by norm_num) (by norm_num)

/-- **C104** (partial): for vectors with `w = 0` `IsPerpendicular3` is `IsPerpendicular`. For other vectors it is wrong:
`C104_isPerpendicular3_violation`. -/
theorem C104_isPerpendicular3_partial (a b : V4 ℝ) (ha : a.w = 0) : isPerpendicular3 a b = isPerpendicular a b := by
  unfold isPerpendicular3 isPerpendicular
  have : dot4 a b = dot3 a b := by simp [dot4, dot3, ha]
  rw [this]

example := C104_isPerpendicular3_partial ⟨1, 2, 0, 0⟩ ⟨2, -1, 0, 5⟩ rfl

/-- **C104**: `IsPerpendicular3`, documented to test the first three elements, scales its tolerance by the lengths of all four, so vectors
with a large `w` are reported perpendicular although their first three elements are equal. -/
theorem C104_isPerpendicular3_violation :
    isPerpendicular3 ⟨1, 0, 0, 1000⟩ ⟨1, 0, 0, 1000⟩ = true ∧ ∀ v : V3 ℝ, v ≠ 0 → ∃ w : ℝ, isPerpendicular3 (.mk3 v w) (.mk3 v w) = true := by
  constructor
  · simp [isPerpendicular3, dot3, lengthSq4]; norm_num
  · intro v hv
    refine ⟨100 * V3.len v, ?_⟩
    have e : lengthSq4 (.mk3 v (100 * V3.len v)) = 10001 * V3.lenSq v := by
      have := V3.len_mul_self v
      simp only [lengthSq4, mk3]
      have h2 : v.x * v.x + v.y * v.y + v.z * v.z = V3.lenSq v := rfl
      rw [h2]; linear_combination 10000 * this
    unfold isPerpendicular3
    rw [decide_eq_true_iff, e, show dot3 (.mk3 v (100 * V3.len v)) (.mk3 v (100 * V3.len v)) = V3.lenSq v from rfl]
    nlinarith [mul_self_nonneg (V3.lenSq v)]

/-- **C104**: `MinElement` is the least element, `MinElementIndex` the index of a least element and `MaxElementIndex` that of a greatest
one. -/
theorem C104_minElement (v : V4 ℝ) :
    (∀ i, minElement v ≤ v.get i) ∧ v.get (minElementIndex v) = minElement v ∧ ∀ i, v.get i ≤ v.get (maxElementIndex v) := by
  obtain ⟨x, y, z, w⟩ := v
  refine ⟨?_, ?_, ?_⟩
  · intro i
    fin_cases i <;> simp only [minElement, min2, V4.get, Fin.zero_eta, Fin.mk_one, Fin.reduceFinMk, Matrix.cons_val] <;>
      split_ifs <;> linarith
  · simp only [minElement, min2, minElementIndex]
    split_ifs <;> simp only [V4.get, Matrix.cons_val] <;> linarith
  · intro i
    simp only [maxElementIndex]
    split_ifs <;> fin_cases i <;> simp only [V4.get, Fin.zero_eta, Fin.mk_one, Fin.reduceFinMk, Matrix.cons_val] <;> linarith

/-- **C104** (partial): `MaxElement` never exceeds the greatest element and is it exactly when the smaller of the last two elements, or one
of the first two, is. The general claim fails: `C104_maxElement_violation`. -/
theorem C104_maxElement_partial (v : V4 ℝ) :
    maxElement v ≤ v.get (maxElementIndex v) ∧
    ((∀ i, v.get i ≤ maxElement v) ↔ (Max.max v.z v.w ≤ Max.max v.x v.y ∨ v.z = v.w)) := by
  have e : maxElement v = Max.max (Max.max v.x v.y) (Min.min v.z v.w) := by
    simp only [maxElement, max2_eq, min2_eq]
  have h := (C104_minElement v).2.2
  constructor
  · rw [e]
    exact max_le (max_le (h 0) (h 1)) (min_le_of_left_le (h 2))
  · rw [e]
    constructor
    · intro hi
      have h2 : v.z ≤ _ := hi 2
      have h3 : v.w ≤ _ := hi 3
      by_cases c : Max.max v.z v.w ≤ Max.max v.x v.y
      · exact Or.inl c
      · right
        rw [not_le] at c
        rcases le_total v.z v.w with l | l
        · rw [max_eq_right l] at c
          rw [min_eq_left l] at h3
          rcases le_max_iff.1 h3 with h3 | h3
          · exact absurd h3 (not_le.2 c)
          · exact le_antisymm l h3
        · rw [max_eq_left l] at c
          rw [min_eq_right l] at h2
          rcases le_max_iff.1 h2 with h2 | h2
          · exact absurd h2 (not_le.2 c)
          · exact le_antisymm h2 l
    · intro hi i
      have hx : v.x ≤ Max.max (Max.max v.x v.y) (Min.min v.z v.w) := le_max_of_le_left (le_max_left _ _)
      have hy : v.y ≤ Max.max (Max.max v.x v.y) (Min.min v.z v.w) := le_max_of_le_left (le_max_right _ _)
      have hz : v.z ≤ Max.max (Max.max v.x v.y) (Min.min v.z v.w) := by
        rcases hi with hi | hi
        · exact le_max_of_le_left ((le_max_left _ _).trans hi)
        · exact le_max_of_le_right (le_min le_rfl hi.le)
      have hw : v.w ≤ Max.max (Max.max v.x v.y) (Min.min v.z v.w) := by
        rcases hi with hi | hi
        · exact le_max_of_le_left ((le_max_right _ _).trans hi)
        · exact le_max_of_le_right (le_min hi.ge le_rfl)
      fin_cases i
      exacts [hx, hy, hz, hw]

/-- **C104**: `MaxElement`, documented to return the greatest element, does not for `(0, 0, 0, 1)`, where it returns 0. -/
theorem C104_maxElement_violation :
    maxElement ⟨0, 0, 0, 1⟩ = 0 ∧ (⟨0, 0, 0, 1⟩ : V4 ℝ).get (maxElementIndex ⟨0, 0, 0, 1⟩) = 1 := by
  constructor
  · simp [maxElement, max2, min2]
  · norm_num [maxElementIndex, V4.get]
    rfl

/-- **C104**: `Abs`, `Min`, `Max`, `Clamp`, `Mul`, `Div`, `Recip4`, `Add`, `Sub`, `SubLeft` and `DivLeft` act on each element, `Neg3`,
`Scale3` and `Recip3` on each but the last; the sum, product and average are those of the elements. -/
theorem C104_elements (a b c : V4 ℝ) (s : ℝ) (i : Fin 4) :
    (Float4.abs a).get i = |a.get i| ∧ (Float4.min a b).get i = Min.min (a.get i) (b.get i) ∧
    (Float4.max a b).get i = Max.max (a.get i) (b.get i) ∧
    (b.get i ≤ c.get i → (Float4.clamp a b c).get i = Max.max (b.get i) (Min.min (a.get i) (c.get i))) ∧
    (Float4.mul a b).get i = a.get i * b.get i ∧ (Float4.div a b).get i = a.get i / b.get i ∧ (recip4 a).get i = 1 / a.get i ∧
    (Float4.add a s).get i = a.get i + s ∧ (Float4.sub a s).get i = a.get i - s ∧ (subLeft a s).get i = s - a.get i ∧
    (divLeft a s).get i = s / a.get i ∧
    (neg3 a).get i = (if i = 3 then a.w else -a.get i) ∧ (scale3 a s).get i = (if i = 3 then a.w else s * a.get i) ∧
    (recip3 a).get i = (if i = 3 then a.w else 1 / a.get i) ∧
    sumOfElements a = ∑ j, a.get j ∧ productOfElements a = ∏ j, a.get j ∧ averageOfElements a = (∑ j, a.get j) / 4 := by
  have ab : ∀ x : ℝ, absF x = |x| := absF_eq
  have cl : ∀ x lo hi : ℝ, lo ≤ hi → MGL.clamp x lo hi = Max.max lo (Min.min x hi) := by
    intro x lo hi h
    unfold MGL.clamp
    split_ifs with h1 h2
    · rw [min_eq_left h1, max_eq_right h2]
    · rw [min_eq_left h1, max_eq_left (not_le.1 h2).le]
    · rw [min_eq_right (not_le.1 h1).le, max_eq_right h]
  refine ⟨?_, ?_, ?_, ?_, ?_, ?_, ?_, ?_, ?_, ?_, ?_, ?_, ?_, ?_, ?_, ?_, ?_⟩
  · fin_cases i <;> exact ab _
  · fin_cases i <;> exact min2_eq _ _
  · fin_cases i <;> exact max2_eq _ _
  · fin_cases i <;> exact cl _ _ _
  · fin_cases i <;> rfl
  · fin_cases i <;> rfl
  · fin_cases i <;> rfl
  · fin_cases i <;> rfl
  · fin_cases i <;> rfl
  · fin_cases i <;> rfl
  · fin_cases i <;> rfl
  · fin_cases i <;> rfl
  · fin_cases i
    · exact mul_comm _ _
    · exact mul_comm _ _
    · exact mul_comm _ _
    · rfl
  · fin_cases i <;> rfl
  · simp [Fin.sum_univ_four, sumOfElements, V4.get]
  · simp [Fin.prod_univ_four, productOfElements, V4.get]
  · simp [Fin.sum_univ_four, averageOfElements, sumOfElements, V4.get]; ring

example : (⟨0, 1, 2, 3⟩ : V4 ℝ).get 2 ≤ (⟨4, 5, 6, 7⟩ : V4 ℝ).get 2 := by simp [V4.get]; norm_num

/-- **C104**: `NormalizeW` keeps the point that a homogeneous vector stands for and makes `w` 1, or leaves the vector unchanged when `|w|` is
at most 1e-6; `IsWZeroOrOne` accepts exactly the vectors whose `w` is within 1e-3 of 0 or 1. -/
theorem C104_normalizeW (v : V4 ℝ) :
    (1 / 1000000 < |v.w| → (normalizeW v).w = 1 ∧ v.w • normalizeW v = v) ∧ (|v.w| ≤ 1 / 1000000 → normalizeW v = v) ∧
    (isWZeroOrOne v = true ↔ |v.w| < 1 / 1000 ∨ |v.w - 1| < 1 / 1000) := by
  refine ⟨fun h => ?_, fun h => ?_, ?_⟩
  · have h0 : v.w ≠ 0 := by intro h0; rw [h0] at h; norm_num at h
    unfold normalizeW
    rw [if_pos h]
    refine ⟨rfl, ?_⟩
    ext <;> simp <;> field_simp
  · unfold normalizeW
    rw [if_neg (not_lt.2 h)]
  · simp only [isWZeroOrOne, equalAbs, Bool.or_eq_true, decide_eq_true_iff, absF_eq, sub_zero]

example : (1 : ℝ) / 1000000 < |(⟨1, 2, 3, -4⟩ : V4 ℝ).w| := by norm_num

/-- **C104**: `Cross` is the cross product of the first three elements, with `w = 0`; `OuterProduct` applied to a vector is the scalar product
with the second factor times the first. -/
theorem C104_cross (a b c : V4 ℝ) :
    (cross3 a b).xyz = V3.cross a.xyz b.xyz ∧ (cross3 a b).w = 0 ∧
    ∀ i, ∑ j, outerProduct a b i j * c.get j = (dot b c • a).get i := by
  refine ⟨rfl, rfl, fun i => ?_⟩
  simp only [Fin.sum_univ_four, outerProduct]
  fin_cases i <;> simp [V4.get, dot] <;> ring

/-- **C104** (partial): `Perpendicular` and `AnotherPerpendicular` with their default hints return unit vectors that are perpendicular to the
vector and to each other, unless the vector is not on the y axis but its distance from it is at most 1e-3. -/
theorem C104_perpendicular_partial (v : V4 ℝ) (h0 : 1 / 1000 < V3.len v.xyz)
    (h : 1 / 1000 < V3.len (V3.cross v.xyz ⟨0, 1, 0⟩) ∨ V3.cross v.xyz ⟨0, 1, 0⟩ = 0) :
    lenSq (perpendicular v) = 1 ∧ dot v (perpendicular v) = 0 ∧ (perpendicular v).w = 0 ∧
    lenSq (anotherPerpendicular v) = 1 ∧ dot v (anotherPerpendicular v) = 0 ∧ dot (perpendicular v) (anotherPerpendicular v) = 0 := by
  have first : lenSq (perpendicular v) = 1 ∧ dot v (perpendicular v) = 0 ∧ (perpendicular v).w = 0 := by
    have el : len (cross3 v ⟨0, 1, 0, 0⟩) = V3.len (V3.cross v.xyz ⟨0, 1, 0⟩) := by
      unfold len V3.len; congr 1; simp [lenSq, dot, cross3, V3.lenSq, V3.dot, V3.cross, xyz]
    unfold perpendicular
    rcases h with h | h
    · rw [← el] at h
      have hn : len (cross3 v ⟨0, 1, 0, 0⟩) ≠ 0 := by intro hn; rw [hn] at h; norm_num at h
      have h1 := Float4.lenSq_normalized (cross3 v ⟨0, 1, 0, 0⟩)
      rw [normalized4_pos h] at h1
      rw [normalize4_pos h]
      simp only [hn, if_false]
      refine ⟨h1, ?_, by simp only [cross3, smul_w, mul_zero]⟩
      generalize 1 / len (cross3 v ⟨0, 1, 0, 0⟩) = k
      simp only [dot, cross3, smul_x, smul_y, smul_z, smul_w]; ring
    · have h1 : V3.len (V3.cross v.xyz ⟨0, 1, 0⟩) = 0 := V3.len_eq_zero.2 h
      rw [normalize4_neg (by rw [el, h1]; norm_num)]
      simp only [if_true]
      have hz := congrArg V3.x h
      simp [V3.cross, xyz] at hz
      exact ⟨by simp [lenSq, dot], by simp [dot, hz], trivial⟩
  obtain ⟨a1, a2, a3⟩ := first
  refine ⟨a1, a2, a3, Float4.lenSq_normalized _, ?_⟩
  unfold anotherPerpendicular
  generalize perpendicular v = p at *
  have hd : V3.dot v.xyz p.xyz = 0 := by
    have : dot v p = V3.dot v.xyz p.xyz + v.w * p.w := rfl
    rw [a3, a2] at this; linarith
  have hl : lenSq (cross3 v p) = V3.lenSq v.xyz := by
    have hp : V3.lenSq p.xyz = 1 := by
      have : lenSq p = V3.lenSq p.xyz + p.w * p.w := rfl
      rw [a3, a1] at this; linarith
    have e : lenSq (cross3 v p) = V3.lenSq (V3.cross v.xyz p.xyz) := by
      simp [lenSq, dot, cross3, V3.lenSq, V3.dot, V3.cross, xyz]
    rw [e, (C54_cross v.xyz p.xyz 0).2.2.1, hp, hd]; ring
  have hg : 1 / 1000 < len (cross3 v p) := by unfold len; rw [hl]; exact h0
  rw [normalized4_pos hg]
  generalize 1 / len (cross3 v p) = k
  constructor <;> simp only [dot, cross3, smul_x, smul_y, smul_z, smul_w] <;> ring

example : 1 / 1000 < V3.len (⟨1, 0, 0, 0⟩ : V4 ℝ).xyz ∧ 1 / 1000 < V3.len (V3.cross (⟨1, 0, 0, 0⟩ : V4 ℝ).xyz ⟨0, 1, 0⟩) := by
  constructor <;> exact Real.lt_sqrt_of_sq_lt (by norm_num [V3.lenSq, V3.dot, V3.cross, xyz])

/-- **C104**: vectors close to the y axis get a vector that is not perpendicular to them. -/
theorem C104_perpendicular_violation :
    isZero4 ⟨0, 1, 1 / 2000, 0⟩ = false ∧ perpendicular ⟨0, 1, 1 / 2000, 0⟩ = ⟨0, 0, 1, 0⟩ ∧
    dot ⟨0, 1, 1 / 2000, 0⟩ (perpendicular ⟨0, 1, 1 / 2000, 0⟩) = 1 / 2000 := by
  have e : perpendicular ⟨0, 1, 1 / 2000, 0⟩ = ⟨0, 0, 1, 0⟩ := by
    unfold perpendicular
    rw [normalize4_neg]
    · simp
    · rw [← lenSq_gt]; simp only [lenSq, dot, cross3]; norm_num
  refine ⟨by simp [isZero4, lengthSq4]; norm_num, e, by rw [e]; simp [dot]⟩

/-- **C104**: `Perpendicular3` and `AnotherPerpendicular3` return unit vectors with `w = 0` that are perpendicular to the first three elements
and to each other, unless the vector is not on the y axis but its distance from it is at most 1e-6. -/
theorem C104_perpendicular3_partial (v : V4 ℝ) (h0 : 1 / 1000 < V3.len v.xyz)
    (h : 1 / 1000000 < V3.len (V3.cross v.xyz ⟨0, 1, 0⟩) ∨ V3.cross v.xyz ⟨0, 1, 0⟩ = 0) :
    let p := perpendicular3 v
    let q := anotherPerpendicular3 v
    p.w = 0 ∧ q.w = 0 ∧ V3.lenSq p.xyz = 1 ∧ V3.lenSq q.xyz = 1 ∧ V3.dot v.xyz p.xyz = 0 ∧ V3.dot v.xyz q.xyz = 0 ∧ V3.dot p.xyz q.xyz = 0 := by
  have e : perpendicular3 v = .mk3 (f3Perpendicular v.xyz) 0 := by
    unfold perpendicular3 f3Perpendicular
    rw [show (cross3 v (.mk3 ⟨0, 1, 0⟩ 0)).xyz = V3.cross v.xyz ⟨0, 1, 0⟩ from rfl]
    dsimp only
    split_ifs <;> rfl
  obtain ⟨u, d⟩ := C54_perpendicular v.xyz h
  have hq : anotherPerpendicular3 v = .mk3 ((1 / V3.len v.xyz) • V3.cross v.xyz (f3Perpendicular v.xyz)) 0 := by
    have hl : V3.len (V3.cross v.xyz (f3Perpendicular v.xyz)) = V3.len v.xyz := by
      unfold V3.len; rw [(C54_cross v.xyz _ 0).2.2.1, u, d]; congr 1; ring
    unfold anotherPerpendicular3 normalized3
    change (normalize3 (cross3 v (perpendicular3 v))).1 = _
    rw [e]
    have hx : (cross3 v (.mk3 (f3Perpendicular v.xyz) 0)).xyz = V3.cross v.xyz (f3Perpendicular v.xyz) := rfl
    rw [normalize3_pos (by rw [hx, hl]; exact h0), hx, hl]
    rfl
  intro p q
  have ep : p = _ := e
  have eq : q = _ := hq
  have h0' : V3.len v.xyz ≠ 0 := by intro hc; rw [hc] at h0; norm_num at h0
  rw [ep, eq]
  generalize hP : f3Perpendicular v.xyz = P at *
  refine ⟨rfl, rfl, u, ?_, d, ?_, ?_⟩
  · show V3.lenSq ((1 / V3.len v.xyz) • V3.cross v.xyz P) = 1
    rw [MGL.lenSq_smul, (C54_cross v.xyz P 0).2.2.1, u, d, ← V3.len_mul_self]; field_simp; simp
  · show V3.dot v.xyz ((1 / V3.len v.xyz) • V3.cross v.xyz P) = 0
    generalize 1 / V3.len v.xyz = k
    simp only [V3.dot, V3.cross, V3.smul_x, V3.smul_y, V3.smul_z]; ring
  · show V3.dot P ((1 / V3.len v.xyz) • V3.cross v.xyz P) = 0
    generalize 1 / V3.len v.xyz = k
    simp only [V3.dot, V3.cross, V3.smul_x, V3.smul_y, V3.smul_z]; ring

example : 1 / 1000 < V3.len (⟨1, 0, 0, 0⟩ : V4 ℝ).xyz ∧ 1 / 1000000 < V3.len (V3.cross (⟨1, 0, 0, 0⟩ : V4 ℝ).xyz ⟨0, 1, 0⟩) := by
  constructor <;> exact Real.lt_sqrt_of_sq_lt (by norm_num [V3.lenSq, V3.dot, V3.cross, xyz])

/-- **C104**: `ProjectTo(d)` is the multiple of `d` nearest to the vector, and the difference is perpendicular to `d`; `ProjectTo3` does the
same with the first three elements and keeps `w`. For unit `d` the variants with suffix `Norm` agree. -/
theorem C104_projectTo (v d : V4 ℝ) (e : V3 ℝ) (hd : d ≠ 0) :
    (∃ k : ℝ, projectTo v d = k • d) ∧ (∀ k : ℝ, len (v - projectTo v d) ≤ len (v - k • d)) ∧ dot (v - projectTo v d) d = 0 ∧
    (projectTo3 v e).xyz = f3ProjectTo v.xyz e ∧ (projectTo3 v e).w = v.w ∧
    (len d = 1 → projectToNorm v d = projectTo v d) ∧ (V3.len e = 1 → projectToNorm3 v e = projectTo3 v e) := by
  have hp := Float4.lenSq_pos hd
  have h0 : dot (v - projectTo v d) d = 0 := by
    have : dot (v - projectTo v d) d = dot v d - dot v d / lenSq d * lenSq d := by
      simp only [projectTo, lengthSq4_eq, dot4_eq]
      generalize dot v d / lenSq d = k
      simp only [dot, lenSq, sub_x, sub_y, sub_z, sub_w, smul_x, smul_y, smul_z, smul_w]; ring
    rw [this]; field_simp; simp
  refine ⟨⟨_, rfl⟩, fun k => ?_, h0, rfl, rfl, fun h => ?_, fun h => ?_⟩
  · apply Real.sqrt_le_sqrt
    unfold projectTo at h0 ⊢
    generalize dot4 v d / lengthSq4 d = l at *
    have : lenSq (v - k • d) = lenSq (v - l • d) + (k - l) * (k - l) * lenSq d - 2 * (k - l) * dot (v - l • d) d := by
      simp only [dot, lenSq, sub_x, sub_y, sub_z, sub_w, smul_x, smul_y, smul_z, smul_w]; ring
    rw [this, h0]
    nlinarith [mul_nonneg (mul_self_nonneg (k - l)) hp.le]
  · have h1 : lenSq d = 1 := by rw [← Float4.len_mul_self, h]; norm_num
    unfold projectTo projectToNorm; rw [lengthSq4_eq, h1, div_one]
  · have h1 : V3.lenSq e = 1 := by rw [← V3.len_mul_self, h]; norm_num
    unfold projectTo3 projectToNorm3; rw [h1]
    ext <;> simp [mk3]

example : (⟨1, 2, 3, 4⟩ : V4 ℝ) ≠ 0 := fun h => by have := congrArg V4.x h; simp at this

/-- **C104**: `Reflect` keeps the component along a unit normal, negates what is perpendicular to it and preserves length; `Reflect3` is the
reflection of `float3` on the first three elements, and keeps `w`. -/
theorem C104_reflect (v n : V4 ℝ) (m : V3 ℝ) (hn : len n = 1) :
    dot (reflect v n) n = dot v n ∧ (∀ p, dot p n = 0 → dot (reflect v n) p = -dot v p) ∧ len (reflect v n) = len v ∧
    (reflect3 v m).xyz = f3Reflect v.xyz m ∧ (reflect3 v m).w = v.w := by
  have h1 : lenSq n = 1 := by rw [← Float4.len_mul_self, hn]; norm_num
  refine ⟨?_, fun p hp => ?_, ?_, ?_, ?_⟩
  · have : dot (reflect v n) n = dot v n * (2 * lenSq n - 1) := by
      simp only [reflect, projectToNorm, dot4, dot, lenSq, sub_x, sub_y, sub_z, sub_w, smul_x, smul_y, smul_z, smul_w]; ring
    rw [this, h1]; ring
  · have : dot (reflect v n) p = 2 * dot v n * dot p n - dot v p := by
      simp only [reflect, projectToNorm, dot4, dot, sub_x, sub_y, sub_z, sub_w, smul_x, smul_y, smul_z, smul_w]; ring
    rw [this, hp]; ring
  · unfold len; congr 1
    have : lenSq (reflect v n) = lenSq v + 4 * (dot v n * dot v n) * (lenSq n - 1) := by
      simp only [reflect, projectToNorm, dot4, dot, lenSq, sub_x, sub_y, sub_z, sub_w, smul_x, smul_y, smul_z, smul_w]; ring
    rw [this, h1]; ring
  · ext <;> rfl
  · simp [reflect3, projectToNorm3, mk3]; ring

example : len (⟨1 / 2, 1 / 2, 1 / 2, 1 / 2⟩ : V4 ℝ) = 1 := by
  unfold len; rw [show lenSq (⟨1 / 2, 1 / 2, 1 / 2, 1 / 2⟩ : V4 ℝ) = 1 by simp only [lenSq, dot]; norm_num, Real.sqrt_one]

/-- **C104**: `Refract` does not obey the law of refraction: a unit vector that passes perpendicularly through the boundary between two
identical materials should be unchanged, but is tripled in length. -/
theorem C104_refract_violation : refract ⟨0, 0, -1, 0⟩ ⟨0, 0, 1, 0⟩ 1 1 = ⟨0, 0, -3, 0⟩ := by
  have h : refract ⟨0, 0, -1, 0⟩ ⟨0, 0, 1, 0⟩ 1 1 =
      (1 / 1 : ℝ) • (⟨0, 0, -1, 0⟩ : V4 ℝ) - (1 / 1 + Real.sqrt 1 : ℝ) • ⟨0, 0, 1, 0⟩ := by
    unfold refract
    dsimp only
    rw [if_neg (by simp [dot4])]
    simp [dot4]
  rw [h, Real.sqrt_one]
  ext <;> simp
  norm_num

/-- **C104**: `AngleBetween` is the angle in `[0, π]` whose cosine is the normalised scalar product, for all four elements or for the first
three; on unit vectors the variants with suffix `Norm` agree. -/
theorem C104_angleBetween (a b : V4 ℝ) :
    (a ≠ 0 → b ≠ 0 → 0 ≤ angleBetween4 a b ∧ angleBetween4 a b ≤ Real.pi ∧ Real.cos (angleBetween4 a b) * (len a * len b) = dot a b) ∧
    angleBetween3 a b = f3AngleBetween a.xyz b.xyz ∧
    (len a = 1 → len b = 1 → angleBetweenNorm4 a b = angleBetween4 a b) ∧
    (V3.len a.xyz = 1 → V3.len b.xyz = 1 → angleBetweenNorm3 a b = angleBetween3 a b) := by
  have key : a ≠ 0 → b ≠ 0 → angleBetween4 a b = Real.arccos (dot a b / (len a * len b)) ∧
      -1 ≤ dot a b / (len a * len b) ∧ dot a b / (len a * len b) ≤ 1 := by
    intro ha hb
    have hp := mul_pos (Float4.len_pos ha) (Float4.len_pos hb)
    have hs : Real.sqrt (lenSq a * lenSq b) = len a * len b := by rw [Real.sqrt_mul (Float4.lenSq_nonneg a)]; rfl
    have hb := abs_le.1 (abs_dot_le a b)
    have h1 : dot a b / (len a * len b) ≤ 1 := by rw [div_le_one hp]; exact hb.2
    have h2 : -1 ≤ dot a b / (len a * len b) := by rw [le_div_iff₀ hp]; linarith [hb.1]
    refine ⟨?_, h2, h1⟩
    unfold angleBetween4
    rw [lengthSq4_eq, lengthSq4_eq, dot4_eq, hs]
    exact angle_tail h2 h1
  have nz : ∀ {v : V4 ℝ}, len v = 1 → v ≠ 0 := by
    rintro v h rfl
    simp [len, lenSq, dot] at h
  refine ⟨fun ha hb => ?_, rfl, fun ha hb => ?_, fun ha hb => ?_⟩
  · obtain ⟨e, h2, h1⟩ := key ha hb
    have hp := mul_pos (Float4.len_pos ha) (Float4.len_pos hb)
    rw [e, Real.cos_arccos h2 h1, div_mul_cancel₀ _ hp.ne']
    exact ⟨Real.arccos_nonneg _, Real.arccos_le_pi _, rfl⟩
  · rw [(key (nz ha) (nz hb)).1, ha, hb, mul_one, div_one]; rfl
  · have h1 : V3.lenSq a.xyz = 1 := by rw [← V3.len_mul_self, ha]; norm_num
    have h2 : V3.lenSq b.xyz = 1 := by rw [← V3.len_mul_self, hb]; norm_num
    refine Eq.trans ?_ (C54_angleBetweenNorm a.xyz b.xyz h1 h2)
    have l1 : V3.dot a.xyz b.xyz ≤ 1 := by have := V3.dot_le_len a.xyz b.xyz; rw [ha, hb] at this; linarith
    have l2 : -1 ≤ V3.dot a.xyz b.xyz := by
      have := V3.dot_le_len (-a.xyz) b.xyz
      have e1 : V3.dot (-a.xyz) b.xyz = - V3.dot a.xyz b.xyz := by simp [V3.dot]; ring
      have e2 : V3.len (-a.xyz) = V3.len a.xyz := by unfold V3.len; congr 1; simp [V3.lenSq, V3.dot]
      rw [e1, e2, ha, hb] at this; linarith
    exact (angle_tail l2 l1).symm

example : (⟨1, 2, 3, 4⟩ : V4 ℝ) ≠ 0 ∧ (⟨0, 0, 0, 1⟩ : V4 ℝ) ≠ 0 :=
  ⟨fun h => by have := congrArg V4.x h; simp at this, fun h => by have := congrArg V4.w h; simp at this⟩

/-- **C104**: `Lerp` interpolates linearly: endpoints, and distances in proportion. -/
theorem C104_lerp (a b : V4 ℝ) (t : ℝ) :
    Float4.lerp a b 0 = a ∧ Float4.lerp a b 1 = b ∧ distance4 a (Float4.lerp a b t) = |t| * distance4 a b ∧
    distance4 (Float4.lerp a b t) b = |1 - t| * distance4 a b := by
  refine ⟨by ext <;> simp [Float4.lerp], by ext <;> simp [Float4.lerp], ?_, ?_⟩
  · show len (a - Float4.lerp a b t) = |t| * len (a - b)
    rw [← Float4.len_smul]; congr 1; ext <;> simp [Float4.lerp] <;> ring
  · show len (Float4.lerp a b t - b) = |1 - t| * len (a - b)
    rw [← Float4.len_smul]; congr 1; ext <;> simp [Float4.lerp] <;> ring

/-- **C104**: `AreCollinear` accepts three points whose first three coordinates lie on a line, whatever their `w`. -/
theorem C104_areCollinear (p1 p2 p3 : V4 ℝ) (t : ℝ) (h : p3.xyz = p1.xyz + t • (p2.xyz - p1.xyz)) : areCollinear p1 p2 p3 = true := by
  obtain ⟨a, b, c, d⟩ := p3
  simp only [xyz, V3.ext_iff, V3.add_x, V3.add_y, V3.add_z, V3.smul_x, V3.smul_y, V3.smul_z, V3.sub_x, V3.sub_y, V3.sub_z] at h
  obtain ⟨rfl, rfl, rfl⟩ := h
  unfold areCollinear
  rw [decide_eq_true_iff]
  have : lengthSq4 (cross3 (p2 - p1) (⟨p1.x + t * (p2.x - p1.x), p1.y + t * (p2.y - p1.y), p1.z + t * (p2.z - p1.z), d⟩ - p1)) = 0 := by
    simp only [lengthSq4, cross3, sub_x, sub_y, sub_z]; ring
  rw [this]; norm_num

example : (⟨3, 3, 3, 9⟩ : V4 ℝ).xyz = (⟨1, 1, 1, 0⟩ : V4 ℝ).xyz + (2 : ℝ) • ((⟨2, 2, 2, 4⟩ : V4 ℝ).xyz - (⟨1, 1, 1, 0⟩ : V4 ℝ).xyz) := by
  ext <;> simp [xyz] <;> norm_num

/-- **C104**: `Orthonormalize(a, b, c)` returns unit vectors that are pairwise perpendicular, the first in the direction of `a`, unless a vector
that it normalises is at most 1e-3 long. -/
theorem C104_orthonormalize (a b c : V4 ℝ) (ha : isZero4 a = false)
    (hb : isZero4 (b - projectToNorm b (normalized4 a)) = false)
    (hc : isZero4 (c - projectToNorm c (normalized4 a) -
      projectToNorm (c - projectToNorm c (normalized4 a)) (orthonormalize2 a b).2) = false) :
    let r := orthonormalize3 a b c
    r.1 = (1 / len a) • a ∧ (orthonormalize2 a b) = (r.1, r.2.1) ∧ lenSq r.1 = 1 ∧ lenSq r.2.1 = 1 ∧ lenSq r.2.2 = 1 ∧
    dot r.1 r.2.1 = 0 ∧ dot r.1 r.2.2 = 0 ∧ dot r.2.1 r.2.2 = 0 := by
  have nz : ∀ {v : V4 ℝ}, isZero4 v = false → 1 / 1000 < len v := by
    intro v h; by_contra hc; rw [(C104_isZero v).1.2 (not_lt.1 hc)] at h; cases h
  replace ha := nz ha
  replace hb := nz hb
  replace hc := nz hc
  have u1 := Float4.lenSq_normalized a
  have u2 := Float4.lenSq_normalized (b - projectToNorm b (normalized4 a))
  have perp : ∀ n v : V4 ℝ, lenSq n = 1 → dot n (v - projectToNorm v n) = 0 := by
    intro n v h
    have : dot n (v - projectToNorm v n) = dot v n * (1 - lenSq n) := by
      simp only [projectToNorm, dot4, dot, lenSq, sub_x, sub_y, sub_z, sub_w, smul_x, smul_y, smul_z, smul_w]; ring
    rw [this, h]; ring
  have sm : ∀ (k : ℝ) (n v : V4 ℝ), dot n (k • v) = k * dot n v := by
    intro k n v; simp only [dot, smul_x, smul_y, smul_z, smul_w]; ring
  have d12 : dot (normalized4 a) (normalized4 (b - projectToNorm b (normalized4 a))) = 0 := by
    rw [normalized4_pos hb, sm, perp _ b u1, mul_zero]
  simp only [orthonormalize3, orthonormalize2] at hc ⊢
  generalize hA : normalized4 a = A at *
  generalize hB : normalized4 (b - projectToNorm b A) = B at *
  have pA := perp A c u1
  have pB := perp B (c - projectToNorm c A) u2
  refine ⟨by rw [← hA, normalized4_pos ha], trivial, u1, u2, Float4.lenSq_normalized _, d12, ?_, ?_⟩
  · rw [normalized4_pos hc, sm]
    generalize c - projectToNorm c A = w at *
    have : dot A (w - projectToNorm w B) = dot A w - dot w B * dot A B := by
      simp only [projectToNorm, dot4, dot, sub_x, sub_y, sub_z, sub_w, smul_x, smul_y, smul_z, smul_w]; ring
    rw [this, pA, d12]; ring
  · rw [normalized4_pos hc, sm, pB, mul_zero]

example : isZero4 ⟨1, 0, 0, 0⟩ = false ∧
    isZero4 ((⟨1, 1, 0, 0⟩ : V4 ℝ) - projectToNorm ⟨1, 1, 0, 0⟩ (normalized4 ⟨1, 0, 0, 0⟩)) = false := by
  have l1 : len (⟨1, 0, 0, 0⟩ : V4 ℝ) = 1 := by
    unfold len; rw [show lenSq (⟨1, 0, 0, 0⟩ : V4 ℝ) = 1 by simp [lenSq, dot], Real.sqrt_one]
  refine ⟨by simp [isZero4, lengthSq4]; norm_num, ?_⟩
  rw [normalized4_pos (by rw [l1]; norm_num), l1]
  simp [isZero4, lengthSq4, projectToNorm, dot4]; norm_num

/-- **C104**: `AreOrthonormal` accepts every orthonormal triple; a triple that it accepts has squared lengths within 1e-6 of 1 and scalar
products below 0.032. -/
theorem C104_areOrthonormal (a b c : V4 ℝ) :
    (lenSq a = 1 → lenSq b = 1 → lenSq c = 1 → dot a b = 0 → dot a c = 0 → dot b c = 0 → areOrthonormal a b c = true) ∧
    (areOrthonormal a b c = true → (∀ v ∈ [a, b, c], |lenSq v - 1| ≤ 1 / 1000000) ∧
      |dot a b| < 32 / 1000 ∧ |dot a c| < 32 / 1000 ∧ |dot b c| < 32 / 1000) := by
  simp only [areOrthonormal, isPerpendicular, isNormalized4, Bool.and_eq_true, decide_eq_true_iff]
  simp only [lengthSq4_eq, dot4_eq]
  constructor
  · intro h1 h2 h3 h4 h5 h6
    rw [h1, h2, h3, h4, h5, h6]
    norm_num
  · rintro ⟨⟨⟨⟨⟨p1, p2⟩, p3⟩, n1⟩, n2⟩, n3⟩
    have key : ∀ d s t : ℝ, |s - 1| ≤ 1 / 1000 * (1 / 1000) → |t - 1| ≤ 1 / 1000 * (1 / 1000) → 0 ≤ s →
        d * d ≤ 1 / 1000 * s * t → |d| < 32 / 1000 := by
      intro d s t hs ht h0 h
      have hs' := (abs_le.1 hs).2
      have ht' := (abs_le.1 ht).2
      apply abs_lt_of_sq_lt_sq _ (by norm_num)
      have : s * t ≤ (1 + 1 / 1000000) * (1 + 1 / 1000000) := by
        apply mul_le_mul <;> [linarith; linarith; linarith [(abs_le.1 ht).1]; norm_num]
      nlinarith
    refine ⟨?_, key _ _ _ n1 n2 (Float4.lenSq_nonneg a) p1, key _ _ _ n1 n3 (Float4.lenSq_nonneg a) p2,
      key _ _ _ n2 n3 (Float4.lenSq_nonneg b) p3⟩
    intro v hv
    simp only [List.mem_cons, List.not_mem_nil, or_false] at hv
    rcases hv with rfl | rfl | rfl
    · exact n1.trans (by norm_num)
    · exact n2.trans (by norm_num)
    · exact n3.trans (by norm_num)

example : areOrthonormal ⟨1, 0, 0, 0⟩ ⟨0, 0, 0, 1⟩ ⟨0, 1, 0, 0⟩ = true :=
  (C104_areOrthonormal _ _ _).1 (by simp [lenSq, dot]) (by simp [lenSq, dot]) (by simp [lenSq, dot]) (by simp [dot]) (by simp [dot]) (by simp [dot])

/-- **C104** (partial): for a vector with `w = 0` that is longer than 1e-3, `FromSphericalCoordinates` undoes `ToSphericalCoordinates`. For
other `w` it does not: `C104_spherical_violation`. -/
theorem C104_spherical_partial (v : V4 ℝ) (hw : v.w = 0) (h : isZero4 v = false) :
    fromSpherical (toSpherical v).x (toSpherical v).y (toSpherical v).z = v := by
  have h3 : 1 / 1000 < len v := by by_contra hc; rw [(C104_isZero v).1.2 (not_lt.1 hc)] at h; cases h
  have el : len v = V3.len v.xyz := by unfold len V3.len; congr 1; simp [lenSq, dot, V3.lenSq, V3.dot, xyz, hw]
  have h5 : 1 / 100000 < V3.len v.xyz := by rw [← el]; linarith
  have et : toSpherical v = f3ToSpherical v.xyz := by
    unfold toSpherical f3ToSpherical
    rw [normalize4_pos h3, f3Normalize_pos (by linarith : 1 / 1000000 < V3.len v.xyz), el]
    rfl
  have := C54_spherical v.xyz h5
  rw [et]
  ext
  · exact congrArg V3.x this
  · exact congrArg V3.y this
  · exact congrArg V3.z this
  · exact hw.symm

example := C104_spherical_partial ⟨0, 3, 4, 0⟩ rfl (by simp [isZero4, lengthSq4]; norm_num)

/-- **C104**: for unit vectors with `w = 0`, `FromSphericalCoordinates` undoes `ToSphericalCoordinatesNormalized`. -/
theorem C104_spherical_normalized (v : V4 ℝ) (hw : v.w = 0) (h : lenSq v = 1) :
    fromSpherical2 (toSphericalNormalized v).1 (toSphericalNormalized v).2 = v := by
  have := C54_spherical_normalized v.xyz (by simpa [lenSq, dot, V3.lenSq, V3.dot, xyz, hw] using h)
  ext
  · exact congrArg V3.x this
  · exact congrArg V3.y this
  · exact congrArg V3.z this
  · exact hw.symm

example := C104_spherical_normalized ⟨3/5, 0, 4/5, 0⟩ rfl (by norm_num [lenSq, dot])

/-- **C104**: `ToSphericalCoordinates`, documented to convert the `(x, y, z)` vector, divides by the length of all four elements: the radius of
`(0, 0, 0, 1)` is 1, and the vector it stands for is `(0, 0, 1)`. -/
theorem C104_spherical_violation :
    toSpherical ⟨0, 0, 0, 1⟩ = ⟨0, 0, 1⟩ ∧ fromSpherical 0 0 1 = ⟨0, 0, 1, 0⟩ := by
  constructor
  · have l1 : len (⟨0, 0, 0, 1⟩ : V4 ℝ) = 1 := by
      unfold len; rw [show lenSq (⟨0, 0, 0, 1⟩ : V4 ℝ) = 1 by simp [lenSq, dot], Real.sqrt_one]
    unfold toSpherical
    rw [normalize4_pos (by rw [l1]; norm_num), l1]
    dsimp only
    rw [if_neg (by norm_num)]
    have : (⟨0, 0⟩ : ℂ) = 0 := rfl
    ext <;> simp [atan2, this]
  · ext <;> simp [fromSpherical]

/-- **C104**: `Equals` accepts exactly the vectors of which each element differs by less than the tolerance. -/
theorem C104_equals (a b : V4 ℝ) (eps : ℝ) : equals a b eps = true ↔ ∀ i, |a.get i - b.get i| < eps := by
  simp only [equals, Bool.and_eq_true, decide_eq_true_iff, absF_eq]
  constructor
  · rintro ⟨⟨⟨h0, h1⟩, h2⟩, h3⟩ i
    fin_cases i
    exacts [h0, h1, h2, h3]
  · intro h
    exact ⟨⟨⟨h 0, h 1⟩, h 2⟩, h 3⟩

end MGL
