import Verif.Proofs.Float3R

/-! C54: vector operations of `float3`. -/

namespace MGL
open V3

/-- **C54**: `Normalize` always produces a unit vector; for a vector longer than 1e-6 it is a positive
multiple of the input and the old length is returned, otherwise 0 is returned. -/
theorem C54_normalize (v : V3 ℝ) :
    len (f3Normalize v).1 = 1 ∧
    (1 / 1000000 < len v → (f3Normalize v).2 = len v ∧ len v • (f3Normalize v).1 = v) ∧
    (len v ≤ 1 / 1000000 → (f3Normalize v).2 = 0) := by
  refine ⟨?_, fun h => ?_, fun h => ?_⟩
  · have := lenSq_normalized v
    unfold len; rw [show (f3Normalize v).1 = f3Normalized v from rfl, this, Real.sqrt_one]
  · rw [f3Normalize_pos h]
    have h0 : len v ≠ 0 := by intro h0; rw [h0] at h; norm_num at h
    refine ⟨rfl, ?_⟩
    ext <;> simp <;> field_simp
  · rw [f3Normalize_neg (not_lt.2 h)]

example : 1 / 1000000 < len (⟨3, 4, 0⟩ : V3 ℝ) := by
  have : len (⟨3, 4, 0⟩ : V3 ℝ) = 5 := by
    unfold len; rw [show lenSq (⟨3, 4, 0⟩ : V3 ℝ) = 5 ^ 2 by simp [lenSq, dot]; norm_num]
    exact Real.sqrt_sq (by norm_num)
  rw [this]; norm_num

/-- **C54** (partial): `ScaleToLength` gives a vector of the requested length in the direction of the
input when the input is at least 1e-3 long. The documentation promises it for every non-zero vector;
`C54_scaleToLength_violation` shows that it fails for shorter ones. -/
theorem C54_scaleToLength_partial (v : V3 ℝ) (l : ℝ) (h : 1 / 1000 ≤ len v) :
    len (f3ScaleToLength v l).1 = |l| ∧ (f3ScaleToLength v l).2 = len v ∧
      (f3ScaleToLength v l).1 = (l / len v) • v := by
  have hl := len_mul_self v
  have h0 : len v ≠ 0 := by intro h0; rw [h0] at h; norm_num at h
  have hn : ¬ lenSq v < 1 / 1000000 := by rw [← hl]; nlinarith
  unfold f3ScaleToLength
  rw [if_neg hn]
  refine ⟨?_, rfl, rfl⟩
  show len ((l / len v) • v) = |l|
  rw [len_smul, abs_div, abs_of_nonneg (len_nonneg v)]; field_simp

example := C54_scaleToLength_partial ⟨0, 3, 4⟩ 7 (Real.le_sqrt_of_sq_le (by norm_num [lenSq, dot]))

/-- **C54**: a vector that `IsZero` does not regard as zero is replaced by a vector in another
direction. -/
theorem C54_scaleToLength_violation :
    ∃ v : V3 ℝ, f3IsZero v = false ∧ f3ScaleToLength v 1 = (⟨1, 0, 0⟩, 0) ∧ dot v ⟨1, 0, 0⟩ = 0 := by
  refine ⟨⟨0, 1 / 2000, 0⟩, ?_, ?_, ?_⟩
  · simp [f3IsZero, lenSq, dot]; norm_num
  · unfold f3ScaleToLength; rw [if_pos (by simp [lenSq, dot]; norm_num)]
  · simp [dot]

/-- **C54**: `ClampLength(max)` keeps vectors that are short enough and scales the others down to
length `max` in the same direction. -/
theorem C54_clampLength (v : V3 ℝ) (m : ℝ) (hm : 0 ≤ m) :
    (len v ≤ m → f3ClampLength v m = v) ∧
    (m < len v → len (f3ClampLength v m) = m ∧ f3ClampLength v m = (m / len v) • v) := by
  have hl := len_mul_self v
  have h0 := len_nonneg v
  constructor
  · intro h
    unfold f3ClampLength
    rw [if_neg]
    rw [← hl, gt_iff_lt, not_lt]; nlinarith
  · intro h
    have hp : lenSq v > m * m := by rw [← hl]; nlinarith
    unfold f3ClampLength
    rw [if_pos hp]
    refine ⟨?_, rfl⟩
    show len ((m / len v) • v) = m
    have : len v ≠ 0 := by linarith
    rw [len_smul, abs_div, abs_of_nonneg h0, abs_of_nonneg hm]; field_simp

example : (0 : ℝ) ≤ 1 ∧ (1 : ℝ) < len (⟨3, 4, 0⟩ : V3 ℝ) := by
  have : len (⟨3, 4, 0⟩ : V3 ℝ) = 5 := by
    unfold len; rw [show lenSq (⟨3, 4, 0⟩ : V3 ℝ) = 5 ^ 2 by simp [lenSq, dot]; norm_num]
    exact Real.sqrt_sq (by norm_num)
  rw [this]; norm_num

/-- **C54**: `ClampLength(min, max)` puts the length of every non-zero vector into `[min, max]` and
keeps the direction. -/
theorem C54_clampLength2 (v : V3 ℝ) (lo hi : ℝ) (h0 : 0 ≤ lo) (h1 : lo ≤ hi) (hv : v ≠ 0) :
    lo ≤ len (f3ClampLength2 v lo hi) ∧ len (f3ClampLength2 v lo hi) ≤ hi ∧
    (lo ≤ len v → len v ≤ hi → f3ClampLength2 v lo hi = v) ∧
    ∃ k : ℝ, 0 ≤ k ∧ f3ClampLength2 v lo hi = k • v := by
  have hl := len_mul_self v
  have hp := len_pos hv
  have hk : ∀ m : ℝ, 0 ≤ m → len ((m / len v) • v) = m := by
    intro m hm
    rw [len_smul, abs_div, abs_of_pos hp, abs_of_nonneg hm]; field_simp
  unfold f3ClampLength2
  by_cases c1 : lenSq v > hi * hi
  · rw [if_pos c1]
    have c1' : hi < len v := by rw [← hl] at c1; nlinarith
    change lo ≤ len ((hi / len v) • v) ∧ len ((hi / len v) • v) ≤ hi ∧ _
    rw [hk hi (h0.trans h1)]
    exact ⟨h1, le_rfl, fun _ h => absurd h (not_le.2 c1'), hi / len v, div_nonneg (h0.trans h1) hp.le, rfl⟩
  · rw [if_neg c1]
    have c1' : len v ≤ hi := by rw [← hl] at c1; nlinarith [not_lt.1 c1, h0.trans h1]
    by_cases c2 : lenSq v < lo * lo
    · rw [if_pos c2]
      have c2' : len v < lo := by rw [← hl] at c2; nlinarith
      change lo ≤ len ((lo / len v) • v) ∧ len ((lo / len v) • v) ≤ hi ∧ _
      rw [hk lo h0]
      exact ⟨le_rfl, h1, fun h => absurd h (not_le.2 c2'), lo / len v, div_nonneg h0 hp.le, rfl⟩
    · rw [if_neg c2]
      have c2' : lo ≤ len v := by rw [← hl] at c2; nlinarith [not_lt.1 c2]
      exact ⟨c2', c1', fun _ _ => rfl, 1, zero_le_one, by ext <;> simp⟩

example : (0 : ℝ) ≤ 1 ∧ (1 : ℝ) ≤ 2 ∧ (⟨3, 4, 0⟩ : V3 ℝ) ≠ 0 :=
  ⟨by norm_num, by norm_num, fun h => by have := congrArg V3.x h; simp at this⟩

/-- **C54**: `ProjectTo(d)` is the point of the line through the origin along `d` that is closest to
the vector, and the difference is perpendicular to `d`. -/
theorem C54_projectTo (v d : V3 ℝ) (hd : d ≠ 0) :
    Spec.IsClosestPoint (Spec.line 0 d) v (f3ProjectTo v d) ∧ dot (v - f3ProjectTo v d) d = 0 := by
  have hp := lenSq_pos hd
  have e : dot (v - f3ProjectTo v d) d = 0 := by
    have : dot (v - f3ProjectTo v d) d = dot v d - 1 / lenSq d * (dot v d * lenSq d) := by
      simp only [f3ProjectTo, dot, lenSq, sub_x, sub_y, sub_z, smul_x, smul_y, smul_z]; ring
    rw [this]; field_simp; simp
  refine ⟨⟨⟨1 / lenSq d * dot v d, ?_⟩, ?_⟩, e⟩
  · unfold f3ProjectTo; ext <;> simp <;> ring
  · rintro q ⟨t, rfl⟩
    unfold f3ProjectTo at e ⊢
    set k := 1 / lenSq d * dot v d
    have hk : (1 / lenSq d) • dot v d • d = k • d := by ext <;> simp [k] <;> ring
    rw [hk] at e ⊢
    have : distSq v (0 + t • d) - distSq v (k • d) = (t - k) * (t - k) * lenSq d - 2 * (t - k) * dot (v - k • d) d := by
      simp only [distSq, lenSq, dot, sub_x, sub_y, sub_z, add_x, add_y, add_z, smul_x, smul_y, smul_z, zero_x, zero_y, zero_z]
      ring
    rw [e] at this
    nlinarith [mul_nonneg (mul_self_nonneg (t - k)) hp.le]

example : (⟨1, 2, 3⟩ : V3 ℝ) ≠ 0 := fun h => by have := congrArg V3.x h; simp at this

/-- **C54**: for a unit direction, `ProjectToNorm` agrees with `ProjectTo`, and `Decompose` splits the
vector into a part along the direction and a part perpendicular to it. -/
theorem C54_decompose (v d : V3 ℝ) (hd : lenSq d = 1) :
    f3ProjectToNorm v d = f3ProjectTo v d ∧ (f3Decompose v d).1 + (f3Decompose v d).2 = v ∧
    cross (f3Decompose v d).1 d = 0 ∧ dot (f3Decompose v d).2 d = 0 := by
  refine ⟨?_, ?_, ?_, ?_⟩
  · unfold f3ProjectTo f3ProjectToNorm; rw [hd]; ext <;> simp
  · unfold f3Decompose; ext <;> simp
  · unfold f3Decompose f3ProjectToNorm; ext <;> simp [cross] <;> ring
  · have : dot (f3Decompose v d).2 d = dot v d * (1 - lenSq d) := by
      simp only [f3Decompose, f3ProjectToNorm, dot, lenSq, sub_x, sub_y, sub_z, smul_x, smul_y, smul_z]; ring
    rw [this, hd]; ring

example : lenSq (⟨3 / 5, 0, 4 / 5⟩ : V3 ℝ) = 1 := by simp [lenSq, dot]; norm_num

/-- **C54**: `Reflect` keeps the component along the unit normal and negates the component in the
plane; it preserves length. -/
theorem C54_reflect (v n : V3 ℝ) (hn : lenSq n = 1) :
    dot (f3Reflect v n) n = dot v n ∧
    (f3Decompose (f3Reflect v n) n).2 = -(f3Decompose v n).2 ∧ lenSq (f3Reflect v n) = lenSq v := by
  have e1 : dot (f3Reflect v n) n = dot v n := by
    have : dot (f3Reflect v n) n = dot v n * (2 * lenSq n - 1) := by
      simp only [f3Reflect, f3ProjectToNorm, dot, lenSq, sub_x, sub_y, sub_z, smul_x, smul_y, smul_z]; ring
    rw [this, hn]; ring
  refine ⟨e1, ?_, ?_⟩
  · unfold f3Decompose f3ProjectToNorm; rw [e1]
    ext <;> simp [f3Reflect, f3ProjectToNorm] <;> ring
  · have : lenSq (f3Reflect v n) = lenSq v + 4 * (dot v n * dot v n) * (lenSq n - 1) := by
      simp only [f3Reflect, f3ProjectToNorm, dot, lenSq, sub_x, sub_y, sub_z, smul_x, smul_y, smul_z]; ring
    rw [this, hn]; ring

example := C54_reflect ⟨1, 2, 3⟩ ⟨3/5, 0, 4/5⟩ (by norm_num [lenSq, dot])

/-- **C54**: `Refract` does not obey the law of refraction: a unit vector passing perpendicularly
through a boundary between identical materials should be unchanged, but is tripled in length. -/
theorem C54_refract_violation :
    f3Refract ⟨0, 0, -1⟩ ⟨0, 0, 1⟩ 1 1 = ⟨0, 0, -3⟩ := by
  have h : f3Refract ⟨0, 0, -1⟩ ⟨0, 0, 1⟩ 1 1 = (1 / 1 : ℝ) • (⟨0, 0, -1⟩ : V3 ℝ) - (1 / 1 + Real.sqrt 1 : ℝ) • ⟨0, 0, 1⟩ := by
    unfold f3Refract
    dsimp only
    rw [if_neg (by simp [dot])]
    simp [dot]
  rw [h, Real.sqrt_one]
  ext <;> simp
  norm_num

/-- **C54**: `AngleBetween` is the angle in `[0, π]` whose cosine is the normalised dot product. -/
theorem C54_angleBetween (v o : V3 ℝ) (hv : v ≠ 0) (ho : o ≠ 0) :
    0 ≤ f3AngleBetween v o ∧ f3AngleBetween v o ≤ Real.pi ∧
    Real.cos (f3AngleBetween v o) * (len v * len o) = dot v o := by
  have hp := mul_pos (len_pos hv) (len_pos ho)
  have hs : Real.sqrt (lenSq v * lenSq o) = len v * len o := by
    rw [Real.sqrt_mul (lenSq_nonneg v)]; rfl
  have h1 : dot v o / (len v * len o) ≤ 1 := by rw [div_le_one hp]; exact dot_le_len v o
  have h2 : -1 ≤ dot v o / (len v * len o) := by
    rw [le_div_iff₀ hp]
    have := dot_le_len (-v) o
    have e1 : dot (-v) o = - dot v o := by simp [dot]; ring
    have e2 : len (-v) = len v := by unfold len; congr 1; simp [lenSq, dot]
    rw [e1, e2] at this; linarith
  unfold f3AngleBetween
  rw [hs]
  generalize hc : dot v o / (len v * len o) = c at h1 h2
  have hd : c * (len v * len o) = dot v o := by rw [← hc, div_mul_cancel₀ _ hp.ne']
  dsimp only
  split_ifs with c1 c2
  · have : c = 1 := le_antisymm h1 c1
    rw [Real.cos_zero, ← hd, this]; exact ⟨le_rfl, Real.pi_pos.le, rfl⟩
  · have : c = -1 := le_antisymm c2 h2
    rw [Real.cos_pi, ← hd, this]; exact ⟨Real.pi_pos.le, le_rfl, rfl⟩
  · rw [Real.cos_arccos h2 h1, hd]
    exact ⟨Real.arccos_nonneg _, Real.arccos_le_pi _, rfl⟩

example := C54_angleBetween ⟨1, 2, 3⟩ ⟨3, 0, 4⟩ (by simp [V3.ext_iff]) (by simp [V3.ext_iff])

/-- **C54**: `AngleBetweenNorm` agrees with `AngleBetween` on unit vectors. -/
theorem C54_angleBetweenNorm (v o : V3 ℝ) (hv : lenSq v = 1) (ho : lenSq o = 1) :
    f3AngleBetweenNorm v o = f3AngleBetween v o := by
  unfold f3AngleBetweenNorm f3AngleBetween
  rw [hv, ho]; simp

example := C54_angleBetweenNorm ⟨0, 1, 0⟩ ⟨3/5, 0, 4/5⟩ (by norm_num [lenSq, dot]) (by norm_num [lenSq, dot])

/-- **C54**: `Lerp` interpolates linearly: endpoints, and distances in proportion. -/
theorem C54_lerp (a b : V3 ℝ) (t : ℝ) :
    f3Lerp a b 0 = a ∧ f3Lerp a b 1 = b ∧ dist a (f3Lerp a b t) = |t| * dist a b ∧
    dist (f3Lerp a b t) b = |1 - t| * dist a b := by
  refine ⟨by ext <;> simp [f3Lerp], by ext <;> simp [f3Lerp], ?_, ?_⟩
  · rw [dist_eq_len, dist_eq_len, ← len_smul]; congr 1; ext <;> simp [f3Lerp] <;> ring
  · rw [dist_eq_len, dist_eq_len, ← len_smul]; congr 1; ext <;> simp [f3Lerp] <;> ring

/-- **C54**: `Cross` is perpendicular to both factors, its squared length is the squared area, and
`ScalarTripleProduct` is invariant under cyclic shifts and changes sign under swaps. -/
theorem C54_cross (u v w : V3 ℝ) :
    dot (cross u v) u = 0 ∧ dot (cross u v) v = 0 ∧
    lenSq (cross u v) = lenSq u * lenSq v - dot u v * dot u v ∧
    f3ScalarTripleProduct u v w = f3ScalarTripleProduct v w u ∧
    f3ScalarTripleProduct u v w = dot u (cross v w) ∧
    f3ScalarTripleProduct u v w = - f3ScalarTripleProduct v u w := by
  refine ⟨?_, ?_, ?_, ?_, ?_, ?_⟩ <;> simp only [f3ScalarTripleProduct, lenSq, dot, cross] <;> ring

/-- **C54**: `Perpendicular` with its default hints returns a unit vector, which is perpendicular to
the vector whenever the vector is not within 1e-6 of the y axis, or is exactly on it. -/
theorem C54_perpendicular (v : V3 ℝ) (h : 1 / 1000000 < len (cross v ⟨0, 1, 0⟩) ∨ cross v ⟨0, 1, 0⟩ = 0) :
    lenSq (f3Perpendicular v) = 1 ∧ dot v (f3Perpendicular v) = 0 := by
  unfold f3Perpendicular
  rcases h with h | h
  · have h0 : len (cross v ⟨0, 1, 0⟩) ≠ 0 := by intro h0; rw [h0] at h; norm_num at h
    have h1 := lenSq_normalized (cross v ⟨0, 1, 0⟩)
    unfold f3Normalized at h1
    rw [f3Normalize_pos h] at h1 ⊢
    simp only [h0, if_false]
    refine ⟨h1, ?_⟩
    generalize 1 / len (cross v ⟨0, 1, 0⟩) = k
    simp only [dot, cross, smul_x, smul_y, smul_z]; ring
  · have h1 : len (cross v ⟨0, 1, 0⟩) = 0 := len_eq_zero.2 h
    rw [f3Normalize_neg (by rw [h1]; norm_num)]
    simp only [if_true]
    have hx := congrArg V3.z h
    have hz := congrArg V3.x h
    simp [cross] at hx hz
    exact ⟨by simp [lenSq, dot], by simp [dot, hz]⟩

example : 1 / 1000000 < len (cross (⟨1, 0, 0⟩ : V3 ℝ) ⟨0, 1, 0⟩) := by
  have : len (cross (⟨1, 0, 0⟩ : V3 ℝ) ⟨0, 1, 0⟩) = 1 := by
    unfold len; rw [show lenSq (cross (⟨1, 0, 0⟩ : V3 ℝ) ⟨0, 1, 0⟩) = 1 by simp [lenSq, dot, cross]]
    exact Real.sqrt_one
  rw [this]; norm_num

/-- **C54** (partial): for a unit vector `PerpendicularBasis` completes it to a right-handed
orthonormal basis, for both signs of a zero `z`. The documentation only asks for a non-zero vector;
`C54_perpendicularBasis_violation` shows that this is not enough. -/
theorem C54_perpendicularBasis_partial (nz : Bool) (v : V3 ℝ) (hv : lenSq v = 1) :
    let r := f3PerpendicularBasis nz v
    lenSq r.1 = 1 ∧ lenSq r.2 = 1 ∧ dot v r.1 = 0 ∧ dot v r.2 = 0 ∧ dot r.1 r.2 = 0 ∧ cross r.1 r.2 = v := by
  have hs2 : copysign1 nz v.z * copysign1 nz v.z = 1 := by unfold copysign1; split_ifs <;> norm_num
  have hs : copysign1 nz v.z + v.z ≠ 0 := by
    unfold copysign1
    split_ifs with h
    · rcases h with h | h <;> linarith [h]
    · have : 0 ≤ v.z := by
        by_contra hc; exact h (Or.inl (not_le.1 hc))
      linarith
  unfold f3PerpendicularBasis
  generalize copysign1 nz v.z = s at *
  obtain ⟨x, y, z⟩ := v
  simp only [lenSq, dot] at hv hs ⊢
  obtain ⟨k, hk⟩ : ∃ k, k * (s + z) = 1 := ⟨(s + z)⁻¹, inv_mul_cancel₀ hs⟩
  have ha : -1 / (s + z) = -k := by field_simp; linarith
  simp only [ha]
  -- (s + z) (s - z) = 1 - z² = x² + y²
  have hxy : k * (x * x + y * y) = s - z := by linear_combination k * hv - k * hs2 + (s - z) * hk
  refine ⟨?_, ?_, ?_, ?_, ?_, ?_⟩
  · linear_combination (x*x*x*x*k*k + x*x*y*y*k*k + x*x) * hs2 + (x*x*k) * hxy - x * x * hk
  · linear_combination (1) * hs2 + (y*y*k) * hxy - y*y*hk
  · linear_combination (-s*x) * hxy - x * hs2
  · linear_combination (-y) * hxy
  · linear_combination (s*x*y*k) * hxy - (s*x*y) * hk + (x*y*k) * hs2
  · ext
    · simp only [cross]
      linear_combination x * hs2
    · simp only [cross]
      ring
    · simp only [cross]
      linear_combination (-1) * hxy - (x*x*k) * hs2

example : lenSq (⟨2 / 3, -1 / 3, 2 / 3⟩ : V3 ℝ) = 1 := by simp [lenSq, dot]; norm_num

/-- **C54**: for a vector that is not of unit length the vectors of `PerpendicularBasis` need not be
perpendicular to it. -/
theorem C54_perpendicularBasis_violation :
    dot ⟨2, 0, 0⟩ (f3PerpendicularBasis false ⟨2, 0, 0⟩).1 ≠ 0 := by
  simp [f3PerpendicularBasis, copysign1, dot]; norm_num

/-- **C54**: `Orthogonalize(a, b)` makes `b` perpendicular to `a` by subtracting a multiple of `a`. -/
theorem C54_orthogonalize2 (a b : V3 ℝ) (ha : 1 / 10000000 < lenSq a) :
    dot a (f3Orthogonalize2 a b) = 0 ∧ ∃ k : ℝ, f3Orthogonalize2 a b = b - k • a := by
  have hz : f3IsZero a = false := by simp only [f3IsZero, decide_eq_false_iff_not, not_le]; exact ha
  have h0 : lenSq a ≠ 0 := by intro h; rw [h] at ha; norm_num at ha
  unfold f3Orthogonalize2
  simp only [hz, Bool.false_eq_true, if_false]
  refine ⟨?_, 1 / lenSq a * dot b a, ?_⟩
  · have : dot a (b - f3ProjectTo b a) = dot b a - 1 / lenSq a * (dot b a * lenSq a) := by
      simp only [f3ProjectTo, dot, lenSq, sub_x, sub_y, sub_z, smul_x, smul_y, smul_z]; ring
    rw [this]; field_simp; simp
  · unfold f3ProjectTo; ext <;> simp <;> ring

example := C54_orthogonalize2 ⟨1, 2, 3⟩ ⟨3, 0, 4⟩ (by norm_num [lenSq, dot])

/-- **C54**: `Orthogonalize(a, b, c)` makes the three vectors pairwise perpendicular without changing
the successive spans, as long as no intermediate vector is regarded as zero. -/
theorem C54_orthogonalize3 (a b c : V3 ℝ) (ha : 1 / 10000000 < lenSq a)
    (hb : 1 / 10000000 < lenSq (f3Orthogonalize3 a b c).1) :
    dot a (f3Orthogonalize3 a b c).1 = 0 ∧ dot a (f3Orthogonalize3 a b c).2 = 0 ∧
    dot (f3Orthogonalize3 a b c).1 (f3Orthogonalize3 a b c).2 = 0 ∧
    (∃ k : ℝ, (f3Orthogonalize3 a b c).1 = b - k • a) ∧
    ∃ k l : ℝ, (f3Orthogonalize3 a b c).2 = c - k • a - l • b := by
  have e1 : (f3Orthogonalize3 a b c).1 = f3Orthogonalize2 a b := rfl
  have e2 : (f3Orthogonalize3 a b c).2 = f3Orthogonalize2 (f3Orthogonalize2 a b) (f3Orthogonalize2 a c) := rfl
  rw [e1] at hb ⊢
  rw [e2]
  obtain ⟨p1, k1, q1⟩ := C54_orthogonalize2 a b ha
  obtain ⟨p2, k2, q2⟩ := C54_orthogonalize2 a c ha
  obtain ⟨p3, k3, q3⟩ := C54_orthogonalize2 (f3Orthogonalize2 a b) (f3Orthogonalize2 a c) hb
  refine ⟨p1, ?_, p3, ⟨k1, q1⟩, k2 - k3 * k1, k3, ?_⟩
  · rw [q3]
    have : dot a (f3Orthogonalize2 a c - k3 • f3Orthogonalize2 a b) =
        dot a (f3Orthogonalize2 a c) - k3 * dot a (f3Orthogonalize2 a b) := by simp [dot]; ring
    rw [this, p1, p2]; ring
  · rw [q3, q2, q1]; ext <;> simp <;> ring

example : 1 / 10000000 < lenSq (⟨1, 1, 0⟩ : V3 ℝ) ∧
    1 / 10000000 < lenSq (f3Orthogonalize3 ⟨1, 1, 0⟩ ⟨0, 1, 0⟩ ⟨0, 0, 1⟩).1 := by
  have ha : 1 / 10000000 < lenSq (⟨1, 1, 0⟩ : V3 ℝ) := by simp [lenSq, dot]; norm_num
  refine ⟨ha, ?_⟩
  have hz : f3IsZero (⟨1, 1, 0⟩ : V3 ℝ) = false := by simp only [f3IsZero, decide_eq_false_iff_not, not_le]; exact ha
  simp only [f3Orthogonalize3, hz, Bool.false_eq_true, if_false, f3ProjectTo]
  simp [lenSq, dot]; norm_num

/-- **C54**: `Orthonormalize(a, b, c)` returns an orthonormal basis whenever no intermediate vector is
shorter than 1e-6. -/
theorem C54_orthonormalize (a b c : V3 ℝ) (ha : 1 / 1000000 < len a)
    (hb : 1 / 1000000 < len (b - f3ProjectToNorm b (f3Normalized a)))
    (hc : 1 / 1000000 < len (c - f3ProjectToNorm c (f3Normalized a) -
      f3ProjectToNorm (c - f3ProjectToNorm c (f3Normalized a)) (f3Orthonormalize2 a b).2)) :
    let r := f3Orthonormalize3 a b c
    r.1 = (1 / len a) • a ∧ lenSq r.1 = 1 ∧ lenSq r.2.1 = 1 ∧ lenSq r.2.2 = 1 ∧
    dot r.1 r.2.1 = 0 ∧ dot r.1 r.2.2 = 0 ∧ dot r.2.1 r.2.2 = 0 := by
  have u1 := lenSq_normalized a
  have u2 := lenSq_normalized (b - f3ProjectToNorm b (f3Normalized a))
  have perp : ∀ n v : V3 ℝ, lenSq n = 1 → dot n (v - f3ProjectToNorm v n) = 0 := by
    intro n v h
    have : dot n (v - f3ProjectToNorm v n) = dot v n * (1 - lenSq n) := by
      simp only [f3ProjectToNorm, dot, lenSq, sub_x, sub_y, sub_z, smul_x, smul_y, smul_z]; ring
    rw [this, h]; ring
  have d12 : dot (f3Normalized a) (f3Normalized (b - f3ProjectToNorm b (f3Normalized a))) = 0 := by
    rw [f3Normalized_pos hb]
    have := perp _ b u1
    generalize b - f3ProjectToNorm b (f3Normalized a) = w at *
    have e : dot (f3Normalized a) ((1 / len w) • w) = 1 / len w * dot (f3Normalized a) w := by
      simp only [dot, smul_x, smul_y, smul_z]; ring
    rw [e, this, mul_zero]
  simp only [f3Orthonormalize3, f3Orthonormalize2] at hc ⊢
  generalize hA : f3Normalized a = A at *
  generalize hB : f3Normalized (b - f3ProjectToNorm b A) = B at *
  have pA := perp A c u1
  have pB := perp B (c - f3ProjectToNorm c A) u2
  refine ⟨by rw [← hA, f3Normalized_pos ha], u1, u2, lenSq_normalized _, d12, ?_, ?_⟩
  · rw [f3Normalized_pos hc]
    generalize 1 / len _ = k
    have : dot A (k • (c - f3ProjectToNorm c A - f3ProjectToNorm (c - f3ProjectToNorm c A) B)) =
        k * (dot A (c - f3ProjectToNorm c A) - dot (c - f3ProjectToNorm c A) B * dot A B) := by
      generalize c - f3ProjectToNorm c A = w
      simp only [f3ProjectToNorm, dot, sub_x, sub_y, sub_z, smul_x, smul_y, smul_z]; ring
    rw [this, pA, d12]; ring
  · rw [f3Normalized_pos hc]
    generalize 1 / len _ = k
    generalize c - f3ProjectToNorm c A = w at *
    have : dot B (k • (w - f3ProjectToNorm w B)) = k * dot B (w - f3ProjectToNorm w B) := by
      simp only [dot, smul_x, smul_y, smul_z]; ring
    rw [this, pB, mul_zero]

example : 1 / 1000000 < len (⟨1, 0, 0⟩ : V3 ℝ) ∧
    1 / 1000000 < len ((⟨1, 1, 0⟩ : V3 ℝ) - f3ProjectToNorm ⟨1, 1, 0⟩ (f3Normalized ⟨1, 0, 0⟩)) := by
  have h1 : lenSq (⟨1, 0, 0⟩ : V3 ℝ) = 1 := by simp [lenSq, dot]
  have l1 : len (⟨1, 0, 0⟩ : V3 ℝ) = 1 := by unfold len; rw [h1, Real.sqrt_one]
  refine ⟨by rw [l1]; norm_num, ?_⟩
  rw [f3Normalized_unit h1]
  have : len ((⟨1, 1, 0⟩ : V3 ℝ) - f3ProjectToNorm ⟨1, 1, 0⟩ ⟨1, 0, 0⟩) = 1 := by
    unfold len
    rw [show lenSq ((⟨1, 1, 0⟩ : V3 ℝ) - f3ProjectToNorm ⟨1, 1, 0⟩ ⟨1, 0, 0⟩) = 1 by
      simp [lenSq, dot, f3ProjectToNorm], Real.sqrt_one]
  rw [this]; norm_num

private theorem spherical_unit (v : V3 ℝ) (h : lenSq v = 1) :
    f3FromSpherical2 (atan2 v.x v.z) (Real.arcsin (-v.y)) = v := by
  obtain ⟨x, y, z⟩ := v
  have h' : x * x + y * y + z * z = 1 := h
  have hy1 : -1 ≤ -y := by nlinarith [mul_self_nonneg x, mul_self_nonneg z, sq_nonneg (y - 1)]
  have hy2 : -y ≤ 1 := by nlinarith [mul_self_nonneg x, mul_self_nonneg z, sq_nonneg (y + 1)]
  have hc : Real.cos (Real.arcsin (-y)) = ‖(⟨z, x⟩ : ℂ)‖ := by
    rw [Real.cos_arcsin, Complex.norm_def]
    congr 1
    simp only [Complex.normSq_mk]; linarith
  unfold f3FromSpherical2 atan2
  rw [Real.sin_arcsin hy1 hy2, hc]
  ext
  · simp only; rw [mul_comm, mul_comm, Complex.norm_mul_sin_arg]
  · simp
  · simp only; rw [Complex.norm_mul_cos_arg]

/-- **C54**: spherical coordinates determine the vector: `FromSphericalCoordinates` undoes
`ToSphericalCoordinates` for every vector longer than 1e-5. -/
theorem C54_spherical (v : V3 ℝ) (h : 1 / 100000 < len v) :
    f3FromSpherical (f3ToSpherical v).x (f3ToSpherical v).y (f3ToSpherical v).z = v := by
  have h6 : 1 / 1000000 < len v := by linarith
  have h0 : len v ≠ 0 := by intro h0; rw [h0] at h; norm_num at h
  have hu := spherical_unit _ (lenSq_normalized v)
  unfold f3ToSpherical
  rw [f3Normalized_pos h6] at hu
  rw [f3Normalize_pos h6]
  dsimp only
  rw [if_neg (not_le.2 h)]
  generalize hw : (1 / len v) • v = w at *
  have hv : v = len v • w := by rw [← hw]; ext <;> simp <;> field_simp
  have ex := congrArg V3.x hu
  have ey := congrArg V3.y hu
  have ez := congrArg V3.z hu
  simp only [f3FromSpherical2] at ex ey ez
  conv_rhs => rw [hv]
  ext
  · simp only [f3FromSpherical, smul_x]; rw [ex]; ring
  · simp only [f3FromSpherical, smul_y]; rw [ey]; ring
  · simp only [f3FromSpherical, smul_z]; rw [ez]; ring

example := C54_spherical ⟨0, 3, 4⟩ (Real.lt_sqrt_of_sq_lt (by norm_num [lenSq, dot]))

/-- **C54**: the same for unit vectors and `ToSphericalCoordinatesNormalized`. -/
theorem C54_spherical_normalized (v : V3 ℝ) (h : lenSq v = 1) :
    f3FromSpherical2 (f3ToSphericalNormalized v).1 (f3ToSphericalNormalized v).2 = v := spherical_unit v h

example := C54_spherical_normalized ⟨3/5, 0, 4/5⟩ (by norm_num [lenSq, dot])

end MGL
