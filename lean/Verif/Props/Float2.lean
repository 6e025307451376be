import Verif.Model.Float2
import Verif.Spec.Hull2D
import Verif.Spec.Rect2
import Mathlib.Analysis.SpecialFunctions.Complex.Arg
import Mathlib.Analysis.Real.Pi.Bounds

/-! C95: the operations of `float2`. -/

namespace MGL.Float2
open V2 Spec
noncomputable section

theorem length_mul_self (v : V2 ℝ) : length v * length v = dot v v :=
  Real.mul_self_sqrt (by nlinarith [mul_self_nonneg v.x, mul_self_nonneg v.y])

theorem length_nonneg (v : V2 ℝ) : 0 ≤ length v := Real.sqrt_nonneg _

theorem length_smul (k : ℝ) (v : V2 ℝ) : length (k • v) = |k| * length v := by
  rw [length, length, ← Real.sqrt_mul_self_eq_abs, ← Real.sqrt_mul (mul_self_nonneg k)]
  congr 1
  simp only [smul_x, smul_y]; ring

theorem cos_atan2 (v : V2 ℝ) (h : v ≠ ⟨0, 0⟩) : Real.cos (atan2 v.y v.x) * length v = v.x ∧ Real.sin (atan2 v.y v.x) * length v = v.y := by
  have hz : (⟨v.x, v.y⟩ : ℂ) ≠ 0 := by
    intro h0
    apply h
    have h1 := congrArg Complex.re h0
    have h2 := congrArg Complex.im h0
    ext
    · exact h1
    · exact h2
  have hn : ‖(⟨v.x, v.y⟩ : ℂ)‖ = length v := by rw [Complex.norm_def, Complex.normSq_mk]; rfl
  have hl : length v ≠ 0 := by rw [← hn]; exact norm_ne_zero_iff.2 hz
  unfold atan2
  rw [Complex.cos_arg hz, Complex.sin_arg, hn]
  exact ⟨div_mul_cancel₀ _ hl, div_mul_cancel₀ _ hl⟩

/-- C95, polar coordinates: `FromPolarCoordinates` gives a vector of the given length, a quarter turn of the angle is a quarter turn of the vector, and the
two conversions undo each other for vectors longer than 1e-4 and angles in (-π, π]. -/
theorem C95_polar (theta r : ℝ) :
    length (fromPolar theta r) = |r| ∧ MinAreaRect.rotated90CCW (fromPolar theta r) = fromPolar (theta + Real.pi / 2) r
      ∧ (1 / 10000 < r → -Real.pi < theta → theta ≤ Real.pi → toPolar (fromPolar theta r) = ⟨theta, r⟩)
      ∧ ∀ v : V2 ℝ, (1 / 10000 < length v → fromPolar (toPolar v).x (toPolar v).y = v) ∧ (length v ≤ 1 / 10000 → toPolar v = ⟨0, 0⟩) := by
  have hlen : length (fromPolar theta r) = |r| := by
    rw [length, ← Real.sqrt_mul_self_eq_abs]
    congr 1
    simp only [fromPolar]
    linear_combination r * r * Real.sin_sq_add_cos_sq theta
  refine ⟨hlen, ?_, fun h1 h2 h3 => ?_, fun v => ⟨fun h => ?_, fun h => ?_⟩⟩
  · ext <;> simp [MinAreaRect.rotated90CCW, fromPolar, Real.cos_add_pi_div_two, Real.sin_add_pi_div_two]
  · have hr : 0 < r := by linarith
    rw [toPolar, hlen, abs_of_pos hr, if_pos h1]
    have : atan2 (fromPolar theta r).y (fromPolar theta r).x = theta := by
      have e : (⟨(fromPolar theta r).x, (fromPolar theta r).y⟩ : ℂ) = (r : ℂ) * (Complex.cos theta + Complex.sin theta * Complex.I) := by
        apply Complex.ext
        · simp [fromPolar, ← Complex.ofReal_cos, ← Complex.ofReal_sin]; ring
        · simp [fromPolar, ← Complex.ofReal_cos, ← Complex.ofReal_sin]; ring
      rw [atan2, e, Complex.arg_mul_cos_add_sin_mul_I hr ⟨h2, h3⟩]
    rw [this]
  · have h0 : v ≠ ⟨0, 0⟩ := by rintro rfl; simp [length] at h; norm_num at h
    rw [toPolar, if_pos h]
    have := cos_atan2 v h0
    ext
    · exact this.1
    · exact this.2
  · rw [toPolar, if_neg (not_lt.2 h)]

/-- C95, the aimed angle: it is in (-π, π], and the vector is its length times the direction of that angle. Vectors that point the same way have the same
aimed angle. -/
theorem C95_aimedAngle (v : V2 ℝ) (hv : v ≠ ⟨0, 0⟩) (k : ℝ) (hk : 0 < k) :
    -Real.pi < aimedAngle v ∧ aimedAngle v ≤ Real.pi ∧ fromPolar (aimedAngle v) (length v) = v ∧ aimedAngle (k • v) = aimedAngle v := by
  refine ⟨Complex.neg_pi_lt_arg _, Complex.arg_le_pi _, ?_, ?_⟩
  · have := cos_atan2 v hv
    ext
    · exact this.1
    · exact this.2
  · have e : (⟨(k • v).x, (k • v).y⟩ : ℂ) = (k : ℂ) * ⟨v.x, v.y⟩ := by
      apply Complex.ext <;> simp
    rw [aimedAngle, atan2, e, Complex.arg_real_mul _ hk]
    rfl

/-- The documentation gives (-π/2, π/2] as the range of the aimed angle. For the vector that points towards -X it is π. -/
theorem C95_aimedAngle_violation : Real.pi / 2 < aimedAngle ⟨-1, 0⟩ := by
  have e : (⟨-1, 0⟩ : ℂ) = ((-1 : ℝ) : ℂ) := by apply Complex.ext <;> simp
  rw [aimedAngle, atan2, e, Complex.arg_ofReal_of_neg (by norm_num)]
  linarith [Real.pi_pos]

theorem length_le_iff (v : V2 ℝ) : v.x * v.x + v.y * v.y > 1 / 1000000 ↔ 1 / 1000 < length v := by
  have h := length_mul_self v
  have h0 := length_nonneg v
  simp only [dot] at h
  rw [← h]
  constructor
  · intro h1
    by_contra hn
    push Not at hn
    nlinarith
  · intro h1
    nlinarith

/-- C95, `Normalize`: the result always has length 1. A vector longer than 1/1000 keeps its direction and its length is returned; otherwise 0 is. -/
theorem C95_normalize (v : V2 ℝ) :
    length (normalize v).1 = 1 ∧ (1 / 1000 < length v → (normalize v).2 = length v ∧ length v • (normalize v).1 = v)
      ∧ (length v ≤ 1 / 1000 → (normalize v).2 = 0) := by
  have key : 1 / 1000 < length v → normalize v = ((1 / length v) • v, length v) := fun h => by rw [normalize, if_pos ((length_le_iff v).2 h)]
  have key' : length v ≤ 1 / 1000 → normalize v = (⟨1, 0⟩, 0) := fun h => by rw [normalize, if_neg (fun h' => absurd ((length_le_iff v).1 h') (not_lt.2 h))]
  refine ⟨?_, fun h => ?_, fun h => by rw [key' h]⟩
  · rcases le_or_gt (length v) (1 / 1000) with h | h
    · rw [key' h]; simp [length]
    · rw [key h]
      have : 0 < length v := by linarith
      show length ((1 / length v) • v) = 1
      rw [length_smul, abs_of_pos (by positivity), one_div, inv_mul_cancel₀ this.ne']
  · rw [key h]
    have : length v ≠ 0 := by linarith
    refine ⟨rfl, ?_⟩
    ext <;> simp <;> field_simp

/-- C95, `ScaleToLength`, for vectors of length at least 1/1000: the result has the length asked for and the old direction, and the old length is returned. -/
theorem C95_scaleToLength_partial (v : V2 ℝ) (l : ℝ) (h : 1 / 1000 ≤ length v) :
    length (scaleToLength v l).1 = |l| ∧ (scaleToLength v l).2 = length v ∧ (scaleToLength v l).1 = (l / length v) • v := by
  have hn : ¬ v.x * v.x + v.y * v.y < 1 / 1000000 := by
    have h1 := length_mul_self v
    simp only [dot] at h1
    rw [← h1]; push Not; nlinarith
  have h0 : 0 < length v := by linarith
  rw [scaleToLength, if_neg hn]
  refine ⟨?_, rfl, rfl⟩
  show length ((l / length v) • v) = _
  rw [length_smul, abs_div, abs_of_pos h0, div_mul_cancel₀ _ h0.ne']

/-- `ScaleToLength` is documented to set a vector that is too short to `(newLength, 0)`. It leaves it as it is. -/
theorem C95_scaleToLength_violation : ∃ v : V2 ℝ, (scaleToLength v 1).2 = 0 ∧ length (scaleToLength v 1).1 ≠ 1 := by
  refine ⟨⟨0, 0⟩, ?_, ?_⟩ <;> norm_num [scaleToLength, length]

/-- C95, quarter turns: they preserve the length, are perpendicular to the vector, undo each other, and the in-place forms agree with the others.
The perpendicular product is the scalar product with the counter-clockwise turn. -/
theorem C95_rotate90 (v w : V2 ℝ) :
    rotate90CW v = MinAreaRect.rotated90CW v ∧ rotate90CCW v = MinAreaRect.rotated90CCW v ∧ perp' v = MinAreaRect.rotated90CCW v
      ∧ rotate90CW (rotate90CCW v) = v ∧ rotate90CCW (rotate90CW v) = v ∧ length (rotate90CW v) = length v ∧ length (rotate90CCW v) = length v
      ∧ dot (rotate90CW v) v = 0 ∧ dot (rotate90CCW v) v = 0 ∧ dot (perp' v) w = MinAreaRect.perpDot v w
      ∧ MinAreaRect.perpDot v (rotate90CCW v) = dot v v := by
  refine ⟨rfl, rfl, rfl, ?_, ?_, ?_, ?_, ?_, ?_, ?_, ?_⟩
  · ext <;> simp [rotate90CW, rotate90CCW]
  · ext <;> simp [rotate90CW, rotate90CCW]
  · simp only [length, rotate90CW]; congr 1; ring
  · simp only [length, rotate90CCW]; congr 1; ring
  · simp only [dot, rotate90CW]; ring
  · simp only [dot, rotate90CCW]; ring
  · simp only [dot, perp', MinAreaRect.perpDot]; ring
  · simp only [dot, rotate90CCW, MinAreaRect.perpDot]; ring

/-- C95, projection: `ProjectTo` gives the point of the line through the origin along `d` that is nearest to the vector. -/
theorem C95_projectTo (v d : V2 ℝ) (hd : d ≠ ⟨0, 0⟩) :
    (∃ t : ℝ, projectTo v d = t • d) ∧ dot (v - projectTo v d) d = 0 ∧ (∀ t : ℝ, distSq2 v (projectTo v d) ≤ distSq2 v (t • d))
      ∧ (dot d d = 1 → projectToNorm v d = projectTo v d) := by
  have hp : 0 < dot d d := by
    rcases (show 0 ≤ dot d d by simp only [dot]; nlinarith [mul_self_nonneg d.x, mul_self_nonneg d.y]).eq_or_lt with h | h
    · exfalso
      simp only [dot] at h
      apply hd
      ext
      · exact mul_self_eq_zero.1 (by nlinarith [mul_self_nonneg d.x, mul_self_nonneg d.y])
      · exact mul_self_eq_zero.1 (by nlinarith [mul_self_nonneg d.x, mul_self_nonneg d.y])
    · exact h
  have e1 : projectTo v d = (dot v d / dot d d) • d := by
    ext <;> simp [projectTo] <;> ring
  have e2 : dot (v - projectTo v d) d = 0 := by
    rw [e1]
    have : dot (v - (dot v d / dot d d) • d) d = dot v d - dot v d / dot d d * dot d d := by simp only [dot, sub_x, sub_y, smul_x, smul_y]; ring
    rw [this, div_mul_cancel₀ _ hp.ne', sub_self]
  refine ⟨⟨_, e1⟩, e2, fun t => ?_, fun h => ?_⟩
  · have : distSq2 v (t • d) = distSq2 v (projectTo v d) + (dot v d / dot d d - t) ^ 2 * dot d d
        + 2 * (dot v d / dot d d - t) * dot (v - projectTo v d) d := by
      rw [e1]; simp only [distSq2, dot, sub_x, sub_y, smul_x, smul_y]; ring
    rw [this, e2]
    nlinarith [mul_nonneg (sq_nonneg (dot v d / dot d d - t)) hp.le]
  · rw [projectTo, h]
    ext <;> simp [projectToNorm]

/-- C95, `Decompose` and `Reflect` for a unit vector: the parts add up, one is parallel and the other perpendicular; the reflection keeps the part along the
normal, negates the other one and keeps the length. -/
theorem C95_decompose (v d : V2 ℝ) (hd : dot d d = 1) :
    (decompose v d).1 + (decompose v d).2 = v ∧ (∃ t : ℝ, (decompose v d).1 = t • d) ∧ dot (decompose v d).2 d = 0
      ∧ reflect v d = (decompose v d).1 - (decompose v d).2 ∧ length (reflect v d) = length v := by
  refine ⟨by ext <;> simp [decompose], ⟨_, rfl⟩, ?_, ?_, ?_⟩
  · have : dot (decompose v d).2 d = dot v d - dot v d * dot d d := by simp only [decompose, dot, sub_x, sub_y, smul_x, smul_y]; ring
    rw [this, hd]; ring
  · ext <;> simp only [reflect, projectToNorm, decompose, sub_x, sub_y, smul_x, smul_y] <;> ring
  · unfold length
    congr 1
    have : (reflect v d).x * (reflect v d).x + (reflect v d).y * (reflect v d).y = dot v v + 4 * dot v d * dot v d * (dot d d - 1) := by
      simp only [reflect, projectToNorm, dot, sub_x, sub_y, smul_x, smul_y]; ring
    rw [this, hd]
    simp only [dot]; ring

/-- `Refract` is documented to refract the vector. Straight onto the surface between equal materials the result should be the vector itself; it is three times
as long. -/
theorem C95_refract_violation : refract ⟨0, -1⟩ ⟨0, 1⟩ 1 1 = ⟨0, -3⟩ := by
  norm_num [refract, dot]
  ext <;> norm_num

/-- C95, total internal reflection: the vector is mirrored, so that its part along the normal is negated. -/
theorem C95_refract_total_partial (v n : V2 ℝ) (neg pos : ℝ) (hn : dot n n = 1) (h : (neg / pos) * (neg / pos) * (1 - dot v n * dot v n) > 1) :
    dot (refract v n neg pos) n = -dot v n ∧ dot (refract v n neg pos) (perp' n) = dot v (perp' n) := by
  have e : refract v n neg pos = reflect (-v) n := by simp only [refract, if_pos h]
  rw [e]
  constructor
  · have : dot (reflect (-v) n) n = dot v n - 2 * dot v n * dot n n := by simp only [reflect, projectToNorm, dot, sub_x, sub_y, smul_x, smul_y, neg_x, neg_y]; ring
    rw [this, hn]; ring
  · simp only [reflect, projectToNorm, dot, sub_x, sub_y, smul_x, smul_y, neg_x, neg_y, perp']; ring

/-- C95, angles: for unit vectors both functions give the angle between 0 and π whose cosine is the scalar product. -/
theorem C95_angleBetween_partial (v o : V2 ℝ) (hv : dot v v = 1) (ho : dot o o = 1) :
    angleBetween v o = angleBetweenNorm v o ∧ 0 ≤ angleBetweenNorm v o ∧ angleBetweenNorm v o ≤ Real.pi ∧ Real.cos (angleBetweenNorm v o) = dot v o := by
  refine ⟨by simp [angleBetween, angleBetweenNorm, hv, ho], Real.arccos_nonneg _, Real.arccos_le_pi _, ?_⟩
  simp only [dot] at hv ho ⊢
  refine Real.cos_arccos ?_ ?_
  · simp only [dot]; nlinarith [mul_self_nonneg (v.x + o.x), mul_self_nonneg (v.y + o.y)]
  · simp only [dot]; nlinarith [mul_self_nonneg (v.x - o.x), mul_self_nonneg (v.y - o.y)]

/-- `AngleBetween` is documented to allow vectors that are not normalised. It divides the angle instead of the cosine: for perpendicular vectors of length 2 it
returns π/8, not π/2. -/
theorem C95_angleBetween_violation : angleBetween ⟨2, 0⟩ ⟨0, 2⟩ = Real.pi / 8 := by
  have : √(16 : ℝ) = 4 := by rw [show (16 : ℝ) = 4 * 4 by norm_num]; exact Real.sqrt_mul_self (by norm_num)
  norm_num [angleBetween, dot, this]
  ring

/-- C95, interpolation: the ends are reached, and the distances to the ends are proportional to the weights. -/
theorem C95_lerp (a b : V2 ℝ) (t : ℝ) :
    lerp a b 0 = a ∧ lerp a b 1 = b ∧ distance a (lerp a b t) = |t| * distance a b ∧ distance (lerp a b t) b = |1 - t| * distance a b := by
  refine ⟨by ext <;> simp [lerp], by ext <;> simp [lerp], ?_, ?_⟩
  · rw [distance, distance, ← Real.sqrt_mul_self_eq_abs, ← Real.sqrt_mul (mul_self_nonneg t)]
    congr 1
    simp only [lerp, add_x, add_y, smul_x, smul_y]; ring
  · rw [distance, distance, ← Real.sqrt_mul_self_eq_abs, ← Real.sqrt_mul (mul_self_nonneg (1 - t))]
    congr 1
    simp only [lerp, add_x, add_y, smul_x, smul_y]; ring

/-- C95, `Orthogonalize` for a first vector of length 1: the second vector becomes perpendicular to it, and changes only along it. -/
theorem C95_orthogonalize_partial (a b : V2 ℝ) (ha : length a = 1) : dot a (orthogonalize a b) = 0 ∧ ∃ t : ℝ, orthogonalize a b = b + t • a := by
  have h := length_mul_self a
  rw [ha] at h
  refine ⟨?_, -(dot a b / length a), by ext <;> simp [orthogonalize] <;> ring⟩
  rw [orthogonalize, ha, div_one]
  have : dot a (b - dot a b • a) = dot a b - dot a b * dot a a := by simp only [dot, sub_x, sub_y, smul_x, smul_y]; ring
  rw [this, ← h]; ring

/-- `Orthogonalize` is documented to make the vectors perpendicular. It divides by the length and not by its square, so that it fails for other lengths. -/
theorem C95_orthogonalize_violation : dot ⟨2, 0⟩ (orthogonalize ⟨2, 0⟩ ⟨1, 1⟩) ≠ 0 := by
  have : √(4 : ℝ) = 2 := by rw [show (4 : ℝ) = 2 * 2 by norm_num]; exact Real.sqrt_mul_self (by norm_num)
  norm_num [orthogonalize, length, dot, this]

/-- C95, `Orthonormalize`: the first vector becomes one of length 1, and the second one perpendicular to it. -/
theorem C95_orthonormalize_partial (a b : V2 ℝ) : length (orthonormalize a b).1 = 1 ∧ dot (orthonormalize a b).1 (orthonormalize a b).2 = 0
    ∧ (1 / 1000 < length a → ∃ k : ℝ, 0 < k ∧ (orthonormalize a b).1 = k • a) := by
  have h1 := (C95_normalize a).1
  have h2 := length_mul_self (normalize a).1
  rw [h1] at h2
  refine ⟨h1, ?_, fun h => ⟨1 / length a, by have : 0 < length a := by linarith
                                             positivity, ?_⟩⟩
  · show dot (normalize a).1 (b - dot (normalize a).1 b • (normalize a).1) = 0
    have : ∀ c : V2 ℝ, dot c (b - dot c b • c) = dot c b - dot c b * dot c c := fun c => by simp only [dot, sub_x, sub_y, smul_x, smul_y]; ring
    rw [this, ← h2]; ring
  · show (normalize a).1 = _
    rw [normalize, if_pos ((length_le_iff a).2 h)]

/-- `Orthonormalize` is documented to make both vectors unit vectors. The second one is not normalised. -/
theorem C95_orthonormalize_violation : length (orthonormalize ⟨1, 0⟩ ⟨0, 2⟩).2 = 2 := by
  have : √(4 : ℝ) = 2 := by rw [show (4 : ℝ) = 2 * 2 by norm_num]; exact Real.sqrt_mul_self (by norm_num)
  norm_num [orthonormalize, normalize, length, dot, this]

/-- C95, `OrientedCCW` says whether the triangle is counter-clockwise or degenerate: whether `c` is not to the right of the line from `a` to `b`. -/
theorem C95_orientedCCW (a b c : V2 ℝ) : orientedCCW a b c = true ↔ 0 ≤ area2 a b c := by
  simp only [orientedCCW, decide_eq_true_eq, area2, ge_iff_le]
  constructor <;> intro h <;> linarith

/-- C95, elements: the index of the least and of the greatest element are indices of such elements, and the two are different. `Clamp` gives the point of the
box that is nearest to the vector. -/
theorem C95_elements (v lo hi : V2 ℝ) (hx : lo.x ≤ hi.x) (hy : lo.y ≤ hi.y) :
    at' v (minElementIndex v) = some (minElement v) ∧ at' v (maxElementIndex v) = some (maxElement v) ∧ minElementIndex v ≠ maxElementIndex v
      ∧ clamp v lo hi ∈ rect ⟨lo, hi⟩ ∧ ∀ q ∈ rect ⟨lo, hi⟩, distSq2 v (clamp v lo hi) ≤ distSq2 v q := by
  have key : ∀ {x l h : ℝ}, l ≤ h → l ≤ MGL.clamp x l h ∧ MGL.clamp x l h ≤ h ∧ ∀ q, l ≤ q → q ≤ h → (x - MGL.clamp x l h) ^ 2 ≤ (x - q) ^ 2 := by
    intro x l h hl
    unfold MGL.clamp
    split_ifs with h1 h2
    · exact ⟨h2, h1, fun q _ _ => by rw [sub_self]; nlinarith [sq_nonneg (x - q)]⟩
    · refine ⟨le_rfl, hl, fun q q1 _ => ?_⟩
      push Not at h2
      nlinarith [mul_nonneg (sub_nonneg.2 q1) (sub_nonneg.2 h2.le), sq_nonneg (q - l)]
    · refine ⟨hl, le_rfl, fun q _ q2 => ?_⟩
      push Not at h1
      nlinarith [mul_nonneg (sub_nonneg.2 q2) (sub_nonneg.2 h1.le), sq_nonneg (h - q)]
  obtain ⟨a1, a2, a3⟩ := key (x := v.x) hx
  obtain ⟨b1, b2, b3⟩ := key (x := v.y) hy
  refine ⟨?_, ?_, ?_, ⟨a1, a2, b1, b2⟩, fun q ⟨q1, q2, q3, q4⟩ => add_le_add (a3 _ q1 q2) (b3 _ q3 q4)⟩
  · unfold minElementIndex minElement
    split_ifs with h
    · simp [at', min_eq_left h]
    · simp [at', min_eq_right (not_le.1 h).le]
  · unfold maxElementIndex maxElement
    split_ifs with h
    · simp [at', max_eq_left (le_of_lt h)]
    · simp [at', max_eq_right (not_lt.1 h)]
  · unfold minElementIndex maxElementIndex
    split_ifs with h h' <;> simp_all
    all_goals linarith

/-- C95, `RandomDir`: whatever the random numbers are, the result has the length asked for. -/
theorem C95_randomDir (rnd : ℕ → ℝ × ℝ) (r : ℝ) (hr : 0 ≤ r) : length (randomDir rnd r) = r := by
  have : ∀ left i, length (randomDirLoop rnd r left i) = r := by
    intro left
    induction left with
    | zero =>
      intro i
      simp only [randomDirLoop, length, mul_zero, add_zero]
      exact Real.sqrt_mul_self hr
    | succ n ih =>
      intro i
      simp only [randomDirLoop]
      split_ifs with h
      · rw [length_smul]
        have h0 : 0 < (rnd i).1 * (rnd i).1 + (rnd i).2 * (rnd i).2 := by linarith [h.1]
        have hs := Real.sqrt_pos.2 h0
        rw [abs_of_nonneg (by positivity)]
        exact div_mul_cancel₀ _ hs.ne'
      · exact ih _
  exact this _ _

/-- C95, perpendicularity: the test is exact up to the tolerance on the squared cosine. -/
theorem C95_isPerpendicular (a b : V2 ℝ) (eps : ℝ) : (isPerpendicular a b eps = true ↔ dot a b ^ 2 ≤ eps * (length a * length b) ^ 2)
    ∧ (isPerpendicular a b 0 = true ↔ dot a b = 0) := by
  constructor
  · simp only [isPerpendicular, decide_eq_true_eq]
    rw [mul_pow, pow_two (length a), pow_two (length b), length_mul_self, length_mul_self, pow_two, mul_assoc]
  · simp only [isPerpendicular, decide_eq_true_eq, zero_mul]
    exact ⟨fun h => mul_self_eq_zero.1 (le_antisymm h (mul_self_nonneg _)), fun h => by rw [h]; norm_num⟩

/-! The hypotheses are met. -/

theorem ex_length : length ⟨3, 4⟩ = 5 := by
  rw [length, show (3 : ℝ) * 3 + 4 * 4 = 5 * 5 by norm_num]; exact Real.sqrt_mul_self (by norm_num)

example := (C95_polar 1 2).2.2.1 (by norm_num) (by linarith [Real.pi_gt_three]) (by linarith [Real.pi_gt_three])
example := C95_aimedAngle ⟨3, 4⟩ (by simp) 2 (by norm_num)
example := (C95_normalize ⟨3, 4⟩).2.1 (by rw [ex_length]; norm_num)
example := C95_scaleToLength_partial ⟨3, 4⟩ 7 (by rw [ex_length]; norm_num)
example := C95_projectTo ⟨1, 2⟩ ⟨3, 4⟩ (by simp)
example := C95_decompose ⟨1, 2⟩ ⟨3 / 5, 4 / 5⟩ (by norm_num [dot])
example := C95_refract_total_partial ⟨1, 0⟩ ⟨0, 1⟩ 3 2 (by norm_num [dot]) (by norm_num [dot])
example := C95_angleBetween_partial ⟨1, 0⟩ ⟨3 / 5, 4 / 5⟩ (by norm_num [dot]) (by norm_num [dot])
example := C95_orthogonalize_partial ⟨1, 0⟩ ⟨3, 4⟩ (by simp [length])
example := C95_elements ⟨5, -7⟩ ⟨0, 0⟩ ⟨1, 2⟩ (by norm_num) (by norm_num)
example := C95_randomDir (fun i => (i, 1)) 2 (by norm_num)

end
end MGL.Float2
