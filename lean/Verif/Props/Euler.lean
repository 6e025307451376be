import Verif.Proofs.Euler
import Verif.Props.Quat

/-! C56: Euler angles, all twelve orders. `RotateX/Y/Z` are pinned down by C40 (they are the matrices of
the rotations about the coordinate axes). -/

namespace MGL
open V3

/-- C56: the matrix built from three Euler angles is the product of the three axis rotations, in the
order named by the function (the Tait-Bryan orders). -/
theorem C56_fromEuler_three_axes (a b c : ℝ) :
    Mat3.fromEulerXYZ a b c = Mat3.rotateX a * Mat3.rotateY b * Mat3.rotateZ c ∧
    Mat3.fromEulerXZY a b c = Mat3.rotateX a * Mat3.rotateZ b * Mat3.rotateY c ∧
    Mat3.fromEulerYXZ a b c = Mat3.rotateY a * Mat3.rotateX b * Mat3.rotateZ c ∧
    Mat3.fromEulerYZX a b c = Mat3.rotateY a * Mat3.rotateZ b * Mat3.rotateX c ∧
    Mat3.fromEulerZXY a b c = Mat3.rotateZ a * Mat3.rotateX b * Mat3.rotateY c ∧
    Mat3.fromEulerZYX a b c = Mat3.rotateZ a * Mat3.rotateY b * Mat3.rotateX c := by
  refine ⟨?_, ?_, ?_, ?_, ?_, ?_⟩ <;> ext i j <;> rw [Matrix.mul_apply, Fin.sum_univ_three] <;>
    simp only [Matrix.mul_apply, Fin.sum_univ_three] <;> fin_cases i <;> fin_cases j <;>
    simp [-mul_eq_mul_left_iff, -mul_eq_mul_right_iff, Mat3.fromEulerXYZ, Mat3.fromEulerXZY, Mat3.fromEulerYXZ, Mat3.fromEulerYZX, Mat3.fromEulerZXY, Mat3.fromEulerZYX, Mat3.rotateX, Mat3.rotateY, Mat3.rotateZ] <;> ring

/-- C56: likewise for the proper Euler orders, in which the first and last axis agree. -/
theorem C56_fromEuler_two_axes (a b c : ℝ) :
    Mat3.fromEulerXYX a b c = Mat3.rotateX a * Mat3.rotateY b * Mat3.rotateX c ∧
    Mat3.fromEulerXZX a b c = Mat3.rotateX a * Mat3.rotateZ b * Mat3.rotateX c ∧
    Mat3.fromEulerYXY a b c = Mat3.rotateY a * Mat3.rotateX b * Mat3.rotateY c ∧
    Mat3.fromEulerYZY a b c = Mat3.rotateY a * Mat3.rotateZ b * Mat3.rotateY c ∧
    Mat3.fromEulerZXZ a b c = Mat3.rotateZ a * Mat3.rotateX b * Mat3.rotateZ c ∧
    Mat3.fromEulerZYZ a b c = Mat3.rotateZ a * Mat3.rotateY b * Mat3.rotateZ c := by
  refine ⟨?_, ?_, ?_, ?_, ?_, ?_⟩ <;> ext i j <;> rw [Matrix.mul_apply, Fin.sum_univ_three] <;>
    simp only [Matrix.mul_apply, Fin.sum_univ_three] <;> fin_cases i <;> fin_cases j <;>
    simp [-mul_eq_mul_left_iff, -mul_eq_mul_right_iff, Mat3.fromEulerXYX, Mat3.fromEulerXZX, Mat3.fromEulerYXY, Mat3.fromEulerYZY, Mat3.fromEulerZXZ, Mat3.fromEulerZYZ, Mat3.rotateX, Mat3.rotateY, Mat3.rotateZ] <;> ring

/-- C56: for every rotation matrix, the angles extracted from it rebuild it, in all twelve orders and
in the gimbal-lock branches. -/
theorem C56_toEuler_roundtrip (m : Matrix (Fin 3) (Fin 3) ℝ) (hm : Spec.IsRotation m) :
    Mat3.fromEulerXYZ (Mat3.toEulerXYZ m).x (Mat3.toEulerXYZ m).y (Mat3.toEulerXYZ m).z = m ∧
    Mat3.fromEulerXZY (Mat3.toEulerXZY m).x (Mat3.toEulerXZY m).y (Mat3.toEulerXZY m).z = m ∧
    Mat3.fromEulerYXZ (Mat3.toEulerYXZ m).x (Mat3.toEulerYXZ m).y (Mat3.toEulerYXZ m).z = m ∧
    Mat3.fromEulerYZX (Mat3.toEulerYZX m).x (Mat3.toEulerYZX m).y (Mat3.toEulerYZX m).z = m ∧
    Mat3.fromEulerZXY (Mat3.toEulerZXY m).x (Mat3.toEulerZXY m).y (Mat3.toEulerZXY m).z = m ∧
    Mat3.fromEulerZYX (Mat3.toEulerZYX m).x (Mat3.toEulerZYX m).y (Mat3.toEulerZYX m).z = m ∧
    Mat3.fromEulerXYX (Mat3.toEulerXYX m).x (Mat3.toEulerXYX m).y (Mat3.toEulerXYX m).z = m ∧
    Mat3.fromEulerXZX (Mat3.toEulerXZX m).x (Mat3.toEulerXZX m).y (Mat3.toEulerXZX m).z = m ∧
    Mat3.fromEulerYXY (Mat3.toEulerYXY m).x (Mat3.toEulerYXY m).y (Mat3.toEulerYXY m).z = m ∧
    Mat3.fromEulerYZY (Mat3.toEulerYZY m).x (Mat3.toEulerYZY m).y (Mat3.toEulerYZY m).z = m ∧
    Mat3.fromEulerZXZ (Mat3.toEulerZXZ m).x (Mat3.toEulerZXZ m).y (Mat3.toEulerZXZ m).z = m ∧
    Mat3.fromEulerZYZ (Mat3.toEulerZYZ m).x (Mat3.toEulerZYZ m).y (Mat3.toEulerZYZ m).z = m :=
  ⟨eulerXYZ_roundtrip m hm, eulerXZY_roundtrip m hm, eulerYXZ_roundtrip m hm, eulerYZX_roundtrip m hm, eulerZXY_roundtrip m hm, eulerZYX_roundtrip m hm, eulerXYX_roundtrip m hm, eulerXZX_roundtrip m hm, eulerYXY_roundtrip m hm, eulerYZY_roundtrip m hm, eulerZXZ_roundtrip m hm, eulerZYZ_roundtrip m hm⟩

/-- C56: every product of axis rotations is a rotation, so extraction after construction reproduces the
matrix (the angles themselves are not unique). -/
theorem C56_from_to_from (a b c : ℝ) :
    let m := Mat3.fromEulerXYZ a b c
    Spec.IsRotation m ∧ Mat3.fromEulerXYZ (Mat3.toEulerXYZ m).x (Mat3.toEulerXYZ m).y (Mat3.toEulerXYZ m).z = m := by
  intro m
  have n : V3.lenSq (⟨1, 0, 0⟩ : V3 ℝ) = 1 := by norm_num [V3.lenSq, V3.dot]
  have h : Spec.IsRotation m := by
    show Spec.IsRotation (Mat3.fromEulerXYZ a b c)
    rw [(C56_fromEuler_three_axes a b c).1]
    exact rotation_mul (rotation_mul (Quat.C40_axis_rotations _ n a a).2.2.2.2.1 (Quat.C40_axis_rotations _ n b b).2.2.2.2.2.1)
      (Quat.C40_axis_rotations _ n c c).2.2.2.2.2.2.1
  exact ⟨h, (C56_toEuler_roundtrip m h).1⟩

/-- Gimbal lock is reached: a quarter turn about y has `m 0 2 = 1`. -/
example : Spec.IsRotation (Mat3.rotateY (Real.pi / 2)) ∧ Mat3.rotateY (Real.pi / 2) 0 2 = 1 := by
  refine ⟨(Quat.C40_axis_rotations ⟨1, 0, 0⟩ (by norm_num [V3.lenSq, V3.dot]) _ 0).2.2.2.2.2.1, ?_⟩
  simp [Mat3.rotateY]

/-- C56: the quaternion versions represent the same rotations: `FromEuler` is a unit quaternion whose
matrix is the matrix version. -/
theorem C56_quat_fromEuler (a b c : ℝ) :
    (Quat.normSq (Quat.fromEulerXYZ a b c) = 1 ∧ Quat.toFloat3x3 (Quat.fromEulerXYZ a b c) = Mat3.fromEulerXYZ a b c) ∧
    (Quat.normSq (Quat.fromEulerXZY a b c) = 1 ∧ Quat.toFloat3x3 (Quat.fromEulerXZY a b c) = Mat3.fromEulerXZY a b c) ∧
    (Quat.normSq (Quat.fromEulerYXZ a b c) = 1 ∧ Quat.toFloat3x3 (Quat.fromEulerYXZ a b c) = Mat3.fromEulerYXZ a b c) ∧
    (Quat.normSq (Quat.fromEulerYZX a b c) = 1 ∧ Quat.toFloat3x3 (Quat.fromEulerYZX a b c) = Mat3.fromEulerYZX a b c) ∧
    (Quat.normSq (Quat.fromEulerZXY a b c) = 1 ∧ Quat.toFloat3x3 (Quat.fromEulerZXY a b c) = Mat3.fromEulerZXY a b c) ∧
    (Quat.normSq (Quat.fromEulerZYX a b c) = 1 ∧ Quat.toFloat3x3 (Quat.fromEulerZYX a b c) = Mat3.fromEulerZYX a b c) ∧
    (Quat.normSq (Quat.fromEulerXYX a b c) = 1 ∧ Quat.toFloat3x3 (Quat.fromEulerXYX a b c) = Mat3.fromEulerXYX a b c) ∧
    (Quat.normSq (Quat.fromEulerXZX a b c) = 1 ∧ Quat.toFloat3x3 (Quat.fromEulerXZX a b c) = Mat3.fromEulerXZX a b c) ∧
    (Quat.normSq (Quat.fromEulerYXY a b c) = 1 ∧ Quat.toFloat3x3 (Quat.fromEulerYXY a b c) = Mat3.fromEulerYXY a b c) ∧
    (Quat.normSq (Quat.fromEulerYZY a b c) = 1 ∧ Quat.toFloat3x3 (Quat.fromEulerYZY a b c) = Mat3.fromEulerYZY a b c) ∧
    (Quat.normSq (Quat.fromEulerZXZ a b c) = 1 ∧ Quat.toFloat3x3 (Quat.fromEulerZXZ a b c) = Mat3.fromEulerZXZ a b c) ∧
    (Quat.normSq (Quat.fromEulerZYZ a b c) = 1 ∧ Quat.toFloat3x3 (Quat.fromEulerZYZ a b c) = Mat3.fromEulerZYZ a b c) := by
  have n : V3.lenSq (⟨1, 0, 0⟩ : V3 ℝ) = 1 := by norm_num [V3.lenSq, V3.dot]
  have ux : V3.lenSq (⟨1, 0, 0⟩ : V3 ℝ) = 1 := by norm_num [V3.lenSq, V3.dot]
  have uy : V3.lenSq (⟨0, 1, 0⟩ : V3 ℝ) = 1 := by norm_num [V3.lenSq, V3.dot]
  have uz : V3.lenSq (⟨0, 0, 1⟩ : V3 ℝ) = 1 := by norm_num [V3.lenSq, V3.dot]
  have nx : ∀ t, Quat.normSq (Quat.rotateX t) = 1 := fun t => (Quat.C40_axisAngle _ t ux).1
  have ny : ∀ t, Quat.normSq (Quat.rotateY t) = 1 := fun t => (Quat.C40_axisAngle _ t uy).1
  have nz : ∀ t, Quat.normSq (Quat.rotateZ t) = 1 := fun t => (Quat.C40_axisAngle _ t uz).1
  have mx : ∀ t, Quat.toFloat3x3 (Quat.rotateX t) = Mat3.rotateX t := fun t => (Quat.C40_axis_rotations _ n t t).2.1
  have my : ∀ t, Quat.toFloat3x3 (Quat.rotateY t) = Mat3.rotateY t := fun t => (Quat.C40_axis_rotations _ n t t).2.2.1
  have mz : ∀ t, Quat.toFloat3x3 (Quat.rotateZ t) = Mat3.rotateZ t := fun t => (Quat.C40_axis_rotations _ n t t).2.2.2.1
  have key : ∀ p q r : Quat ℝ, Quat.normSq p = 1 → Quat.normSq q = 1 → Quat.normSq r = 1 →
      Quat.normSq (Quat.normalized (Quat.mul (Quat.mul p q) r)) = 1 ∧
      Quat.toFloat3x3 (Quat.normalized (Quat.mul (Quat.mul p q) r)) = Quat.toFloat3x3 p * Quat.toFloat3x3 q * Quat.toFloat3x3 r := by
    intro p q r hp hq hr
    obtain ⟨h1, _, h2⟩ := Quat.C40_compose p q hp hq
    obtain ⟨h3, _, h4⟩ := Quat.C40_compose _ r h1 hr
    have e : Quat.normalized (Quat.mul (Quat.mul p q) r) = Quat.mul (Quat.mul p q) r := by
      unfold Quat.normalized; rw [Quat.normalize_unit _ h3]
    rw [e, h4, h2]; exact ⟨h3, rfl⟩
  obtain ⟨t1, t2, t3, t4, t5, t6⟩ := C56_fromEuler_three_axes a b c
  obtain ⟨p1, p2, p3, p4, p5, p6⟩ := C56_fromEuler_two_axes a b c
  refine ⟨by rw [t1, ← mx, ← my, ← mz]; exact key _ _ _ (nx a) (ny b) (nz c),
    by rw [t2, ← mx, ← mz, ← my]; exact key _ _ _ (nx a) (nz b) (ny c),
    by rw [t3, ← my, ← mx, ← mz]; exact key _ _ _ (ny a) (nx b) (nz c),
    by rw [t4, ← my, ← mz, ← mx]; exact key _ _ _ (ny a) (nz b) (nx c),
    by rw [t5, ← mz, ← mx, ← my]; exact key _ _ _ (nz a) (nx b) (ny c),
    by rw [t6, ← mz, ← my, ← mx]; exact key _ _ _ (nz a) (ny b) (nx c),
    by rw [p1, ← mx, ← my, ← mx]; exact key _ _ _ (nx a) (ny b) (nx c),
    by rw [p2, ← mx, ← mz, ← mx]; exact key _ _ _ (nx a) (nz b) (nx c),
    by rw [p3, ← my, ← mx, ← my]; exact key _ _ _ (ny a) (nx b) (ny c),
    by rw [p4, ← my, ← mz, ← my]; exact key _ _ _ (ny a) (nz b) (ny c),
    by rw [p5, ← mz, ← mx, ← mz]; exact key _ _ _ (nz a) (nx b) (nz c),
    by rw [p6, ← mz, ← my, ← mz]; exact key _ _ _ (nz a) (ny b) (nz c)⟩

/-- C56: for every unit quaternion the extracted angles rebuild the same rotation. -/
theorem C56_quat_toEuler_roundtrip (q : Quat ℝ) (h : Quat.normSq q = 1) :
    Mat3.fromEulerXYZ (Quat.toEulerXYZ q).x (Quat.toEulerXYZ q).y (Quat.toEulerXYZ q).z = Quat.toFloat3x3 q ∧
    Mat3.fromEulerXZY (Quat.toEulerXZY q).x (Quat.toEulerXZY q).y (Quat.toEulerXZY q).z = Quat.toFloat3x3 q ∧
    Mat3.fromEulerYXZ (Quat.toEulerYXZ q).x (Quat.toEulerYXZ q).y (Quat.toEulerYXZ q).z = Quat.toFloat3x3 q ∧
    Mat3.fromEulerYZX (Quat.toEulerYZX q).x (Quat.toEulerYZX q).y (Quat.toEulerYZX q).z = Quat.toFloat3x3 q ∧
    Mat3.fromEulerZXY (Quat.toEulerZXY q).x (Quat.toEulerZXY q).y (Quat.toEulerZXY q).z = Quat.toFloat3x3 q ∧
    Mat3.fromEulerZYX (Quat.toEulerZYX q).x (Quat.toEulerZYX q).y (Quat.toEulerZYX q).z = Quat.toFloat3x3 q ∧
    Mat3.fromEulerXYX (Quat.toEulerXYX q).x (Quat.toEulerXYX q).y (Quat.toEulerXYX q).z = Quat.toFloat3x3 q ∧
    Mat3.fromEulerXZX (Quat.toEulerXZX q).x (Quat.toEulerXZX q).y (Quat.toEulerXZX q).z = Quat.toFloat3x3 q ∧
    Mat3.fromEulerYXY (Quat.toEulerYXY q).x (Quat.toEulerYXY q).y (Quat.toEulerYXY q).z = Quat.toFloat3x3 q ∧
    Mat3.fromEulerYZY (Quat.toEulerYZY q).x (Quat.toEulerYZY q).y (Quat.toEulerYZY q).z = Quat.toFloat3x3 q ∧
    Mat3.fromEulerZXZ (Quat.toEulerZXZ q).x (Quat.toEulerZXZ q).y (Quat.toEulerZXZ q).z = Quat.toFloat3x3 q ∧
    Mat3.fromEulerZYZ (Quat.toEulerZYZ q).x (Quat.toEulerZYZ q).y (Quat.toEulerZYZ q).z = Quat.toFloat3x3 q :=
  ⟨eulerXYZ_roundtrip _ ((Quat.C40_matrix q).2.1 h), eulerXZY_roundtrip _ ((Quat.C40_matrix q).2.1 h), eulerYXZ_roundtrip _ ((Quat.C40_matrix q).2.1 h), eulerYZX_roundtrip _ ((Quat.C40_matrix q).2.1 h), eulerZXY_roundtrip _ ((Quat.C40_matrix q).2.1 h), eulerZYX_roundtrip _ ((Quat.C40_matrix q).2.1 h), eulerXYX_roundtrip _ ((Quat.C40_matrix q).2.1 h), eulerXZX_roundtrip _ ((Quat.C40_matrix q).2.1 h), eulerYXY_roundtrip _ ((Quat.C40_matrix q).2.1 h), eulerYZY_roundtrip _ ((Quat.C40_matrix q).2.1 h), eulerZXZ_roundtrip _ ((Quat.C40_matrix q).2.1 h), eulerZYZ_roundtrip _ ((Quat.C40_matrix q).2.1 h)⟩

example := C56_quat_toEuler_roundtrip ⟨0, 4/5, 0, 3/5⟩ (by norm_num [Quat.normSq])

end MGL
