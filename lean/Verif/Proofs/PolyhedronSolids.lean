import Verif.Proofs.PolyhedronMake

/-! The platonic solids: all faces look inwards, sides and distances from the centre are equal. -/

set_option linter.unusedSectionVars false

namespace MGL
open V3 Spec
namespace Polyhedron

section
variable {α : Type} [Field α] [LinearOrder α] [IsStrictOrderedRing α]

theorem triple_move (s : α) (o a b c x : V3 α) :
    dot (cross ((s • b + o) - (s • a + o)) ((s • c + o) - (s • a + o))) ((s • x + o) - (s • a + o)) =
      s ^ 3 * dot (cross (b - a) (c - a)) (x - a) := by
  simp only [dot, cross, add_x, add_y, add_z, sub_x, sub_y, sub_z, smul_x, smul_y, smul_z]; ring

theorem cross_move (s : α) (o a b c : V3 α) :
    cross ((s • b + o) - (s • a + o)) ((s • c + o) - (s • a + o)) = (s * s) • cross (b - a) (c - a) := by
  ext <;> simp only [cross, add_x, add_y, add_z, sub_x, sub_y, sub_z, smul_x, smul_y, smul_z] <;> ring

theorem smul_ne_zero' {s : α} (hs : 0 < s) {v : V3 α} (hv : v ≠ 0) : (s * s) • v ≠ 0 := by
  intro h
  apply hv
  have hs2 : s * s ≠ 0 := (mul_pos hs hs).ne'
  have hx := congrArg V3.x h
  have hy := congrArg V3.y h
  have hz := congrArg V3.z h
  simp only [smul_x, smul_y, smul_z, zero_x, zero_y, zero_z, mul_eq_zero, hs2, false_or] at hx hy hz
  ext
  · exact hx
  · exact hy
  · exact hz

theorem faceOutward_move {s : α} (hs : 0 < s) (o : V3 α) {P poly : List (V3 α)} (h : FaceOutward P poly) :
    FaceOutward (P.map fun u => s • u + o) (poly.map fun u => s • u + o) := by
  obtain ⟨a, b, c, rest, rfl, h0, h1, h2⟩ := h
  refine ⟨_, _, _, _, rfl, ?_, fun x hx => ?_, fun x hx => ?_⟩
  · rw [cross_move]; exact smul_ne_zero' hs h0
  · obtain ⟨y, hy, rfl⟩ := List.mem_map.1 hx
    rw [triple_move]; exact mul_nonpos_of_nonneg_of_nonpos (by positivity) (h1 y hy)
  · obtain ⟨y, hy, rfl⟩ := List.mem_map.1 (show x ∈ (a :: b :: c :: rest).map fun u => s • u + o from hx)
    rw [triple_move, h2 y hy, mul_zero]

theorem faceInward_move {s : α} (hs : 0 < s) (o : V3 α) {P poly : List (V3 α)} (h : FaceInward P poly) :
    FaceInward (P.map fun u => s • u + o) (poly.map fun u => s • u + o) := by
  obtain ⟨a, b, c, rest, rfl, h0, h1, h2⟩ := h
  refine ⟨_, _, _, _, rfl, ?_, fun x hx => ?_, fun x hx => ?_⟩
  · rw [cross_move]; exact smul_ne_zero' hs h0
  · obtain ⟨y, hy, rfl⟩ := List.mem_map.1 hx
    rw [triple_move]; exact mul_nonneg (by positivity) (h1 y hy)
  · obtain ⟨y, hy, rfl⟩ := List.mem_map.1 (show x ∈ (a :: b :: c :: rest).map fun u => s • u + o from hx)
    rw [triple_move, h2 y hy, mul_zero]

theorem equalSides_move {s L : α} (o : V3 α) {poly : List (V3 α)} (h : EqualSides L poly) :
    EqualSides (s ^ 2 * L) (poly.map fun u => s • u + o) := by
  intro e he
  rw [← List.map_rotate, List.zip_map, List.mem_map] at he
  obtain ⟨⟨x, y⟩, hxy, rfl⟩ := he
  have := h _ hxy
  rw [← this]
  simp only [Prod.map, lenSq, dot, add_x, add_y, add_z, sub_x, sub_y, sub_z, smul_x, smul_y, smul_z]; ring

/-- What is shown of each solid before it is scaled and moved. -/
structure Regular (P : List (V3 α)) (fs : List (List ℤ)) (L R : α) : Prop where
  valid : ValidFaces P.length fs
  closed : ClosedMesh fs
  inward : ∀ f ∈ fs, FaceInward P (f.map (at' P))
  outward : ∀ f ∈ fs, FaceOutward P (f.reverse.map (at' P))
  sides : ∀ f ∈ fs, EqualSides L (f.map (at' P)) ∧ EqualSides L (f.reverse.map (at' P))
  radius : ∀ x ∈ P, lenSq x = R

theorem at_map {P : List (V3 α)} {g : V3 α → V3 α} {f : List ℤ} (h : ∀ i ∈ f, 0 ≤ i ∧ i < P.length) :
    f.map (at' (P.map g)) = (f.map (at' P)).map g := by
  rw [List.map_map]
  refine List.map_congr_left fun i hi => ?_
  have := h i hi
  have hlt : i.toNat < P.length := by omega
  rw [Function.comp, at', at', List.getD_eq_getElem _ _ (by simpa using hlt), List.getElem_map, List.getD_eq_getElem _ _ hlt]

/-- A triangle face, seen from inside. -/
theorem tri_inward {P : List (V3 α)} {a b c : V3 α} (x : V3 α) (hP : ∀ x ∈ P, 0 ≤ dot (cross (b - a) (c - a)) (x - a))
    (hx : 0 < dot (cross (b - a) (c - a)) (x - a)) : FaceInward P [a, b, c] ∧ FaceOutward P [c, b, a] := by
  have e : ∀ y, dot (cross (b - c) (a - c)) (y - c) = - dot (cross (b - a) (c - a)) (y - a) := by
    intro y; simp only [dot, cross, sub_x, sub_y, sub_z]; ring
  refine ⟨faceInward_of hP (by simp) ⟨x, hx⟩, faceOutward_of (fun y hy => ?_) (by simp) ⟨x, ?_⟩⟩
  · rw [e]; have := hP y hy; linarith
  · rw [e]; linarith

end

section tetra
variable {α : Type} [Field α] [LinearOrder α] [IsStrictOrderedRing α]

theorem tetra_regular : Regular (tetraVertices : List (V3 α)) tetraFaces 8 3 := by
  have key : ∀ f ∈ tetraFaces, FaceInward (tetraVertices : List (V3 α)) (f.map (at' tetraVertices)) ∧
      FaceOutward tetraVertices (f.reverse.map (at' tetraVertices : ℤ → V3 α)) := by
    simp only [tetraFaces, List.forall_mem_cons, List.map_cons, List.map_nil, List.reverse_cons, List.reverse_nil, List.nil_append,
      List.cons_append]
    refine ⟨?_, ?_, ?_, ?_, by simp⟩
    all_goals
      simp only [at', tetraVertices, Int.toNat_zero, Int.toNat_one, Int.reduceToNat, List.getD_cons_zero, List.getD_cons_succ]
      refine tri_inward ⟨0, 0, 0⟩ ?_ (by norm_num [dot, cross])
      simp only [List.forall_mem_cons]
      refine ⟨?_, ?_, ?_, ?_, by simp⟩ <;> norm_num [dot, cross]
  refine ⟨?_, ?_, fun f hf => (key f hf).1, fun f hf => (key f hf).2, ?_, ?_⟩
  · show ValidFaces 4 tetraFaces
    unfold ValidFaces; decide
  · exact (isClosed_iff (⟨[], tetraFaces⟩ : Polyhedron ℚ)).1 (by decide)
  · simp only [tetraFaces, List.forall_mem_cons, List.map_cons, List.map_nil, List.reverse_cons, List.reverse_nil, List.nil_append,
      List.cons_append]
    refine ⟨⟨?_, ?_⟩, ⟨?_, ?_⟩, ⟨?_, ?_⟩, ⟨?_, ?_⟩, by simp⟩
    all_goals
      simp only [EqualSides, at', tetraVertices, Int.toNat_zero, Int.toNat_one, Int.reduceToNat, List.getD_cons_zero, List.getD_cons_succ,
        List.rotate_cons_succ, List.rotate_zero, List.cons_append, List.nil_append, List.zip_cons_cons, List.zip_nil_left, List.forall_mem_cons]
      refine ⟨?_, ?_, ?_, by simp⟩ <;> norm_num [lenSq, dot]
  · simp only [tetraVertices, List.forall_mem_cons]
    refine ⟨?_, ?_, ?_, ?_, by simp⟩ <;> norm_num [lenSq, dot]

end tetra

/-! Exact arithmetic in the numbers `p + q b` with rational `p`, `q`, where `b² = u + v b`, to check the solids with `√2` and `√5`. -/

structure Q2 where
  p : ℚ
  q : ℚ
  deriving DecidableEq

namespace Q2

def add (x y : Q2) : Q2 := ⟨x.p + y.p, x.q + y.q⟩
def sub (x y : Q2) : Q2 := ⟨x.p - y.p, x.q - y.q⟩
def mul (u v : ℚ) (x y : Q2) : Q2 := ⟨x.p * y.p + u * (x.q * y.q), x.p * y.q + x.q * y.p + v * (x.q * y.q)⟩

noncomputable def eval (b : ℝ) (x : Q2) : ℝ := x.p + x.q * b

theorem eval_add (b : ℝ) (x y : Q2) : (add x y).eval b = x.eval b + y.eval b := by
  simp only [add, eval]; push_cast; ring
theorem eval_sub (b : ℝ) (x y : Q2) : (sub x y).eval b = x.eval b - y.eval b := by
  simp only [sub, eval]; push_cast; ring
theorem eval_mul {b : ℝ} {u v : ℚ} (h : b * b = u + v * b) (x y : Q2) : (mul u v x y).eval b = x.eval b * y.eval b := by
  simp only [mul, eval]; push_cast
  linear_combination (-(x.q : ℝ) * y.q) * h

/-- `p + q b` is at least 0 for all `b` from `lo` to `hi`. -/
def nonneg (lo hi : ℚ) (x : Q2) : Bool := decide (0 ≤ x.p + x.q * lo) && decide (0 ≤ x.p + x.q * hi)
def pos (lo hi : ℚ) (x : Q2) : Bool := decide (0 < x.p + x.q * lo) && decide (0 < x.p + x.q * hi)

theorem eval_nonneg {b : ℝ} {lo hi : ℚ} (h0 : lo ≤ b) (h1 : b ≤ hi) {x : Q2} (h : nonneg lo hi x = true) : 0 ≤ x.eval b := by
  simp only [nonneg, Bool.and_eq_true, decide_eq_true_eq] at h
  have e0 : (0 : ℝ) ≤ x.p + x.q * lo := by exact_mod_cast h.1
  have e1 : (0 : ℝ) ≤ x.p + x.q * hi := by exact_mod_cast h.2
  rw [eval]
  rcases le_total 0 (x.q : ℝ) with hq | hq
  · nlinarith
  · nlinarith

theorem eval_pos {b : ℝ} {lo hi : ℚ} (h0 : lo ≤ b) (h1 : b ≤ hi) {x : Q2} (h : pos lo hi x = true) : 0 < x.eval b := by
  simp only [pos, Bool.and_eq_true, decide_eq_true_eq] at h
  have e0 : (0 : ℝ) < x.p + x.q * lo := by exact_mod_cast h.1
  have e1 : (0 : ℝ) < x.p + x.q * hi := by exact_mod_cast h.2
  rw [eval]
  rcases le_total 0 (x.q : ℝ) with hq | hq
  · nlinarith
  · nlinarith

noncomputable def ev3 (b : ℝ) (x : V3 Q2) : V3 ℝ := ⟨x.x.eval b, x.y.eval b, x.z.eval b⟩

def sub3 (x y : V3 Q2) : V3 Q2 := ⟨sub x.x y.x, sub x.y y.y, sub x.z y.z⟩
def dot3 (u v : ℚ) (x y : V3 Q2) : Q2 := add (add (mul u v x.x y.x) (mul u v x.y y.y)) (mul u v x.z y.z)
def cross3 (u v : ℚ) (x y : V3 Q2) : V3 Q2 :=
  ⟨sub (mul u v x.y y.z) (mul u v x.z y.y), sub (mul u v x.z y.x) (mul u v x.x y.z), sub (mul u v x.x y.y) (mul u v x.y y.x)⟩
def triple (u v : ℚ) (a b c x : V3 Q2) : Q2 := dot3 u v (cross3 u v (sub3 b a) (sub3 c a)) (sub3 x a)

theorem ev3_sub (b : ℝ) (x y : V3 Q2) : ev3 b (sub3 x y) = ev3 b x - ev3 b y := by
  ext <;> simp only [ev3, sub3, sub_x, sub_y, sub_z, eval_sub]
theorem eval_dot {b : ℝ} {u v : ℚ} (h : b * b = u + v * b) (x y : V3 Q2) : (dot3 u v x y).eval b = dot (ev3 b x) (ev3 b y) := by
  simp only [dot3, dot, ev3, eval_add, eval_mul h]
theorem ev3_cross {b : ℝ} {u v : ℚ} (h : b * b = u + v * b) (x y : V3 Q2) : ev3 b (cross3 u v x y) = cross (ev3 b x) (ev3 b y) := by
  ext <;> simp only [cross3, cross, ev3, eval_sub, eval_mul h]
theorem eval_triple {t : ℝ} {u v : ℚ} (h : t * t = u + v * t) (a b c x : V3 Q2) :
    (triple u v a b c x).eval t = dot (cross (ev3 t b - ev3 t a) (ev3 t c - ev3 t a)) (ev3 t x - ev3 t a) := by
  rw [triple, eval_dot h, ev3_cross h, ev3_sub, ev3_sub, ev3_sub]

def zero3 : V3 Q2 := ⟨⟨0, 0⟩, ⟨0, 0⟩, ⟨0, 0⟩⟩

/-- Is the face seen from inside; for the sign `true`, from outside. -/
def checkFace (u v lo hi : ℚ) (sgn : Bool) (P : List (V3 Q2)) (poly : List (V3 Q2)) : Bool :=
  match poly with
  | a :: b :: c :: rest =>
    let t := fun x => if sgn then sub ⟨0, 0⟩ (triple u v a b c x) else triple u v a b c x
    (P.all fun x => nonneg lo hi (t x)) && (rest.all fun x => decide (triple u v a b c x = ⟨0, 0⟩)) && pos lo hi (t zero3)
  | _ => false

def checkSides (u v : ℚ) (L : Q2) (poly : List (V3 Q2)) : Bool :=
  (poly.zip (poly.rotate 1)).all fun e => decide (dot3 u v (sub3 e.1 e.2) (sub3 e.1 e.2) = L)

def getQ (P : List (V3 Q2)) (i : ℤ) : V3 Q2 := P.getD i.toNat zero3

def check (u v lo hi : ℚ) (P : List (V3 Q2)) (fs : List (List ℤ)) (L R : Q2) : Bool :=
  (fs.all fun f => checkFace u v lo hi false P (f.map (getQ P)) && checkFace u v lo hi true P (f.reverse.map (getQ P)) &&
    checkSides u v L (f.map (getQ P)) && checkSides u v L (f.reverse.map (getQ P))) && P.all fun x => decide (dot3 u v x x = R)

theorem checkFace_in {t : ℝ} {u v lo hi : ℚ} (h : t * t = u + v * t) (h0 : lo ≤ t) (h1 : t ≤ hi) {P poly : List (V3 Q2)}
    (hc : checkFace u v lo hi false P poly = true) : FaceInward (P.map (ev3 t)) (poly.map (ev3 t)) := by
  rcases poly with _ | ⟨a, _ | ⟨b, _ | ⟨c, rest⟩⟩⟩
  · cases hc
  · cases hc
  · cases hc
  simp only [checkFace, Bool.and_eq_true, List.all_eq_true, decide_eq_true_eq, Bool.false_eq_true, if_false] at hc
  obtain ⟨⟨k1, k2⟩, k3⟩ := hc
  refine faceInward_of (fun x hx => ?_) (fun x hx => ?_) ⟨ev3 t zero3, ?_⟩
  · obtain ⟨y, hy, rfl⟩ := List.mem_map.1 hx
    rw [← eval_triple h]; exact eval_nonneg h0 h1 (k1 y hy)
  · obtain ⟨y, hy, rfl⟩ := List.mem_map.1 hx
    rw [← eval_triple h, k2 y hy, eval]; simp
  · rw [← eval_triple h]; exact eval_pos h0 h1 k3

theorem checkFace_out {t : ℝ} {u v lo hi : ℚ} (h : t * t = u + v * t) (h0 : lo ≤ t) (h1 : t ≤ hi) {P poly : List (V3 Q2)}
    (hc : checkFace u v lo hi true P poly = true) : FaceOutward (P.map (ev3 t)) (poly.map (ev3 t)) := by
  rcases poly with _ | ⟨a, _ | ⟨b, _ | ⟨c, rest⟩⟩⟩
  · cases hc
  · cases hc
  · cases hc
  simp only [checkFace, Bool.and_eq_true, List.all_eq_true, decide_eq_true_eq, if_true] at hc
  obtain ⟨⟨k1, k2⟩, k3⟩ := hc
  have z : ((⟨0, 0⟩ : Q2)).eval t = 0 := by simp [eval]
  refine faceOutward_of (fun x hx => ?_) (fun x hx => ?_) ⟨ev3 t zero3, ?_⟩
  · obtain ⟨y, hy, rfl⟩ := List.mem_map.1 hx
    have := eval_nonneg h0 h1 (k1 y hy)
    rw [eval_sub, z] at this
    rw [← eval_triple h]; linarith
  · obtain ⟨y, hy, rfl⟩ := List.mem_map.1 hx
    rw [← eval_triple h, k2 y hy, z]
  · have := eval_pos h0 h1 k3
    rw [eval_sub, z] at this
    rw [← eval_triple h]; linarith

theorem checkSides_eq {t : ℝ} {u v : ℚ} (h : t * t = u + v * t) {L : Q2} {poly : List (V3 Q2)} (hc : checkSides u v L poly = true) :
    EqualSides (L.eval t) (poly.map (ev3 t)) := by
  intro e he
  rw [← List.map_rotate, List.zip_map, List.mem_map] at he
  obtain ⟨⟨x, y⟩, hxy, rfl⟩ := he
  rw [checkSides, List.all_eq_true] at hc
  have := hc _ hxy
  rw [decide_eq_true_eq] at this
  rw [← this, eval_dot h, ev3_sub]
  rfl

theorem getQ_map {P : List (V3 Q2)} (t : ℝ) {f : List ℤ} (h : ∀ i ∈ f, 0 ≤ i ∧ i < P.length) :
    f.map (at' (P.map (ev3 t))) = (f.map (getQ P)).map (ev3 t) := by
  rw [List.map_map]
  refine List.map_congr_left fun i hi => ?_
  have := h i hi
  have hlt : i.toNat < P.length := by omega
  rw [Function.comp, at', getQ, List.getD_eq_getElem _ _ (by simpa using hlt), List.getElem_map, List.getD_eq_getElem _ _ hlt]

theorem check_regular {t : ℝ} {u v lo hi : ℚ} (h : t * t = u + v * t) (h0 : lo ≤ t) (h1 : t ≤ hi) {P : List (V3 Q2)} {fs : List (List ℤ)}
    {L R : Q2} (hv : ValidFaces P.length fs) (hcl : ClosedMesh fs) (hc : check u v lo hi P fs L R = true) :
    Regular (P.map (ev3 t)) fs (L.eval t) (R.eval t) := by
  simp only [check, Bool.and_eq_true, List.all_eq_true, decide_eq_true_eq] at hc
  obtain ⟨k, kr⟩ := hc
  have hr : ∀ f ∈ fs, ∀ i ∈ f.reverse, 0 ≤ i ∧ i < P.length := fun f hf i hi => (hv f hf).2.2 i (List.mem_reverse.1 hi)
  refine ⟨by simpa using hv, hcl, fun f hf => ?_, fun f hf => ?_, fun f hf => ⟨?_, ?_⟩, fun x hx => ?_⟩
  · rw [getQ_map t (hv f hf).2.2]; exact checkFace_in h h0 h1 (k f hf).1.1.1
  · rw [getQ_map t (hr f hf)]; exact checkFace_out h h0 h1 (k f hf).1.1.2
  · rw [getQ_map t (hv f hf).2.2]; exact checkSides_eq h (k f hf).1.2
  · rw [getQ_map t (hr f hf)]; exact checkSides_eq h (k f hf).2
  · obtain ⟨y, hy, rfl⟩ := List.mem_map.1 hx
    rw [← kr y hy, eval_dot h]; rfl

end Q2

/-! The three solids; `n`, `m` are the negated and plain numbers. -/

def q (p r : ℚ) : Q2 := ⟨p, r⟩

def octaQ : List (V3 Q2) :=
  [⟨q 0 (-1), q 0 0, q 0 1⟩, ⟨q 0 (-1), q 0 0, q 0 (-1)⟩, ⟨q 0 0, q (1 / 2) 0, q 0 0⟩, ⟨q 0 1, q 0 0, q 0 (-1)⟩,
   ⟨q 0 0, q (-1 / 2) 0, q 0 0⟩, ⟨q 0 1, q 0 0, q 0 1⟩]

theorem octa_check : Q2.check (1 / 8) 0 (1 / 3) (2 / 5) octaQ octaFaces ⟨1 / 2, 0⟩ ⟨1 / 4, 0⟩ = true := by decide +kernel

def icosaQ : List (V3 Q2) :=
  let z := q 0 0
  let a := q (1 / 2) 0
  let na := q (-1 / 2) 0
  let b := q 0 1
  let nb := q 0 (-1)
  [⟨z, b, na⟩, ⟨b, a, z⟩, ⟨nb, a, z⟩, ⟨z, b, a⟩, ⟨z, nb, a⟩, ⟨na, z, b⟩, ⟨a, z, b⟩, ⟨z, nb, na⟩, ⟨na, z, nb⟩, ⟨nb, na, z⟩,
   ⟨b, na, z⟩, ⟨a, z, nb⟩]

theorem icosa_check : Q2.check (1 / 4) (-1 / 2) (3 / 10) (31 / 100) icosaQ icosaFaces ⟨1, -2⟩ ⟨1 / 2, -1 / 2⟩ = true := by decide +kernel

def dodecaQ : List (V3 Q2) :=
  let z := q 0 0
  let o := q 1 0
  let no := q (-1) 0
  let b := q 0 1
  let nb := q 0 (-1)
  let c := q 1 (-1)
  let nc := q (-1) 1
  [⟨c, z, o⟩, ⟨nc, z, o⟩, ⟨nb, b, b⟩, ⟨z, o, c⟩, ⟨b, b, b⟩, ⟨b, nb, b⟩, ⟨z, no, c⟩, ⟨nb, nb, b⟩, ⟨z, no, nc⟩, ⟨b, nb, nb⟩,
   ⟨nc, z, no⟩, ⟨c, z, no⟩, ⟨nb, nb, nb⟩, ⟨b, b, nb⟩, ⟨z, o, nc⟩, ⟨nb, b, nb⟩, ⟨o, c, z⟩, ⟨no, c, z⟩, ⟨no, nc, z⟩, ⟨o, nc, z⟩]

theorem dodeca_check : Q2.check 1 (-1) (61 / 100) (62 / 100) dodecaQ dodecaFaces ⟨8, -12⟩ ⟨3, -3⟩ = true := by decide +kernel

theorem validFaces_of {n : ℕ} {fs : List (List ℤ)} (h : (⟨List.replicate n (0 : V3 ℚ), fs⟩ : Polyhedron ℚ).faceIndicesValid = true) :
    ValidFaces n fs := by
  have := (faceIndicesValid_iff _).1 h
  simpa using this

theorem closed_of {fs : List (List ℤ)} (h : (⟨[], fs⟩ : Polyhedron ℚ).isClosed = true) : ClosedMesh fs := (isClosed_iff _).1 h

theorem octa_regular : Regular octaVertices octaFaces (1 / 2) (1 / 4) := by
  have h2 : Real.sqrt 2 * Real.sqrt 2 = 2 := Real.mul_self_sqrt (by norm_num)
  have hp : 0 < Real.sqrt 2 := Real.sqrt_pos.2 (by norm_num)
  have l1 : (14 : ℝ) / 10 ≤ Real.sqrt 2 := by nlinarith
  have l2 : Real.sqrt 2 ≤ 15 / 10 := by nlinarith
  have h := Q2.check_regular (t := 1 / (2 * Real.sqrt 2)) (u := 1 / 8) (v := 0) (lo := 1 / 3) (hi := 2 / 5)
    (by field_simp; push_cast; nlinarith) (by rw [le_div_iff₀ (by linarith)]; push_cast; linarith)
    (by rw [div_le_iff₀ (by linarith)]; push_cast; linarith)
    (P := octaQ) (validFaces_of (by decide +kernel)) (closed_of (by decide +kernel)) octa_check
  convert h using 1
  · simp [octaVertices, octaQ, q, Q2.ev3, Q2.eval]
    norm_num
  · simp [Q2.eval]
  · simp [Q2.eval]

theorem phi_spec : phi * phi = phi + 1 ∧ 1.61 < phi ∧ phi < 1.62 := by
  have h5 : Real.sqrt 5 * Real.sqrt 5 = 5 := Real.mul_self_sqrt (by norm_num)
  have hp : 0 < Real.sqrt 5 := Real.sqrt_pos.2 (by norm_num)
  unfold phi
  refine ⟨by nlinarith, by nlinarith, by nlinarith⟩

theorem inv_phi : 1 / phi = phi - 1 := by
  obtain ⟨h, h1, h2⟩ := phi_spec
  have : phi ≠ 0 := by intro h; rw [h] at h1; norm_num at h1
  field_simp
  linarith

theorem icosa_regular : Regular icosaVertices icosaFaces (1 - 1 / phi) (1 / 2 - 1 / (4 * phi)) := by
  obtain ⟨hp, h1, h2⟩ := phi_spec
  have e : 1 / (2 * phi) = (phi - 1) / 2 := by rw [← inv_phi, div_div, mul_comm]
  have e4 : 1 / (4 * phi) = (phi - 1) / 4 := by rw [← inv_phi, div_div, mul_comm]
  have h := Q2.check_regular (t := 1 / (2 * phi)) (u := 1 / 4) (v := -1 / 2) (lo := 3 / 10) (hi := 31 / 100)
    (by rw [e]; push_cast; nlinarith) (by rw [e]; push_cast; norm_num at h1 h2 ⊢; linarith)
    (by rw [e]; push_cast; norm_num at h1 h2 ⊢; linarith)
    (P := icosaQ) (validFaces_of (by decide +kernel)) (closed_of (by decide +kernel)) icosa_check
  convert h using 1
  · simp [icosaVertices, icosaQ, q, Q2.ev3, Q2.eval]
    norm_num
  · rw [Q2.eval, e, inv_phi]; push_cast; ring
  · rw [Q2.eval, e, e4]; push_cast; ring

theorem dodeca_regular : Regular dodecaVertices dodecaFaces (4 * (2 - phi) ^ 2) (3 / phi ^ 2) := by
  obtain ⟨hp, h1, h2⟩ := phi_spec
  have h := Q2.check_regular (t := 1 / phi) (u := 1) (v := -1) (lo := 61 / 100) (hi := 62 / 100)
    (by rw [inv_phi]; push_cast; nlinarith) (by rw [inv_phi]; push_cast; norm_num at h1 h2 ⊢; linarith)
    (by rw [inv_phi]; push_cast; norm_num at h1 h2 ⊢; linarith)
    (P := dodecaQ) (validFaces_of (by decide +kernel)) (closed_of (by decide +kernel)) dodeca_check
  have ec : 2 - phi = 1 + -(1 / phi) := by rw [inv_phi]; ring
  convert h using 1
  · simp only [dodecaVertices, dodecaQ, q, Q2.ev3, Q2.eval, ec, List.map_cons, List.map_nil]
    simp [add_comm]
  · rw [Q2.eval, inv_phi]; push_cast; nlinarith
  · have e3 : 3 / phi ^ 2 = 3 * ((1 / phi) * (1 / phi)) := by ring
    rw [Q2.eval, e3, inv_phi]; push_cast; nlinarith

end Polyhedron
end MGL
