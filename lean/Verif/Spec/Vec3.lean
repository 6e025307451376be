import Mathlib.Algebra.Order.Field.Basic
import Mathlib.Data.Set.Basic
import Mathlib.Data.Fin.VecNotation
import Mathlib.Tactic.Ring
import Mathlib.Algebra.Group.Basic

/-! Three-dimensional vectors over a field, the Euclidean scalar product and the point sets which
the geometric properties talk about. This is ordinary mathematics: nothing here mentions the code. -/

namespace MGL

/-- A triple of coordinates: a point or a direction. -/
@[ext] structure V3 (α : Type*) where
  x : α
  y : α
  z : α
deriving DecidableEq

namespace V3
variable {α : Type*}

/-- The coordinate with the given axis number. -/
def get (v : V3 α) (i : Fin 3) : α := ![v.x, v.y, v.z] i

@[simp] theorem get_zero (v : V3 α) : v.get 0 = v.x := rfl
@[simp] theorem get_one (v : V3 α) : v.get 1 = v.y := rfl
@[simp] theorem get_two (v : V3 α) : v.get 2 = v.z := rfl

section Ring
variable [CommRing α]

instance : Zero (V3 α) := ⟨⟨0, 0, 0⟩⟩
instance : Add (V3 α) := ⟨fun a b => ⟨a.x + b.x, a.y + b.y, a.z + b.z⟩⟩
instance : Sub (V3 α) := ⟨fun a b => ⟨a.x - b.x, a.y - b.y, a.z - b.z⟩⟩
instance : Neg (V3 α) := ⟨fun a => ⟨-a.x, -a.y, -a.z⟩⟩
instance : SMul α (V3 α) := ⟨fun t a => ⟨t * a.x, t * a.y, t * a.z⟩⟩

@[simp] theorem zero_x : (0 : V3 α).x = 0 := rfl
@[simp] theorem zero_y : (0 : V3 α).y = 0 := rfl
@[simp] theorem zero_z : (0 : V3 α).z = 0 := rfl
@[simp] theorem add_x (a b : V3 α) : (a + b).x = a.x + b.x := rfl
@[simp] theorem add_y (a b : V3 α) : (a + b).y = a.y + b.y := rfl
@[simp] theorem add_z (a b : V3 α) : (a + b).z = a.z + b.z := rfl
@[simp] theorem sub_x (a b : V3 α) : (a - b).x = a.x - b.x := rfl
@[simp] theorem sub_y (a b : V3 α) : (a - b).y = a.y - b.y := rfl
@[simp] theorem sub_z (a b : V3 α) : (a - b).z = a.z - b.z := rfl
@[simp] theorem neg_x (a : V3 α) : (-a).x = -a.x := rfl
@[simp] theorem neg_y (a : V3 α) : (-a).y = -a.y := rfl
@[simp] theorem neg_z (a : V3 α) : (-a).z = -a.z := rfl
@[simp] theorem smul_x (t : α) (a : V3 α) : (t • a).x = t * a.x := rfl
@[simp] theorem smul_y (t : α) (a : V3 α) : (t • a).y = t * a.y := rfl
@[simp] theorem smul_z (t : α) (a : V3 α) : (t • a).z = t * a.z := rfl

/-- Coordinate-wise addition is a commutative group (so that finite sums of points make sense). -/
instance : AddCommGroup (V3 α) where
  add_assoc a b c := by ext <;> simp <;> ring
  zero_add a := by ext <;> simp
  add_zero a := by ext <;> simp
  add_comm a b := by ext <;> simp <;> ring
  neg_add_cancel a := by ext <;> simp
  sub_eq_add_neg a b := by ext <;> simp <;> ring
  nsmul := nsmulRec
  zsmul := zsmulRec

/-- Scalar product. -/
def dot (a b : V3 α) : α := a.x * b.x + a.y * b.y + a.z * b.z

/-- Vector product. -/
def cross (a b : V3 α) : V3 α :=
  ⟨a.y * b.z - a.z * b.y, a.z * b.x - a.x * b.z, a.x * b.y - a.y * b.x⟩

/-- Squared Euclidean length. -/
def lenSq (a : V3 α) : α := dot a a

/-- Squared Euclidean distance. -/
def distSq (a b : V3 α) : α := lenSq (a - b)

end Ring
end V3

namespace Spec
open V3
variable {α : Type*}

/-- The closed axis-aligned box with the given corners (empty when they are in the wrong order). -/
def box [LE α] (mn mx : V3 α) : Set (V3 α) :=
  {p | mn.x ≤ p.x ∧ p.x ≤ mx.x ∧ mn.y ≤ p.y ∧ p.y ≤ mx.y ∧ mn.z ≤ p.z ∧ p.z ≤ mx.z}

/-- The interior of that box. -/
def openBox [LT α] (mn mx : V3 α) : Set (V3 α) :=
  {p | mn.x < p.x ∧ p.x < mx.x ∧ mn.y < p.y ∧ p.y < mx.y ∧ mn.z < p.z ∧ p.z < mx.z}

/-- The box contains `S` and `S` touches each of its six faces. -/
def TightBox [LE α] (S : Set (V3 α)) (mn mx : V3 α) : Prop :=
  (∀ p ∈ S, p ∈ box mn mx) ∧
  (∃ p ∈ S, p.x = mn.x) ∧ (∃ p ∈ S, p.y = mn.y) ∧ (∃ p ∈ S, p.z = mn.z) ∧
  (∃ p ∈ S, p.x = mx.x) ∧ (∃ p ∈ S, p.y = mx.y) ∧ (∃ p ∈ S, p.z = mx.z)

variable [Field α] [LinearOrder α]

/-- The line through `o` in direction `d`. -/
def line (o d : V3 α) : Set (V3 α) := {p | ∃ t : α, p = o + t • d}

/-- The closed half line from `o` in direction `d`. -/
def ray (o d : V3 α) : Set (V3 α) := {p | ∃ t : α, 0 ≤ t ∧ p = o + t • d}

/-- The closed segment from `a` to `b`. -/
def seg (a b : V3 α) : Set (V3 α) := {p | ∃ t : α, 0 ≤ t ∧ t ≤ 1 ∧ p = a + t • (b - a)}

/-- The filled triangle with the given vertices. -/
def tri (a b c : V3 α) : Set (V3 α) :=
  {p | ∃ u v w : α, 0 ≤ u ∧ 0 ≤ v ∧ 0 ≤ w ∧ u + v + w = 1 ∧ p = u • a + v • b + w • c}

/-- The closed ball. -/
def ball (c : V3 α) (r : α) : Set (V3 α) := {p | distSq p c ≤ r * r}

/-- The sphere surface. -/
def sphereSurface (c : V3 α) (r : α) : Set (V3 α) := {p | distSq p c = r * r}

/-- The plane `n · x = d`. -/
def plane (n : V3 α) (d : α) : Set (V3 α) := {p | dot n p = d}

/-- All points within distance `r` of the segment from `a` to `b`. -/
def capsule (a b : V3 α) (r : α) : Set (V3 α) := {p | ∃ q ∈ seg a b, distSq p q ≤ r * r}

/-- The oriented box with centre `c`, half sizes `r` along the directions `u`, `v`, `w`. -/
def obb (c u v w r : V3 α) : Set (V3 α) :=
  {p | ∃ s t k : α, -r.x ≤ s ∧ s ≤ r.x ∧ -r.y ≤ t ∧ t ≤ r.y ∧ -r.z ≤ k ∧ k ≤ r.z ∧
    p = c + s • u + t • v + k • w}

/-- `q` is a point of `S` and no point of `S` is nearer to `p`. -/
def IsClosestPoint (S : Set (V3 α)) (p q : V3 α) : Prop :=
  q ∈ S ∧ ∀ s ∈ S, distSq p q ≤ distSq p s

/-- `q ∈ S`, `r ∈ T` and no other pair of points of the two sets is nearer to each other. -/
def IsClosestPair (S T : Set (V3 α)) (q r : V3 α) : Prop :=
  q ∈ S ∧ r ∈ T ∧ ∀ s ∈ S, ∀ t ∈ T, distSq q r ≤ distSq s t

/-- `q` is a point of `S` farthest in direction `d`. -/
def IsExtreme (S : Set (V3 α)) (d q : V3 α) : Prop := q ∈ S ∧ ∀ s ∈ S, dot d s ≤ dot d q

/-- `[lo, hi]` is exactly the range of `dot d` over `S` (attained at both ends). -/
def IsProjection (S : Set (V3 α)) (d : V3 α) (lo hi : α) : Prop :=
  (∀ s ∈ S, lo ≤ dot d s ∧ dot d s ≤ hi) ∧ (∃ s ∈ S, dot d s = lo) ∧ (∃ s ∈ S, dot d s = hi)

end Spec
end MGL
