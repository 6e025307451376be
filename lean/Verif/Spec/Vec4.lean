import Verif.Spec.Vec3
import Verif.Spec.Dist

/-! Vectors with four components. -/

namespace MGL

/-- A vector `(x, y, z, w)`. -/
@[ext] structure V4 (α : Type*) where
  x : α
  y : α
  z : α
  w : α

namespace V4
variable {α : Type*}

/-- The component with the given index. -/
def get (v : V4 α) : Fin 4 → α := ![v.x, v.y, v.z, v.w]

/-- The first three components. -/
def xyz (v : V4 α) : V3 α := ⟨v.x, v.y, v.z⟩

/-- The vector `(x, y, z, w)` with the given first three components. -/
def mk3 (v : V3 α) (w : α) : V4 α := ⟨v.x, v.y, v.z, w⟩

instance [Add α] : Add (V4 α) := ⟨fun a b => ⟨a.x + b.x, a.y + b.y, a.z + b.z, a.w + b.w⟩⟩
instance [Sub α] : Sub (V4 α) := ⟨fun a b => ⟨a.x - b.x, a.y - b.y, a.z - b.z, a.w - b.w⟩⟩
instance [Neg α] : Neg (V4 α) := ⟨fun a => ⟨-a.x, -a.y, -a.z, -a.w⟩⟩
instance [Zero α] : Zero (V4 α) := ⟨⟨0, 0, 0, 0⟩⟩
instance [Mul α] : SMul α (V4 α) := ⟨fun s a => ⟨s * a.x, s * a.y, s * a.z, s * a.w⟩⟩

section
variable [Add α] (a b : V4 α)
@[simp] theorem add_x : (a + b).x = a.x + b.x := rfl
@[simp] theorem add_y : (a + b).y = a.y + b.y := rfl
@[simp] theorem add_z : (a + b).z = a.z + b.z := rfl
@[simp] theorem add_w : (a + b).w = a.w + b.w := rfl
end
section
variable [Sub α] (a b : V4 α)
@[simp] theorem sub_x : (a - b).x = a.x - b.x := rfl
@[simp] theorem sub_y : (a - b).y = a.y - b.y := rfl
@[simp] theorem sub_z : (a - b).z = a.z - b.z := rfl
@[simp] theorem sub_w : (a - b).w = a.w - b.w := rfl
end
section
variable [Neg α] (a : V4 α)
@[simp] theorem neg_x : (-a).x = -a.x := rfl
@[simp] theorem neg_y : (-a).y = -a.y := rfl
@[simp] theorem neg_z : (-a).z = -a.z := rfl
@[simp] theorem neg_w : (-a).w = -a.w := rfl
end
section
variable [Zero α]
@[simp] theorem zero_x : (0 : V4 α).x = 0 := rfl
@[simp] theorem zero_y : (0 : V4 α).y = 0 := rfl
@[simp] theorem zero_z : (0 : V4 α).z = 0 := rfl
@[simp] theorem zero_w : (0 : V4 α).w = 0 := rfl
end
section
variable [Mul α] (s : α) (a : V4 α)
@[simp] theorem smul_x : (s • a).x = s * a.x := rfl
@[simp] theorem smul_y : (s • a).y = s * a.y := rfl
@[simp] theorem smul_z : (s • a).z = s * a.z := rfl
@[simp] theorem smul_w : (s • a).w = s * a.w := rfl
end

/-- The scalar product. -/
def dot [Add α] [Mul α] (a b : V4 α) : α := a.x * b.x + a.y * b.y + a.z * b.z + a.w * b.w

/-- Squared Euclidean length. -/
def lenSq [Add α] [Mul α] (a : V4 α) : α := dot a a

/-- Euclidean length. -/
noncomputable def len (a : V4 ℝ) : ℝ := Real.sqrt (lenSq a)

end V4
end MGL
