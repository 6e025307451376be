import Verif.Model.Frustum
import Verif.Spec.Frustum
import Verif.Proofs.OBB
import Verif.Proofs.Float3R
import Verif.Proofs.Mat4

/-! Lemmas about frusta: the frame, coordinates, corners. -/

set_option linter.unusedSectionVars false

namespace MGL
open V3

noncomputable section

namespace Frustum

/-- The points of the frustum. -/
def points (f : Frustum) : Set (V3 ℝ) :=
  match f.type with
  | .perspective => Spec.frustum f.pos f.front f.worldRight f.up f.near f.far (Spec.perspHalf f.h) (Spec.perspHalf f.v)
  | .orthographic => Spec.frustum f.pos f.front f.worldRight f.up f.near f.far (Spec.orthoHalf f.h) (Spec.orthoHalf f.v)
  | .invalid => ∅

/-- What the documentation asks of the parameters: unit `front` and `up`, perpendicular to each other, the near plane before
the far plane; for a perspective frustum the near plane in front of the eye and opening angles between 0 and 180 degrees;
for an orthographic one a positive width and height. -/
structure Valid (f : Frustum) : Prop where
  front : lenSq f.front = 1
  up : lenSq f.up = 1
  perp : dot f.front f.up = 0
  depth : f.near < f.far
  kind : (f.type = .perspective ∧ 0 < f.near ∧ 0 < f.h ∧ f.h < Real.pi ∧ 0 < f.v ∧ f.v < Real.pi) ∨
    (f.type = .orthographic ∧ 0 < f.h ∧ 0 < f.v)

/-- Half width (of `h`) or half height (of `v`) at depth `d`. -/
def half (f : Frustum) (a d : ℝ) : ℝ := if f.type = .perspective then Real.tan (a / 2) * d else a / 2

theorem tan_half_pos {a : ℝ} (h0 : 0 < a) (h1 : a < Real.pi) : 0 < Real.tan (a / 2) :=
  Real.tan_pos_of_pos_of_lt_pi_div_two (by linarith) (by linarith)

namespace Valid
variable {f : Frustum} (h : f.Valid)
include h

theorem frame : Spec.Frame f.front f.worldRight f.up := by
  have h1 := h.front; have h2 := h.up; have h3 := h.perp
  simp only [lenSq, dot] at h1 h2 h3
  unfold worldRight worldRightOf
  split_ifs <;> constructor <;> simp only [dot, cross]
  · exact h1
  · linear_combination (f.up.x * f.up.x + f.up.y * f.up.y + f.up.z * f.up.z) * h1 + h2
      - (f.front.x * f.up.x + f.front.y * f.up.y + f.front.z * f.up.z) * h3
  · exact h2
  · ring
  · exact h3
  · ring
  · exact h1
  · linear_combination (f.up.x * f.up.x + f.up.y * f.up.y + f.up.z * f.up.z) * h1 + h2
      - (f.front.x * f.up.x + f.front.y * f.up.y + f.front.z * f.up.z) * h3
  · exact h2
  · ring
  · exact h3
  · ring

theorem type_cases : f.type = .perspective ∨ f.type = .orthographic := by
  rcases h.kind with h | h
  · exact Or.inl h.1
  · exact Or.inr h.1

theorem points_eq : f.points = Spec.frustum f.pos f.front f.worldRight f.up f.near f.far (f.half f.h) (f.half f.v) := by
  rcases h.type_cases with e | e
  · simp only [points, e]
    have : ∀ a, f.half a = Spec.perspHalf a := by intro a; funext d; simp [half, e, Spec.perspHalf]
    rw [this, this]
  · simp only [points, e]
    have : ∀ a, f.half a = Spec.orthoHalf a := by intro a; funext d; simp [half, e, Spec.orthoHalf]
    rw [this, this]

theorem mem (p : V3 ℝ) : p ∈ f.points ↔ f.near ≤ dot (p - f.pos) f.front ∧ dot (p - f.pos) f.front ≤ f.far ∧
    |dot (p - f.pos) f.worldRight| ≤ f.half f.h (dot (p - f.pos) f.front) ∧
    |dot (p - f.pos) f.up| ≤ f.half f.v (dot (p - f.pos) f.front) := by
  rw [h.points_eq]
  constructor
  · rintro ⟨d, x, y, h1, h2, h3, h4, rfl⟩
    obtain ⟨e1, e2, e3⟩ := h.frame.coords f.pos d x y
    rw [e1, e2, e3]; exact ⟨h1, h2, h3, h4⟩
  · rintro ⟨h1, h2, h3, h4⟩
    exact ⟨_, _, _, h1, h2, h3, h4, h.frame.eq_add f.pos p⟩

/-- The half extents are positive between the near and the far plane. -/
theorem half_pos {d : ℝ} (hd : f.near ≤ d) : 0 < f.half f.h d ∧ 0 < f.half f.v d := by
  unfold half
  rcases h.kind with ⟨e, h0, h1, h2, h3, h4⟩ | ⟨e, h1, h2⟩
  · rw [if_pos e, if_pos e]
    exact ⟨mul_pos (tan_half_pos h1 h2) (by linarith), mul_pos (tan_half_pos h3 h4) (by linarith)⟩
  · have : f.type ≠ .perspective := by rw [e]; decide
    rw [if_neg this, if_neg this]; exact ⟨by linarith, by linarith⟩

end Valid

/-- The half extents are affine in the depth. -/
theorem half_lerp (f : Frustum) (a s t k : ℝ) : f.half a (s + k * (t - s)) = f.half a s + k * (f.half a t - f.half a s) := by
  unfold half; split_ifs <;> ring

theorem nearPlanePos_eq (f : Frustum) (x y : ℝ) :
    f.nearPlanePos x y = f.pos + f.near • f.front + (x * f.half f.h f.near) • f.worldRight + (y * f.half f.v f.near) • f.up := by
  unfold nearPlanePos half
  split_ifs <;> ext <;> simp <;> ring_nf

theorem farPlanePos_eq (f : Frustum) (x y : ℝ) :
    f.farPlanePos x y = f.pos + f.far • f.front + (x * f.half f.h f.far) • f.worldRight + (y * f.half f.v f.far) • f.up := by
  unfold farPlanePos half
  split_ifs <;> ext <;> simp <;> ring_nf

/-- The point with depth `near + z (far - near)` at the relative position `(x, y)` of its cross section. -/
theorem pointInside_eq (f : Frustum) (x y z : ℝ) :
    f.pointInside x y z = f.pos + (f.near + z * (f.far - f.near)) • f.front +
      (x * f.half f.h (f.near + z * (f.far - f.near))) • f.worldRight +
      (y * f.half f.v (f.near + z * (f.far - f.near))) • f.up := by
  unfold pointInside unProjectLineSegment LineSeg.getPoint
  rw [nearPlanePos_eq, farPlanePos_eq, half_lerp, half_lerp]
  ext <;> simp <;> ring

end Frustum

end
end MGL
