import Verif.Spec.Vec3
import Mathlib.Order.Interval.Set.Defs

/-! Rays and triangle meshes given as flat arrays of numbers. Nothing here mentions the model. -/

namespace MGL.Spec
open V3
variable {α : Type*} [Field α] [LinearOrder α]

/-- Vertex `j` of triangle `i` of an array in which each vertex takes `stride` numbers, the first three of which are its coordinates. -/
def meshVertex (mem : ℕ → α) (stride i j : ℕ) : V3 α :=
  let o := (3 * i + j) * stride
  ⟨mem o, mem (o + 1), mem (o + 2)⟩

/-- The ray from `o` in direction `d` meets the triangle `a b c` at distance `t`, at the point with barycentric coordinates `u`, `v`, where the
coordinates may be outside the triangle by `tol`, and the volume spanned by `d` and the edges is in `D` (rays that are nearly parallel to
the triangle do not count). -/
structure RayHits (D : Set α) (tol : α) (o d a b c : V3 α) (t u v : α) : Prop where
  steep : |dot d (cross (b - a) (c - a))| ∈ D
  point : o + t • d = a + (u • (b - a) + v • (c - a))
  ahead : 0 ≤ t
  u0 : -tol ≤ u
  u1 : u ≤ 1 + tol
  v0 : -tol ≤ v
  uv : u + v ≤ 1 + tol

/-- `out` is a nearest hit of the ray with the first `n` triangles of the array (distance, index, barycentric coordinates), or `none`
when there is no hit. -/
def NearestHit (D : Set α) (tol : α) (mem : ℕ → α) (stride n : ℕ) (o d : V3 α) (out : Option (α × ℕ × α × α)) : Prop :=
  let hits (i : ℕ) := RayHits D tol o d (meshVertex mem stride i 0) (meshVertex mem stride i 1) (meshVertex mem stride i 2)
  match out with
  | none => ∀ i < n, ∀ t u v, ¬ hits i t u v
  | some (t, i, u, v) => i < n ∧ hits i t u v ∧ ∀ i' < n, ∀ t' u' v', hits i' t' u' v' → t ≤ t'

end MGL.Spec
