import Verif.Spec.Hull2D
import Verif.Spec.Vec3
import Verif.Spec.Convex3
import Verif.Spec.Dist

/-! Polygons, independently of the code. -/

namespace MGL.Spec
open V3

/-- The fan of triangles from `a` over a chain of points. -/
def fan {β : Type*} (a : β) : List β → List (β × β × β)
  | b :: c :: r => (a, b, c) :: fan a (c :: r)
  | _ => []

/-- The edges of a closed polygon in space: every vertex with the one before it. -/
def closedEdges {β : Type*} (l : List β) : List (β × β) :=
  match l.getLast? with
  | none => []
  | some z => (z :: l).zip l

variable {α : Type*} [Field α] [LinearOrder α]

/-- Twice the signed area enclosed by a closed polygon of the plane (the shoelace sum); counter-clockwise turns count
positively. -/
def shoelace (l : List (V2 α)) : α := ((closedEdges l).map fun e => e.1.x * e.2.y - e.1.y * e.2.x).sum

/-- The vertices are in strictly convex position and listed counter-clockwise as seen from the tip of the unit vector `n`: any three of
them, in the order of the list, span a triangle whose normal is a positive multiple of `n`. (With three or more vertices this makes
the polygon planar.) -/
def ConvexPolygon (n : V3 α) (p : List (V3 α)) : Prop :=
  dot n n = 1 ∧ 3 ≤ p.length ∧ p.Triplewise fun a b c => ∃ t : α, 0 < t ∧ cross (b - a) (c - a) = t • n

/-- Some three of the points (in the order of the list) span a triangle of an area above `5e-5`: twice the area is more than
`1e-4`. -/
def HasTriangle (p : List (V3 ℝ)) : Prop := ∃ a b c, [a, b, c].Sublist p ∧ 1 / 10000 < len (cross (b - a) (c - a))

/-- The first two points are more than `1e-6` apart. -/
def FirstEdge (p : List (V3 ℝ)) : Prop := ∃ o q r, p = o :: q :: r ∧ 1 / 1000000 < V3.dist o q

/-- A simple polygon: a point of two edges is the vertex in which one edge ends and the other begins. -/
def SimplePolygon (p : List (V3 ℝ)) : Prop :=
  ∀ i j a b c e, i ≠ j → p[i]? = some a → p[(i + 1) % p.length]? = some b → p[j]? = some c → p[(j + 1) % p.length]? = some e →
    ∀ x, x ∈ seg a b → x ∈ seg c e → (j = (i + 1) % p.length ∧ x = b) ∨ (i = (j + 1) % p.length ∧ x = a)

end MGL.Spec
