import Verif.Model.Polyhedron

/-! Model of the vertex searches and of `SetEquals` of class `Polyhedron` (src/Geometry/Polyhedron.cpp), without rounding. -/

namespace MGL
open V3
namespace Polyhedron
variable {α : Type} [Field α] [LinearOrder α]

/-- src/Geometry/Polyhedron.cpp:3136-3147 `FindClosestVertex`, the loop from vertex `i` on: `best` is `outDistanceSq` (`none`
for `FLOAT_INF`) with `closestI`. -/
def findClosestLoop (pt : V3 α) : List (V3 α) → ℤ → ℤ × Option α → ℤ × Option α
  | [], _, best => best
  | x :: xs, i, (closest, dist) =>
    let distSq := lenSq (pt - x)
    let better := match dist with
      | none => true
      | some d => decide (distSq < d)
    findClosestLoop pt xs (i + 1) (if better then (i, some distSq) else (closest, dist))

/-- src/Geometry/Polyhedron.cpp:3134-3148 `FindClosestVertex`: the index (−1 if there is none) and `outDistanceSq`. -/
def findClosestVertex (p : Polyhedron α) (pt : V3 α) : ℤ × Option α := findClosestLoop pt p.v 0 (-1, none)

/-- src/Geometry/Polyhedron.cpp:722-736 `NearestVertex`: the same loop. -/
def nearestVertex (p : Polyhedron α) (point : V3 α) : ℤ := (findClosestLoop point p.v 0 (-1, none)).1

/-- src/Geometry/Polyhedron.cpp:3058-3066 `SetEquals`, the loop that matches the vertices `i, i+1, …` of this polyhedron.
Result: whether all were matched, and the other polyhedron as it is then. -/
def matchVertices : List (V3 α) → ℕ → Polyhedron α → Option (Bool × Polyhedron α)
  | [], _, p2 => some (true, p2)
  | x :: xs, i, p2 =>
    let r := p2.findClosestVertex x
    let far := match r.2 with
      | none => true
      | some d => decide (d > 1 / 10000)
    if r.1 < (i : ℤ) ∨ far = true then some (false, p2)
    else (p2.swapVertices i r.1).bind fun p2 => matchVertices xs (i + 1) p2

/-- src/Geometry/Polyhedron.cpp:3052-3077 `SetEquals`: the result, and both polyhedra as they are afterwards. -/
def setEquals (p p2 : Polyhedron α) : Option (Bool × Polyhedron α × Polyhedron α) :=
  if p.v.length ≠ p2.v.length ∨ p.f.length ≠ p2.f.length ∨ p.numEdges ≠ p2.numEdges then some (false, p, p2)
  else (matchVertices p.v 0 p2).map fun r =>
    if r.1 then
      let q := p.canonicalizeFaceArray
      let q2 := r.2.canonicalizeFaceArray
      (q.f.all q2.containsFace, q, q2)
    else (false, p, r.2)

end Polyhedron
end MGL
