import Verif.Spec.Vec2Alg
import Verif.Spec.Vec3
import Verif.Model.Scalar
import Verif.Model.TriDef
import Mathlib.Data.List.GetD

/-! Model of the planar parts of class `Polygon` (src/Geometry/Polygon.cpp): the crossing count of `Contains`, the ear test and the
clipping loop of `Triangulate`, over an ordered field. -/

namespace MGL
namespace Polygon
variable {α : Type*} [Field α] [LinearOrder α]

/-- src/Geometry/Polygon.cpp:370-371 and 377-378: a vertex too near to the line of the test ray is moved; `epsilon` is `1e-4f`. -/
def nudge (q : V2 α) : V2 α := if absF q.y < 1 / 10000 then ⟨q.x, -(1 / 10000)⟩ else q

/-- src/Geometry/Polygon.cpp:380-401: does the edge add to `numIntersections`? -/
def crosses (p0 p1 : V2 α) : Bool :=
  if p0.y * p1.y < 0 then
    if min2 p0.x p1.x > 0 then true
    else if max2 p0.x p1.x > 0 then
      let d := p1 - p0
      if d.y ≠ 0 then
        let t := -p0.y / d.y
        let x := p0.x + t * d.x
        decide (t ≥ 0) && decide (t ≤ 1) && decide (x > 0)
      else false
    else false
  else false

/-- The loop of `Contains(point)`, src/Geometry/Polygon.cpp:373-403, from the vertex `p0` on with the count `n`. -/
def crossLoop : V2 α → List (V2 α) → ℕ → ℕ
  | _, [], n => n
  | p0, p1 :: r, n => crossLoop (nudge p1) r (if crosses p0 (nudge p1) then n + 1 else n)

/-- src/Geometry/Polygon.cpp:363-405: the even-odd test of the origin against a polygon of the plane. -/
def evenOdd (l : List (V2 α)) : Bool :=
  match l.getLast? with
  | none => false
  | some z => decide (crossLoop (nudge z) l 0 % 2 = 1)

/-- src/Math/float2.cpp:491-499 `float2::OrientedCCW`. -/
def orientedCCW (a b c : V2 α) : Bool := decide ((a.x - c.x) * (b.y - c.y) - (a.y - c.y) * (b.x - c.x) ≥ 0)

/-- src/Geometry/Polygon.cpp:927-940 `IntersectLineLine2D`: `none` if it returns false, otherwise `out`. -/
def intersectLineLine2D (a1 a2 b1 b2 : V2 α) : Option (V2 α) :=
  let u := (b2.x - b1.x) * (a1.y - b1.y) - (b2.y - b1.y) * (a1.x - b1.x)
  let v := (a2.x - a1.x) * (a1.y - b1.y) - (a2.y - a1.y) * (a1.x - b1.x)
  let det := (b2.y - b1.y) * (a2.x - a1.x) - (b2.x - b1.x) * (a2.y - a1.y)
  if absF det < 1 / 10000 then none else some ⟨u * (1 / det), v * (1 / det)⟩

/-- src/Geometry/Polygon.cpp:942-946 `IntersectLineSegmentLineSegment2D`. -/
def intersectSegSeg2D (a1 a2 b1 b2 : V2 α) : Bool :=
  match intersectLineLine2D a1 a2 b1 b2 with
  | none => false
  | some out => decide (out.x ≥ 0) && decide (out.x ≤ 1) && decide (out.y ≥ 0) && decide (out.y ≤ 1)

/-- src/Geometry/Polygon.cpp:950-968 `IsAnEar`. In the first loop `x` is the vertex before `y` (the last one for `y = 0`), in the
second `x = y - 1`. All indices are in range if `i` and `j` are. -/
def isAnEar (poly : List (V2 α)) (i j : ℕ) : Bool :=
  let at' := fun k => poly.getD k 0
  ((List.range i).all fun y => !intersectSegSeg2D (at' i) (at' j) (at' (if y = 0 then poly.length - 1 else y - 1)) (at' y)) &&
  ((List.range' (j + 2) (poly.length - (j + 2))).all fun y => !intersectSegSeg2D (at' i) (at' j) (at' (y - 1)) (at' y))

/-- The loop of `Triangulate`, src/Geometry/Polygon.cpp:993-1027. The parallel arrays `p2d` and `polyIndices` are one list of pairs of
a planar vertex and a payload (in the program the number of the vertex); `tries` is `numTries`. The result is the list of the clipped
triples and the remaining list; reading out of range is `none`. -/
def clipEars {β : Type*} (l : List (V2 α × β)) (i j k tries : ℕ) : Option (List (β × β × β) × List (V2 α × β)) :=
  if l.length > 3 ∧ tries < l.length then
    match l[i]?, hj : l[j]?, l[k]? with
    | some a, some b, some c =>
      if orientedCCW a.1 b.1 c.1 && isAnEar (l.map Prod.fst) i k then
        let l' := l.eraseIdx j
        let n := l'.length
        let r := if i > 0 then clipEars l' ((i + n - 1) % n) ((j + n - 1) % n) ((k + n - 1) % n) 0 else clipEars l' i j k 0
        r.map fun r => ((a.2, b.2, c.2) :: r.1, r.2)
      else clipEars l j k ((k + 1) % l.length) (tries + 1)
    | _, _, _ => none
  else some ([], l)
termination_by (l.length, l.length - tries)
decreasing_by
  · have : j < l.length := by
      by_contra h
      rw [List.getElem?_eq_none (by omega)] at hj
      cases hj
    apply Prod.Lex.left
    rw [List.length_eraseIdx_of_lt this]
    omega
  · have : j < l.length := by
      by_contra h
      rw [List.getElem?_eq_none (by omega)] at hj
      cases hj
    apply Prod.Lex.left
    rw [List.length_eraseIdx_of_lt this]
    omega
  · apply Prod.Lex.right
    omega

end Polygon
end MGL
