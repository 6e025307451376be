import Verif.Model.OBB
import Verif.Model.PolyhedronMerge

/-! Model of the functions by which `OBB::OptimalEnclosingOBB` prunes its search and keeps the best box
(src/Geometry/OBB.cpp), over an ordered field. Reading a vertex or an element out of range is `none`. -/

namespace MGL
open V3
namespace OBB

section field
variable {α : Type} [Field α] [LinearOrder α]

/-- src/Geometry/OBB.cpp:731-766 `AreEdgesCompatibleForOBB`. -/
def areEdgesCompatible (f1a f1b f2a f2b : V3 α) : Bool :=
  let a := dot f1b f2b
  let b := dot (f1a - f1b) f2b
  let c := dot (f2a - f2b) f1b
  let d := dot (f1a - f1b) (f2a - f2b)
  let ab := a + b
  let ac := a + c
  let abcd := ab + c + d
  decide (min4 a ab ac abcd ≤ 0) && decide (max4 a ab ac abcd ≥ 0)

/-- src/Geometry/OBB.cpp:796-833 `AreCompatibleOpposingEdges`; `none` when it returns false, else the `outN` it writes. If the
solver fails, `x` may be unwritten; its entries are copied but not compared, as `!success` is tested first. -/
def areCompatibleOpposing (f1a f1b f2a f2b : V3 α) : Option (V3 α) :=
  match Mat3.solveAxb (Mat3.ofCols f2b (f1a - f1b) (f2a - f2b)) (-f1b) with
  | none => none
  | some x =>
    let c := x.x
    let t := x.y
    let cu := x.z
    if c ≤ 0 ∨ t < 0 ∨ t > 1 then none
    else
      let u := cu / c
      if t < 1 / 10000 ∨ t > 1 - 1 / 10000 ∨ u < 1 / 10000 ∨ u > 1 - 1 / 10000 then none
      else if cu < 0 ∨ cu > c then none
      else some (f1b + t • (f1a - f1b))

/-- src/Geometry/OBB.cpp:909-946 `IsVertexAntipodalToEdge`, the loop over the neighbours; `v` is the vertex. -/
def antipodalLoop (h : Polyhedron α) (v f1a f1b : V3 α) : List ℤ → α → α → Option Bool
  | [], _, _ => some true
  | i :: r, tMin, tMax => do
    let w ← h.vertex i
    let e := w - v
    let s := dot (f1b - f1a) e
    let n := dot f1b e
    if ¬ s > 1 / 10000 ∧ ¬ s < -(1 / 10000) ∧ n < -(1 / 10000) then some false
    else
      let tMax' := if s > 1 / 10000 then min2 tMax (n / s) else tMax
      let tMin' := if ¬ s > 1 / 10000 ∧ s < -(1 / 10000) then max2 tMin (n / s) else tMin
      if tMax' - tMin' < -(5 / 100) then some false else antipodalLoop h v f1a f1b r tMin' tMax'

/-- src/Geometry/OBB.cpp:902-947 `IsVertexAntipodalToEdge`. -/
def isVertexAntipodalToEdge (h : Polyhedron α) (vi : ℤ) (neighbors : List ℤ) (f1a f1b : V3 α) : Option Bool := do
  let v ← h.vertex vi
  antipodalLoop h v f1a f1b neighbors 0 1

/-- src/Geometry/OBB.cpp:959-967 `TestThreeAdjacentFaces`, one of the three loops: the least of the products. `none` is
`FLOAT_INF`, what an empty list leaves. -/
def minAlong (n : V3 α) : List (V3 α) → Option α
  | [] => none
  | p :: r =>
    match minAlong n r with
    | none => some (dot n p)
    | some m => some (min2 m (dot n p))

/-- src/Geometry/OBB.cpp:949-985 `TestThreeAdjacentFaces`. The first ends of the three edges and the lists of antipodal points
are given as points instead of as indices. `best` is `*minVolume` with `*minOBB`; a volume of `none` is `FLOAT_INF`. With an
empty list of antipodal points the code computes with infinities or NaN: the result is `none` then. -/
def testThreeAdjacentFaces (n1 n2 n3 p1 p2 p3 : V3 α) (a1 a2 a3 : List (V3 α)) (best : Option α × OBB α) :
    Option (Option α × OBB α) :=
  let maxN1 := dot n1 p1
  let maxN2 := dot n2 p2
  let maxN3 := dot n3 p3
  match minAlong n1 a1, minAlong n2 a2, minAlong n3 a3 with
  | some minN1, some minN2, some minN3 =>
    let volume := (maxN1 - minN1) * (maxN2 - minN2) * (maxN3 - minN3)
    if best.1.all (fun m => decide (volume < m)) then
      let r0 := (maxN1 - minN1) * (1 / 2)
      let r1 := (maxN2 - minN2) * (1 / 2)
      let r2 := (maxN3 - minN3) * (1 / 2)
      some (some volume, ⟨(minN1 + r0) • n1 + (minN2 + r1) • n2 + (minN3 + r2) • n3, ⟨r0, r1, r2⟩, n1, n2, n3⟩)
    else some best
  | _, _, _ => none

end field

/-- The conversion of an `int` to a 64-bit `size_t`, as done at src/Geometry/OBB.cpp:893 and 895. -/
def toSizeT (i : ℤ) : ℕ := (i % 2 ^ 64).toNat

/-- src/Geometry/OBB.cpp:889-899 `SortedArrayContains`, the loop, at most `fuel` rounds. The outer `none` says that the loop has
not ended, the inner one that it read outside the array. -/
def sortedLoop (arr : List ℤ) (i : ℤ) : ℕ → ℕ → ℕ → Option (Option Bool)
  | 0, _, _ => none
  | fuel + 1, left, right =>
    if left < right then
      let middle := (left + right + 1) % 2 ^ 64 / 2
      match arr[middle]? with
      | none => some none
      | some a =>
        if a < i then sortedLoop arr i fuel (toSizeT i) right
        else if a > i then sortedLoop arr i fuel left (toSizeT i)
        else some (some true)
    else some (some false)

/-- src/Geometry/OBB.cpp:880-900 `SortedArrayContains`; `arr.size() - 1` of an empty array wraps, and reading `arr[0]` of it is
out of range. -/
def sortedArrayContains (fuel : ℕ) (arr : List ℤ) (i : ℤ) : Option (Option Bool) :=
  match arr[0]?, arr[arr.length - 1]? with
  | some l, some r =>
    if l = i ∨ r = i then some (some true)
    else if l > i ∨ r < i then some (some false)
    else sortedLoop arr i fuel 0 (arr.length - 1)
  | _, _ => some none

end OBB
end MGL
