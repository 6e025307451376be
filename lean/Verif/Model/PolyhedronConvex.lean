import Verif.Model.PolyhedronMerge
import Verif.Model.Line

/-! Model of the queries of class `Polyhedron` that assume a convex polyhedron, of its extreme vertices and of
`OrientNormalsOutsideConvex` (src/Geometry/Polyhedron.cpp), over the real numbers. Reading a vertex, a row of the adjacency data or a
visit mark out of range is `none`. -/

namespace MGL
open V3
namespace Polyhedron

noncomputable section
open Classical

/-- `FLT_MAX`, the largest finite `float`. -/
def fltMax : ℝ := (2 - 1 / 2 ^ 23) * 2 ^ 127

/-- The loop of `ContainsConvex`, src/Geometry/Polyhedron.cpp:963-967. -/
def containsLoop (p : Polyhedron ℝ) (point : V3 ℝ) (epsilon : ℝ) : List (List ℤ) → Option Bool
  | [] => some true
  | f :: fs => do
    let pl ← p.facePlane f
    if pl.signedDistance point > epsilon then some false else containsLoop p point epsilon fs

/-- src/Geometry/Polyhedron.cpp:960-968 `ContainsConvex(point, epsilon)`; the default of `epsilon` is `1e-4f`
(src/Geometry/Polyhedron.h:340). -/
def containsConvex (p : Polyhedron ℝ) (point : V3 ℝ) (epsilon : ℝ := 1 / 10000) : Option Bool := p.containsLoop point epsilon p.f

/-- src/Geometry/Polyhedron.cpp:970-973 `ContainsConvex(LineSegment)`; `&&` evaluates its second operand only if the first is
true. -/
def containsConvexSeg (p : Polyhedron ℝ) (l : LineSeg ℝ) : Option Bool := do
  if ← p.containsConvex l.a then p.containsConvex l.b else some false

/-- src/Geometry/Polyhedron.cpp:975-978 `ContainsConvex(Triangle)`. -/
def containsConvexTri (p : Polyhedron ℝ) (t : Tri ℝ) : Option Bool := do
  if ← p.containsConvex t.a then
    if ← p.containsConvex t.b then p.containsConvex t.c else some false
  else some false

/-- The loop of `ClipLineSegmentToConvexPolyhedron`, src/Geometry/Polyhedron.cpp:1070-1105. -/
def clipLoop (p : Polyhedron ℝ) (ptA dir : V3 ℝ) : List (List ℤ) → ℝ → ℝ → Option (Bool × ℝ × ℝ)
  | [], tFirst, tLast => some (true, tFirst, tLast)
  | f :: fs, tFirst, tLast => do
    let pl ← p.facePlane f
    let denom := dot pl.normal dir
    let dist := pl.d - dot pl.normal ptA
    if absF denom < 1 / 100000 then
      if dist < 0 then some (false, tFirst, tLast) else clipLoop p ptA dir fs tFirst tLast
    else
      let t := dist / denom
      let tFirst' := if denom < 0 then max2 t tFirst else tFirst
      let tLast' := if denom < 0 then tLast else min2 t tLast
      if tFirst' > tLast' then some (false, tFirst', tLast') else clipLoop p ptA dir fs tFirst' tLast'

/-- src/Geometry/Polyhedron.cpp:1064-1107 `ClipLineSegmentToConvexPolyhedron`: the return value, `tFirst` and `tLast`. -/
def clipLineSegment (p : Polyhedron ℝ) (ptA dir : V3 ℝ) (tFirst tLast : ℝ) : Option (Bool × ℝ × ℝ) :=
  p.clipLoop ptA dir p.f tFirst tLast

/-- src/Geometry/Polyhedron.cpp:1275-1280 `IntersectsConvex(Line)`. -/
def intersectsConvexLine (p : Polyhedron ℝ) (l : Line ℝ) : Option Bool := do
  some (← p.clipLineSegment l.pos l.dir (-fltMax) fltMax).1

/-- src/Geometry/Polyhedron.cpp:1282-1287 `IntersectsConvex(Ray)`. -/
def intersectsConvexRay (p : Polyhedron ℝ) (r : Ray ℝ) : Option Bool := do
  some (← p.clipLineSegment r.pos r.dir 0 fltMax).1

/-- src/Geometry/Polyhedron.cpp:1289-1294 `IntersectsConvex(LineSegment)`. -/
def intersectsConvexSeg (p : Polyhedron ℝ) (l : LineSeg ℝ) : Option Bool := do
  some (← p.clipLineSegment l.a (l.b - l.a) 0 1).1

/-- The loop of `ExtremeVertex`, src/Geometry/Polyhedron.cpp:321-329, at the vertices from number `i` on. -/
def extremeLoop (direction : V3 ℝ) : List (V3 ℝ) → ℤ → ℤ → ℝ → ℤ
  | [], _, best, _ => best
  | x :: xs, i, best, bestD =>
    let d := dot direction x
    if d > bestD then extremeLoop direction xs (i + 1) i d else extremeLoop direction xs (i + 1) best bestD

/-- src/Geometry/Polyhedron.cpp:317-331 `ExtremeVertex`. -/
def extremeVertex (p : Polyhedron ℝ) (direction : V3 ℝ) : ℤ := extremeLoop direction p.v 0 (-1) (-fltMax)

/-- src/Geometry/Polyhedron.cpp:333-336 `ExtremePoint(direction)`. -/
def extremePoint (p : Polyhedron ℝ) (direction : V3 ℝ) : Option (V3 ℝ) := p.vertex (p.extremeVertex direction)

/-- src/Geometry/Polyhedron.cpp:338-343 `ExtremePoint(direction, projectionDistance)`. -/
def extremePointDist (p : Polyhedron ℝ) (direction : V3 ℝ) : Option (V3 ℝ × ℝ) := do
  let x ← p.extremePoint direction
  some (x, dot x direction)

/-- src/Geometry/Polyhedron.cpp:483-490 `ProjectToAxis`. -/
def projectToAxis (p : Polyhedron ℝ) (direction : V3 ℝ) : Option (ℝ × ℝ) := do
  let minPt ← p.extremePoint (-direction)
  let maxPt ← p.extremePoint direction
  some (dot minPt direction, dot maxPt direction)

/-- The loop over the neighbours in `ExtremeVertexConvex`, src/Geometry/Polyhedron.cpp:360-388, until it moves on to a better
vertex (`Sum.inl`) or has seen all neighbours (`Sum.inr`, with `secondBest`). -/
def neighbourLoop (p : Polyhedron ℝ) (direction : V3 ℝ) (visited : List ℕ) (color : ℕ) (curD : ℝ) : List ℤ → ℤ → ℝ → Option (ℤ ⊕ ℤ)
  | [], second, _ => some (.inr second)
  | n :: ns, second, secondD => do
    let mark ← if 0 ≤ n then visited[n.toNat]? else none
    if mark ≠ color then
      let x ← p.vertex n
      let d := dot direction x
      if d > curD then some (.inl n)
      else if d > secondD then neighbourLoop p direction visited color curD ns n d
      else neighbourLoop p direction visited color curD ns second secondD
    else neighbourLoop p direction visited color curD ns second secondD

/-- src/Geometry/Polyhedron.cpp:345-408 `ExtremeVertexConvex`: the returned vertex, `mostExtremeDistance` and the visit marks. Moving
on to a better vertex sets all local variables as a new call starting at that vertex does, and is modelled as that call. Taking
the address of the first neighbour of a vertex without neighbours is undefined: `none`. The first argument bounds the number of
vertices marked; when it is used up the result is `none`, and `C83_extremeVertexConvex` says that this does not happen. -/
def extremeVertexConvex (p : Polyhedron ℝ) (adj : List (List ℤ)) (direction : V3 ℝ) (color : ℕ) : ℕ → List ℕ → ℤ → Option (ℤ × ℝ × List ℕ)
  | 0, _, _ => none
  | fuel + 1, visited, start => do
    let x ← p.vertex start
    let curD := dot direction x
    let row ← adj[start.toNat]?
    if row = [] ∨ visited.length ≤ start.toNat then none
    else
      let visited' := visited.set start.toNat color
      match ← neighbourLoop p direction visited' color curD row (-1) (curD - 1 / 1000) with
      | .inl n => extremeVertexConvex p adj direction color fuel visited' n
      | .inr second =>
        if second ≠ -1 ∧ visited'[second.toNat]? ≠ some color then do
          let r ← extremeVertexConvex p adj direction color fuel visited' second
          if r.2.1 > curD then some r else some (start, curD, r.2.2)
        else some (start, curD, visited')

/-- src/Geometry/Polyhedron.cpp:492-499 `ApproximateConvexCentroid`. -/
def approximateConvexCentroid (p : Polyhedron ℝ) : V3 ℝ :=
  (1 / (p.v.length : ℝ)) • p.v.foldl (fun c x => c + x) ⟨0, 0, 0⟩

/-- The sum over the vertices in `OrientNormalsOutsideConvex`, src/Geometry/Polyhedron.cpp:1555-1559; reading `v[0]` of an empty
array is `none`. -/
def orientCenter (p : Polyhedron ℝ) : Option (V3 ℝ) :=
  match p.v with
  | [] => none
  | x :: xs => some ((1 / (p.v.length : ℝ)) • xs.foldl (fun c x => c + x) x)

/-- src/Geometry/Polyhedron.cpp:1553-1563 `OrientNormalsOutsideConvex`. -/
def orientNormalsOutsideConvex (p : Polyhedron ℝ) : Option (Polyhedron ℝ) := do
  let center ← p.orientCenter
  let f ← p.f.mapM fun f => do
    let pl ← p.facePlane f
    some (if pl.signedDistance center > 0 then flipFace f else f)
  some { p with f := f }

end

end Polyhedron
end MGL
