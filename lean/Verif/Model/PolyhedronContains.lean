import Verif.Model.PolyhedronQuery
import Verif.Model.Triangle
import Verif.Model.Line
import Verif.Model.OBB
import Mathlib.Data.EReal.Operations

/-! Model of the point containment test of class `Polyhedron` for polyhedra of any shape and of the queries that rest on it
(src/Geometry/Polyhedron.cpp), over the real numbers. `±FLOAT_INF` are `⊤` and `⊥` of `EReal`; the negative zero that
`-faceContainmentDistance` can be is the zero of `EReal`, which compares in the same way. Reading a vertex or a corner of a face out
of range is `none`. -/

namespace MGL
open V3
namespace Polyhedron

noncomputable section
open Classical

/-- src/Geometry/Polyhedron.cpp:784-815: one edge of a face against the test ray from the origin along +x. `none` if the edge is
passed over; otherwise the pseudo-distance that is compared with `faceContainmentDistance`, and whether `numIntersections` grows. -/
def edgeScan (p0 p1 : V2 ℝ) : Option (ℝ × Bool) :=
  if p0.y * p1.y < 0 then
    let minX := min2 p0.x p1.x
    if minX > 0 then some (minX, true)
    else if max2 p0.x p1.x > 0 then
      let d := p1 - p0
      if d.y ≠ 0 then
        let t := -p0.y / d.y
        let x := p0.x + t * d.x
        if t ≥ 0 ∧ t ≤ 1 then some (absF x, decide (x ≥ 0)) else none
      else none
    else none
  else none

/-- src/Geometry/Polyhedron.cpp:777-817: the loop over the corners, from the corner `p0` on, with `numIntersections` and
`faceContainmentDistance`. -/
def faceScan : V2 ℝ → List (V2 ℝ) → ℕ → EReal → ℕ × EReal
  | _, [], n, d => (n, d)
  | p0, p1 :: r, n, d =>
    let p1 := Polygon.nudge p1
    match edgeScan p0 p1 with
    | none => faceScan p1 r n d
    | some e => faceScan p1 r (if e.2 then n + 1 else n) (min d (e.1 : EReal))

/-- src/Geometry/Polyhedron.cpp:738-821 `FaceContainmentDistance2D`; the default of `polygonThickness` is `1e-3f`
(src/Geometry/Polyhedron.h:332). The face is given by its corner list. -/
def faceContainmentDistance2D (p : Polyhedron ℝ) (f : List ℤ) (x : V3 ℝ) (polygonThickness : ℝ := 1 / 1000) : Option EReal :=
  if f.length < 3 then some ⊥
  else do
    let pl ← p.facePlane f
    if pl.distance x > polygonThickness then some ⊥
    else do
      let poly ← f.mapM p.vertex
      match poly with
      | a :: b :: _ =>
        let basisU := f3Normalized (b - a)
        let basisV := f3Normalized (cross pl.normal basisU)
        let l := poly.map fun y => (⟨dot (y - x) basisU, dot (y - x) basisV⟩ : V2 ℝ)
        match l.getLast? with
        | none => none
        | some z =>
          let r := faceScan (Polygon.nudge z) l 0 ⊤
          some (if r.1 % 2 = 1 then r.2 else -r.2)
      | _ => none

/-- src/Geometry/Polyhedron.cpp:823-827 `FaceContains`; the default of `polygonThickness` is `1e-3f` (src/Geometry/Polyhedron.h:326). -/
def faceContains (p : Polyhedron ℝ) (f : List ℤ) (x : V3 ℝ) (polygonThickness : ℝ := 1 / 1000) : Option Bool := do
  let d ← p.faceContainmentDistance2D f x polygonThickness
  some (decide (d ≥ 0))

/-- The value of the literal `0.33333333333f` of src/Geometry/Polyhedron.cpp:872. -/
def oneThird : ℝ := 11184811 / 33554432

/-- src/Geometry/Polyhedron.cpp:879-892: the loop over the faces that the ray from `point` along `dir` may meet, with
`numIntersections` and `faceContainmentDistance`. -/
def rayScan (p : Polyhedron ℝ) (point dir : V3 ℝ) : List (List ℤ) → ℕ → EReal → Option (ℕ × EReal)
  | [], n, d => some (n, d)
  | f :: fs, n, d =>
    match f with
    | a :: b :: c :: _ => do
      let x ← p.vertex a
      let y ← p.vertex b
      let z ← p.vertex c
      let h := (Plane.setPoints (x - point) (y - point) (z - point)).intersectsRay ⟨⟨0, 0, 0⟩, dir⟩
      if h.1 then do
        let c ← p.faceContainmentDistance2D f ((⟨0, 0, 0⟩ : V3 ℝ) + h.2 • dir + point)
        rayScan p point dir fs (if c ≥ 0 then n + 1 else n) (min d (max c (-c)))
      else rayScan p point dir fs n d
    | _ => none

/-- src/Geometry/Polyhedron.cpp:858-902: the loop over the faces through which the test ray is sent, with `bestNumIntersections` and
`bestFaceContainmentDistance`. -/
def rayLoop (p : Polyhedron ℝ) (point : V3 ℝ) : List (List ℤ) → ℕ → EReal → Option Bool
  | [], best, _ => some (decide (best % 2 = 1))
  | f :: fs, best, bestD =>
    match f with
    | a :: b :: c :: _ => do
      let x ← p.vertex a
      let y ← p.vertex b
      let z ← p.vertex c
      let dir := f3Normalize (oneThird • (x + y + z) - point)
      if dir.2 ≤ 0 then rayLoop p point fs best bestD
      else do
        let r ← p.rayScan point dir.1 p.f 0 ⊤
        if r.2 > ((1 / 100 : ℝ) : EReal) then some (decide (r.1 % 2 = 1))
        else if r.2 ≥ bestD then rayLoop p point fs r.1 r.2
        else rayLoop p point fs best bestD
    | _ => rayLoop p point fs best bestD

/-- src/Geometry/Polyhedron.cpp:829-903 `Contains(point)`. -/
def contains (p : Polyhedron ℝ) (point : V3 ℝ) : Option Bool :=
  match p.v with
  | [] => some false
  | [a] => some (decide (absF (a.x - point.x) < 1 / 1000) && decide (absF (a.y - point.y) < 1 / 1000) &&
      decide (absF (a.z - point.z) < 1 / 1000))
  | [a, b] => some (LineSeg.contains ⟨a, b⟩ point (1 / 1000))
  | [a, b, c] => some (Tri.contains ⟨a, b, c⟩ point)
  | _ => p.rayLoop point p.f 0 0

/-- The loops of src/Geometry/Polyhedron.cpp:915-958 and the chains of `&&` in 905-913: whether all points of the list are contained;
the first that is not ends the search. -/
def containsAll (p : Polyhedron ℝ) : List (V3 ℝ) → Option Bool
  | [] => some true
  | x :: xs => do if ← p.contains x then containsAll p xs else some false

/-- src/Geometry/Polyhedron.cpp:905-908 `Contains(LineSegment)`. -/
def containsSeg (p : Polyhedron ℝ) (l : LineSeg ℝ) : Option Bool := p.containsAll [l.a, l.b]

/-- src/Geometry/Polyhedron.cpp:910-913 `Contains(Triangle)`. -/
def containsTri (p : Polyhedron ℝ) (t : Tri ℝ) : Option Bool := p.containsAll [t.a, t.b, t.c]

/-- src/Geometry/Polyhedron.cpp:915-921 `Contains(Polygon)` and 950-958 `Contains(Polyhedron)`, on the vertices of the object. -/
def containsVertices (p : Polyhedron ℝ) (vs : List (V3 ℝ)) : Option Bool := p.containsAll vs

/-- src/Geometry/Polyhedron.cpp:923-930 `Contains(AABB)`. -/
def containsAABB (p : Polyhedron ℝ) (b : AABB ℝ) : Option Bool := p.containsAll ((List.finRange 8).map b.cornerPoint)

/-- src/Geometry/Polyhedron.cpp:932-939 `Contains(OBB)`. -/
def containsOBB (p : Polyhedron ℝ) (o : OBB ℝ) : Option Bool := p.containsAll ((List.finRange 8).map o.cornerPoint)

/-- src/Geometry/Polyhedron.cpp:1000-1017 `ClosestPoint(point)`; the loop is the one of `ClosestPointConvex`. -/
def closestPoint (p : Polyhedron ℝ) (x : V3 ℝ) : Option (Option (V3 ℝ)) := do
  if ← p.contains x then some (some x) else p.closestConvexLoop x p.f none fltMax

/-- src/Geometry/Polyhedron.cpp:1058-1062 `Distance(point)`; the inner `none` is NaN. -/
def distance (p : Polyhedron ℝ) (x : V3 ℝ) : Option (Option ℝ) := do
  let q ← p.closestPoint x
  some (q.map fun q => V3.dist q x)

end
end Polyhedron
end MGL
