import Verif.Model.Polygon

/-! Model of further predicates of class `Polygon` (src/Geometry/Polygon.cpp): diagonals, simplicity, containment of segments and triangles.
Exact arithmetic over the reals; `none` is a read outside the vertices. `LineSegment::Intersects(LineSegment)` has the default tolerance
`1e-3f` (src/Geometry/LineSegment.h:223). -/

namespace MGL
open V3
namespace Polygon

noncomputable section
open Classical

/-- src/Geometry/Polygon.cpp:128-135 `Diagonal`. -/
def diagonal (p : List (V3 ℝ)) (i j : ℕ) : Option (LineSeg ℝ) := do some ⟨← p[i]?, ← p[j]?⟩

/-- src/Geometry/Polygon.cpp:74-81 `Edge2D`; `none` is the NaN segment of an empty polygon or an index out of range. -/
def edge2D (p : List (V3 ℝ)) (i : ℕ) : Option (V2 ℝ × V2 ℝ) :=
  match p with
  | [] => none
  | [_] => some (⟨0, 0⟩, ⟨0, 0⟩)
  | _ => do some (← mapTo2D p (← p[i]?), ← mapTo2D p (← p[(i + 1) % p.length]?))

/-- src/Geometry/Polygon.cpp:104-109, the loop of `DiagonalExists` and the result after it. -/
def diagonalLoop (pl : Plane ℝ) (p : List (V3 ℝ)) (i j : ℕ) (diag : LineSeg ℝ) : List ℕ → Option Bool
  | [] => some (isConvex p)
  | k :: r =>
    if !(decide (k = i) || decide (k + 1 = i) || decide (k = j)) then do
      let a ← p[k]?
      let b ← p[k + 1]?
      if (pl.projectSeg ⟨a, b⟩).intersectsSeg diag (1 / 1000) then some false else diagonalLoop pl p i j diag r
    else diagonalLoop pl p i j diag r

/-- src/Geometry/Polygon.cpp:83-110 `DiagonalExists`. -/
def diagonalExists (p : List (V3 ℝ)) (i j : ℕ) : Option Bool :=
  if i = j then some false
  else
    let (i, j) := if i > j then (j, i) else (i, j)
    if i + 1 = j then some false
    else do
      let pl ← planeCCW p
      let a ← p[i]?
      let b ← p[j]?
      diagonalLoop pl p i j (pl.projectSeg ⟨a, b⟩) (List.range p.length)

/-- src/Geometry/Polygon.cpp:201-218 `IsSimple`; without vertices the plane is not read. -/
def isSimple (p : List (V3 ℝ)) : Option Bool :=
  if p = [] then some true
  else (planeCCW p).map fun pl =>
    (List.range p.length).all fun i => (List.range p.length).all fun j =>
      if j < i + 2 then true
      else if i = 0 ∧ j = p.length - 1 then true
      else match edge p i, edge p j with
        | some si, some sj => !((pl.projectSeg si).intersectsSeg (pl.projectSeg sj) (1 / 1000))
        | _, _ => true

/-- src/Geometry/Polygon.cpp:413-434 `Contains(LineSegment, polygonThickness)`; the default is `1e-3f` (src/Geometry/Polygon.h:279). -/
def containsSeg (p : List (V3 ℝ)) (s : LineSeg ℝ) (thickness : ℝ := 1 / 1000) : Option Bool :=
  if p.length < 3 then some false
  else (planeCCW p).map fun pl =>
    if pl.distance s.a > thickness ∨ pl.distance s.b > thickness then false
    else
      let l := pl.projectSeg s
      if !contains p l.a || !contains p l.b then false
      else !((List.range p.length).any fun i =>
        match edge p i with
        | some e => (pl.projectSeg e).intersectsSeg l (1 / 1000)
        | none => false)

/-- src/Geometry/Polygon.cpp:436-441 `Contains(Triangle, polygonThickness)`; `Triangle::Edge` is src/Geometry/Triangle.cpp:200-212. -/
def containsTri (p : List (V3 ℝ)) (t : Tri ℝ) (thickness : ℝ := 1 / 1000) : Option Bool := do
  if !(← containsSeg p ⟨t.a, t.b⟩ thickness) then some false
  else if !(← containsSeg p ⟨t.b, t.c⟩ thickness) then some false
  else containsSeg p ⟨t.c, t.a⟩ thickness

/-- src/Geometry/Polygon.cpp:443-465 `Contains2D`: the edges are mapped without subtracting the origin. -/
def contains2D (p : List (V3 ℝ)) (l : LineSeg ℝ) : Bool :=
  if p.length < 3 then false
  else
    let u := basisU p
    let v := basisV p
    let m := p.map fun y => (⟨dot y u, dot y v, 0⟩ : V3 ℝ)
    match m.getLast? with
    | none => false
    | some z =>
      if ((z :: m).zip m).any fun e => LineSeg.intersectsSeg ⟨e.1, e.2⟩ l (1 / 1000) then false
      else match mapFrom2D p ⟨l.a.x, l.a.y⟩ with
        | none => false
        | some x => contains p x

end
end Polygon
end MGL
