import Verif.Spec.Vec2Alg
import Verif.Model.GJK

/-! Model of the intersection test for convex objects of the plane (src/Algorithm/GJK2D.h, src/Algorithm/GJK2D.cpp), scalar
path. -/

namespace MGL.GJK2D
open V2
variable {α : Type*} [Field α] [LinearOrder α]

/-- What the code calls on the template parameters (src/Algorithm/GJK2D.h:32, 39, 49): `AnyPointFast()` and
`ExtremePoint(direction, projectionDistance)`. -/
structure Support2 (α : Type*) where
  any : V2 α
  ext : V2 α → Option (V2 α × α)

/-- src/Algorithm/GJK2D.cpp:42-77, the part of `UpdateSimplex2D` for two points. -/
def update2 (s0 s1 : V2 α) : List (V2 α) × V2 α :=
  let d01 := s1 - s0
  let newSearchDir := perp d01
  if lenSq newSearchDir > 1 / 10000000 then ([s0, s1], if dot newSearchDir s0 ≤ 0 then newSearchDir else -newSearchDir)
  else ([], 0)

/-- src/Algorithm/GJK2D.cpp:78-155, the part of `UpdateSimplex2D` for three points. -/
def update3 (s0 s1 s2 : V2 α) : List (V2 α) × V2 α :=
  let d12 := s2 - s1
  let d02 := s2 - s0
  let e12 := perp d12
  let e12 := if dot d02 e12 ≤ 0 then -e12 else e12
  let t12 := dot s1 e12
  if t12 < 0 then ([s1, s2], e12)
  else
    let e02 := perp d02
    let e02 := if dot d12 e02 ≤ 0 then -e02 else e02
    let t02 := dot s0 e02
    if t02 < 0 then ([s0, s2], e02) else ([], 0)

/-- src/Algorithm/GJK2D.cpp:36-156 `UpdateSimplex2D`: the new simplex and the new search direction. The code only calls it
with two or three points; `none` for other lists, for which the array of the caller would be overrun. -/
def updateSimplex2D : List (V2 α) → Option (List (V2 α) × V2 α)
  | [s0, s1] => some (update2 s0 s1)
  | [s0, s1, s2] => some (update3 s0 s1 s2)
  | _ => none

/-- src/Algorithm/GJK2D.h:45-65, the loop. -/
def loop (a b : Support2 α) : ℕ → List (V2 α) → V2 α → Option GJK.Outcome
  | 0, _, _ => some .gaveUp
  | k + 1, s, d =>
    match a.ext d, b.ext (-d) with
    | some (pa, maxS), some (pb, minS) =>
      if minS + maxS < 0 then some .apart
      else
        match updateSimplex2D (s ++ [pa - pb]) with
        | none => none
        | some ([], _) => some .meet
        | some (p :: s', d') => loop a b k (p :: s') d'
    | _, _ => some .meet

/-- src/Algorithm/GJK2D.h:34-70 `GJKIntersect2D`, with the way it ends. -/
def run (a b : Support2 α) : Option GJK.Outcome :=
  let s0 := a.any - b.any
  if lenSq s0 < 1 / 10000000 then some .meet else loop a b 50 [s0] (-s0)

/-- src/Algorithm/GJK2D.h:34-70 `GJKIntersect2D`: the value returned. -/
def intersect (a b : Support2 α) : Option Bool := (run a b).map fun o => decide (o = .meet)

/-- src/Geometry/Polygon2DRef.h:30-38, the loop of `Polygon2DRef::ExtremePoint`; `none` is the state before the first pass,
with the distance `-FLOAT_INF`. -/
def extremeLoop (direction : V2 α) : Option (V2 α × α) → List (V2 α) → Option (V2 α × α)
  | s, [] => s
  | none, c :: cs => extremeLoop direction (some (c, dot direction c)) cs
  | some (m, pd), c :: cs =>
    extremeLoop direction (if dot direction c > pd then some (c, dot direction c) else some (m, pd)) cs

/-- src/Geometry/Polygon2DRef.h:19-40 `AnyPointFast` and `ExtremePoint` of `Polygon2DRef`, with the points `p :: ps`. -/
def polygonSupport (p : V2 α) (ps : List (V2 α)) : Support2 α := ⟨p, fun d => extremeLoop d none (p :: ps)⟩

/-- src/Algorithm/GJK2D.h:81-93 `GJKVec2DProxy`. -/
def pointSupport (v : V2 α) : Support2 α := ⟨v, fun d => some (v, dot v d)⟩

/-- src/Algorithm/GJK2D.h:108-114 `GJKOBB2DProxy::ExtremePoint(direction)`. -/
def obbExtreme (center axis0 axis1 direction : V2 α) : V2 α :=
  let pt := center
  let pt := pt + (if dot direction axis0 ≥ 0 then (1 : α) else -1) • axis0
  pt + (if dot direction axis1 ≥ 0 then (1 : α) else -1) • axis1

/-- src/Algorithm/GJK2D.h:103-122 `GJKOBB2DProxy`. -/
def obbSupport (center axis0 axis1 : V2 α) : Support2 α :=
  ⟨center, fun d => some (obbExtreme center axis0 axis1 d, dot (obbExtreme center axis0 axis1 d) d)⟩

/-- src/Algorithm/GJK2D.h:73-78 `GJKIntersect2D(a, numA, b, numB)`. -/
def intersect2D (p : V2 α) (ps : List (V2 α)) (q : V2 α) (qs : List (V2 α)) : Option Bool :=
  intersect (polygonSupport p ps) (polygonSupport q qs)

/-- src/Algorithm/GJK2D.h:95-100 `GJKContainsPt2D`. -/
def containsPt2D (p : V2 α) (ps : List (V2 α)) (b : V2 α) : Option Bool := intersect (polygonSupport p ps) (pointSupport b)

/-- src/Algorithm/GJK2D.h:124-129 `GJKIntersectOBB2D`. -/
def intersectOBB2D (p : V2 α) (ps : List (V2 α)) (center axis0 axis1 : V2 α) : Option Bool :=
  intersect (polygonSupport p ps) (obbSupport center axis0 axis1)

end MGL.GJK2D
