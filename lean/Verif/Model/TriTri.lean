import Verif.Model.Triangle
import Verif.Model.MinAreaRect
import Verif.Model.Float2

/-! Model of the intersection test and the closest points of two triangles (src/Geometry/Triangle.cpp) and of the intersection test of
two line segments of the plane that it uses (src/Geometry/LineSegment2D.cpp), over the real numbers. -/

namespace MGL
open V3

noncomputable section
open Classical

/-- src/Geometry/LineSegment2D.cpp:46-74 `IntervalIntersection`: the returned number and the interval; `none` stands for NaN. -/
def intervalIntersection (u0 u1 v0 v1 : ℝ) : ℕ × Option (ℝ × ℝ) :=
  if u1 < v0 ∨ u0 > v1 then (0, none)
  else if u1 > v0 then
    if u0 < v1 then (2, some (max2 u0 v0, min2 u1 v1)) else (1, some (u0, u0))
  else (1, some (u1, u1))

/-- src/Geometry/LineSegment2D.cpp:76-113 `LineSegment2DLineSegment2DIntersect`: the returned flag, and `s` and `t`. -/
def seg2DIntersect (p0 dir0 p1 dir1 : V2 ℝ) : Bool × Option (ℝ × ℝ) :=
  let e := p1 - p0
  let cross := MinAreaRect.perpDot dir0 dir1
  let sqrLen0 := V2.lenSq dir0
  let sqrLen1 := V2.lenSq dir1
  let sqrEpsilon : ℝ := 1 / 100000000
  if cross * cross > sqrEpsilon * sqrLen0 * sqrLen1 then
    let s := MinAreaRect.perpDot e dir1 / cross
    let t := MinAreaRect.perpDot e dir0 / cross
    (decide (s ≥ 0) && decide (s ≤ 1) && decide (t ≥ 0) && decide (t ≤ 1), some (s, t))
  else
    let sqrLenE := V2.lenSq e
    let cross := MinAreaRect.perpDot e dir0
    if cross * cross > sqrEpsilon * sqrLen0 * sqrLenE then (false, none)
    else
      let s0 := V2.dot dir0 e / sqrLen0
      let s1 := s0 + V2.dot dir0 dir1 / sqrLen0
      let r := intervalIntersection 0 1 (min2 s0 s1) (max2 s0 s1)
      (decide (r.1 > 0), r.2)

namespace Tri

/-- src/Geometry/Triangle.cpp:517-534 `FindIntersectingLineSegments`. -/
def intersectingSegs (t : Tri ℝ) (da db dc : ℝ) : LineSeg ℝ × LineSeg ℝ :=
  if da * db > 0 then (⟨t.a, t.c⟩, ⟨t.b, t.c⟩)
  else if db * dc > 0 then (⟨t.a, t.b⟩, ⟨t.a, t.c⟩)
  else (⟨t.a, t.b⟩, ⟨t.b, t.c⟩)

/-- src/Geometry/Triangle.cpp:329-339 `Contains(point, FLOAT_INF)`: the test of the thickness never fails, as it compares with infinity
or NaN. -/
def containsAnyThickness (t : Tri ℝ) (p : V3 ℝ) : Bool :=
  match t.barycentricUVW p with
  | none => false
  | some br => decide (br.x ≥ -(1 / 1000)) && decide (br.y ≥ -(1 / 1000)) && decide (br.z ≥ -(1 / 1000))

/-- src/Geometry/Triangle.cpp:616-624: one of the nine tests of an edge `(p, q)` of this triangle against an edge `(r, s)` of the other;
the line written is the point `s*(q-p)`, taken from `a`. -/
def edgeEdge (a basisU basisV : V3 ℝ) (p q r s : V2 ℝ) : Option (Option (LineSeg ℝ)) :=
  match seg2DIntersect p (q - p) r (s - r) with
  | (false, _) => none
  | (true, none) => some none
  | (true, some (k, _)) =>
    let pt := k • (q - p)
    let pt3d := a + pt.x • basisU + pt.y • basisV
    some (some ⟨pt3d, pt3d⟩)

/-- src/Geometry/Triangle.cpp:596-626: the case of parallel planes. -/
def intersectsTriParallel (negZero : Bool) (t t2 : Tri ℝ) (n : V3 ℝ) : Option (Option (LineSeg ℝ)) :=
  if absF (dot n t.a - dot n t2.a) > 1 / 10000 then none
  else if t2.containsAnyThickness t.a || t.containsAnyThickness t2.a then some none
  else
    let b := f3PerpendicularBasis negZero n
    let f (x : V3 ℝ) : V2 ℝ := ⟨dot b.1 (x - t.a), dot b.2 (x - t.a)⟩
    let a1 : V2 ℝ := ⟨0, 0⟩
    let a2 := f t.b
    let a3 := f t.c
    let b1 := f t2.a
    let b2 := f t2.b
    let b3 := f t2.c
    let h := edgeEdge t.a b.1 b.2
    h a1 a2 b1 b2 <|> h a1 a2 b2 b3 <|> h a1 a2 b3 b1 <|> h a2 a3 b1 b2 <|> h a2 a3 b2 b3 <|> h a2 a3 b3 b1 <|>
      h a3 a1 b1 b2 <|> h a3 a1 b2 b3 <|> h a3 a1 b3 b1

/-- src/Geometry/Triangle.cpp:557-595: the case of planes that cross, from `p1.Intersects(p2, &l)` on. -/
def intersectsTriLine (t t2 : Tri ℝ) (p1 p2 : Plane ℝ) : Option (Option (LineSeg ℝ)) :=
  match p1.intersectsPlane p2 with
  | none => none
  | some l =>
    let s1 := t.intersectingSegs (p2.signedDistance t.a) (p2.signedDistance t.b) (p2.signedDistance t.c)
    let s2 := t2.intersectingSegs (p1.signedDistance t2.a) (p1.signedDistance t2.b) (p1.signedDistance t2.c)
    let d1a := (l.distanceSeg s1.1).2.1
    let d1b := (l.distanceSeg s1.2).2.1
    let d2a := (l.distanceSeg s2.1).2.1
    let d2b := (l.distanceSeg s2.2).2.1
    let i1 := if d1a > d1b then (d1b, d1a) else (d1a, d1b)
    let i2 := if d2a > d2b then (d2b, d2a) else (d2a, d2b)
    let rStart := max2 i1.1 i2.1
    let rEnd := min2 i1.2 i2.2
    if rStart ≤ rEnd then some (some ⟨l.getPoint rStart, l.getPoint rEnd⟩) else none

/-- src/Geometry/Triangle.cpp:540-627 `Intersects(Triangle, outLine)`: `none` for false, `some none` for true without anything written to
`outLine`, and otherwise the line segment written. -/
def intersectsTri (negZero : Bool) (t t2 : Tri ℝ) : Option (Option (LineSeg ℝ)) :=
  let p1 := t.planeCCW
  let p2 := t2.planeCCW
  if !f3IsZero (cross p1.normal p2.normal) then
    let t2min := min2 (min2 (p1.signedDistance t2.a) (p1.signedDistance t2.b)) (p1.signedDistance t2.c)
    let t2max := max2 (max2 (p1.signedDistance t2.a) (p1.signedDistance t2.b)) (p1.signedDistance t2.c)
    if t2max < -(1 / 10000) ∨ t2min > 1 / 10000 then none
    else
      let t1min := min2 (min2 (p2.signedDistance t.a) (p2.signedDistance t.b)) (p2.signedDistance t.c)
      let t1max := max2 (max2 (p2.signedDistance t.a) (p2.signedDistance t.b)) (p2.signedDistance t.c)
      if t1max < -(1 / 10000) ∨ t1min > 1 / 10000 then none
      else t.intersectsTriLine t2 p1 p2
  else t.intersectsTriParallel negZero t2 p1.normal

/-- src/Geometry/Triangle.cpp:1831-1853: a candidate pair of points replaces the closest pair so far if it is closer. -/
def closer (best : V3 ℝ × V3 ℝ × ℝ) (x y : V3 ℝ) (dSq : ℝ) : V3 ℝ × V3 ℝ × ℝ := if dSq < best.2.2 then (x, y, dSq) else best

/-- src/Geometry/Triangle.cpp:1855-1869: the loops over the edges of both triangles. -/
def closestEdges (t t2 : Tri ℝ) (best : V3 ℝ × V3 ℝ × ℝ) : V3 ℝ × V3 ℝ × ℝ :=
  let l1 : List (LineSeg ℝ) := [⟨t.a, t.b⟩, ⟨t.a, t.c⟩, ⟨t.b, t.c⟩]
  let l2 : List (LineSeg ℝ) := [⟨t2.a, t2.b⟩, ⟨t2.a, t2.c⟩, ⟨t2.b, t2.c⟩]
  l1.foldl (fun best x => l2.foldl (fun best y =>
    let r := x.distanceSeg y
    closer best (x.getPoint r.2.1) (y.getPoint r.2.2) (r.1 * r.1)) best) best

/-- src/Geometry/Triangle.cpp:1817-1874 `ClosestPoint(Triangle, otherPt)`: the returned point and `otherPt`. `none` stands for a result
that is not determined: the middle of a line segment that was never written, or a closest point that is NaN. -/
def closestTri (negZero : Bool) (t t2 : Tri ℝ) : Option (V3 ℝ × V3 ℝ) :=
  match t.intersectsTri negZero t2 with
  | some none => none
  | some (some l) => some (l.centerPoint, l.centerPoint)
  | none => do
    let q ← t.closestPoint t2.a
    let best := (q, t2.a, distSq q t2.a)
    let q ← t.closestPoint t2.b
    let best := closer best q t2.b (distSq q t2.b)
    let q ← t.closestPoint t2.c
    let best := closer best q t2.c (distSq q t2.c)
    let q ← t2.closestPoint t.a
    let best := closer best t.a q (distSq q t.a)
    let q ← t2.closestPoint t.b
    let best := closer best t.b q (distSq q t.b)
    let q ← t2.closestPoint t.c
    let best := closer best t.c q (distSq q t.c)
    let r := closestEdges t t2 best
    some (r.1, r.2.1)

end Tri
end
end MGL
