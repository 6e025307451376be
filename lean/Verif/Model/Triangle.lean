import Verif.Model.TriDef
import Verif.Model.Line
import Verif.Model.AABB
import Verif.Model.Plane

/-! Model of class `Triangle` (src/Geometry/Triangle.cpp), scalar path. -/

namespace MGL
open V3
variable {α : Type*}

namespace Tri

section Field
variable [Field α] [LinearOrder α]

/-- src/Geometry/Triangle.cpp:57-62 `Translate`. -/
def translate (t : Tri α) (o : V3 α) : Tri α := ⟨t.a + o, t.b + o, t.c + o⟩

/-- src/Geometry/Triangle.cpp:89-92 `TriArea2D`. -/
def triArea2D (x1 y1 x2 y2 x3 y3 : α) : α := (x1 - x2) * (y2 - y3) - (x2 - x3) * (y1 - y2)

/-- src/Geometry/Triangle.cpp:94-148 `BarycentricUVW`; `none` where the code divides by zero. -/
def barycentricUVW (t : Tri α) (p : V3 α) : Option (V3 α) :=
  let m := cross (t.b - t.a) (t.c - t.a)
  let x := absF m.x
  let y := absF m.y
  let z := absF m.z
  let (nu, nv, den) :=
    if x ≥ y ∧ x ≥ z then
      (triArea2D p.y p.z t.b.y t.b.z t.c.y t.c.z, triArea2D p.y p.z t.c.y t.c.z t.a.y t.a.z, m.x)
    else if y ≥ z then
      (triArea2D p.x p.z t.b.x t.b.z t.c.x t.c.z, triArea2D p.x p.z t.c.x t.c.z t.a.x t.a.z, -m.y)
    else
      (triArea2D p.x p.y t.b.x t.b.y t.c.x t.c.y, triArea2D p.x p.y t.c.x t.c.y t.a.x t.a.y, m.z)
  if den = 0 then none
  else
    let ood := 1 / den
    let u := nu * ood
    let v := nv * ood
    some ⟨u, v, 1 - u - v⟩

/-- src/Geometry/Triangle.cpp:150-154 `BarycentricUV`. -/
def barycentricUV (t : Tri α) (p : V3 α) : Option (α × α) := (t.barycentricUVW p).map fun q => (q.y, q.z)

/-- src/Geometry/Triangle.cpp:156-160 `BarycentricInsideTriangle`; `EqualAbs` with its default tolerance. -/
def barycentricInsideTriangle (b : V3 α) : Bool :=
  decide (b.x ≥ 0 ∧ b.y ≥ 0 ∧ b.z ≥ 0) && equalAbs (b.x + b.y + b.z) 1

/-- src/Geometry/Triangle.cpp:162-168, 180-183 `Point(u, v)`. -/
def point2 (t : Tri α) (u v : α) : V3 α := t.a + (u • (t.b - t.a) + v • (t.c - t.a))

/-- src/Geometry/Triangle.cpp:170-178 `Point(u, v, w)`. -/
def point3 (t : Tri α) (u v w : α) : V3 α := u • t.a + v • t.b + w • t.c

/-- src/Geometry/Triangle.cpp:185-188 `Centroid`. -/
def centroid (t : Tri α) : V3 α := (1 / 3 : α) • (t.a + t.b + t.c)

/-- src/Geometry/Triangle.cpp:200-212 `Edge`. -/
def edge (t : Tri α) (i : Fin 3) : LineSeg α :=
  if i = 0 then ⟨t.a, t.b⟩ else if i = 1 then ⟨t.b, t.c⟩ else ⟨t.c, t.a⟩

/-- src/Geometry/Triangle.cpp:214-226 `Vertex`. -/
def vertex (t : Tri α) (i : Fin 3) : V3 α := if i = 0 then t.a else if i = 1 then t.b else t.c

/-- src/Geometry/Triangle.cpp:248-251 `UnnormalizedNormalCCW`. -/
def normalCCW' (t : Tri α) : V3 α := cross (t.b - t.a) (t.c - t.a)

/-- src/Geometry/Triangle.cpp:253-256 `UnnormalizedNormalCW`. -/
def normalCW' (t : Tri α) : V3 α := cross (t.c - t.a) (t.b - t.a)

/-- src/Geometry/Triangle.cpp:258-273 `ExtremePoint(direction)`; the start value `-FLT_MAX` is below every
product, so the first vertex is always taken. -/
def extremePoint (t : Tri α) (d : V3 α) : V3 α :=
  let best := t.a
  let best := if dot d t.b > dot d best then t.b else best
  if dot d t.c > dot d best then t.c else best

/-- src/Geometry/Triangle.cpp:275-280 `ExtremePoint(direction, projectionDistance)`. -/
def extremePointDist (t : Tri α) (d : V3 α) : V3 α × α := (t.extremePoint d, dot (t.extremePoint d) d)

/-- src/Geometry/Triangle.cpp:296-302 `BoundingAABB`. -/
def boundingAABB (t : Tri α) : AABB α := ⟨f3Min3 t.a t.b t.c, f3Max3 t.a t.b t.c⟩

/-- src/Geometry/Triangle.cpp:304-307 `Area2D` on the points `(p1, p2, p3)`. -/
def area2D (x1 y1 x2 y2 x3 y3 : α) : α := (x1 - x2) * (y2 - y3) - (x2 - x3) * (y1 - y2)

/-- src/Geometry/Triangle.cpp:329-339 `Contains(point, triangleThicknessSq)`, default `1e-5f` (Triangle.h). A
comparison with the NaN of a failed `BarycentricUVW` is false. -/
def contains (t : Tri α) (p : V3 α) (thicknessSq : α := 1 / 100000) : Bool :=
  let n := cross (t.b - t.a) (t.c - t.a)
  let d := dot n (t.b - p)
  if d * d > thicknessSq * lenSq n then false
  else match t.barycentricUVW p with
    | none => false
    | some br => decide (br.x ≥ -(1 / 1000) ∧ br.y ≥ -(1 / 1000) ∧ br.z ≥ -(1 / 1000))

/-- src/Geometry/Triangle.cpp:341-344 `Contains(LineSegment, triangleThickness)`; the thickness is passed on where a squared
thickness is expected. -/
def containsSeg (t : Tri α) (l : LineSeg α) (e : α := 1 / 1000) : Bool := t.contains l.a e && t.contains l.b e

/-- src/Geometry/Triangle.cpp:346-350 `Contains(Triangle)`. -/
def containsTri (t o : Tri α) (e : α := 1 / 1000) : Bool := t.contains o.a e && t.contains o.b e && t.contains o.c e

/-- src/Geometry/Triangle.cpp:405-447 `IntersectLineTri`: `(t, u, v)`, or `none` for the return value `FLOAT_INF`. -/
def intersectLineTri (linePos lineDir v0 v1 v2 : V3 α) : Option (α × α × α) :=
  let epsilon : α := 1 / 10000
  let vE1 := v1 - v0
  let vE2 := v2 - v0
  let vP := cross lineDir vE2
  let det := dot vE1 vP
  if absF det ≤ epsilon then none
  else
    let recipDet := 1 / det
    let vT := linePos - v0
    let u := dot vT vP * recipDet
    if u < -epsilon ∨ u > 1 + epsilon then none
    else
      let vQ := cross vT vE1
      let v := dot lineDir vQ * recipDet
      if v < -epsilon ∨ u + v > 1 + epsilon then none
      else some (dot vE2 vQ * recipDet, u, v)

/-- src/Geometry/Triangle.cpp:450-465 `Intersects(LineSegment, d, intersectionPoint)`. -/
def intersectsSeg (t : Tri α) (l : LineSeg α) : Option (α × V3 α) :=
  match intersectLineTri l.a (l.b - l.a) t.a t.b t.c with
  | none => none
  | some (d, _, _) => if d ≥ 0 ∧ d ≤ 1 then some (d, l.getPoint d) else none

/-- src/Geometry/Triangle.cpp:467-479 `Intersects(Line, d, intersectionPoint)`. -/
def intersectsLine (t : Tri α) (l : Line α) : Option (α × V3 α) :=
  match intersectLineTri l.pos l.dir t.a t.b t.c with
  | none => none
  | some (d, _, _) => some (d, l.getPoint d)

/-- src/Geometry/Triangle.cpp:481-493 `Intersects(Ray, d, intersectionPoint)`. -/
def intersectsRay (t : Tri α) (r : Ray α) : Option (α × V3 α) :=
  match intersectLineTri r.pos r.dir t.a t.b t.c with
  | none => none
  | some (d, _, _) => if d ≥ 0 then some (d, r.getPoint d) else none

/-- src/Geometry/Triangle.cpp:895-951 `ClosestPoint(point)` (and its copy 955-1011 in double precision); `none` where
the code divides by zero. -/
def closestPoint (t : Tri α) (p : V3 α) : Option (V3 α) :=
  let ab := t.b - t.a
  let ac := t.c - t.a
  let ap := p - t.a
  let d1 := dot ab ap
  let d2 := dot ac ap
  if d1 ≤ 0 ∧ d2 ≤ 0 then some t.a
  else
    let bp := p - t.b
    let d3 := dot ab bp
    let d4 := dot ac bp
    if d3 ≥ 0 ∧ d4 ≤ d3 then some t.b
    else
      let vc := d1 * d4 - d3 * d2
      if vc ≤ 0 ∧ d1 ≥ 0 ∧ d3 ≤ 0 then
        if d1 - d3 = 0 then none
        else
          let v := d1 / (d1 - d3)
          some (t.a + v • ab)
      else
        let cp := p - t.c
        let d5 := dot ab cp
        let d6 := dot ac cp
        if d6 ≥ 0 ∧ d5 ≤ d6 then some t.c
        else
          let vb := d5 * d2 - d1 * d6
          if vb ≤ 0 ∧ d2 ≥ 0 ∧ d6 ≤ 0 then
            if d2 - d6 = 0 then none
            else
              let w := d2 / (d2 - d6)
              some (t.a + w • ac)
          else
            let va := d3 * d6 - d5 * d4
            if va ≤ 0 ∧ d4 - d3 ≥ 0 ∧ d5 - d6 ≥ 0 then
              if d4 - d3 + d5 - d6 = 0 then none
              else
                let w := (d4 - d3) / (d4 - d3 + d5 - d6)
                some (t.b + w • (t.c - t.b))
            else if va + vb + vc = 0 then none
            else
              let denom := 1 / (va + vb + vc)
              let v := vb * denom
              let w := vc * denom
              some (t.a + v • ab + w • ac)

/-- src/Geometry/Triangle.cpp:368-371 `DistanceSq(point)`. -/
def distanceSq (t : Tri α) (p : V3 α) : Option α := (t.closestPoint p).map fun q => distSq q p

/-- src/Geometry/Triangle.cpp:502-515 `Intersects(Sphere)`. -/
def intersectsSphere (t : Tri α) (s : Sphere α) : Option Bool :=
  (t.closestPoint s.pos).map fun q => decide (distSq q s.pos ≤ s.r * s.r)

/-- One cross product axis of src/Geometry/Triangle.cpp:758-828: `d1`, `d2` are the two different projections of
the triangle, `r` is the half extent of the box. `true` when the axis separates. -/
def axisSeparates (d1 d2 r : α) : Bool :=
  let tc := (d1 + d2) * (1 / 2)
  decide (absF r + absF (tc - d1) < absF tc)

/-- src/Geometry/Triangle.cpp:717-831 `Intersects(AABB)`, the scalar code path. -/
def intersectsAABB (t : Tri α) (b : AABB α) : Bool :=
  let tMin := f3Min t.a (f3Min t.b t.c)
  let tMax := f3Max t.a (f3Max t.b t.c)
  if tMin.x ≥ b.maxPoint.x ∨ tMax.x ≤ b.minPoint.x ∨ tMin.y ≥ b.maxPoint.y ∨ tMax.y ≤ b.minPoint.y ∨
     tMin.z ≥ b.maxPoint.z ∨ tMax.z ≤ b.minPoint.z then false
  else
    let center := (1 / 2 : α) • (b.minPoint + b.maxPoint)
    let h := b.maxPoint - center
    let t0 := t.b - t.a
    let t1 := t.c - t.a
    let t2 := t.c - t.b
    let ac := t.a - center
    let n := cross t0 t1
    let s := dot n ac
    let r := absF (dot h (f3Abs n))
    if absF s ≥ r then false
    else
      let at0 := f3Abs t0
      let at1 := f3Abs t1
      let at2 := f3Abs t2
      let bc := t.b - center
      let cc := t.c - center
      if axisSeparates (t0.y * ac.z - t0.z * ac.y) (t0.y * cc.z - t0.z * cc.y) (h.y * at0.z + h.z * at0.y) then false
      else if axisSeparates (t1.y * ac.z - t1.z * ac.y) (t1.y * bc.z - t1.z * bc.y) (h.y * at1.z + h.z * at1.y) then false
      else if axisSeparates (t2.y * ac.z - t2.z * ac.y) (t2.y * bc.z - t2.z * bc.y) (h.y * at2.z + h.z * at2.y) then false
      else if axisSeparates (t0.z * ac.x - t0.x * ac.z) (t0.z * cc.x - t0.x * cc.z) (h.x * at0.z + h.z * at0.x) then false
      else if axisSeparates (t1.z * ac.x - t1.x * ac.z) (t1.z * bc.x - t1.x * bc.z) (h.x * at1.z + h.z * at1.x) then false
      else if axisSeparates (t2.z * ac.x - t2.x * ac.z) (t2.z * bc.x - t2.x * bc.z) (h.x * at2.z + h.z * at2.x) then false
      else if axisSeparates (t0.x * ac.y - t0.y * ac.x) (t0.x * cc.y - t0.y * cc.x) (h.y * at0.x + h.x * at0.y) then false
      else if axisSeparates (t1.x * ac.y - t1.y * ac.x) (t1.x * bc.y - t1.y * bc.x) (h.y * at1.x + h.x * at1.y) then false
      else if axisSeparates (t2.x * ac.y - t2.y * ac.x) (t2.x * bc.y - t2.y * bc.x) (h.y * at2.x + h.x * at2.y) then false
      else true

/-- src/Geometry/Triangle.cpp:871-884 `UniqueFaceNormals`. -/
def uniqueFaceNormals (t : Tri α) : List (V3 α) :=
  let n := cross (t.b - t.a) (t.c - t.a)
  [n, cross n (t.b - t.a), cross n (t.c - t.a), cross n (t.c - t.b)]

/-- src/Geometry/Triangle.cpp:886-892 `UniqueEdgeDirections`. -/
def uniqueEdgeDirections (t : Tri α) : List (V3 α) := [t.b - t.a, t.c - t.a, t.c - t.b]

/-- src/Geometry/Triangle.cpp:1397-1430 `ClosestPointToTriangleEdge(Line)`: the point on an edge and the parameter
on the line (`outU` and `outV` are the barycentric coordinates of the point). -/
def closestPointToEdgeLine (t : Tri α) (l : Line α) : V3 α × α :=
  let c1 := (t.edge 0).closestLine l
  let c2 := (t.edge 1).closestLine l
  let c3 := (t.edge 2).closestLine l
  let dist1 := distSq c1.1 (l.getPoint c1.2.2)
  let dist2 := distSq c2.1 (l.getPoint c2.2.2)
  let dist3 := distSq c3.1 (l.getPoint c3.2.2)
  if dist1 ≤ dist2 ∧ dist1 ≤ dist3 then (c1.1, c1.2.2)
  else if dist2 ≤ dist3 then (c2.1, c2.2.2)
  else (c3.1, c3.2.2)

/-- src/Geometry/Triangle.cpp:1432-1465 `ClosestPointToTriangleEdge(LineSegment)`. -/
def closestPointToEdgeSeg (t : Tri α) (l : LineSeg α) : V3 α × α :=
  let c1 := (t.edge 0).closestSeg l
  let c2 := (t.edge 1).closestSeg l
  let c3 := (t.edge 2).closestSeg l
  let dist1 := distSq c1.1 (l.getPoint c1.2.2)
  let dist2 := distSq c2.1 (l.getPoint c2.2.2)
  let dist3 := distSq c3.1 (l.getPoint c3.2.2)
  if dist1 ≤ dist2 ∧ dist1 ≤ dist3 then (c1.1, c1.2.2)
  else if dist2 ≤ dist3 then (c2.1, c2.2.2)
  else (c3.1, c3.2.2)

/-- src/Geometry/Triangle.cpp:1467-1483 `ClosestPoint(Line, otherPt)`: the point on the triangle and the one on the line. -/
def closestLine (t : Tri α) (l : Line α) : V3 α × V3 α :=
  match t.intersectsLine l with
  | some (_, p) => (p, p)
  | none =>
    let c := t.closestPointToEdgeLine l
    (c.1, l.getPoint c.2)

/-- src/Geometry/Triangle.cpp:1013-1055 `ClosestPoint(LineSegment, otherPt)`; `none` where the code divides by zero. -/
def closestSeg (t : Tri α) (l : LineSeg α) : Option (V3 α × V3 α) :=
  let edges : Option (V3 α × V3 α) :=
    let c := t.closestPointToEdgeSeg l
    (t.closestPoint l.a).bind fun pt2 =>
    (t.closestPoint l.b).map fun pt3 =>
      let D1 := distSq c.1 (l.getPoint c.2)
      let D2 := distSq pt2 l.a
      let D3 := distSq pt3 l.b
      if D1 ≤ D2 ∧ D1 ≤ D3 then (c.1, l.getPoint c.2)
      else if D2 ≤ D3 then (pt2, l.a)
      else (pt3, l.b)
  match intersectLineTri l.a (l.b - l.a) t.a t.b t.c with
  | some (d, u, v) => if d ≥ 0 ∧ d ≤ 1 then some (t.point2 u v, l.getPoint d) else edges
  | none => edges

/-- src/Geometry/Triangle.cpp:1877-1901 `RandomPointInside` for the two random numbers `s`, `t`. -/
def randomPointInside (tr : Tri α) (s t : α) : V3 α :=
  if s + t ≥ 1 then tr.point2 (1 - s) (1 - t) else tr.point2 s t

/-- src/Geometry/Triangle.cpp:1903-1906 `RandomVertex` for the random index. -/
def randomVertex (t : Tri α) (i : Fin 3) : V3 α := t.vertex i

end Field

noncomputable section
open Classical

/-- src/Geometry/Triangle.cpp:190-193 `Area`. -/
def area (t : Tri ℝ) : ℝ := (1 / 2) * V3.len (cross (t.b - t.a) (t.c - t.a))

/-- src/Geometry/Triangle.cpp:195-198 `Perimeter`. -/
def perimeter (t : Tri ℝ) : ℝ := V3.dist t.a t.b + V3.dist t.b t.c + V3.dist t.c t.a

/-- src/Geometry/Triangle.cpp:238-246 `NormalCCW`. -/
def normalCCW (t : Tri ℝ) : V3 ℝ := f3Normalized t.normalCCW'

/-- src/Geometry/Triangle.cpp:243-246 `NormalCW`. -/
def normalCW (t : Tri ℝ) : V3 ℝ := f3Normalized t.normalCW'

/-- src/Geometry/Triangle.cpp:228-231 `PlaneCCW`. -/
def planeCCW (t : Tri ℝ) : Plane ℝ := Plane.setPoints t.a t.b t.c

/-- src/Geometry/Triangle.cpp:233-236 `PlaneCW`. -/
def planeCW (t : Tri ℝ) : Plane ℝ := Plane.setPoints t.a t.c t.b

/-- src/Geometry/Triangle.cpp:309-312 `SignedArea`. -/
def signedArea (pt a b c : V3 ℝ) : ℝ := dot (cross (b - pt) (c - pt)) (f3Normalized (cross (b - a) (c - a)))

/-- src/Geometry/Triangle.cpp:363-366 `Distance(point)`. -/
def distance (t : Tri ℝ) (p : V3 ℝ) : Option ℝ := (t.closestPoint p).map fun q => V3.dist q p

/-- src/Geometry/Triangle.cpp:378-381 `Distance(Sphere)`. -/
def distanceSphere (t : Tri ℝ) (s : Sphere ℝ) : Option ℝ := (t.distance s.pos).map fun d => max2 0 (d - s.r)

/-- src/Geometry/Triangle.cpp:383-388 `Distance(Capsule)`, the capsule given by its segment and radius. -/
def distanceCapsule (t : Tri ℝ) (l : LineSeg ℝ) (r : ℝ) : Option ℝ :=
  (t.closestSeg l).map fun c => max2 0 (V3.dist c.1 c.2 - r)

/-- src/Geometry/Triangle.cpp:1908-1922 `RandomPointOnEdge` for the random number `r`. -/
def randomPointOnEdge (t : Tri ℝ) (r : ℝ) : V3 ℝ :=
  let ab := V3.dist t.a t.b
  let bc := V3.dist t.b t.c
  let ca := V3.dist t.c t.a
  if r < ab then t.a + (1 / ab) • (r • (t.b - t.a))
  else
    let r := r - ab
    if r < bc then t.b + (1 / bc) • (r • (t.c - t.b))
    else
      let r := r - bc
      t.c + (1 / ca) • (r • (t.a - t.c))

end

end Tri
end MGL
