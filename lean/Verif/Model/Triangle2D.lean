import Verif.Model.Seg2D
import Verif.Model.Triangle

/-! Model of `Triangle2D` (src/Geometry/Triangle2D.cpp), scalar path, the parts that are compiled (most of the file is inside
`#if 0`). -/

namespace MGL
open V2

/-- src/Geometry/Triangle2D.h:27-40 the members of class `Triangle2D`. -/
@[ext] structure Tri2 (α : Type*) where
  a : V2 α
  b : V2 α
  c : V2 α

namespace Tri2
variable {α : Type*} [Field α] [LinearOrder α]

/-- src/Geometry/Triangle2D.cpp:55-60 `Translate`. -/
def translate (t : Tri2 α) (o : V2 α) : Tri2 α := ⟨t.a + o, t.b + o, t.c + o⟩

/-- src/Geometry/Triangle2D.cpp:84-87 `TriArea2D`. -/
def triArea2D (x1 y1 x2 y2 x3 y3 : α) : α := (x1 - x2) * (y2 - y3) - (x2 - x3) * (y1 - y2)

/-- src/Geometry/Triangle2D.cpp:89-102 `BarycentricUVW`. -/
def barycentricUVW (t : Tri2 α) (p : V2 α) : V3 α :=
  let nu := triArea2D p.x p.y t.b.x t.b.y t.c.x t.c.y
  let nv := triArea2D p.x p.y t.c.x t.c.y t.a.x t.a.y
  let u := nu
  let v := nv
  let w := 1 - u - v
  ⟨u, v, w⟩

/-- src/Geometry/Triangle2D.cpp:104-108 `BarycentricUV`. -/
def barycentricUV (t : Tri2 α) (p : V2 α) : V2 α :=
  let uvw := t.barycentricUVW p
  ⟨uvw.y, uvw.z⟩

/-- src/Geometry/Triangle2D.cpp:110-114 `BarycentricInsideTriangle`. -/
def barycentricInsideTriangle (b : V3 α) : Bool :=
  decide (b.x ≥ 0) && decide (b.y ≥ 0) && decide (b.z ≥ 0) && equalAbs (b.x + b.y + b.z) 1

/-- src/Geometry/Triangle2D.cpp:116-122 `Point(u, v)`. -/
def point2 (t : Tri2 α) (u v : α) : V2 α := t.a + (u • (t.b - t.a) + v • (t.c - t.a))

/-- src/Geometry/Triangle2D.cpp:124-127 `Point(u, v, w)`. -/
def point3 (t : Tri2 α) (u v w : α) : V2 α := u • t.a + v • t.b + w • t.c

/-- src/Geometry/Triangle2D.cpp:139-142 `Centroid`. -/
def centroid (t : Tri2 α) : V2 α := (1 / 3 : α) • (t.a + t.b + t.c)

/-- src/Geometry/Triangle2D.cpp:154-166 `Edge`. -/
def edge (t : Tri2 α) (i : Fin 3) : Seg2 α := if i = 0 then ⟨t.a, t.b⟩ else if i = 1 then ⟨t.b, t.c⟩ else ⟨t.c, t.a⟩

/-- src/Geometry/Triangle2D.cpp:168-180 `Vertex`. -/
def vertex (t : Tri2 α) (i : Fin 3) : V2 α := if i = 0 then t.a else if i = 1 then t.b else t.c

/-- src/Geometry/Triangle2D.cpp:182-197 `ExtremePoint(direction)`; the start value `-FLT_MAX` is below every product, so the
first vertex is always taken. -/
def extremePoint (t : Tri2 α) (d : V2 α) : V2 α :=
  let best := t.a
  let best := if dot d t.b > dot d best then t.b else best
  if dot d t.c > dot d best then t.c else best

/-- src/Geometry/Triangle2D.cpp:199-204 `ExtremePoint(direction, projectionDistance)`. -/
def extremePointDist (t : Tri2 α) (d : V2 α) : V2 α × α := (t.extremePoint d, dot (t.extremePoint d) d)

/-- src/Geometry/Triangle2D.cpp:215-221 `BoundingAABB`. -/
def boundingAABB (t : Tri2 α) : Rect α :=
  ⟨⟨min2 (min2 t.a.x t.b.x) t.c.x, min2 (min2 t.a.y t.b.y) t.c.y⟩, ⟨max2 (max2 t.a.x t.b.x) t.c.x, max2 (max2 t.a.y t.b.y) t.c.y⟩⟩

/-- src/Geometry/Triangle2D.cpp:223-226 `Area2D`. -/
def area2D (p1 p2 p3 : V2 α) : α := (p1.x - p2.x) * (p2.y - p3.y) - (p2.x - p3.x) * (p1.y - p2.y)

/-- src/Geometry/Triangle2D.cpp:238-246 `IsDegenerate`; `float2::Equals` is src/Math/float2.cpp:184-187. -/
def isDegenerate (t : Tri2 α) (epsilon : α := 1 / 1000) : Bool :=
  let eq (p q : V2 α) : Bool := equalAbs p.x q.x epsilon && equalAbs p.y q.y epsilon
  eq t.a t.b || eq t.a t.c || eq t.b t.c

/-- src/Geometry/Triangle2D.cpp:669-678 `ProjectToAxis`. -/
def projectToAxis (t : Tri2 α) (axis : V2 α) : α × α :=
  let d := dot axis t.a
  let k := dot axis t.b
  let dMin := min2 k d
  let dMax := max2 k d
  let k := dot axis t.c
  (min2 k dMin, max2 k dMax)

/-- src/Geometry/Triangle2D.cpp:695-701 `UniqueEdgeDirections`. -/
def uniqueEdgeDirections (t : Tri2 α) : List (V2 α) := [t.b - t.a, t.c - t.a, t.c - t.b]

/-- src/Geometry/Triangle2D.cpp:704-760 `ClosestPoint(point)`; `none` where the code divides by zero. -/
def closestPoint (t : Tri2 α) (p : V2 α) : Option (V2 α) :=
  let ab := t.b - t.a
  let ac := t.c - t.a
  let ap := p - t.a
  let d1 := dot ab ap
  let d2 := dot ac ap
  if d1 ≤ 0 ∧ d2 ≤ 0 then some t.a
  else
    let bp := p - t.b
    let d3 := dot ab bp
    let d4 := dot ac bp
    if d3 ≥ 0 ∧ d4 ≤ d3 then some t.b
    else
      let vc := d1 * d4 - d3 * d2
      if vc ≤ 0 ∧ d1 ≥ 0 ∧ d3 ≤ 0 then
        if d1 - d3 = 0 then none
        else
          let v := d1 / (d1 - d3)
          some (t.a + v • ab)
      else
        let cp := p - t.c
        let d5 := dot ab cp
        let d6 := dot ac cp
        if d6 ≥ 0 ∧ d5 ≤ d6 then some t.c
        else
          let vb := d5 * d2 - d1 * d6
          if vb ≤ 0 ∧ d2 ≥ 0 ∧ d6 ≤ 0 then
            if d2 - d6 = 0 then none
            else
              let w := d2 / (d2 - d6)
              some (t.a + w • ac)
          else
            let va := d3 * d6 - d5 * d4
            if va ≤ 0 ∧ d4 - d3 ≥ 0 ∧ d5 - d6 ≥ 0 then
              if d4 - d3 + d5 - d6 = 0 then none
              else
                let w := (d4 - d3) / (d4 - d3 + d5 - d6)
                some (t.b + w • (t.c - t.b))
            else if va + vb + vc = 0 then none
            else
              let denom := 1 / (va + vb + vc)
              let v := vb * denom
              let w := vc * denom
              some (t.a + v • ab + w • ac)

/-- src/Geometry/Triangle2D.cpp:287-290 `DistanceSq(point)`. -/
def distanceSq (t : Tri2 α) (p : V2 α) : Option α := (t.closestPoint p).map fun q => Seg2.distSq' q p

/-- src/Geometry/Triangle2D.cpp:1627-1651 `RandomPointInside` for the two random numbers `s`, `t`. -/
def randomPointInside (tr : Tri2 α) (s t : α) : V2 α := if s + t ≥ 1 then tr.point2 (1 - s) (1 - t) else tr.point2 s t

noncomputable section

/-- src/Geometry/Triangle2D.cpp:149-152 `Perimeter`. -/
def perimeter (t : Tri2 ℝ) : ℝ := Float2.distance t.a t.b + Float2.distance t.b t.c + Float2.distance t.c t.a

/-- src/Geometry/Triangle2D.cpp:282-285 `Distance(point)`. -/
def distance (t : Tri2 ℝ) (p : V2 ℝ) : Option ℝ := (t.closestPoint p).map fun q => Float2.distance q p

/-- src/Geometry/Triangle2D.cpp:1658-1672 `RandomPointOnEdge` for the random number `r` between 0 and the perimeter. -/
def randomPointOnEdge (t : Tri2 ℝ) (r : ℝ) : V2 ℝ :=
  let ab := Float2.distance t.a t.b
  let bc := Float2.distance t.b t.c
  let ca := Float2.distance t.c t.a
  if r < ab then t.a + (1 / ab) • (r • (t.b - t.a))
  else
    let r := r - ab
    if r < bc then t.b + (1 / bc) • (r • (t.c - t.b))
    else
      let r := r - bc
      t.c + (1 / ca) • (r • (t.a - t.c))

end
end Tri2
end MGL
