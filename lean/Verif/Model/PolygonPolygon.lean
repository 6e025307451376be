import Verif.Model.Polygon
import Verif.Model.TriTri

/-! Polygons against polygons: src/Geometry/Polygon.cpp. -/

namespace MGL
open V3
noncomputable section
namespace Polygon

/-- The edges `Edge(0), ..., Edge(NumEdges()-1)`, in the order of the loops src/Geometry/Polygon.cpp:624-626 and 636-638. -/
def edges (p : List (V3 ℝ)) : List (LineSeg ℝ) := (List.range p.length).filterMap (edge p)

/-- The body of the loops src/Geometry/Polygon.cpp:626-634 and 638-646: does an edge meet a plane in a point that is contained? -/
def edgeHits (pl : Plane ℝ) (contained : V3 ℝ → Bool) (l : LineSeg ℝ) : Bool :=
  let c := Plane.intersectLinePlane pl.normal pl.d l.a (l.b - l.a)
  if !c.1 || decide (c.2 < 0) || decide (c.2 > 1) then false else contained (l.getPoint c.2)

/-- src/Geometry/Polygon.cpp:343-405 `Contains(point, FLOAT_INF)`: the test of the thickness never fails. -/
def containsAnyThickness (p : List (V3 ℝ)) (x : V3 ℝ) : Bool :=
  match p with
  | _ :: _ :: _ :: _ => evenOdd (p.map fun y => ⟨dot (y - x) (basisU p), dot (y - x) (basisV p)⟩)
  | _ => false

/-- src/Geometry/Polygon.cpp:649-686, the case of parallel planes. `Vertex(0)` exists, as the polygons have a plane. -/
def intersectsParallel (negZero : Bool) (n : V3 ℝ) (p q : List (V3 ℝ)) (thickness : ℝ) : Bool :=
  let o := p.headD 0
  let o2 := q.headD 0
  if absF (dot n o - dot n o2) > thickness then false
  else if containsAnyThickness q o || containsAnyThickness p o2 then true
  else
    let b := f3PerpendicularBasis negZero n
    let f (x : V3 ℝ) : V2 ℝ := ⟨dot b.1 (x - o), dot b.2 (x - o)⟩
    let m := p.map f
    let k := q.map f
    ((m.getLastD ⟨0, 0⟩ :: m).zip m).any fun e => ((k.getLastD ⟨0, 0⟩ :: k).zip k).any fun g =>
      (seg2DIntersect e.1 (e.2 - e.1) g.1 (g.2 - g.1)).1

/-- src/Geometry/Polygon.cpp:612-699 `Intersects(Polygon, polygonThickness)`; the default is `1e-3f` (src/Geometry/Polygon.h:317). `none`
stands for polygons for which `PlaneCCW` finds no plane. -/
def intersectsPolygon (negZero : Bool) (p q : List (V3 ℝ)) (thickness : ℝ := 1 / 1000) : Option Bool := do
  let pl ← planeCCW p
  let pl2 ← planeCCW q
  if !f3IsZero (cross pl.normal pl2.normal) then
    some ((edges q).any (edgeHits pl fun x => contains p x) || (edges p).any (edgeHits pl2 fun x => contains q x))
  else some (intersectsParallel negZero pl.normal p q thickness)

end Polygon
end
end MGL
