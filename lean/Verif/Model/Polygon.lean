import Verif.Model.Polygon2D
import Verif.Model.Plane
import Verif.Model.Triangle
import Verif.Model.AABB
import Verif.Model.Polyhedron
import Verif.Model.PolyhedronConvex

/-! Model of class `Polygon` (src/Geometry/Polygon.cpp) over the real numbers. A polygon is the list of its vertices, the member `p`.
Unit vectors are computed with the real square root. -/

namespace MGL
open V3
namespace Polygon

noncomputable section
open Classical

/-- src/Geometry/Polygon.cpp:65-72 `Edge(i)`; `none` is the NaN segment of an empty polygon or an index out of range. -/
def edge (p : List (V3 ℝ)) (i : ℕ) : Option (LineSeg ℝ) :=
  match p with
  | [] => none
  | [a] => some ⟨a, a⟩
  | _ => do some ⟨← p[i]?, ← p[(i + 1) % p.length]?⟩

/-- src/Geometry/Polygon.cpp:251-270: the innermost loop of `PlaneCCW`, over the vertices after `p[j]`. -/
def planeScanK (a b : V3 ℝ) : List (V3 ℝ) → Option (Plane ℝ)
  | [] => none
  | c :: r =>
    let n := cross (b - a) (c - a)
    let s := lenSq n
    if s > 1 / 100000000 then
      let n' := (1 / Real.sqrt s) • n
      some ⟨n', dot n' a⟩
    else planeScanK a b r

/-- src/Geometry/Polygon.cpp:257-258: the middle loop of `PlaneCCW`, over the vertices after `p[i]`. -/
def planeScanJ (a : V3 ℝ) : List (V3 ℝ) → Option (Plane ℝ)
  | [] => none
  | b :: r => (planeScanK a b r).orElse fun _ => planeScanJ a r

/-- src/Geometry/Polygon.cpp:256: the outer loop of `PlaneCCW`. -/
def planeScanI : List (V3 ℝ) → Option (Plane ℝ)
  | [] => none
  | a :: r => (planeScanJ a r).orElse fun _ => planeScanI r

/-- src/Geometry/Polygon.cpp:281-283 and 288-290: an arbitrary plane along the line of the first two vertices. -/
def planeAlong (a b : V3 ℝ) : Plane ℝ :=
  let dir := f3Normalized (b - a)
  Plane.ofRay a dir (f3Perpendicular dir)

/-- src/Geometry/Polygon.cpp:251-296 `PlaneCCW`. The plane of an empty polygon is uninitialised: `none`. The program stops the loops
before the last two vertices, where the inner loops are empty. -/
def planeCCW (p : List (V3 ℝ)) : Option (Plane ℝ) :=
  match p with
  | [] => none
  | [a] => some (Plane.setPointNormal a ⟨0, 1, 0⟩)
  | [a, b] => some (planeAlong a b)
  | [a, b, c] => some (Plane.setPoints a b c)
  | a :: b :: _ => some ((planeScanI p).getD (planeAlong a b))

/-- src/Geometry/Polygon.cpp:298-303 `PlaneCW`. -/
def planeCW (p : List (V3 ℝ)) : Option (Plane ℝ) := (planeCCW p).map Plane.reverseNormal

/-- src/Geometry/Polygon.cpp:112-119 `BasisU`. -/
def basisU (p : List (V3 ℝ)) : V3 ℝ :=
  match p with
  | a :: b :: _ => f3Normalized (b - a)
  | _ => ⟨1, 0, 0⟩

/-- src/Geometry/Polygon.cpp:121-126 `BasisV`. -/
def basisV (p : List (V3 ℝ)) : V3 ℝ :=
  if p.length < 2 then ⟨0, 1, 0⟩
  else match planeCCW p with
    | none => ⟨0, 1, 0⟩
    | some pl => f3Normalized (cross pl.normal (basisU p))

/-- src/Geometry/Polygon.cpp:169-176 `MapTo2D(point)`; the polygon must not be empty. -/
def mapTo2D (p : List (V3 ℝ)) (x : V3 ℝ) : Option (V2 ℝ) :=
  p.head?.map fun o => ⟨dot (x - o) (basisU p), dot (x - o) (basisV p)⟩

/-- src/Geometry/Polygon.cpp:178-182 `MapFrom2D`. -/
def mapFrom2D (p : List (V3 ℝ)) (q : V2 ℝ) : Option (V3 ℝ) := p.head?.map fun o => o + q.x • basisU p + q.y • basisV p

/-- src/Geometry/Polygon.cpp:137-160 `IsConvex`: the loop over `c = MapTo2D(k)`, with `a`, `b` the two vertices before. -/
def isConvexLoop : V2 ℝ → V2 ℝ → List (V2 ℝ) → Bool
  | _, _, [] => true
  | a, b, c :: r => if orientedCCW a b c then isConvexLoop b c r else false

/-- src/Geometry/Polygon.cpp:137-160 `IsConvex`. -/
def isConvex (p : List (V3 ℝ)) : Bool :=
  if p.isEmpty then false
  else if p.length ≤ 3 then true
  else
    let l := p.filterMap (mapTo2D p)
    isConvexLoop (l.getD (l.length - 2) 0) (l.getD (l.length - 1) 0) l

/-- src/Geometry/Polygon.cpp:184-199 `IsPlanar`; the default of `epsilonSq` is `1e-4f` (src/Geometry/Polygon.h:162). -/
def isPlanar (p : List (V3 ℝ)) (epsilonSq : ℝ := 1 / 10000) : Bool :=
  match p with
  | [] => false
  | a :: b :: c :: r =>
    let normal := cross (b - a) (c - a)
    let s := lenSq normal
    r.all fun x => let d := dot normal (x - a); !decide (d * d > epsilonSq * s)
  | _ => true

/-- src/Geometry/Polygon.cpp:343-405 `Contains(point, polygonThicknessSq)`; the default is `1e-5f` (src/Geometry/Polygon.h:278). -/
def contains (p : List (V3 ℝ)) (x : V3 ℝ) (thicknessSq : ℝ := 1 / 100000) : Bool :=
  match p with
  | o :: _ :: _ :: _ =>
    let u := basisU p
    let v := basisV p
    let normal := cross u v
    let d := dot normal (o - x)
    if d * d > thicknessSq then false
    else evenOdd (p.map fun y => ⟨dot (y - x) u, dot (y - x) v⟩)
  | _ => false

/-- src/Geometry/Polygon.cpp:335-341 `Contains(Polygon)`: the thickness is handed on where its square is expected. -/
def containsPolygon (p q : List (V3 ℝ)) (thickness : ℝ := 1 / 1000) : Bool := q.all fun x => contains p x thickness

/-- src/Geometry/Polygon.cpp:467-489 `Intersects2D`: the edges are mapped without subtracting the origin. -/
def intersects2D (p : List (V3 ℝ)) (l : LineSeg ℝ) : Bool :=
  if p.length < 3 then false
  else
    let u := basisU p
    let v := basisV p
    let m := p.map fun y => (⟨dot y u, dot y v, 0⟩ : V3 ℝ)
    match m.getLast? with
    | none => false
    | some z =>
      (((z :: m).zip m).any fun e => LineSeg.intersectsSeg ⟨e.1, e.2⟩ l (1 / 1000)) ||
      (match mapFrom2D p ⟨l.a.x, l.a.y⟩ with
        | none => false
        | some x => contains p x)

/-- src/Geometry/Polygon.cpp:491-497 `Intersects(Line)`. -/
def intersectsLine (p : List (V3 ℝ)) (l : Line ℝ) : Option Bool :=
  (planeCCW p).map fun pl =>
    let c := pl.intersectsLine l
    if !c.1 then false else contains p (l.getPoint c.2)

/-- src/Geometry/Polygon.cpp:499-505 `Intersects(Ray)`. -/
def intersectsRay (p : List (V3 ℝ)) (r : Ray ℝ) : Option Bool :=
  (planeCCW p).map fun pl =>
    let c := pl.intersectsRay r
    if !c.1 then false else contains p (r.getPoint c.2)

/-- src/Geometry/Polygon.cpp:507-525 `Intersects(LineSegment)`. -/
def intersectsSeg (p : List (V3 ℝ)) (l : LineSeg ℝ) : Option Bool := do
  let pl ← planeCCW p
  let denom := dot pl.normal (l.b - l.a)
  if absF denom < 1 / 10000 then
    let a ← mapTo2D p l.a
    let b ← mapTo2D p l.b
    some (intersects2D p ⟨⟨a.x, a.y, 0⟩, ⟨b.x, b.y, 0⟩⟩)
  else
    let t := (pl.d - dot pl.normal l.a) / denom
    if t < 0 ∨ t > 1 then some false else some (contains p (l.getPoint t))

/-- src/Geometry/Polygon.cpp:527-541 `Intersects(Plane)`; the distances are folded into infinite bounds. -/
def intersectsPlane (p : List (V3 ℝ)) (pl : Plane ℝ) : Bool :=
  let d := p.map fun x => ((pl.signedDistance x : ℝ) : Ext ℝ)
  let minD : Ext ℝ := d.foldl min2 ⊤
  let maxD : Ext ℝ := d.foldl max2 ⊥
  decide (minD ≤ ((1 / 10000 : ℝ) : Ext ℝ)) && decide (maxD ≥ ((-(1 / 10000) : ℝ) : Ext ℝ))

/-- src/Geometry/Polygon.cpp:974-1046 `Triangulate`. Reading out of range is `none`. -/
def triangulate (p : List (V3 ℝ)) : Option (List (Tri ℝ)) :=
  match p with
  | [] => some []
  | [_] => some []
  | [_, _] => some []
  | [a, b, c] => some [⟨a, b, c⟩]
  | _ => do
    let l ← p.mapM fun x => (mapTo2D p x).map fun q => (q, x)
    let r ← clipEars l 0 1 2 0
    let ts := r.1.map fun t => (⟨t.1, t.2.1, t.2.2⟩ : Tri ℝ)
    if r.2.length > 3 then some ts
    else do some (ts ++ [⟨(← r.2[0]?).2, (← r.2[1]?).2, (← r.2[2]?).2⟩])

/-- The loop of `ClosestPoint(point)`, src/Geometry/Polygon.cpp:735-745; `none` is NaN, and a triangle whose closest point is NaN
fails the comparison. -/
def closestLoop (x : V3 ℝ) : List (Tri ℝ) → Option (V3 ℝ) → ℝ → Option (V3 ℝ)
  | [], best, _ => best
  | t :: ts, best, bestD =>
    match t.closestPoint x with
    | none => closestLoop x ts best bestD
    | some q => if distSq q x < bestD then closestLoop x ts (some q) (distSq q x) else closestLoop x ts best bestD

/-- src/Geometry/Polygon.cpp:728-746 `ClosestPoint(point)`; the outer `none` is a read out of range in `Triangulate`. -/
def closestPoint (p : List (V3 ℝ)) (x : V3 ℝ) : Option (Option (V3 ℝ)) :=
  (triangulate p).map fun ts => closestLoop x ts none Polyhedron.fltMax

/-- src/Geometry/Polygon.cpp:706-715 `Intersects(Sphere)`; comparisons with NaN are false. -/
def intersectsSphere (p : List (V3 ℝ)) (s : Sphere ℝ) : Option Bool :=
  (triangulate p).map fun ts => ts.any fun t => (t.intersectsSphere s).getD false

/-- src/Geometry/Polygon.cpp:798-813 `ExtremePoint(direction, projectionDistance)`; `none` is NaN. -/
def extremeLoop (dir : V3 ℝ) : List (V3 ℝ) → Option (V3 ℝ) → Ext ℝ → Option (V3 ℝ) × Ext ℝ
  | [], best, d => (best, d)
  | x :: r, best, d => if ((dot dir x : ℝ) : Ext ℝ) > d then extremeLoop dir r (some x) ((dot dir x : ℝ) : Ext ℝ) else extremeLoop dir r best d

/-- src/Geometry/Polygon.cpp:798-813 `ExtremePoint(direction, projectionDistance)`. -/
def extremePoint (p : List (V3 ℝ)) (dir : V3 ℝ) : Option (V3 ℝ) × Ext ℝ := extremeLoop dir p none ⊥

/-- src/Geometry/Polygon.cpp:815-822 `ProjectToAxis`; `none` is NaN. -/
def projectToAxis (p : List (V3 ℝ)) (dir : V3 ℝ) : Option (ℝ × ℝ) := do
  some (dot (← (extremePoint p (-dir)).1) dir, dot (← (extremePoint p dir).1) dir)

/-- The loop of `Area`, src/Geometry/Polygon.cpp:847-851. -/
def areaLoop : V3 ℝ → List (V3 ℝ) → V3 ℝ → V3 ℝ
  | _, [], acc => acc
  | i, j :: r, acc => areaLoop j r (acc + cross i j)

/-- src/Geometry/Polygon.cpp:839-853 `Area`. -/
def area (p : List (V3 ℝ)) : ℝ :=
  if p.length ≤ 2 then 0
  else match p.getLast?, planeCCW p with
    | some z, some pl => 1 / 2 * absF (dot pl.normal (areaLoop z p 0))
    | _, _ => 0

/-- src/Geometry/Polygon.cpp:234-237 `IsDegenerate`. -/
def isDegenerate (p : List (V3 ℝ)) (epsilon : ℝ := 1 / 10000) : Bool := decide (p.length < 3) || decide (area p ≤ epsilon)

/-- src/Geometry/Polygon.cpp:855-861 `Perimeter`. -/
def perimeter (p : List (V3 ℝ)) : Option ℝ :=
  (List.range p.length).foldlM (fun acc i => do some (acc + (← edge p i).length)) 0

/-- src/Geometry/Polygon.cpp:864-872 `Centroid`; `none` is NaN. -/
def centroid (p : List (V3 ℝ)) : Option (V3 ℝ) :=
  if p.length = 0 then none else some ((1 / (p.length : ℝ)) • p.foldl (· + ·) 0)

/-- The loop of `PointOnEdge`, src/Geometry/Polygon.cpp:883-891. -/
def pointOnEdgeLoop (p : List (V3 ℝ)) : List ℕ → ℝ → Option (V3 ℝ)
  | [], _ => p.head?
  | i :: r, d => do
    let e ← edge p i
    let s := e.length
    if d ≤ s then (if s = 0 then none else some (e.getPoint (d / s))) else pointOnEdgeLoop p r (d - s)

/-- src/Geometry/Polygon.cpp:874-894 `PointOnEdge`; dividing by a zero length (NaN) is `none`. -/
def pointOnEdge (p : List (V3 ℝ)) (normalizedDistance : ℝ) : Option (V3 ℝ) :=
  match p with
  | [] => none
  | [a] => some a
  | _ => do
    let s ← perimeter p
    pointOnEdgeLoop p (List.range p.length) (frac normalizedDistance * s)

/-- src/Geometry/Polygon.cpp:910-922 `ToPolyhedron`. -/
def toPolyhedron (p : List (V3 ℝ)) : Polyhedron ℝ :=
  ⟨p, [(List.range p.length).map fun i : ℕ => (i : ℤ), (List.range p.length).map fun i : ℕ => (p.length : ℤ) - 1 - i]⟩

/-- src/Geometry/Polygon.cpp:305-309 `Translate`. -/
def translate (p : List (V3 ℝ)) (offset : V3 ℝ) : List (V3 ℝ) := p.map fun x => x + offset

/-- src/Geometry/Polygon.cpp:1048-1055 `MinimalEnclosingAABB`. -/
def minimalEnclosingAABB (p : List (V3 ℝ)) : AABB (Ext ℝ) :=
  AABB.ofPoints (p.map fun x => (⟨((x.x : ℝ) : Ext ℝ), ((x.y : ℝ) : Ext ℝ), ((x.z : ℝ) : Ext ℝ)⟩ : V3 (Ext ℝ)))

end
end Polygon
end MGL
