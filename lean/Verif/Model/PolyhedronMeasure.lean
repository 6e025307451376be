import Verif.Model.PolyhedronConvex
import Verif.Model.Polygon
import Verif.Model.AABBEnclose

/-! Model of the measures of class `Polyhedron` (src/Geometry/Polyhedron.cpp), over the real numbers. Reading a vertex out of range is
`none`. -/

namespace MGL
open V3
namespace Polyhedron

noncomputable section
open Classical

/-- The loop of `SurfaceArea`, src/Geometry/Polyhedron.cpp:543-548. -/
def surfaceLoop (p : Polyhedron ℝ) : List (List ℤ) → ℝ → Option ℝ
  | [], area => some area
  | f :: fs, area =>
    if f.length < 3 then surfaceLoop p fs area
    else do
      let poly ← f.mapM p.vertex
      surfaceLoop p fs (area + Polygon.area poly)

/-- src/Geometry/Polyhedron.cpp:540-550 `SurfaceArea`. -/
def surfaceArea (p : Polyhedron ℝ) : Option ℝ := p.surfaceLoop p.f 0

/-- The loop of `Volume`, src/Geometry/Polyhedron.cpp:556-562. `NormalCCW` is the normal of `PlaneCCW` (src/Geometry/Polygon.cpp:239-243). -/
def volumeLoop (p : Polyhedron ℝ) : List (List ℤ) → ℝ → Option ℝ
  | [], volume => some volume
  | f :: fs, volume =>
    if f.length < 3 then volumeLoop p fs volume
    else do
      let poly ← f.mapM p.vertex
      let x ← poly.head?
      let pl ← Polygon.planeCCW poly
      volumeLoop p fs (volume + dot x pl.normal * Polygon.area poly)

/-- src/Geometry/Polyhedron.cpp:553-564 `Volume`. -/
def volume (p : Polyhedron ℝ) : Option ℝ := (p.volumeLoop p.f 0).map fun v => absF v / 3

/-- The inner loop of `ConvexCentroid`, src/Geometry/Polyhedron.cpp:526-535: the triangles of three consecutive corners. The state holds
`centroid` and `totalVolume`. -/
def centroidFace (m : V3 ℝ) : List (V3 ℝ) → V3 ℝ × ℝ → V3 ℝ × ℝ
  | a :: b :: c :: r, s =>
    let center := (1 / 4 : ℝ) • (a + b + c + m)
    let volume := absF (dot (a - m) (cross (b - m) (c - m)))
    centroidFace m (b :: c :: r) (s.1 + volume • center, s.2 + volume)
  | _, s => s

/-- The outer loop of `ConvexCentroid`, src/Geometry/Polyhedron.cpp:521-536. -/
def centroidLoop (p : Polyhedron ℝ) (m : V3 ℝ) : List (List ℤ) → V3 ℝ × ℝ → Option (V3 ℝ × ℝ)
  | [], s => some s
  | f :: fs, s =>
    if f.length < 3 then centroidLoop p m fs s
    else do
      let poly ← f.mapM p.vertex
      centroidLoop p m fs (centroidFace m poly s)

/-- src/Geometry/Polyhedron.cpp:501-538 `ConvexCentroid`; `none` is NaN (the division by a zero volume, or no vertices). -/
def convexCentroid (p : Polyhedron ℝ) : Option (V3 ℝ) :=
  match p.v with
  | [] => none
  | [a] => some a
  | [a, b] => some ((1 / 2 : ℝ) • (a + b))
  | [a, b, c] => some ((1 / 3 : ℝ) • (a + b + c))
  | _ => do
    let s ← p.centroidLoop p.approximateConvexCentroid p.f (0, 0)
    if s.2 = 0 then none else some ((1 / s.2) • s.1)

/-- src/Geometry/Polyhedron.cpp:566-573 `MinimalEnclosingAABB`. -/
def minimalEnclosingAABB (p : Polyhedron ℝ) : AABB (Ext ℝ) :=
  AABB.ofPoints (p.v.map fun x => (⟨((x.x : ℝ) : Ext ℝ), ((x.y : ℝ) : Ext ℝ), ((x.z : ℝ) : Ext ℝ)⟩ : V3 (Ext ℝ)))

/-- src/Geometry/Polyhedron.cpp:1523-1527 `Translate`. -/
def translate (p : Polyhedron ℝ) (offset : V3 ℝ) : Polyhedron ℝ := { p with v := p.v.map fun x => x + offset }

end
end Polyhedron
end MGL
