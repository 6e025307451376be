import Verif.Model.PolyhedronMeasure

/-! Model of further queries of class `Polyhedron` (src/Geometry/Polyhedron.cpp), over the real numbers. Reading a vertex out of range is
`none`; an inner `none` is NaN. -/

namespace MGL
open V3
namespace Polyhedron

noncomputable section
open Classical

/-- The loop of `ClosestPointConvex`, src/Geometry/Polyhedron.cpp:987-996; comparisons with NaN are false. -/
def closestConvexLoop (p : Polyhedron ℝ) (x : V3 ℝ) : List (List ℤ) → Option (V3 ℝ) → ℝ → Option (Option (V3 ℝ))
  | [], best, _ => some best
  | f :: fs, best, bestD => do
    let poly ← f.mapM p.vertex
    match ← Polygon.closestPoint poly x with
    | none => closestConvexLoop p x fs best bestD
    | some q => if distSq q x < bestD then closestConvexLoop p x fs (some q) (distSq q x) else closestConvexLoop p x fs best bestD

/-- src/Geometry/Polyhedron.cpp:980-998 `ClosestPointConvex`. -/
def closestPointConvex (p : Polyhedron ℝ) (x : V3 ℝ) : Option (Option (V3 ℝ)) := do
  if ← p.containsConvex x then some (some x) else p.closestConvexLoop x p.f none fltMax

end
end Polyhedron
end MGL
