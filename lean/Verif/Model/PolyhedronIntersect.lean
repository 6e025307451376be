import Verif.Model.PolyhedronContains

/-! Model of the intersection tests of class `Polyhedron` with segments, lines and rays (src/Geometry/Polyhedron.cpp). Exact arithmetic over the
reals; `none` is a read outside an array, or the plane of a face with fewer than three corners. -/

namespace MGL
open V3
namespace Polyhedron

noncomputable section
open Classical

/-- src/Geometry/Polyhedron.cpp:1113-1121, the loop of `Intersects(LineSegment)` over the faces and the result after it. -/
def intersectsSegLoop (p : Polyhedron ℝ) (l : LineSeg ℝ) : List (List ℤ) → Option Bool
  | [] => some false
  | f :: fs => do
    let pl ← p.facePlane f
    let h := Plane.intersectLinePlane pl.normal pl.d l.a (l.b - l.a)
    if h.1 && decide (h.2 ≥ 0) && decide (h.2 ≤ 1) then
      if ← p.faceContains f (l.getPoint h.2) then some true else intersectsSegLoop p l fs
    else intersectsSegLoop p l fs

/-- src/Geometry/Polyhedron.cpp:1109-1124 `Intersects(LineSegment)`. -/
def intersectsSeg (p : Polyhedron ℝ) (l : LineSeg ℝ) : Option Bool := do
  if ← p.containsSeg l then some true else p.intersectsSegLoop l p.f

/-- src/Geometry/Polyhedron.cpp:1128-1130, 1137-1139: whether a test holds for one of the polygons of the faces. -/
def anyFacePolygon (p : Polyhedron ℝ) (test : List (V3 ℝ) → Option Bool) : List (List ℤ) → Option Bool
  | [] => some false
  | f :: fs => do
    let poly ← f.mapM p.vertex
    if ← test poly then some true else anyFacePolygon p test fs

/-- src/Geometry/Polyhedron.cpp:1126-1133 `Intersects(Line)`. -/
def intersectsLine (p : Polyhedron ℝ) (l : Line ℝ) : Option Bool := p.anyFacePolygon (fun poly => Polygon.intersectsLine poly l) p.f

/-- src/Geometry/Polyhedron.cpp:1135-1142 `Intersects(Ray)`. -/
def intersectsRay (p : Polyhedron ℝ) (r : Ray ℝ) : Option Bool := p.anyFacePolygon (fun poly => Polygon.intersectsRay poly r) p.f

end
end Polyhedron
end MGL
