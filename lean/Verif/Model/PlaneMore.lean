import Verif.Model.Polygon

/-! Model of the projections of lines, rays and polygons to a plane, of the containment of a polygon in a plane, of the projection of a ray to an
axis and of the equality of lines (src/Geometry/Plane.cpp, Ray.cpp, Line.cpp). Exact arithmetic. -/

namespace MGL
open V3

section Field
variable {α : Type*} [Field α] [LinearOrder α]

/-- src/Geometry/Ray.cpp:352-362 `Ray::ProjectToAxis`: `outMin` and `outMax`; the second threshold is `-1e4f`. -/
def Ray.projectToAxis (r : Ray α) (dir : V3 α) : Ext α × Ext α :=
  let p := dot dir r.pos
  let d := dot dir r.dir
  if d > 1 / 10000 then (Ext.of p, ⊤)
  else if d < -10000 then (⊥, Ext.of p)
  else (Ext.of p, Ext.of p)

/-- src/Geometry/Line.cpp:147-154 `Line::Equals`; default epsilon `1e-3f` (Line.h). -/
def Line.equals (l m : Line α) (e : α := 1 / 1000) : Bool := l.contains m.pos e && equalAbs (absF (dot l.dir m.dir)) 1 e

/-- src/Geometry/Plane.cpp:350-357 `Project(Polygon)`. -/
def Plane.projectPolygon (p : Plane α) (q : List (V3 α)) : List (V3 α) := q.map p.project

end Field

namespace Plane
noncomputable section

/-- src/Geometry/Plane.cpp:319-339 `Project(Line)` and `Project(Ray)`: the new position and direction and `nonDegenerate`. The direction of the
new line is read before anything is assigned to it: `junk` is what it happens to be, and the direction `_dir` of the given line is never read.
`ProjectToNorm` is src/Math/float3.cpp:644-648. -/
def projectLine (p : Plane ℝ) (pos _dir junk : V3 ℝ) : V3 ℝ × V3 ℝ × Bool :=
  let n := f3Normalize (junk - dot junk p.normal • p.normal)
  (p.project pos, n.1, @decide (n.2 > 0) (Classical.propDecidable _))

/-- src/Geometry/Plane.cpp:457-467 `Contains(Polygon, epsilon)`; default epsilon `1e-3f` (Plane.h). -/
def containsPolygon (p : Plane ℝ) (q : List (V3 ℝ)) (e : ℝ := 1 / 1000) : Option Bool :=
  match q with
  | [] => some false
  | [a] => some (p.contains a e)
  | [a, b] => some (p.contains a e && p.contains b e)
  | q => (Polygon.planeCCW q).map fun pl => p.setEquals pl e

end
end Plane
end MGL
