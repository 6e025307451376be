import Verif.Model.Circle
import Verif.Model.OBB

/-! Circles against the faces of oriented boxes: src/Geometry/Circle.cpp. -/

namespace MGL
open V3
noncomputable section
namespace Circle

/-- src/Geometry/Circle.cpp:238-252 `IntersectsFaces(OBB)`: the points of all faces, in order. -/
def intersectsFaces (c : Circle ℝ) (o : OBB ℝ) : List (V3 ℝ) :=
  (List.finRange 6).flatMap fun i => ((o.facePlane i).intersectsCircle c).filter fun x => o.contains x

/-- src/Geometry/Circle.cpp:233-236 `IntersectsFaces(AABB)`, through `AABB::ToOBB`, src/Geometry/AABB.cpp:150-153. -/
def intersectsFacesAABB (c : Circle ℝ) (b : AABB ℝ) : List (V3 ℝ) := c.intersectsFaces (OBB.ofAABB b)

end Circle
end
end MGL
