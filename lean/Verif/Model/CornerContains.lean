import Verif.Model.Frustum

/-! Model of the containment tests of spheres and oriented boxes that go through the corners of an oriented box or a frustum
(src/Geometry/Sphere.cpp, OBB.cpp). Exact arithmetic. -/

namespace MGL
open V3

/-- src/Geometry/Sphere.cpp:214-221 `Sphere::Contains(OBB)`. -/
def Sphere.containsOBB {α : Type*} [Field α] [LinearOrder α] (s : Sphere α) (b : OBB α) : Bool :=
  (List.finRange 8).all fun i => s.contains (b.cornerPoint i)

/-- src/Geometry/Sphere.cpp:223-230 `Sphere::Contains(Frustum)`. -/
noncomputable def Sphere.containsFrustum (s : Sphere ℝ) (f : Frustum) : Bool := (List.finRange 8).all fun i => s.contains (f.cornerPoint i)

/-- src/Geometry/OBB.cpp:2459-2466 `OBB::Contains(Frustum)`. -/
noncomputable def OBB.containsFrustum (o : OBB ℝ) (f : Frustum) : Bool := (List.finRange 8).all fun i => o.contains (f.cornerPoint i)

end MGL
