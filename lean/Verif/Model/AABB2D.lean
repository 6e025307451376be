import Verif.Spec.Vec2
import Verif.Model.Scalar

/-! Model of the part of class `AABB2D` (src/Geometry/AABB2D.h) that the quad tree uses. -/

namespace MGL
namespace Rect
variable {α : Type*} [LinearOrder α]

/-- src/Geometry/AABB2D.h:71-77 `Intersects`. -/
def intersects (a b : Rect α) : Bool :=
  decide (a.maxPoint.x ≥ b.minPoint.x) && decide (a.maxPoint.y ≥ b.minPoint.y) &&
  decide (b.maxPoint.x ≥ a.minPoint.x) && decide (b.maxPoint.y ≥ a.minPoint.y)

/-- src/Geometry/AABB2D.h:79-83 `Contains(AABB2D)`. -/
def contains (a b : Rect α) : Bool :=
  decide (b.minPoint.x ≥ a.minPoint.x) && decide (b.minPoint.y ≥ a.minPoint.y) &&
  decide (b.maxPoint.x ≤ a.maxPoint.x) && decide (b.maxPoint.y ≤ a.maxPoint.y)

end Rect
end MGL
