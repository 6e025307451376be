import Verif.Spec.Vec3
import Mathlib.Analysis.SpecialFunctions.Sqrt

/-! Euclidean length and distance over the reals. -/

namespace MGL
namespace V3

/-- Euclidean length. -/
noncomputable def len (a : V3 ℝ) : ℝ := Real.sqrt (lenSq a)

/-- Euclidean distance. -/
noncomputable def dist (a b : V3 ℝ) : ℝ := Real.sqrt (distSq a b)

end V3

namespace Spec
open V3

/-- `d` is the distance of the two sets, attained by a pair of points. -/
def IsSetDist (S T : Set (V3 ℝ)) (d : ℝ) : Prop :=
  (∀ s ∈ S, ∀ t ∈ T, d ≤ V3.dist s t) ∧ ∃ s ∈ S, ∃ t ∈ T, V3.dist s t = d

/-- What `SignedDistance(object)` promises: its absolute value is the distance of the object and the plane,
it is positive iff the object lies strictly in front of the plane, negative iff strictly behind. -/
def IsSignedDist (S : Set (V3 ℝ)) (n : V3 ℝ) (d x : ℝ) : Prop :=
  IsSetDist S (plane n d) |x| ∧ (0 < x ↔ ∀ s ∈ S, d < dot n s) ∧ (x < 0 ↔ ∀ s ∈ S, dot n s < d)

end Spec
end MGL
