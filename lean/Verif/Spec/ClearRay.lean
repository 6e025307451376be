import Verif.Spec.ConvexSurface
import Verif.Spec.Polygon

/-! Rays that stay away from the edges of the faces of a polyhedron. Nothing here mentions the model. -/

namespace MGL.Spec
open V3

/-- The point `q` in the plane of a convex polygon is not near its border: either the disc of some radius above `2e-4` around `q`
belongs to the polygon, or every point of the polygon is more than `2e-4` away from `q`. -/
def ClearOfBorder (poly : List (V3 ℝ)) (q : V3 ℝ) : Prop :=
  (∃ r : ℝ, 2 / 10000 < r ∧ ∀ y, dot (cornerNormal poly) (y - q) = 0 → V3.dist q y ≤ r → y ∈ hull3 poly) ∨
    ∀ y ∈ hull3 poly, 2 / 10000 < V3.dist q y

/-- Wherever the ray from `x` with the direction `w` passes the plane of a face, it is not near the border of the face. -/
def ClearRay (V : List (V3 ℝ)) (fs : List (List ℤ)) (x w : V3 ℝ) : Prop :=
  ∀ f ∈ fs, ∀ t : ℝ, 0 ≤ t → (∀ a ∈ f, dot (cornerNormal (f.map (corner V))) (x + t • w - corner V a) = 0) →
    ClearOfBorder (f.map (corner V)) (x + t • w)

/-- A multiple of the sum of the first three corners of a polygon. -/
def cornerSum (k : ℝ) : List (V3 ℝ) → V3 ℝ
  | a :: b :: c :: _ => k • (a + b + c)
  | _ => 0

/-- No two faces lie in one plane. -/
def NoTwoCoplanar (V : List (V3 ℝ)) (fs : List (List ℤ)) : Prop :=
  ∀ (i j : ℕ) (hi : i < fs.length) (hj : j < fs.length), i ≠ j →
    ∃ c ∈ fs[j], ∀ a ∈ fs[i], dot (cornerNormal (fs[i].map (corner V))) (corner V c - corner V a) ≠ 0

/-- A point off the planes of the faces by more than `1e-3`, nearer than `1e4` to all vertices, such that the rays from it towards `k`
times the sum of the first three corners of each face stay away from the borders of the faces. -/
structure ClearPoint (k : ℝ) (V : List (V3 ℝ)) (fs : List (List ℤ)) (x : V3 ℝ) : Prop where
  off : ∀ f ∈ fs, ∀ a ∈ f, 1 / 1000 * len (cornerNormal (f.map (corner V))) < |dot (cornerNormal (f.map (corner V))) (x - corner V a)|
  near : ∀ v ∈ V, V3.dist x v < 10000
  ray : ∀ f ∈ fs, ∃ w, w = cornerSum k (f.map (corner V)) - x ∧ 1 / 1000000 < len w ∧ ClearRay V fs x w

end MGL.Spec
