import Verif.Model.LCG
import Verif.Model.AABB
import Verif.Model.OBB
import Verif.Model.Sphere
import Verif.Model.Capsule
import Verif.Model.Triangle
import Verif.Model.Polygon
import Verif.Model.Frustum
import Verif.Model.Float3R

/-! Model of the functions that draw random points, directions and rotations. The generator is the bit-exact one of
`Verif/Model/LCG.lean`; each function takes the state of the generator and returns the drawn value and the new state. `none` is
undefined behaviour of the generator or an index outside the documented range. `rnd` is the rounding of the float operations inside
the generator; the geometry built from the drawn numbers is exact. -/

namespace MGL
open V3

namespace Random

/-- Three calls of `rng.Float()`, as in src/Geometry/AABB.cpp:416-418 and src/Geometry/OBB.cpp:2303-2305. -/
def float3 (g : LCG) : Option ((ℚ × ℚ × ℚ) × LCG) := do
  let (f1, g) ← g.float
  let (f2, g) ← g.float
  let (f3, g) ← g.float
  return ((f1, f2, f3), g)

/-- Three calls of `lcg.Float(a, b)`, as in src/Geometry/Sphere.cpp:943-945. -/
def range3 (rnd : ℚ → ℚ) (a b : ℚ) (g : LCG) : Option ((ℚ × ℚ × ℚ) × LCG) := do
  let (x, g) ← g.floatRange rnd a b
  let (y, g) ← g.floatRange rnd a b
  let (z, g) ← g.floatRange rnd a b
  return ((x, y, z), g)

/-- Three calls of `lcg.FloatNeg1_1()`, src/Geometry/Sphere.cpp:962-964. -/
def neg3 (g : LCG) : Option ((ℚ × ℚ × ℚ) × LCG) := do
  let (x, g) ← g.floatNeg1_1
  let (y, g) ← g.floatNeg1_1
  let (z, g) ← g.floatNeg1_1
  return ((x, y, z), g)

/-- An index drawn with `rng.Int(0, n)`, as in src/Geometry/AABB.cpp:424; `none` if it is out of range. -/
def index (rnd : ℚ → ℚ) (n : ℕ) (g : LCG) : Option (Fin (n + 1) × LCG) := do
  let (i, g) ← g.intRange rnd 0 n
  if h : i.toNat < n + 1 ∧ 0 ≤ i then return (⟨i.toNat, h.1⟩, g) else none

/-- The vector of the three numbers drawn (no source line: a conversion). -/
def vec (t : ℚ × ℚ × ℚ) : V3 ℝ := ⟨t.1, t.2.1, t.2.2⟩

end Random

noncomputable section
open Classical

namespace AABB

/-- src/Geometry/AABB.cpp:414-420 `RandomPointInside`. -/
def randomPointInside (b : AABB ℝ) (g : LCG) : Option (V3 ℝ × LCG) := do
  let ((f1, f2, f3), g) ← Random.float3 g
  return (b.pointInside f1 f2 f3, g)

/-- src/Geometry/AABB.cpp:422-428 `RandomPointOnSurface`. -/
def randomPointOnSurface (rnd : ℚ → ℚ) (b : AABB ℝ) (g : LCG) : Option (V3 ℝ × LCG) := do
  let (i, g) ← Random.index rnd 5 g
  let (f1, g) ← g.float
  let (f2, g) ← g.float
  return (b.facePoint i f1 f2, g)

/-- src/Geometry/AABB.cpp:430-435 `RandomPointOnEdge`. -/
def randomPointOnEdge (rnd : ℚ → ℚ) (b : AABB ℝ) (g : LCG) : Option (V3 ℝ × LCG) := do
  let (i, g) ← Random.index rnd 11 g
  let (f, g) ← g.float
  return (b.pointOnEdge i f, g)

/-- src/Geometry/AABB.cpp:437-440 `RandomCornerPoint`. -/
def randomCornerPoint (rnd : ℚ → ℚ) (b : AABB ℝ) (g : LCG) : Option (V3 ℝ × LCG) := do
  let (i, g) ← Random.index rnd 7 g
  return (b.cornerPoint i, g)

end AABB

namespace OBB

/-- src/Geometry/OBB.cpp:2301-2307 `RandomPointInside`. -/
def randomPointInside (o : OBB ℝ) (g : LCG) : Option (V3 ℝ × LCG) := do
  let ((f1, f2, f3), g) ← Random.float3 g
  return (o.pointInside f1 f2 f3, g)

/-- src/Geometry/OBB.cpp:2309-2315 `RandomPointOnSurface`. -/
def randomPointOnSurface (rnd : ℚ → ℚ) (o : OBB ℝ) (g : LCG) : Option (V3 ℝ × LCG) := do
  let (i, g) ← Random.index rnd 5 g
  let (f1, g) ← g.float
  let (f2, g) ← g.float
  return (o.facePoint i f1 f2, g)

/-- src/Geometry/OBB.cpp:2317-2322 `RandomPointOnEdge`. -/
def randomPointOnEdge (rnd : ℚ → ℚ) (o : OBB ℝ) (g : LCG) : Option (V3 ℝ × LCG) := do
  let (i, g) ← Random.index rnd 11 g
  let (f, g) ← g.float
  return (o.pointOnEdge i f, g)

/-- src/Geometry/OBB.cpp:2324-2327 `RandomCornerPoint`. -/
def randomCornerPoint (rnd : ℚ → ℚ) (o : OBB ℝ) (g : LCG) : Option (V3 ℝ × LCG) := do
  let (i, g) ← Random.index rnd 7 g
  return (o.cornerPoint i, g)

end OBB

namespace Sphere

/-- src/Geometry/Sphere.cpp:941-948, the loop of `RandomPointInside` with `left` tries remaining; the radius is a float, so a rational. -/
def randomInsideLoop (rnd : ℚ → ℚ) (pos : V3 ℝ) (r : ℚ) (g : LCG) : (left : ℕ) → Option (V3 ℝ × LCG)
  | 0 => some (pos, g)
  | left + 1 => do
    let (t, g) ← Random.range3 rnd (-r) r g
    let v := Random.vec t
    if lenSq v ≤ (r : ℝ) * r then some (pos + v, g) else randomInsideLoop rnd pos r g left

/-- src/Geometry/Sphere.cpp:935-953 `RandomPointInside`, and 976-979; src/Math/float3.cpp:876-879 `RandomSphere`. -/
def randomPointInside (rnd : ℚ → ℚ) (pos : V3 ℝ) (r : ℚ) (g : LCG) : Option (V3 ℝ × LCG) := randomInsideLoop rnd pos r g 1000

/-- src/Geometry/Sphere.cpp:960-968, the loop of `RandomPointOnSurface` with `left` tries remaining. -/
def randomSurfaceLoop (s : Sphere ℝ) (g : LCG) : (left : ℕ) → Option (V3 ℝ × LCG)
  | 0 => some (s.pos + ⟨s.r, 0, 0⟩, g)
  | left + 1 => do
    let (t, g) ← Random.neg3 g
    let v := Random.vec t
    let l := lenSq v
    if l ≥ 1 / 1000000 ∧ l ≤ 1 then some (s.pos + (s.r / √l) • v, g) else randomSurfaceLoop s g left

/-- src/Geometry/Sphere.cpp:955-974 `RandomPointOnSurface`, and 981-984. -/
def randomPointOnSurface (s : Sphere ℝ) (g : LCG) : Option (V3 ℝ × LCG) := randomSurfaceLoop s g 1000

end Sphere

/-- src/Math/float3.cpp:871-874 `RandomDir`. -/
def f3RandomDir (length : ℝ) (g : LCG) : Option (V3 ℝ × LCG) := Sphere.randomPointOnSurface ⟨0, length⟩ g

/-- src/Math/float3.cpp:891-894 `RandomBox(minValues, maxValues)`; 881-889 pass their arguments on. -/
def f3RandomBox (mn mx : V3 ℝ) (g : LCG) : Option (V3 ℝ × LCG) := AABB.randomPointInside ⟨mn, mx⟩ g

/-- src/Math/float3.cpp:610-613 `RandomPerpendicular`; the default length of `RandomDir` is 1 (src/Math/float3.h). -/
def f3RandomPerpendicular (v : V3 ℝ) (g : LCG) : Option (V3 ℝ × LCG) := do
  let (d, g) ← f3RandomDir 1 g
  return (f3Perpendicular v d, g)

namespace Quat

/-- src/Math/Quat.cpp:708-717, the loop of `RandomRotation` with `left` tries remaining. -/
def randomRotationLoop (rnd : ℚ → ℚ) (g : LCG) : (left : ℕ) → Option (Quat ℝ × LCG)
  | 0 => some (⟨0, 0, 0, 1⟩, g)
  | left + 1 => do
    let (x, g) ← g.floatRange rnd (-1) 1
    let (y, g) ← g.floatRange rnd (-1) 1
    let (z, g) ← g.floatRange rnd (-1) 1
    let (w, g) ← g.floatRange rnd (-1) 1
    let l : ℝ := (x : ℝ) * x + (y : ℝ) * y + (z : ℝ) * z + (w : ℝ) * w
    if l ≥ 1 / 1000000 ∧ l ≤ 1 then some (smul ⟨x, y, z, w⟩ (1 / √l), g) else randomRotationLoop rnd g left

/-- src/Math/Quat.cpp:705-720 `RandomRotation`. -/
def randomRotation (rnd : ℚ → ℚ) (g : LCG) : Option (Quat ℝ × LCG) := randomRotationLoop rnd g 1000

end Quat

/-- src/Math/float3x3.cpp:135-140 `RandomRotation`; src/Math/float3x4.cpp:175-178 extends it by a zero translation. -/
def Mat3.randomRotation (rnd : ℚ → ℚ) (g : LCG) : Option (Mat3 ℝ × LCG) := do
  let (q, g) ← Quat.randomRotation rnd g
  return (Quat.toFloat3x3 q, g)

/-- `n` calls of `lcg.Float(a, b)`, the loops of `RandomGeneral` (src/Math/float3x3.cpp:145-147). -/
def Random.ranges (rnd : ℚ → ℚ) (a b : ℚ) : ℕ → LCG → Option (List ℚ × LCG)
  | 0, g => some ([], g)
  | n + 1, g => do
    let (x, g) ← g.floatRange rnd a b
    let (l, g) ← Random.ranges rnd a b n g
    return (x :: l, g)

/-- src/Math/float3x3.cpp:142-149, src/Math/float3x4.cpp:166-173 and src/Math/float4x4.cpp:219-228 `RandomGeneral`: a matrix with `rows`
rows and `cols` columns, filled row by row. -/
def Random.general (rows cols : ℕ) (rnd : ℚ → ℚ) (a b : ℚ) (g : LCG) : Option ((Fin rows → Fin cols → ℚ) × LCG) := do
  let (l, g) ← Random.ranges rnd a b (rows * cols) g
  return (fun y x => l.getD (y.val * cols + x.val) 0, g)

namespace Capsule

/-- src/Geometry/Capsule.cpp:219-224, the loop of `RandomPointInside` with `left` tries remaining. -/
def randomInsideLoop (o : OBB ℝ) (c : Capsule ℝ) (g : LCG) : (left : ℕ) → Option (V3 ℝ × LCG)
  | 0 => some (c.center, g)
  | left + 1 => do
    let (p, g) ← o.randomPointInside g
    if c.contains p then some (p, g) else randomInsideLoop o c g left

/-- src/Geometry/Capsule.cpp:214-227 `RandomPointInside`. -/
def randomPointInside (nz : Bool) (c : Capsule ℝ) (g : LCG) : Option (V3 ℝ × LCG) :=
  randomInsideLoop (c.minimalEnclosingOBB nz) c g 1000

/-- src/Geometry/Capsule.cpp:229-234 `RandomPointOnSurface`. -/
def randomPointOnSurface (c : Capsule ℝ) (g : LCG) : Option (V3 ℝ × LCG) := do
  let (f1, g) ← g.float
  let (f2, g) ← g.float
  return (c.pointInside f1 f2 1, g)

end Capsule

namespace Tri

/-- The float constant `1e-3f`, src/Geometry/Triangle.cpp:1879. -/
def randomEps : ℚ := 8589935 / 2 ^ 33

/-- src/Geometry/Triangle.cpp:1877-1901 `RandomPointInside`; `1.f - epsilon` is rounded. -/
def drawPointInside (rnd : ℚ → ℚ) (t : Tri ℝ) (g : LCG) : Option (V3 ℝ × LCG) := do
  let (u, g) ← g.floatRange rnd randomEps (rnd (1 - randomEps))
  let (v, g) ← g.floatRange rnd randomEps (rnd (1 - randomEps))
  return (t.randomPointInside u v, g)

/-- src/Geometry/Triangle.cpp:1903-1906 `RandomVertex`. -/
def drawVertex (rnd : ℚ → ℚ) (t : Tri ℝ) (g : LCG) : Option (V3 ℝ × LCG) := do
  let (i, g) ← Random.index rnd 2 g
  return (t.randomVertex i, g)

end Tri

namespace Polygon

/-- src/Geometry/Polygon.cpp:896-899 `RandomPointOnEdge`. -/
def randomPointOnEdge (p : List (V3 ℝ)) (g : LCG) : Option (V3 ℝ × LCG) := do
  let (f, g) ← g.float
  let x ← pointOnEdge p f
  return (x, g)

/-- src/Geometry/Polygon.cpp:901-908 `FastRandomPointInside`; the point is `none` for NaN. -/
def fastRandomPointInside (rnd : ℚ → ℚ) (p : List (V3 ℝ)) (g : LCG) : Option (Option (V3 ℝ) × LCG) := do
  let ts ← triangulate p
  if ts = [] then return (none, g)
  else do
    let (i, g) ← g.intRange rnd 0 (ts.length - 1)
    let t ← ts[i.toNat]?
    let (x, g) ← t.drawPointInside rnd g
    return (some x, g)

end Polygon

namespace Frustum

/-- src/Geometry/Frustum.cpp:709-715 `FastRandomPointInside`. -/
def fastRandomPointInside (rnd : ℚ → ℚ) (f : Frustum) (g : LCG) : Option (V3 ℝ × LCG) := do
  let (f1, g) ← g.floatRange rnd (-1) 1
  let (f2, g) ← g.floatRange rnd (-1) 1
  let (f3, g) ← g.floatRange rnd 0 1
  return (f.pointInside f1 f2 f3, g)

/-- src/Geometry/Frustum.cpp:724-731, the loop of `UniformRandomPointInside` with `left` tries remaining. -/
def uniformLoop (rnd : ℚ → ℚ) (contains : V3 ℝ → Bool) (o : OBB ℝ) (f : Frustum) (g : LCG) : (left : ℕ) → Option (V3 ℝ × LCG)
  | 0 => f.fastRandomPointInside rnd g
  | left + 1 => do
    let (p, g) ← o.randomPointInside g
    if contains p then some (p, g) else uniformLoop rnd contains o f g left

/-- src/Geometry/Frustum.cpp:717-733 `UniformRandomPointInside`; `contains` is `Contains(point)` of the same frustum, and the default
guard band of `MinimalEnclosingOBB` is 1e-5 (src/Geometry/Frustum.h). -/
def uniformRandomPointInside (rnd : ℚ → ℚ) (contains : V3 ℝ → Bool) (f : Frustum) (g : LCG) : Option (V3 ℝ × LCG) :=
  if f.type = .orthographic then f.fastRandomPointInside rnd g
  else uniformLoop rnd contains (f.minimalEnclosingOBB (1 / 100000)) f g 1000

end Frustum

end

end MGL
