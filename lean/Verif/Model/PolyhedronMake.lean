import Verif.Model.Polyhedron
import Verif.Model.Float3R
import Verif.Model.AABB
import Verif.Model.OBB
import Verif.Model.Frustum

/-! Model of the functions of src/Geometry that build polyhedra: from boxes, frusta and polygons, the five platonic solids and
the two kinds of capsule. Numbers are the reals (or an ordered field), so `angle += angleIncrement` gives exact multiples. -/

namespace MGL
open V3

namespace Polyhedron
variable {α : Type} [Field α]

/-- src/Geometry/AABB.cpp:123-131, the table `faces`; the same as in src/Geometry/OBB.cpp:194-202. -/
def boxFaces : List (List ℤ) := [[0, 1, 3, 2], [4, 6, 7, 5], [0, 4, 5, 1], [7, 6, 2, 3], [0, 2, 6, 4], [1, 5, 7, 3]]

/-- src/Geometry/AABB.cpp:113-148 `AABB::ToPolyhedron`. -/
def ofAABB (b : AABB α) : Polyhedron α := ⟨(List.finRange 8).map b.cornerPoint, boxFaces⟩

/-- src/Geometry/OBB.cpp:183-213 `OBB::ToPolyhedron`. -/
def ofOBB (o : OBB α) : Polyhedron α := ⟨(List.finRange 8).map o.cornerPoint, boxFaces⟩

/-- src/Geometry/Frustum.cpp:1000-1008, the table `faces`. -/
def frustumFaces : List (List ℤ) := [[0, 4, 6, 2], [1, 3, 7, 5], [0, 2, 3, 1], [4, 5, 7, 6], [7, 3, 2, 6], [0, 1, 5, 4]]

/-- src/Geometry/Frustum.cpp:988-1027 `Frustum::ToPolyhedron`. -/
noncomputable def ofFrustum (f : Frustum) : Polyhedron ℝ :=
  ⟨(List.finRange 8).map f.cornerPoint, frustumFaces.map fun face => if f.hand = .left then face.reverse else face⟩

/-- src/Geometry/Polygon.cpp:910-922 `Polygon::ToPolyhedron`. -/
def ofPolygon (p : List (V3 α)) : Polyhedron α :=
  ⟨p, [(List.range p.length).map fun (i : ℕ) => (i : ℤ), (List.range p.length).map fun (i : ℕ) => (p.length : ℤ) - 1 - i]⟩

/-- src/Geometry/Polyhedron.cpp:2290-2311: scale and move the vertices, copy the faces, flip them if clockwise faces are wanted
(the same lines in the other solids). -/
def solid (vertices : List (V3 α)) (faces : List (List ℤ)) (centerPos : V3 α) (scale : α) (ccwIsFrontFacing : Bool) : Polyhedron α :=
  let p : Polyhedron α := ⟨vertices.map fun u => scale • u + centerPos, faces⟩
  if ccwIsFrontFacing then p else p.flipWindingOrder

/-- src/Geometry/Polyhedron.cpp:2282-2285. -/
def tetraVertices : List (V3 α) := [⟨1, 1, 1⟩, ⟨-1, 1, -1⟩, ⟨1, -1, -1⟩, ⟨-1, -1, 1⟩]

/-- src/Geometry/Polyhedron.cpp:2286-2289. -/
def tetraFaces : List (List ℤ) := [[0, 1, 2], [1, 3, 2], [0, 2, 3], [0, 3, 1]]

/-- src/Geometry/Polyhedron.cpp:2280-2313 `Tetrahedron`. -/
def tetrahedron (centerPos : V3 α) (scale : α) (ccwIsFrontFacing : Bool) : Polyhedron α :=
  solid tetraVertices tetraFaces centerPos (scale / 2) ccwIsFrontFacing

/-- src/Geometry/Polyhedron.cpp:2318-2326. -/
noncomputable def octaVertices : List (V3 ℝ) :=
  let a := 1 / (2 * Real.sqrt 2)
  let b := 1 / 2
  [⟨-a, 0, a⟩, ⟨-a, 0, -a⟩, ⟨0, b, 0⟩, ⟨a, 0, -a⟩, ⟨0, -b, 0⟩, ⟨a, 0, a⟩]

/-- src/Geometry/Polyhedron.cpp:2327-2334. -/
def octaFaces : List (List ℤ) := [[0, 1, 2], [1, 3, 2], [3, 5, 2], [5, 0, 2], [3, 1, 4], [1, 0, 4], [5, 3, 4], [0, 5, 4]]

/-- src/Geometry/Polyhedron.cpp:2316-2358 `Octahedron`. -/
noncomputable def octahedron (centerPos : V3 ℝ) (scale : ℝ) (ccwIsFrontFacing : Bool) : Polyhedron ℝ :=
  solid octaVertices octaFaces centerPos (scale / 2) ccwIsFrontFacing

/-- src/Geometry/Polyhedron.cpp:2361-2376 `Hexahedron`: here the faces are flipped if counterclockwise ones are wanted. -/
def hexahedron (centerPos : V3 α) (scale : α) (ccwIsFrontFacing : Bool) : Polyhedron α :=
  let aabb : AABB α := ⟨⟨-1, -1, -1⟩, ⟨1, 1, 1⟩⟩
  let aabb := (aabb.scale ⟨0, 0, 0⟩ (scale * (1 / 2))).translate centerPos
  let p := ofAABB aabb
  if ccwIsFrontFacing then p.flipWindingOrder else p

/-- src/Geometry/Polyhedron.cpp:2382 and 2430: the golden ratio. -/
noncomputable def phi : ℝ := (1 + Real.sqrt 5) * (1 / 2)

/-- src/Geometry/Polyhedron.cpp:2381-2396. -/
noncomputable def icosaVertices : List (V3 ℝ) :=
  let a := 1 / 2
  let b := 1 / (2 * phi)
  [⟨0, b, -a⟩, ⟨b, a, 0⟩, ⟨-b, a, 0⟩, ⟨0, b, a⟩, ⟨0, -b, a⟩, ⟨-a, 0, b⟩, ⟨a, 0, b⟩, ⟨0, -b, -a⟩, ⟨-a, 0, -b⟩, ⟨-b, -a, 0⟩,
   ⟨b, -a, 0⟩, ⟨a, 0, -b⟩]

/-- src/Geometry/Polyhedron.cpp:2397-2416. -/
def icosaFaces : List (List ℤ) :=
  [[0, 1, 2], [3, 2, 1], [3, 4, 5], [3, 6, 4], [0, 7, 11], [0, 8, 7], [4, 10, 9], [7, 9, 10], [2, 5, 8], [9, 8, 5], [1, 11, 6],
   [10, 6, 11], [3, 5, 2], [3, 1, 6], [0, 2, 8], [0, 11, 1], [7, 8, 9], [7, 10, 11], [4, 9, 5], [4, 6, 10]]

/-- src/Geometry/Polyhedron.cpp:2379-2439 `Icosahedron`. The scale is not halved here. -/
noncomputable def icosahedron (centerPos : V3 ℝ) (scale : ℝ) (ccwIsFrontFacing : Bool) : Polyhedron ℝ :=
  solid icosaVertices icosaFaces centerPos scale ccwIsFrontFacing

/-- src/Geometry/Polyhedron.cpp:2430-2453. -/
noncomputable def dodecaVertices : List (V3 ℝ) :=
  let b := 1 / phi
  let c := 2 - phi
  [⟨c, 0, 1⟩, ⟨-c, 0, 1⟩, ⟨-b, b, b⟩, ⟨0, 1, c⟩, ⟨b, b, b⟩, ⟨b, -b, b⟩, ⟨0, -1, c⟩, ⟨-b, -b, b⟩, ⟨0, -1, -c⟩, ⟨b, -b, -b⟩,
   ⟨-c, 0, -1⟩, ⟨c, 0, -1⟩, ⟨-b, -b, -b⟩, ⟨b, b, -b⟩, ⟨0, 1, -c⟩, ⟨-b, b, -b⟩, ⟨1, c, 0⟩, ⟨-1, c, 0⟩, ⟨-1, -c, 0⟩, ⟨1, -c, 0⟩]

/-- src/Geometry/Polyhedron.cpp:2455-2466. -/
def dodecaFaces : List (List ℤ) :=
  [[0, 1, 2, 3, 4], [1, 0, 5, 6, 7], [11, 10, 12, 8, 9], [10, 11, 13, 14, 15], [13, 16, 4, 3, 14], [2, 17, 15, 14, 3],
   [12, 18, 7, 6, 8], [5, 19, 9, 8, 6], [16, 19, 5, 0, 4], [19, 16, 13, 11, 9], [17, 18, 12, 10, 15], [18, 17, 2, 1, 7]]

/-- src/Geometry/Polyhedron.cpp:2442-2504 `Dodecahedron`. -/
noncomputable def dodecahedron (centerPos : V3 ℝ) (scale : ℝ) (ccwIsFrontFacing : Bool) : Polyhedron ℝ :=
  solid dodecaVertices dodecaFaces centerPos (scale / 2) ccwIsFrontFacing

/-- src/Geometry/Polyhedron.cpp:2510-2516 and 2556-2562: the directions across the capsule. -/
noncomputable def capsuleBasis (nz : Bool) (dir : V3 ℝ) (ccwIsFrontFacing : Bool) : V3 ℝ × V3 ℝ :=
  let u := (f3PerpendicularBasis nz dir).1
  let v := (f3PerpendicularBasis nz dir).2
  let u := if dot (cross u v) dir < 0 then -u else u
  let u := if !ccwIsFrontFacing then -u else u
  (u, v)

/-- src/Geometry/Polyhedron.cpp:2520-2524 (and 2528-2532, 2565-2570): the points of a cap. -/
noncomputable def capsuleRing (center u v : V3 ℝ) (r : ℝ) (n : ℕ) : List (V3 ℝ) :=
  (List.range n).map fun i : ℕ =>
    let angle := (i : ℝ) * (Real.pi * 2 / n)
    center + (Real.cos angle * r) • u + (Real.sin angle * r) • v

/-- src/Geometry/Polyhedron.cpp:2535-2543 (and 2596-2604): the sides between the caps. -/
def capsuleSides (n : ℕ) : List (List ℤ) :=
  (List.range n).map fun i : ℕ => [((i + 1) % n : ℕ), (i : ℤ), ((n + i : ℕ) : ℤ), ((n + (i + 1) % n : ℕ) : ℤ)]

/-- src/Geometry/Polyhedron.cpp:2506-2550 `CreateCapsule`, for `verticesPerCap` at least 0. -/
noncomputable def createCapsule (nz : Bool) (a b : V3 ℝ) (r : ℝ) (n : ℕ) (ccwIsFrontFacing : Bool) : Polyhedron ℝ :=
  let basis := capsuleBasis nz (f3Normalized (b - a)) ccwIsFrontFacing
  ⟨capsuleRing b basis.1 basis.2 r n ++ capsuleRing a basis.1 basis.2 r n,
   [(List.range n).map fun i : ℕ => (i : ℤ), (List.range n).map fun i : ℕ => (2 * n : ℤ) - 1 - i] ++ capsuleSides n⟩

/-- src/Geometry/Polyhedron.cpp:2580-2604: the faces of `CreateSharpCapsule`; there are `2 n + 2` vertices. -/
def sharpCapsuleFaces (n : ℕ) : List (List ℤ) :=
  ((List.range n).map fun i : ℕ => [(i : ℤ), ((i + 1) % n : ℕ), ((2 * n : ℕ) : ℤ)]) ++
  ((List.range n).map fun i : ℕ => [((n + (i + 1) % n : ℕ) : ℤ), ((n + i : ℕ) : ℤ), ((2 * n + 1 : ℕ) : ℤ)]) ++ capsuleSides n

/-- src/Geometry/Polyhedron.cpp:2552-2606 `CreateSharpCapsule`. -/
noncomputable def createSharpCapsule (nz : Bool) (a b : V3 ℝ) (r capPointDistance : ℝ) (n : ℕ) (ccwIsFrontFacing : Bool) : Polyhedron ℝ :=
  let dir := f3Normalized (b - a)
  let basis := capsuleBasis nz dir ccwIsFrontFacing
  ⟨capsuleRing b basis.1 basis.2 r n ++ capsuleRing a basis.1 basis.2 r n ++ [b + capPointDistance • dir, a - capPointDistance • dir],
   sharpCapsuleFaces n⟩

end Polyhedron
end MGL
