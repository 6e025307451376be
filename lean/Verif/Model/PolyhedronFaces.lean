import Verif.Model.PolyhedronMerge
import Verif.Model.Polygon

/-! Model of the functions of class `Polyhedron` that check its faces (src/Geometry/Polyhedron.cpp), over the real numbers: the
normal of a face, convexity of the polyhedron and planarity of the faces. Reading a vertex out of range is `none`. The counter of
`IsConvex` is a natural number: its overflow, which needs more than `2^31` pairs of a vertex and a face, is not modelled. -/

namespace MGL
open V3
namespace Polyhedron

noncomputable section
open Classical

/-- src/Math/float4d.h:131-150 `Normalize4` on a vector with `w = 0`; `none` is the NaN vector (division by a zero length). -/
def normalizeD (v : V3 ℝ) : Option (V3 ℝ) := if f3Length v = 0 then none else some ((1 / f3Length v) • v)

/-- src/Geometry/Polyhedron.cpp:229-236 `PolyFaceNormal`, the loop over the corners (Newell's method); `i` is the previous corner. -/
def newellLoop : V3 ℝ → List (V3 ℝ) → V3 ℝ → V3 ℝ
  | _, [], acc => acc
  | i, j :: r, acc =>
    newellLoop j r ⟨acc.x + (i.y - j.y) * (i.z + j.z), acc.y + (i.z - j.z) * (i.x + j.x), acc.z + (i.x - j.x) * (i.y + j.y)⟩

/-- src/Geometry/Polyhedron.cpp:210-309 `PolyFaceNormal` and 311-315 `FaceNormal` on the corners of the face. The inner `none` is
a NaN vector. The conversions between `double` and `float` are not modelled. -/
def cornersNormal (l : List (V3 ℝ)) : Option (V3 ℝ) :=
  match l with
  | [] => none
  | [_] => some ⟨0, 1, 0⟩
  | [a, b] => some (f3Normalized (cross (b - a) (f3Perpendicular (a - b) - a)))
  | [a, b, c] => normalizeD (cross (b - a) (c - a))
  | a :: r => normalizeD (newellLoop (r.getLastD a) (a :: r) ⟨0, 0, 0⟩)

/-- src/Geometry/Polyhedron.cpp:311-315 `FaceNormal`: the outer `none` is a read out of range, the inner one a NaN vector. -/
def faceNormal (p : Polyhedron ℝ) (f : List ℤ) : Option (Option (V3 ℝ)) := do
  let l ← f.mapM p.vertex
  some (cornersNormal l)

/-- src/Geometry/Polyhedron.cpp:668-685 `IsConvex`, one round of the loop over the faces: the number of the vertices that count
as outside. No comparison with a NaN is true. -/
def outsideCount (p : Polyhedron ℝ) (f : List ℤ) : Option ℕ :=
  match f with
  | [] => some 0
  | a :: _ => do
    let o ← p.vertex a
    match ← p.faceNormal f with
    | none => some 0
    | some n => some (p.v.countP fun x => decide (dot n (x - o) > 1 / 100))

/-- src/Geometry/Polyhedron.cpp:653-693 `IsConvex`. -/
def isConvex (p : Polyhedron ℝ) : Option Bool := do
  let c ← p.f.mapM p.outsideCount
  some (!decide (c.sum > 0))

/-- src/Geometry/Polyhedron.cpp:702-717 `FacesAreNondegeneratePlanar`, the loop over the faces. -/
def planarLoop (p : Polyhedron ℝ) (epsilon : ℝ) : List (List ℤ) → Option Bool
  | [] => some true
  | f :: fs =>
    if f.length < 3 then some false
    else do
      let l ← f.mapM p.vertex
      if ¬ (Polygon.area l > 0) then some false
      else if f.length ≥ 4 then do
        let pl ← p.facePlane f
        if l.any (fun x => decide (pl.distance x > epsilon)) then some false else planarLoop p epsilon fs
      else planarLoop p epsilon fs

/-- src/Geometry/Polyhedron.cpp:700-720 `FacesAreNondegeneratePlanar`; the default `epsilon` is 1e-2 (Polyhedron.h). -/
def facesAreNondegeneratePlanar (p : Polyhedron ℝ) (epsilon : ℝ := 1 / 100) : Option Bool := planarLoop p epsilon p.f

/-- src/Geometry/Polyhedron.cpp:3150-3160 `TriangulateConvex`: the triangulations of the faces one after the other. -/
def triangulateConvex (p : Polyhedron ℝ) : Option (List (Tri ℝ)) := do
  let ts ← p.f.mapM fun f => do
    let l ← f.mapM p.vertex
    Polygon.triangulate l
  some ts.flatten

end
end Polyhedron
end MGL
