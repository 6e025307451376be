import Verif.Model.Sphere
import Verif.Model.TriDef
import Verif.Model.Float3R

/-! Triangulation of spheres: src/Geometry/Sphere.cpp. -/

namespace MGL
open V3
noncomputable section
namespace Sphere

/-- The eight triangles of src/Geometry/Sphere.cpp:862-890, the start of the subdivision. -/
def diamond (r : ℝ) (ccwIsFrontFacing : Bool) : List (Tri ℝ) :=
  let xp : V3 ℝ := ⟨r, 0, 0⟩
  let xn : V3 ℝ := ⟨-r, 0, 0⟩
  let yp : V3 ℝ := ⟨0, r, 0⟩
  let yn : V3 ℝ := ⟨0, -r, 0⟩
  let zp : V3 ℝ := ⟨0, 0, r⟩
  let zn : V3 ℝ := ⟨0, 0, -r⟩
  if ccwIsFrontFacing then
    [⟨yp, xp, zp⟩, ⟨xp, yp, zn⟩, ⟨yn, zp, xp⟩, ⟨yn, xp, zn⟩, ⟨zp, xn, yp⟩, ⟨yp, xn, zn⟩, ⟨yn, xn, zp⟩, ⟨xn, yn, zn⟩]
  else
    [⟨yp, zp, xp⟩, ⟨xp, zn, yp⟩, ⟨yn, xp, zp⟩, ⟨yn, zn, xp⟩, ⟨zp, yp, xn⟩, ⟨yp, zn, xn⟩, ⟨yn, zp, xn⟩, ⟨xn, zn, yn⟩]

/-- src/Geometry/Sphere.cpp:895-904, the four triangles that replace one: the midpoints of the edges, moved out to the sphere. -/
def subdivide (r : ℝ) (cur : Tri ℝ) : List (Tri ℝ) :=
  let a := scaledToLength ((1 / 2 : ℝ) • (cur.a + cur.b)) r
  let b := scaledToLength ((1 / 2 : ℝ) • (cur.a + cur.c)) r
  let c := scaledToLength ((1 / 2 : ℝ) • (cur.b + cur.c)) r
  [⟨cur.a, a, b⟩, ⟨cur.b, c, a⟩, ⟨cur.c, b, c⟩, ⟨a, c, b⟩]

/-- The loop src/Geometry/Sphere.cpp:892-907. The list is the part of `temp` from `oldEnd` on; what lies before is not used again. It is
never empty, as each round takes one triangle and adds four. -/
def subdivideLoop (r : ℝ) (numVertices : ℤ) (q : List (Tri ℝ)) : List (Tri ℝ) :=
  match q with
  | [] => []
  | t :: rest =>
    if h : (((t :: rest).length : ℤ) + 3) * 3 ≤ numVertices then subdivideLoop r numVertices (rest ++ subdivide r t) else t :: rest
termination_by (numVertices - 3 * q.length).toNat
decreasing_by
  simp only [List.length_cons, List.length_append, subdivide, List.length_nil] at *
  push_cast at *
  omega

/-- The triangles that src/Geometry/Sphere.cpp:844-933 `Triangulate` outputs, relative to the centre of the sphere. -/
def triangles (s : Sphere ℝ) (numVertices : ℤ) (ccwIsFrontFacing : Bool) : List (Tri ℝ) :=
  if numVertices < 24 then [] else subdivideLoop s.r numVertices (diamond s.r ccwIsFrontFacing)

/-- src/Geometry/Sphere.cpp:844-933 `Triangulate`, the entries written to `outPos` (911-916); their number is the returned value. -/
def triangulatePos (s : Sphere ℝ) (numVertices : ℤ) (ccwIsFrontFacing : Bool) : List (V3 ℝ) :=
  (s.triangles numVertices ccwIsFrontFacing).flatMap fun t => [s.pos + t.a, s.pos + t.b, s.pos + t.c]

/-- src/Geometry/Sphere.cpp:918-924, the entries written to `outNormal`. The texture coordinates are not modelled. -/
def triangulateNormal (s : Sphere ℝ) (numVertices : ℤ) (ccwIsFrontFacing : Bool) : List (V3 ℝ) :=
  (s.triangles numVertices ccwIsFrontFacing).flatMap fun t => [f3Normalized t.a, f3Normalized t.b, f3Normalized t.c]

end Sphere
end
end MGL
