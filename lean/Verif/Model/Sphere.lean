import Verif.Model.Plane

/-! Model of class `Sphere` (src/Geometry/Sphere.cpp), scalar path, exact arithmetic. -/

namespace MGL
open V3
variable {α : Type*}

/-- src/Geometry/Circle.h `Circle`: centre, normal and radius. -/
structure Circle (α : Type*) where
  pos : V3 α
  normal : V3 α
  r : α

namespace Sphere

section Field
variable [Field α] [LinearOrder α]

/-- src/Geometry/Sphere.cpp:76-79 `Translate`. -/
def translate (s : Sphere α) (o : V3 α) : Sphere α := ⟨s.pos + o, s.r⟩

/-- src/Geometry/Sphere.cpp:103-106 `Transform(Quat)`. -/
def transformQuat (s : Sphere α) (q : Quat α) : Sphere α := ⟨Quat.transform q s.pos, s.r⟩

/-- src/Geometry/Sphere.cpp:154-159 `ProjectToAxis`. -/
def projectToAxis (s : Sphere α) (dir : V3 α) : α × α := (dot dir s.pos - s.r, dot dir s.pos + s.r)

/-- src/Geometry/Sphere.cpp:177-180 `Contains(point)`. -/
def contains (s : Sphere α) (p : V3 α) : Bool := decide (distSq s.pos p ≤ s.r * s.r)

/-- src/Geometry/Sphere.cpp:182-185 `Contains(point, epsilon)`. -/
def containsEps (s : Sphere α) (p : V3 α) (eps : α) : Bool := decide (distSq s.pos p ≤ s.r * s.r + eps)

/-- src/Geometry/Sphere.cpp:187-190 `Contains(LineSegment)`. -/
def containsSeg (s : Sphere α) (l : LineSeg α) : Bool := s.contains l.a && s.contains l.b

/-- src/Geometry/Sphere.cpp:192-195 `Contains(Triangle)`. -/
def containsTri (s : Sphere α) (t : Tri α) : Bool := s.contains t.a && s.contains t.b && s.contains t.c

/-- src/Geometry/Sphere.cpp:197-203, 232-240: `Contains(Polygon)` and `Contains(Polyhedron)`, given the list of
vertices. -/
def containsVertices (s : Sphere α) (vs : List (V3 α)) : Bool := vs.all s.contains

/-- src/Geometry/Sphere.cpp:205-212 `Contains(AABB)`. -/
def containsAABB (s : Sphere α) (b : AABB α) : Bool := (List.finRange 8).all fun i => s.contains (b.cornerPoint i)

/-- src/Geometry/Sphere.cpp:458-461 `Intersects(Sphere)`. -/
def intersectsSphere (s o : Sphere α) : Bool := decide (lenSq (s.pos - o.pos) ≤ (s.r + o.r) * (s.r + o.r))

end Field

/-! Functions with square roots. -/

/-- src/Geometry/Sphere.cpp:81-86 `Transform(float3x3)`. -/
noncomputable def transform3 (s : Sphere ℝ) (m : Mat3 ℝ) : Sphere ℝ := ⟨Mat3.mulVec m s.pos, s.r * V3.len (Mat3.col m 0)⟩

/-- src/Geometry/Sphere.cpp:88-93 `Transform(float3x4)`. -/
noncomputable def transform34 (s : Sphere ℝ) (m : Mat34 ℝ) : Sphere ℝ := ⟨Mat34.mulPos m s.pos, s.r * V3.len ⟨m 0 0, m 1 0, m 2 0⟩⟩

/-- src/Geometry/Sphere.cpp:95-101 `Transform(float4x4)`. -/
noncomputable def transform4 (s : Sphere ℝ) (m : Mat4 ℝ) : Sphere ℝ := ⟨Mat4.mulPos m s.pos, s.r * V3.len ⟨m 0 0, m 1 0, m 2 0⟩⟩

/-- src/Geometry/Sphere.cpp:108-113 `MinimalEnclosingAABB`. -/
noncomputable def minimalEnclosingAABB (s : Sphere ℝ) : AABB ℝ := AABB.ofSphere s

/-- src/Geometry/Sphere.cpp:115-122 `MaximalContainedAABB`. -/
noncomputable def maximalContainedAABB (s : Sphere ℝ) : AABB ℝ :=
  let h := s.r * (1 / Real.sqrt 3)
  AABB.ofCenterAndSize s.pos ⟨h, h, h⟩

/-- src/Geometry/Sphere.cpp:130-133 `Volume`. -/
noncomputable def volume (s : Sphere ℝ) : ℝ := 4 * Real.pi * s.r * s.r * s.r / 3

/-- src/Geometry/Sphere.cpp:135-138 `SurfaceArea`. -/
noncomputable def surfaceArea (s : Sphere ℝ) : ℝ := 4 * Real.pi * s.r * s.r

/-- src/Geometry/Sphere.cpp:140-145 `ExtremePoint`; the second form 147-152 also returns the dot product. -/
noncomputable def extremePoint (s : Sphere ℝ) (dir : V3 ℝ) : V3 ℝ := s.pos + (s.r / f3Length dir) • dir

/-- src/Geometry/Sphere.cpp:242-245 `Contains(Sphere)`. -/
noncomputable def containsSphere (s o : Sphere ℝ) : Bool := decide (V3.dist s.pos o.pos + o.r ≤ s.r)

/-- src/Geometry/Sphere.cpp:252-256 `Contains(Capsule)`, the capsule given by its segment and radius. -/
noncomputable def containsCapsule (s : Sphere ℝ) (l : LineSeg ℝ) (r : ℝ) : Bool :=
  decide (V3.dist s.pos l.a + r ≤ s.r) && decide (V3.dist s.pos l.b + r ≤ s.r)

/-- src/Geometry/Sphere.cpp:387-390 `Distance(point)`. -/
noncomputable def distance (s : Sphere ℝ) (p : V3 ℝ) : ℝ := max2 0 (V3.dist s.pos p - s.r)

/-- src/Geometry/Sphere.cpp:392-395 `Distance(Sphere)`. -/
noncomputable def distanceSphere (s o : Sphere ℝ) : ℝ := max2 0 (V3.dist s.pos o.pos - s.r - o.r)

/-- src/Geometry/Sphere.cpp:437-440 `MaxDistance`. -/
noncomputable def maxDistance (s : Sphere ℝ) (p : V3 ℝ) : ℝ := V3.dist p s.pos + s.r

/-- src/Geometry/Sphere.cpp:442-447 `ClosestPoint`; `none` when the division `t / d` has divisor zero (the point is
the centre). -/
noncomputable def closestPoint (s : Sphere ℝ) (p : V3 ℝ) : Option (V3 ℝ) :=
  let d := V3.dist s.pos p
  let t := if d ≥ s.r then s.r else d
  if d = 0 then none else some (s.pos + (t / d) • (p - s.pos))

/-- src/Geometry/Sphere.cpp:449-456 `Intersect(Plane)`; `none` when the square root of a negative number is taken. -/
noncomputable def intersectPlane (s : Sphere ℝ) (p : Plane ℝ) : Option (Circle ℝ) :=
  let c := p.project s.pos
  if s.r * s.r - distSq c s.pos < 0 then none
  else some ⟨c, p.normal, Real.sqrt (s.r * s.r - distSq c s.pos)⟩

/-- src/Geometry/Sphere.cpp:468-541 `IntersectLine`: the number of solutions with `t1`, `t2`; `none` when it returns 0
(with `t1 = +inf`, `t2 = -inf`). -/
noncomputable def intersectLine (linePos lineDir center : V3 ℝ) (radius : ℝ) : Option (ℕ × ℝ × ℝ) :=
  let a := linePos - center
  let C := dot a a - radius * radius
  let B := 2 * dot a lineDir
  let D := B * B - 4 * C
  if D < 0 then none
  else if D < 1 / 10000 then some (1, -B * (1 / 2), -B * (1 / 2))
  else some (2, (-B - Real.sqrt D) * (1 / 2), (-B + Real.sqrt D) * (1 / 2))

/-- src/Geometry/Sphere.cpp:543-568 `Intersects(Ray, point, normal, d, d2)`: the return value with the hit point, the
normal, `d` and `d2`; `none` when 0 is returned. -/
noncomputable def intersectsRay (s : Sphere ℝ) (ray : Ray ℝ) : Option (ℕ × V3 ℝ × V3 ℝ × ℝ × ℝ) :=
  match intersectLine ray.pos ray.dir s.pos s.r with
  | none => none
  | some (n, t1, t2) =>
    let t1 := if t1 < 0 ∧ n = 2 then t2 else t1
    if t1 < 0 then none
    else
      let hit := ray.pos + t1 • ray.dir
      some (n, hit, f3Normalized (hit - s.pos), t1, t2)

/-- src/Geometry/Sphere.cpp:570-588 `Intersects(Line, ...)`. -/
noncomputable def intersectsLine (s : Sphere ℝ) (line : Line ℝ) : Option (ℕ × V3 ℝ × V3 ℝ × ℝ × ℝ) :=
  match intersectLine line.pos line.dir s.pos s.r with
  | none => none
  | some (n, t1, t2) =>
    let hit := line.pos + t1 • line.dir
    some (n, hit, f3Normalized (hit - s.pos), t1, t2)

/-- src/Geometry/Sphere.cpp:590-612 `Intersects(LineSegment, ...)`. -/
noncomputable def intersectsSeg (s : Sphere ℝ) (l : LineSeg ℝ) : Option (ℕ × V3 ℝ × V3 ℝ × ℝ × ℝ) :=
  match intersectLine l.a l.dir s.pos s.r with
  | none => none
  | some (n, t1, t2) =>
    let len := l.length
    if t2 < 0 ∨ t1 > len then none
    else
      let hit := l.getPoint (t1 / len)
      some (n, hit, f3Normalized (hit - s.pos), t1 / len, t2 / len)

/-- src/Geometry/Sphere.cpp:649-671 `Enclose(point, epsilon)`; `none` when the division by `dist` has divisor zero. -/
noncomputable def enclose (s : Sphere ℝ) (p : V3 ℝ) (eps : ℝ := 1 / 10000) : Option (Sphere ℝ) :=
  let d := p - s.pos
  let dist2 := lenSq d
  if dist2 + eps > s.r * s.r then
    let dist := Real.sqrt dist2
    let half := (dist - s.r) * (1 / 2)
    if dist = 0 then none else some ⟨s.pos + (1 / dist) • half • d, s.r + (half + 1 / 10000)⟩
  else some s

/-- The loop of src/Geometry/Sphere.cpp:720-721 and 741-742: encloses the points one after the other. -/
noncomputable def encloseList (s : Sphere ℝ) : List (V3 ℝ) → Option (Sphere ℝ)
  | [] => some s
  | p :: ps => (s.enclose p).bind fun t => t.encloseList ps

/-- src/Geometry/Sphere.cpp:704-743 `Sphere_Enclose`, `Sphere_Enclose_pts` and the `Enclose` overloads for boxes,
triangles and vertex arrays (745-809). The points are sorted by their distance from the centre and enclosed from the
farthest to the nearest. `std::sort` may leave points of equal distance in any order; the model takes one of them. -/
noncomputable def enclosePoints (s : Sphere ℝ) (ps : List (V3 ℝ)) : Option (Sphere ℝ) :=
  s.encloseList (ps.mergeSort fun p q => decide (distSq s.pos q ≤ distSq s.pos p))

/-- src/Geometry/Sphere.cpp:771-783 `Enclose(LineSegment)`. -/
noncomputable def encloseSeg (s : Sphere ℝ) (l : LineSeg ℝ) : Option (Sphere ℝ) :=
  if distSq s.pos l.a > distSq s.pos l.b then s.encloseList [l.a, l.b] else s.encloseList [l.b, l.a]

/-- src/Math/float3.cpp:158-182 `ScaledToLength`. -/
noncomputable def scaledToLength (v : V3 ℝ) (newLength : ℝ) : V3 ℝ :=
  if lenSq v < 1 / 1000000 then ⟨newLength, 0, 0⟩ else (newLength / Real.sqrt (lenSq v)) • v

/-- src/Geometry/Sphere.cpp:759-769 `Enclose(Sphere)`. -/
noncomputable def encloseSphere (s o : Sphere ℝ) : Option (Sphere ℝ) :=
  let v := scaledToLength (o.pos - s.pos) o.r
  s.encloseList [o.pos + v, o.pos - v]

/-- src/Geometry/Sphere.cpp:811-830 `Enclose(Capsule)`. -/
noncomputable def encloseCapsule (s : Sphere ℝ) (l : LineSeg ℝ) (r : ℝ) : Option (Sphere ℝ) :=
  if distSq s.pos l.a > distSq s.pos l.b then (s.encloseSphere ⟨l.a, r⟩).bind fun t => t.encloseSphere ⟨l.b, r⟩
  else (s.encloseSphere ⟨l.b, r⟩).bind fun t => t.encloseSphere ⟨l.a, r⟩

/-- src/Geometry/Sphere.cpp:832-836 `ExtendRadiusToContain(point, epsilon)`. -/
noncomputable def extendRadius (s : Sphere ℝ) (p : V3 ℝ) (eps : ℝ := 1 / 10000) : Sphere ℝ :=
  ⟨s.pos, max2 s.r (V3.dist s.pos p + eps)⟩

/-- src/Geometry/Sphere.cpp:838-842 `ExtendRadiusToContain(Sphere, epsilon)`. -/
noncomputable def extendRadiusSphere (s o : Sphere ℝ) (eps : ℝ := 1 / 10000) : Sphere ℝ :=
  ⟨s.pos, max2 s.r (V3.dist s.pos o.pos + o.r + eps)⟩

/-- src/Geometry/Sphere.cpp:268-290, the initial sphere of `FastEnclosingSphere`. `ExtremePointsAlongAABB`
(src/Geometry/AABB.cpp:369-384) is `AABB.extremeIndex`; `z` stands for an out-of-range read, which does not happen. -/
noncomputable def fastInitial (ps : List (V3 ℝ)) (z : V3 ℝ) : Sphere ℝ :=
  let pt := fun i => ps.getD i z
  let minx := pt (AABB.extremeIndex (fun p => p.x) ps)
  let maxx := pt (AABB.extremeIndex (fun p => -p.x) ps)
  let miny := pt (AABB.extremeIndex (fun p => p.y) ps)
  let maxy := pt (AABB.extremeIndex (fun p => -p.y) ps)
  let minz := pt (AABB.extremeIndex (fun p => p.z) ps)
  let maxz := pt (AABB.extremeIndex (fun p => -p.z) ps)
  let dx := distSq minx maxx
  let dy := distSq miny maxy
  let dz := distSq minz maxz
  let c := if dy > dx ∧ dy > dz then (miny, maxy) else if dz > dx ∧ dz > dy then (minz, maxz) else (minx, maxx)
  let pos := (1 / 2 : ℝ) • (c.1 + c.2)
  ⟨pos, V3.dist c.1 pos⟩

/-- src/Geometry/Sphere.cpp:258-296 `FastEnclosingSphere` of at least one point. -/
noncomputable def fastEnclosingSphere (ps : List (V3 ℝ)) : Option (Sphere ℝ) :=
  (fastInitial ps ⟨0, 0, 0⟩).encloseList ps

/-- src/Geometry/Sphere.cpp:986-1001 `OptimalEnclosingSphere(a, b)` (also `FitThroughPoints(a, b)`, Sphere.h:214). -/
noncomputable def optimal2 (a b : V3 ℝ) : Sphere ℝ :=
  let pos := (1 / 2 : ℝ) • (a + b)
  ⟨pos, V3.len (b - pos) + 1 / 10000⟩

/-- src/Geometry/Sphere.cpp:1015-1081 `FitSphereThroughPoints(ab, ac, s, t)`. -/
noncomputable def fit3 (ab ac : V3 ℝ) : Option (ℝ × ℝ) :=
  let BB := dot ab ab
  let CC := dot ac ac
  let BC := dot ab ac
  let denom := BB * CC - BC * BC
  if equalAbs denom 0 (5 / 1000) then none
  else
    let k := 1 / 2 / denom
    some ((CC * BB - BC * CC) * k, (CC * BB - BC * BB) * k)

/-- src/Geometry/Sphere.cpp:1098-1168 `FitSphereThroughPoints(ab, ac, ad, s, t, u)`. -/
noncomputable def fit4 (ab ac ad : V3 ℝ) : Option (V3 ℝ) :=
  let BB := dot ab ab
  let BC := dot ab ac
  let BD := dot ab ad
  let CC := dot ac ac
  let CD := dot ac ad
  let DD := dot ad ad
  (Mat3.inverseSymmetric !![BB, BC, BD; BC, CC, CD; BD, CD, DD]).map fun m =>
    Mat3.mulVec m ⟨BB * (1 / 2), CC * (1 / 2), DD * (1 / 2)⟩

/-- src/Geometry/Sphere.cpp:1171-1234 `OptimalEnclosingSphere(a, b, c)`. -/
noncomputable def optimal3 (a b c : V3 ℝ) : Sphere ℝ :=
  let ab := b - a
  let ac := c - a
  let box : Sphere ℝ :=
    let pos := (1 / 2 : ℝ) • (f3Min3 a b c + f3Max3 a b c)
    ⟨pos, V3.dist pos (f3Min3 a b c)⟩
  let sphere : Sphere ℝ :=
    if lenSq (cross ab ac) < 1 / 10000 then box
    else match fit3 ab ac with
      | none => box
      | some (s, t) =>
        if absF s > 10000 ∨ absF t > 10000 then box
        else if s < 0 then
          let pos := (1 / 2 : ℝ) • (a + c)
          ⟨pos, max2 (V3.dist a c * (1 / 2)) (V3.dist b pos)⟩
        else if t < 0 then
          let pos := (1 / 2 : ℝ) • (a + b)
          ⟨pos, max2 (V3.dist a b * (1 / 2)) (V3.dist c pos)⟩
        else if s + t > 1 then
          let pos := (1 / 2 : ℝ) • (b + c)
          ⟨pos, max2 (V3.dist b c * (1 / 2)) (V3.dist a pos)⟩
        else
          let pos := a + (s • ab + t • ac)
          ⟨pos, Real.sqrt (max3 (distSq pos a) (distSq pos b) (distSq pos c))⟩
  ⟨sphere.pos, sphere.r + 2 * (1 / 10000)⟩

/-- src/Geometry/Sphere.cpp:1237-1304 `OptimalEnclosingSphere(a, b, c, d)`. -/
noncomputable def optimal4 (a b c d : V3 ℝ) : Sphere ℝ :=
  let ab := b - a
  let ac := c - a
  let ad := d - a
  let nested : Sphere ℝ :=
    let s := optimal3 a b c
    if s.contains d then s
    else
      let s := optimal3 a b d
      if s.contains c then s
      else
        let s := optimal3 a c d
        if s.contains b then s
        else
          let s := optimal3 b c d
          ⟨s.pos, max2 s.r (V3.dist a s.pos + 1 / 1000)⟩
  let sphere : Sphere ℝ :=
    match fit4 ab ac ad with
    | none => nested
    | some ⟨s, t, u⟩ =>
      if s < 0 ∨ t < 0 ∨ u < 0 ∨ s + t + u > 1 then nested
      else
        let pos := a + (s • ab + t • ac + u • ad)
        ⟨pos, Real.sqrt (max4 (distSq pos a) (distSq pos b) (distSq pos c) (distSq pos d))⟩
  ⟨sphere.pos, sphere.r + 2 * (1 / 10000)⟩

/-- src/Geometry/Sphere.cpp:1306-1337 `OptimalEnclosingSphere(a, b, c, d, e, redundantPoint)`. -/
noncomputable def optimal5 (a b c d e : V3 ℝ) : Sphere ℝ × ℕ :=
  if (optimal4 b c d e).containsEps a (1 / 10000) then (optimal4 b c d e, 0)
  else if (optimal4 a c d e).containsEps b (1 / 10000) then (optimal4 a c d e, 1)
  else if (optimal4 a b d e).containsEps c (1 / 10000) then (optimal4 a b d e, 2)
  else if (optimal4 a b c e).containsEps d (1 / 10000) then (optimal4 a b c e, 3)
  else (optimal4 a b c d, 4)

/-- src/Geometry/Sphere.cpp:1340-1366 `FitThroughPoints(a, b, c)`; `none` when the result is set degenerate (NaN). -/
noncomputable def fitThrough3 (a b c : V3 ℝ) : Option (Sphere ℝ) :=
  (fit3 (b - a) (c - a)).map fun st =>
    let p := st.1 • (b - a) + st.2 • (c - a)
    ⟨a + p, V3.len p⟩

/-- src/Geometry/Sphere.cpp:1369-1391 `FitThroughPoints(a, b, c, d)`; `none` when the result is set degenerate. -/
noncomputable def fitThrough4 (a b c d : V3 ℝ) : Option (Sphere ℝ) :=
  (fit4 (b - a) (c - a) (d - a)).map fun v =>
    let p := v.x • (b - a) + v.y • (c - a) + v.z • (d - a)
    ⟨a + p, V3.len p⟩

end Sphere
end MGL
