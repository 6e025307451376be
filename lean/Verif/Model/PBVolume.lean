import Verif.Model.PolyhedronMerge
import Verif.Model.Plane
import Verif.Model.AABB

/-! Model of class `PBVolume<N>` (src/Geometry/PBVolume.h), a convex volume given by its planes; the normals point outwards.
`N` is the length of the list of the planes. -/

namespace MGL
open V3

/-- src/Geometry/PBVolume.h:32-43 `enum CullTestResult`. -/
inductive Cull where
  | outside
  | notContained
  | inside
deriving DecidableEq, Repr

/-- src/Geometry/PBVolume.h:49-53 `class PBVolume`: the array `p`. -/
structure PBVolume (α : Type) where
  p : List (Plane α)

/-- src/Geometry/PBVolume.h:129-133 `CornerPt`. -/
structure CornerPt where
  ptIndex : ℕ
  j : ℕ
  k : ℕ
deriving DecidableEq, Repr

namespace PBVolume
variable {α : Type} [Field α] [LinearOrder α]

/-- src/Geometry/PBVolume.h:57-63 `Contains`. -/
def contains (b : PBVolume α) (x : V3 α) : Bool := b.p.all fun q => !decide (q.signedDistance x > 0)

/-- src/Geometry/PBVolume.h:78-80: the corner of the box that is farthest against the normal. -/
def nPoint (n : V3 α) (bx : AABB α) : V3 α :=
  ⟨if n.x < 0 then bx.maxPoint.x else bx.minPoint.x, if n.y < 0 then bx.maxPoint.y else bx.minPoint.y,
   if n.z < 0 then bx.maxPoint.z else bx.minPoint.z⟩

/-- src/Geometry/PBVolume.h:85-87: the corner of the box that is farthest along the normal. -/
def pPoint (n : V3 α) (bx : AABB α) : V3 α :=
  ⟨if n.x ≥ 0 then bx.maxPoint.x else bx.minPoint.x, if n.y ≥ 0 then bx.maxPoint.y else bx.minPoint.y,
   if n.z ≥ 0 then bx.maxPoint.z else bx.minPoint.z⟩

/-- src/Geometry/PBVolume.h:74-107 the loop of `InsideOrIntersects(AABB)`. -/
def cullAABBLoop (bx : AABB α) : List (Plane α) → Cull → Cull
  | [], result => result
  | q :: qs, result =>
    if q.signedDistance (nPoint q.normal bx) ≥ 0 then .outside
    else if q.signedDistance (pPoint q.normal bx) ≥ 0 then cullAABBLoop bx qs .notContained
    else cullAABBLoop bx qs result

/-- src/Geometry/PBVolume.h:70-112 `InsideOrIntersects(AABB)`. -/
def cullAABB (b : PBVolume α) (bx : AABB α) : Cull := cullAABBLoop bx b.p .inside

/-- src/Geometry/PBVolume.h:117-124 the loop of `InsideOrIntersects(Sphere)`. -/
def cullSphereLoop (s : Sphere α) : List (Plane α) → Cull → Cull
  | [], result => result
  | q :: qs, result =>
    let d := q.signedDistance s.pos
    if d ≥ s.r then .outside
    else if d ≥ -s.r then cullSphereLoop s qs .notContained
    else cullSphereLoop s qs result

/-- src/Geometry/PBVolume.h:114-126 `InsideOrIntersects(Sphere)`. -/
def cullSphere (b : PBVolume α) (s : Sphere α) : Cull := cullSphereLoop s b.p .inside

/-- src/Geometry/PBVolume.h:135-141 `ContainsExcept`. -/
def containsExcept (b : PBVolume α) (x : V3 α) (i j k : ℕ) : Bool :=
  (b.p.zipIdx).all fun q => !(decide (q.2 ≠ i) && decide (q.2 ≠ j) && decide (q.2 ≠ k) && decide (q.1.signedDistance x > 0))

/-- src/Geometry/PBVolume.h:148-150: the triples of the three loops of `ToPolyhedron`, in their order. -/
def triples (n : ℕ) : List (ℕ × ℕ × ℕ) :=
  (List.range (n - 2)).flatMap fun i => (List.range' (i + 1) (n - 1 - (i + 1))).flatMap fun j =>
    (List.range' (j + 1) (n - (j + 1))).map fun k => (i, j, k)

/-- src/Math/float3.cpp:840-845 `Equals`, with its default epsilon `1e-3f` (float3.h). -/
def nearEq (a b : V3 α) : Bool :=
  decide (absF (a.x - b.x) < 1 / 1000) && decide (absF (a.y - b.y) < 1 / 1000) && decide (absF (a.z - b.z) < 1 / 1000)

/-- src/Geometry/PBVolume.h:158-177: the index of the first vertex that equals the corner, else the corner is appended. -/
def addVertex (v : List (V3 α)) (corner : V3 α) : List (V3 α) × ℕ :=
  match v.findIdx? (fun u => nearEq u corner) with
  | some l => (v, l)
  | none => (v ++ [corner], v.length)

/-- src/Geometry/PBVolume.h:181-189: `faces[i].push_back(pt)`. -/
def pushCorner (faces : List (List CornerPt)) (i : ℕ) (pt : CornerPt) : List (List CornerPt) := faces.modify i (· ++ [pt])

/-- src/Geometry/PBVolume.h:151-190: one round of the three loops of `ToPolyhedron`. The point `corner` of the three planes is an
argument, `none` when `Intersects` returns false. -/
def cornerStep (b : PBVolume α) (corner : ℕ → ℕ → ℕ → Option (V3 α)) (st : List (V3 α) × List (List CornerPt)) (t : ℕ × ℕ × ℕ) :
    List (V3 α) × List (List CornerPt) :=
  match corner t.1 t.2.1 t.2.2 with
  | none => st
  | some c =>
    if b.containsExcept c t.1 t.2.1 t.2.2 then
      let r := addVertex st.1 c
      (r.1, pushCorner (pushCorner (pushCorner st.2 t.1 ⟨r.2, t.2.1, t.2.2⟩) t.2.1 ⟨r.2, t.1, t.2.2⟩) t.2.2 ⟨r.2, t.1, t.2.1⟩)
    else st

/-- src/Geometry/PBVolume.h:146-191: the vertices and the corners of each face. -/
def corners (b : PBVolume α) (corner : ℕ → ℕ → ℕ → Option (V3 α)) : List (V3 α) × List (List CornerPt) :=
  (triples b.p.length).foldl (b.cornerStep corner) ([], List.replicate b.p.length [])

/-- src/Geometry/PBVolume.h:226-242: the search of the corner that follows one whose second plane is `pk`: its place and the
corner, with its planes swapped if necessary. -/
def findNext (pk : ℕ) : ℕ → List CornerPt → Option (ℕ × CornerPt)
  | _, [] => none
  | m, cur :: cs =>
    if cur.j = pk then some (m, cur)
    else if cur.k = pk then some (m, ⟨cur.ptIndex, cur.k, cur.j⟩)
    else findNext pk (m + 1) cs

/-- src/Geometry/PBVolume.h:222-245: the selection sort of the corners after `prev`. The second component is false when
`assert(found)` fails (which does nothing in a release build). The first argument is the number of rounds left. -/
def connectLoop : ℕ → CornerPt → List CornerPt → List CornerPt × Bool
  | n + 1, prev, h :: t =>
    match findNext prev.k 0 (h :: t) with
    | some (m, cur) =>
      let r := connectLoop n cur ((h :: t).set m h).tail
      (cur :: r.1, r.2)
    | none =>
      let r := connectLoop n h t
      (h :: r.1, false)
  | _, _, rest => (rest, true)

/-- src/Geometry/PBVolume.h:219-246: the corners of one face in order, and whether the asserts of lines 243 and 246 hold. -/
def connectFace : List CornerPt → List CornerPt × Bool
  | [] => ([], true)
  | p :: ps =>
    let r := connectLoop ps.length p ps
    (p :: r.1, r.2 && decide (((p :: r.1).getLast?.map CornerPt.k) = some p.j))

/-- src/Geometry/PBVolume.h:217-253: the faces before the winding orders are repaired; planes with less than three corners have no
face. -/
def connectFaces (faces : List (List CornerPt)) : List (List ℤ) :=
  (faces.filter fun pt => !decide (pt.length < 3)).map fun pt => (connectFace pt).1.map fun c => (c.ptIndex : ℤ)

noncomputable section
open Classical

/-- src/Geometry/PBVolume.h:152-153: the common point of three of the planes. -/
def cornerPoint (b : PBVolume ℝ) (i j k : ℕ) : Option (V3 ℝ) := do
  let p ← b.p[i]?
  let q ← b.p[j]?
  let r ← b.p[k]?
  p.intersectsPlanes q r

/-- src/Geometry/PBVolume.h:217-253: whether the asserts of lines 243 and 246 hold for all faces that are made. -/
def assertsHold (b : PBVolume ℝ) : Bool :=
  (b.corners b.cornerPoint).2.all fun pt => decide (pt.length < 3) || (connectFace pt).2

/-- src/Geometry/PBVolume.h:256-267: `FlipWindingOrder` of a face with a vertex above its plane. -/
def fixWinding (ph : Polyhedron ℝ) (f : List ℤ) : Option (List ℤ) := do
  let pl ← ph.facePlane f
  some (if ph.v.any (fun x => decide (pl.signedDistance x > 1 / 1000)) then Polyhedron.flipFace f else f)

/-- src/Geometry/PBVolume.h:144-269 `ToPolyhedron`; `none` would be a vertex index out of range. -/
def toPolyhedron (b : PBVolume ℝ) : Option (Polyhedron ℝ) :=
  let st := b.corners b.cornerPoint
  if st.1.length ≤ 1 then some ⟨st.1, []⟩
  else if st.1.length = 2 then some ⟨st.1, [[0, 1]]⟩
  else if st.1.length = 3 then some ⟨st.1, [[0, 1, 2]]⟩
  else do
    let f ← (connectFaces st.2).mapM (fixWinding ⟨st.1, connectFaces st.2⟩)
    some ⟨st.1, f⟩

end

/-- src/Geometry/PBVolume.h:276-286 `SetIntersection`. -/
def setIntersection (b c : PBVolume α) : PBVolume α := ⟨b.p ++ c.p⟩

end PBVolume
end MGL
