import Verif.Spec.Vec3

/-! Model of the intersection test for convex objects (src/Algorithm/GJK.h, src/Algorithm/GJK.cpp), scalar path. The object
types are template parameters in the code; here they are given by the two functions the code calls. -/

namespace MGL.GJK
open V3
variable {α : Type*} [Field α] [LinearOrder α]

/-- What the code calls on the template parameters `A` and `B` (src/Algorithm/GJK.h:28, 35, 45): `AnyPointFast()` and
`ExtremePoint(direction, projectionDistance)`, which gives the point and the distance. `none` stands for NaN, which the
classes with a radius give for the direction zero. -/
structure Support (α : Type*) where
  any : V3 α
  ext : V3 α → Option (V3 α × α)

/-- src/Algorithm/GJK.cpp:35-68, the part of `UpdateSimplex` for two points. A simplex is the list of the first `n` entries
of the array; `n = 0` is the empty list. -/
def update2 (s0 s1 : V3 α) : List (V3 α) × V3 α :=
  let d01 := s1 - s0
  let newSearchDir := cross d01 (cross d01 s1)
  if lenSq newSearchDir > 1 / 10000000 then ([s0, s1], newSearchDir) else ([], 0)

/-- src/Algorithm/GJK.cpp:69-170, the part of `UpdateSimplex` for three points. -/
def update3 (s0 s1 s2 : V3 α) : List (V3 α) × V3 α :=
  let d12 := s2 - s1
  let d02 := s2 - s0
  let triNormal := cross d02 d12
  let e12 := cross d12 triNormal
  let t12 := dot s1 e12
  if t12 < 0 then ([s1, s2], cross d12 (cross d12 s1))
  else
    let e02 := cross triNormal d02
    let t02 := dot s0 e02
    if t02 < 0 then ([s0, s2], cross d02 (cross d02 s0))
    else
      let dist := dot triNormal s2
      let distSq := dist * dist
      let scaledEpsilonSq := 1 / 1000000 * lenSq triNormal
      if distSq > scaledEpsilonSq then
        if dist ≤ 0 then ([s0, s1, s2], triNormal) else ([s1, s0, s2], -triNormal)
      else ([], 0)

/-- src/Algorithm/GJK.cpp:171-356, the part of `UpdateSimplex` for four points. -/
def update4 (s0 s1 s2 s3 : V3 α) : List (V3 α) × V3 α :=
  let d01 := s1 - s0
  let d02 := s2 - s0
  let d03 := s3 - s0
  let tri013Normal := cross d01 d03
  let tri023Normal := cross d03 d02
  let e03_1 := cross tri013Normal d03
  let e03_2 := cross d03 tri023Normal
  let inE03_1 := dot e03_1 s3
  let inE03_2 := dot e03_2 s3
  if inE03_1 ≤ 0 ∧ inE03_2 ≤ 0 then ([s0, s3], cross d03 (cross d03 s3))
  else
    let d12 := s2 - s1
    let d13 := s3 - s1
    let tri123Normal := cross d12 d13
    let e13_0 := cross d13 tri013Normal
    let e13_2 := cross tri123Normal d13
    let inE13_0 := dot e13_0 s3
    let inE13_2 := dot e13_2 s3
    if inE13_0 ≤ 0 ∧ inE13_2 ≤ 0 then ([s1, s3], cross d13 (cross d13 s3))
    else
      let d23 := s3 - s2
      let e23_0 := cross tri023Normal d23
      let e23_1 := cross d23 tri123Normal
      let inE23_0 := dot e23_0 s3
      let inE23_1 := dot e23_1 s3
      if inE23_0 ≤ 0 ∧ inE23_1 ≤ 0 then ([s2, s3], cross d23 (cross d23 s3))
      else
        let inTri013 := dot s3 tri013Normal
        if inTri013 < 0 ∧ inE13_0 ≥ 0 ∧ inE03_1 ≥ 0 then ([s0, s1, s3], tri013Normal)
        else
          let inTri023 := dot s3 tri023Normal
          if inTri023 < 0 ∧ inE23_0 ≥ 0 ∧ inE03_2 ≥ 0 then ([s2, s0, s3], tri023Normal)
          else
            let inTri123 := dot s3 tri123Normal
            if inTri123 < 0 ∧ inE13_2 ≥ 0 ∧ inE23_1 ≥ 0 then ([s1, s2, s3], tri123Normal)
            else ([], 0)

/-- src/Algorithm/GJK.cpp:33-357 `UpdateSimplex`: the new simplex and the new search direction. The code only calls it with
two to four points; `none` for other lists, for which the array of the caller would be overrun. -/
def updateSimplex : List (V3 α) → Option (List (V3 α) × V3 α)
  | [s0, s1] => some (update2 s0 s1)
  | [s0, s1, s2] => some (update3 s0 s1 s2)
  | [s0, s1, s2, s3] => some (update4 s0 s1 s2 s3)
  | _ => none

/-- How `GJKIntersect` ends: it found that the objects meet, it found that they do not (src/Algorithm/GJK.h:51-52), or it ran
out of iterations (src/Algorithm/GJK.h:64). -/
inductive Outcome
  | meet
  | apart
  | gaveUp
deriving DecidableEq

/-- src/Algorithm/GJK.h:41-60, the loop. A simplex with a NaN coordinate makes all comparisons in `UpdateSimplex` false, with
which every branch of it ends with `n = 0`, so that the code returns true. `none` if the array is overrun. -/
def loop (a b : Support α) : ℕ → List (V3 α) → V3 α → Option Outcome
  | 0, _, _ => some .gaveUp
  | k + 1, s, d =>
    match a.ext d, b.ext (-d) with
    | some (pa, maxS), some (pb, minS) =>
      if minS + maxS < 0 then some .apart
      else
        match updateSimplex (s ++ [pa - pb]) with
        | none => none
        | some ([], _) => some .meet
        | some (p :: s', d') => loop a b k (p :: s') d'
    | _, _ => some .meet

/-- src/Algorithm/GJK.h:31-65 `GJKIntersect`, with the way it ends. -/
def run (a b : Support α) : Option Outcome :=
  let s0 := a.any - b.any
  if lenSq s0 < 1 / 10000000 then some .meet else loop a b 50 [s0] (-s0)

/-- src/Algorithm/GJK.h:31-65 `GJKIntersect`: the value returned. -/
def intersect (a b : Support α) : Option Bool := (run a b).map fun o => decide (o = .meet)

end MGL.GJK
