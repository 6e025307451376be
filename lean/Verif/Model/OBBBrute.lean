import Verif.Model.OBB

/-! Model of the searches `OBB::Brute2EnclosingOBB` and `OBB::Brute3EnclosingOBB` and of `OBB::OptimalEnclosingOBB` on one and two
points (src/Geometry/OBB.cpp). -/

namespace MGL
open V3
namespace OBB

/-- One orientation that the searches look at: the three columns of the matrix and the six distances that `ExtremeVertexConvex`
writes, src/Geometry/OBB.cpp:2098-2107 and 2169-2178. -/
structure Trial (α : Type) where
  d0 : V3 α
  d1 : V3 α
  d2 : V3 α
  dst0 : α
  dst1 : α
  dst2 : α
  dst3 : α
  dst4 : α
  dst5 : α

section field
variable {α : Type} [Field α] [LinearOrder α]

/-- src/Geometry/OBB.cpp:2108-2119 in `Brute2EnclosingOBB` and 2179-2190 in `Brute3EnclosingOBB`: `best` is `minVolume` with
`minOBB`; `none` is `FLOAT_INF`. -/
def bruteStep (best : Option α × OBB α) (t : Trial α) : Option α × OBB α :=
  let volume := (t.dst0 + t.dst1) * (t.dst2 + t.dst3) + (t.dst4 + t.dst5)
  if best.1.all (fun m => decide (volume < m)) then
    (some volume,
      ⟨(1 / 2 : α) • ((t.dst0 - t.dst1) • t.d0 + (t.dst2 - t.dst3) • t.d1 + (t.dst4 - t.dst5) • t.d2),
        ⟨(t.dst0 + t.dst1) * (1 / 2), (t.dst2 + t.dst3) * (1 / 2), (t.dst4 + t.dst5) * (1 / 2)⟩, t.d0, t.d1, t.d2⟩)
  else best

/-- src/Geometry/OBB.cpp:2147-2201 `Brute3EnclosingOBB` (and 2076-2124, the loop of `Brute2EnclosingOBB`) on the orientations
tried, in order. The random choice of the orientations and the count of the steps without progress, which only decide which
orientations are tried, are not modelled: the list is any list. `init` is the content of `minOBB` before the search. -/
def bruteSearch (init : OBB α) (ts : List (Trial α)) : OBB α := (ts.foldl bruteStep (none, init)).2

end field

/-- src/Geometry/OBB.cpp:844-868 `OptimalEnclosingOBB` on one or two points; the convex hull is empty then
(src/Geometry/Polyhedron.cpp:1666-1668). Other numbers of points are `none`: not modelled here. -/
noncomputable def optimalFew (negZero : Bool) : List (V3 ℝ) → Option (OBB ℝ)
  | [p] => some ⟨p, ⟨0, 0, 0⟩, ⟨1, 0, 0⟩, ⟨0, 1, 0⟩, ⟨0, 0, 1⟩⟩
  | [p, q] =>
    let axis0 := q - p
    let b := f3PerpendicularBasis negZero axis0
    let n := f3Normalize axis0
    some ⟨(1 / 2 : ℝ) • (p + q), ⟨n.2 * (1 / 2), 0, 0⟩, n.1, b.1, b.2⟩
  | _ => none

end OBB
end MGL
