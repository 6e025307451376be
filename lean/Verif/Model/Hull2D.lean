import Verif.Spec.Vec2
import Mathlib.Data.List.Sort
import Mathlib.Algebra.Order.Field.Basic

/-! Model of the planar convex hull of `float2` (src/Math/float2.inl, src/Math/float2.cpp). Exact arithmetic over an ordered
field. The array `hull` with its fill count `k` is the list of its first `k` entries, last entry first; reads and writes
outside an array are the outcome `none`. -/

namespace MGL.Hull2D

variable {α : Type*} [Field α] [LinearOrder α] [IsStrictOrderedRing α]

/-- src/Math/float2.inl:49-53 `LexSortPred`. -/
def lexLt (a b : V2 α) : Prop := a.x < b.x ∨ (a.x = b.x ∧ a.y < b.y)

instance (a b : V2 α) : Decidable (lexLt a b) := inferInstanceAs (Decidable (_ ∨ _))

/-- The order in which src/Math/float2.inl:82-83 `std::sort` with `LexSortPred` leaves two neighbours. -/
def lexLe (a b : V2 α) : Prop := ¬ lexLt b a

instance (a b : V2 α) : Decidable (lexLe a b) := inferInstanceAs (Decidable (¬ _))

/-- src/Math/float2.inl:55-63 `PerpDot2D`. The rounding to `float` of the result is not modelled. -/
def perpDot2D (o a b : V2 α) : α := (a.x - o.x) * (b.y - o.y) - (a.y - o.y) * (b.x - o.x)

/-- src/Math/float2.inl:65-71 `DistSq2D`. -/
def distSq2D (a b : V2 α) : α :=
  let dx := a.x - b.x
  let dy := a.y - b.y
  dx * dx + dy * dy

/-- src/Math/float2.inl:88 `eps`. -/
def eps : α := 1 / 1000000

/-- src/Math/float2.inl:102-103, 114-115 and 125-126, the loops `while (k > min && PerpDot2D(hull[k-2], hull[k-1], x) <= 0) --k`
(the first one has the condition `k >= 2`, i.e. `min` = 1). -/
def popWhile (min : ℕ) (x : V2 α) : List (V2 α) → Option (List (V2 α))
  | t :: s :: rest =>
    if min < rest.length + 2 ∧ perpDot2D s t x ≤ 0 then popWhile min x (s :: rest) else some (t :: s :: rest)
  | st => if min < st.length then none else some st

/-- src/Math/float2.inl:100-107 and 112-119, the two loops over the points, with `hull` of size `cap`. -/
def scan (cap min : ℕ) : List (V2 α) → List (V2 α) → Option (List (V2 α))
  | [], st => some st
  | x :: xs, st =>
    match popWhile min x st with
    | none => none
    | some st => if st.length < cap then scan cap min xs (x :: st) else none

/-- src/Math/float2.inl:131-138. `kept` are `p[h], …, p[0]`; `n` is the size of `p`. -/
def dedup (n : ℕ) : List (V2 α) → List (V2 α) → Option (List (V2 α))
  | [], kept => some kept
  | x :: xs, kept =>
    match kept with
    | [] => none
    | l :: r => if distSq2D x l > eps then (if kept.length < n then dedup n xs (x :: l :: r) else none) else dedup n xs (l :: r)

/-- src/Math/float2.inl:139 `while(DistSq2D(p[h], p[0]) < eps && h > 0) --h`. -/
def trim (p0 : V2 α) : List (V2 α) → List (V2 α)
  | l :: m :: r => if distSq2D l p0 < eps then trim p0 (m :: r) else l :: m :: r
  | kept => kept

/-- src/Math/float2.inl:94-126: the contents of `hull` for at least three sorted points, first entry first. -/
def chains (sorted : List (V2 α)) : Option (List (V2 α)) :=
  match sorted with
  | p0 :: p1 :: rest =>
    match scan (2 * sorted.length) 1 rest [p1, p0] with
    | none => none
    | some lower =>
      match scan (2 * sorted.length) lower.length (p1 :: rest).dropLast.reverse lower with
      | none => none
      | some st => (popWhile lower.length p0 st).map List.reverse
  | _ => none

/-- src/Math/float2.inl:73-143 `float2_ConvexHullInPlace`: the points left in the array, as many as the return value says.
`std::sort` is insertion sort here: points that are equal for `LexSortPred` have equal coordinates, so that there is only one
sorted order. -/
def convexHullInPlace (p : List (V2 α)) : Option (List (V2 α)) :=
  if p.length ≤ 1 then some p
  else
    match p.insertionSort lexLe with
    | [a, b] => some (if distSq2D a b > eps then [a, b] else [a])
    | sorted =>
      match chains sorted with
      | some (h0 :: hs) => (dedup p.length hs [h0]).map fun kept => (trim h0 kept).reverse
      | _ => none

/-- src/Math/float2.cpp:502-510 `ConvexHull`, the contents of `outConvexHull`. -/
def convexHull (p : List (V2 α)) : Option (List (V2 α)) := if p = [] then some [] else convexHullInPlace p

/-- The loop of the two containment tests: all edges from the last vertex on satisfy the test. -/
def containsFrom (ok : α → Bool) (point : V2 α) : V2 α → List (V2 α) → Bool
  | _, [] => true
  | prev, v :: vs => if ok (perpDot2D prev v point) then containsFrom ok point v vs else false

/-- src/Math/float2.cpp:522-533 `ConvexHullContains`. -/
def convexHullContains (hull : List (V2 α)) (point : V2 α) : Bool :=
  match hull.getLast? with
  | none => true
  | some l => containsFrom (fun d => !decide (d ≤ -(1 / 100000))) point l hull

/-- src/Math/float2.inl:145-159 `float2_ConvexHullContains`. -/
def convexHullContainsT (hull : List (V2 α)) (point : V2 α) : Bool :=
  if hull.length ≤ 2 then false
  else
    match hull.getLast? with
    | none => true
    | some l => containsFrom (fun d => !decide (d < -(1 / 1000000))) point l hull

end MGL.Hull2D
