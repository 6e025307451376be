import Verif.Model.Hull2D
import Mathlib.Analysis.SpecialFunctions.Sqrt
import Mathlib.Logic.Equiv.Basic

/-! Model of src/Geometry/Circle2D.cpp over the real numbers. -/

namespace MGL

/-- src/Geometry/Circle2D.h:25-35, the members of `Circle2D`. -/
structure Circle2D where
  pos : V2 ℝ
  r : ℝ

namespace Circle2D

/-- src/Math/float2.h `Dot`. -/
def dot2 (a b : V2 ℝ) : ℝ := a.x * b.x + a.y * b.y

/-- src/Math/float2.h `operator -`. -/
def sub2 (a b : V2 ℝ) : V2 ℝ := ⟨a.x - b.x, a.y - b.y⟩

/-- src/Math/float2.h `operator +`. -/
def add2 (a b : V2 ℝ) : V2 ℝ := ⟨a.x + b.x, a.y + b.y⟩

/-- src/Math/float2.h `operator *`. -/
def smul2 (s : ℝ) (a : V2 ℝ) : V2 ℝ := ⟨a.x * s, a.y * s⟩

/-- src/Math/float2.cpp `DistanceSq`. -/
def distanceSq (a b : V2 ℝ) : ℝ :=
  let d := sub2 a b
  dot2 d d

open Classical in
/-- src/Geometry/Circle2D.cpp:33-56 `MakeCircleSq`; the radius of the result is the square of the radius of the circle. -/
noncomputable def makeCircleSq (AB AC : ℝ) (ab ac : V2 ℝ) : Circle2D :=
  let AB_AC := dot2 ab ac
  let denom := AB * AC - AB_AC * AB_AC
  if |denom| < 1 / 100000 then
    if AB_AC > 0 then
      if AB > AC then ⟨smul2 (1 / 2) ab, AB * (1 / 4)⟩ else ⟨smul2 (1 / 2) ac, AC * (1 / 4)⟩
    else ⟨smul2 (1 / 2) (add2 ab ac), (AB + AC - 2 * AB_AC) * (1 / 4)⟩
  else
    let denom := (1 / 2) / denom
    let s := (AC * AB - AB_AC * AC) * denom
    if s < 0 then ⟨smul2 (1 / 2) ac, AC * (1 / 4)⟩
    else
      let t := (AC * AB - AB_AC * AB) * denom
      if t < 0 then ⟨smul2 (1 / 2) ab, AB * (1 / 4)⟩
      else if s + t > 1 then ⟨smul2 (1 / 2) (add2 ab ac), (AB + AC - 2 * AB_AC) * (1 / 4)⟩
      else
        let center := add2 (smul2 s ab) (smul2 t ac)
        ⟨center, dot2 center center⟩

open Classical in
/-- src/Geometry/Circle2D.cpp:61-131 `SmallestCircleSqEnclosing4Points`: the circle, relative to `a` and with squared radius, and
`redundantIndex`. -/
noncomputable def smallest4 (a b c d : V2 ℝ) : Circle2D × ℕ :=
  let ab := sub2 b a
  let ac := sub2 c a
  let ad := sub2 d a
  let AB := dot2 ab ab
  let AC := dot2 ac ac
  let circle0 := makeCircleSq AB AC ab ac
  let sqd0 := distanceSq circle0.pos ad
  if sqd0 ≤ circle0.r then (circle0, 2)
  else
    let AD := dot2 ad ad
    let circle1 := makeCircleSq AB AD ab ad
    let sqd1 := distanceSq circle1.pos ac
    if sqd1 ≤ circle1.r then (circle1, 1)
    else
      let circle2 := makeCircleSq AC AD ac ad
      let sqd2 := distanceSq circle2.pos ab
      if sqd2 ≤ circle2.r then (circle2, 0)
      else
        let sqd0 := √sqd0 - √circle0.r
        let sqd1 := √sqd1 - √circle1.r
        let sqd2 := √sqd2 - √circle2.r
        let out (k : Circle2D) : Circle2D :=
          ⟨k.pos, max (max (dot2 k.pos k.pos) (distanceSq k.pos ab)) (max (distanceSq k.pos ac) (distanceSq k.pos ad))⟩
        if sqd0 ≤ sqd1 ∧ sqd0 ≤ sqd2 then (out circle0, 2)
        else if sqd1 ≤ sqd2 then (out circle1, 1)
        else (out circle2, 0)

open Classical in
/-- src/Geometry/Circle2D.cpp:134-167 `OptimalEnclosingCircle(a, b, c)`. -/
noncomputable def optimal3 (a b c : V2 ℝ) : Circle2D :=
  let ab := sub2 b a
  let ac := sub2 c a
  let AB := dot2 ab ab
  let AC := dot2 ac ac
  let AB_AC := dot2 ab ac
  let denom := AB * AC - AB_AC * AB_AC
  let pos :=
    if |denom| < 1 / 100000 then smul2 (1 / 2) (if AB_AC > 0 then add2 a (if AB > AC then b else c) else add2 b c)
    else
      let denom := (1 / 2) / denom
      let s := (AC * AB - AB_AC * AC) * denom
      if s < 0 then smul2 (1 / 2) (add2 a c)
      else
        let t := (AC * AB - AB_AC * AB) * denom
        if t < 0 then smul2 (1 / 2) (add2 a b)
        else if s + t > 1 then smul2 (1 / 2) (add2 b c)
        else add2 (add2 a (smul2 s ab)) (smul2 t ac)
  ⟨pos, √(max (max (distanceSq pos a) (distanceSq pos b)) (distanceSq pos c)) + 1 / 100000⟩

open Classical in
/-- src/Geometry/Circle2D.cpp:179-182 `Contains(point)`. -/
noncomputable def contains (k : Circle2D) (p : V2 ℝ) : Bool := decide (distanceSq k.pos p ≤ k.r * k.r)

open Classical in
/-- src/Geometry/Circle2D.cpp:184-187 `Contains(point, epsilon)`. -/
noncomputable def containsEps (k : Circle2D) (p : V2 ℝ) (epsilon : ℝ) : Bool := decide (distanceSq k.pos p ≤ k.r * k.r + epsilon)

/-- src/Geometry/Circle2D.cpp:189-192 `Distance(point)`. -/
noncomputable def distance (k : Circle2D) (p : V2 ℝ) : ℝ := max 0 (√(distanceSq k.pos p) - k.r)

/-- src/Geometry/Circle2D.cpp:194-197 `SignedDistance(point)`. -/
noncomputable def signedDistance (k : Circle2D) (p : V2 ℝ) : ℝ := √(distanceSq k.pos p) - k.r

/-- src/Math/float2.inl:73-143 `float2_ConvexHullInPlace` for at least three points, as `Hull2D.convexHullInPlace`, but with all that is
in the array afterwards: the points of the hull, entries the last loop gave up, and what the sort left in the rest. The first
component is the return value. -/
noncomputable def hullArray (p : List (V2 ℝ)) : Option (ℕ × List (V2 ℝ)) :=
  let sorted := p.insertionSort Hull2D.lexLe
  match Hull2D.chains sorted with
  | some (h0 :: hs) =>
    (Hull2D.dedup p.length hs [h0]).map fun kept => ((Hull2D.trim h0 kept).length, kept.reverse ++ sorted.drop kept.length)
  | _ => none

/-- src/Math/Swap.h `Swap(p[i], p[j])`. An array is a function of its index here; all indices used are below the size of the array, which is
at least 4. -/
def swap (p : ℕ → V2 ℝ) (i j : ℕ) : ℕ → V2 ℝ := p ∘ Equiv.swap i j

open Classical in
/-- src/Geometry/Circle2D.cpp:226-229, the body of the loop over the extents. -/
noncomputable def extentStep (p : ℕ → V2 ℝ) (i : ℕ) : ℕ → V2 ℝ :=
  let p := if (p 0).x < (p i).x then swap p 0 i else p
  let p := if (p 1).x > (p i).x then swap p 1 i else p
  let p := if (p 2).y < (p i).y then swap p 2 i else p
  if (p 3).y > (p i).y then swap p 3 i else p

/-- src/Geometry/Circle2D.cpp:224-230. -/
noncomputable def extents (n : ℕ) (p : ℕ → V2 ℝ) : ℕ → V2 ℝ := (List.range n).foldl extentStep p

open Classical in
/-- src/Geometry/Circle2D.cpp:237-263, the loop over the remaining points from index `i` on; `none` if it runs for more than `fuel` rounds. -/
noncomputable def encloseLoop (n : ℕ) : ℕ → ℕ → Circle2D → ℝ → (ℕ → V2 ℝ) → Option Circle2D
  | 0, _, _, _, _ => none
  | fuel + 1, i, minCircle, r2, p =>
    if i < n then
      let d := sub2 (p i) minCircle.pos
      if dot2 d d ≤ r2 then encloseLoop n fuel (i + 1) minCircle r2 p
      else
        let q := smallest4 (p i) (p 0) (p 1) (p 2)
        let r := √q.1.r + 1 / 1000
        encloseLoop n fuel 3 ⟨add2 q.1.pos (p i), r⟩ (r * r) (swap p i q.2)
    else some minCircle

/-- src/Geometry/Circle2D.cpp:199-266 `OptimalEnclosingCircle(pointArray, numPoints)`. For no points the code returns a circle with centre
NaN and radius minus infinity, which is `none` here. `fuel` bounds the number of rounds of the last loop. -/
noncomputable def optimalEnclosing (fuel : ℕ) (points : List (V2 ℝ)) : Option Circle2D :=
  match points with
  | [] => none
  | [a] => some ⟨a, 0⟩
  | [a, b] =>
    let center := smul2 (1 / 2) (add2 a b)
    some ⟨center, √(max (distanceSq center a) (distanceSq center b)) + 1 / 100000⟩
  | [a, b, c] => some (optimal3 a b c)
  | points =>
    match hullArray points with
    | none => none
    | some (n, pts) =>
      let p := extents n fun i => pts.getD i ⟨0, 0⟩
      let minCircle := optimal3 (p 0) (p 1) (p 2)
      encloseLoop n fuel 3 minCircle (minCircle.r * minCircle.r) p

open Classical in
/-- src/Geometry/Circle2D.cpp:268-286 `RandomPointInside`; `draws` are the numbers `lcg.Float(-r, r)` returns, two for each try. -/
noncomputable def randomPointInside (k : Circle2D) (draws : List (ℝ × ℝ)) : V2 ℝ :=
  match (draws.take 1000).find? fun v => decide (v.1 * v.1 + v.2 * v.2 ≤ k.r * k.r) with
  | some v => add2 k.pos ⟨v.1, v.2⟩
  | none => k.pos

end Circle2D
end MGL
