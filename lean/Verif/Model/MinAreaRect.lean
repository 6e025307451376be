import Verif.Model.Hull2D
import Verif.Spec.Vec2Alg
import Mathlib.Analysis.SpecialFunctions.Sqrt

/-! Model of `float2::MinAreaRect` (rotating calipers) over the real numbers. -/

namespace MGL.MinAreaRect
open V2
noncomputable section

/-- src/Math/float2.cpp:366-369 `PerpDot`. -/
def perpDot (a b : V2 ℝ) : ℝ := a.x * b.y - a.y * b.x

/-- src/Math/float2.cpp:474-477 `Rotated90CW`. -/
def rotated90CW (a : V2 ℝ) : V2 ℝ := ⟨a.y, -a.x⟩

/-- src/Math/float2.cpp:486-489 `Rotated90CCW`. -/
def rotated90CCW (a : V2 ℝ) : V2 ℝ := ⟨-a.y, a.x⟩

/-- src/Math/float2.cpp:132-139 `Normalized`, with 115-130 `Normalize`. -/
def normalized (a : V2 ℝ) : V2 ℝ := if a.x * a.x + a.y * a.y > 1 / 1000000 then (1 / √(a.x * a.x + a.y * a.y)) • a else ⟨1, 0⟩

/-- src/Math/float2.cpp:535 `NEXT_P`, on indices. -/
def next (n i : ℕ) : ℕ := if i + 1 < n then i + 1 else 0

/-- The values src/Math/float2.cpp:613-621 keeps of the best rectangle: `minArea`, `vDir`, `minU`, `maxU`, `minV`, `maxV`. -/
structure Best where
  area : ℝ
  vDir : V2 ℝ
  minU : ℝ
  maxU : ℝ
  minV : ℝ
  maxV : ℝ

/-- The variables of the loop src/Math/float2.cpp:591-622: the indices `e[i]`, the directions `d[i]`, `ed`, and the best rectangle (`none` for
`minArea = FLOAT_INF`). -/
structure Cal where
  e : Fin 4 → ℕ
  d : Fin 4 → V2 ℝ
  ed : V2 ℝ
  best : Option Best

/-- src/Math/float2.cpp:569-572, one round of the loop for the extents. -/
def extentStep (p : ℕ → V2 ℝ) (e : Fin 4 → ℕ) (i : ℕ) : Fin 4 → ℕ :=
  let e := if (p i).x < (p (e 0)).x then Function.update e 0 i else if (p i).x > (p (e 2)).x then Function.update e 2 i else e
  if (p i).y < (p (e 1)).y then Function.update e 1 i else if (p i).y > (p (e 3)).y then Function.update e 3 i else e

/-- src/Math/float2.cpp:562-573, the extents. -/
def extents (p : ℕ → V2 ℝ) (n : ℕ) : Fin 4 → ℕ := (List.range' 1 (n - 1)).foldl (extentStep p) fun _ => 0

/-- src/Math/float2.cpp:584-587: the direction from corner `i` to the next. -/
def dirAt (p : ℕ → V2 ℝ) (n i : ℕ) : V2 ℝ := normalized (p (next n i) - p i)

/-- src/Math/float2.cpp:594-597, the cosines `cosA0` to `cosA3`. -/
def cosA (s : Cal) : Fin 4 → ℝ := ![dot s.ed (s.d 0), perpDot s.ed (s.d 1), -dot s.ed (s.d 2), -perpDot s.ed (s.d 3)]

/-- src/Math/float2.cpp:599, `maxCos`. -/
def maxCos (s : Cal) : ℝ := max (max (cosA s 0) (cosA s 1)) (max (cosA s 2) (cosA s 3))

/-- src/Math/float2.cpp:601-604: the new `ed` and the point that moves on. -/
def pick (s : Cal) : V2 ℝ × Fin 4 :=
  if cosA s 0 ≥ maxCos s then (s.d 0, 0)
  else if cosA s 1 ≥ maxCos s then (rotated90CW (s.d 1), 1)
  else if cosA s 2 ≥ maxCos s then (-s.d 2, 2)
  else (rotated90CCW (s.d 3), 3)

/-- src/Math/float2.cpp:606-621: the rectangle is compared with the best one. -/
def record (p : ℕ → V2 ℝ) (e : Fin 4 → ℕ) (ed : V2 ℝ) (best : Option Best) : Option Best :=
  let minu := perpDot ed (p (e 0))
  let maxu := perpDot ed (p (e 2))
  let minv := dot ed (p (e 1))
  let maxv := dot ed (p (e 3))
  let area := |(maxu - minu) * (maxv - minv)|
  if best.elim true fun b => decide (area < b.area) then some ⟨area, ed, min minu maxu, max minu maxu, min minv maxv, max minv maxv⟩ else best

/-- src/Math/float2.cpp:592-622, one round of the loop. -/
def step (p : ℕ → V2 ℝ) (n : ℕ) (s : Cal) : Cal :=
  let (ed, k) := pick s
  let e := Function.update s.e k (next n (s.e k))
  let d := Function.update s.d k (dirAt p n (e k))
  ⟨e, d, ed, record p e ed s.best⟩

/-- src/Math/float2.cpp:591-622, the loop; `none` when it does not end within `fuel` rounds. -/
def loop (p : ℕ → V2 ℝ) (n : ℕ) : ℕ → Cal → Option (Option Best)
  | 0, _ => none
  | fuel + 1, s => if s.ed.y ≤ 0 then loop p n fuel (step p n s) else some s.best

/-- What `MinAreaRectInPlace` returns (src/Math/float2.cpp:537): the area and the references. -/
structure Result where
  area : ℝ
  center : V2 ℝ
  uDir : V2 ℝ
  vDir : V2 ℝ
  minU : ℝ
  maxU : ℝ
  minV : ℝ
  maxV : ℝ

/-- src/Math/float2.cpp:561-627: the rectangle for the `n` corners of the hull. -/
def calipers (fuel : ℕ) (p : ℕ → V2 ℝ) (n : ℕ) : Option Result :=
  let e := extents p n
  match loop p n fuel ⟨e, fun k => dirAt p n (e k), ⟨0, -1⟩, none⟩ with
  | some (some b) =>
    let uDir := rotated90CCW b.vDir
    some ⟨b.area, (1 / 2 : ℝ) • ((b.minU + b.maxU) • uDir + (b.minV + b.maxV) • b.vDir), uDir, b.vDir, b.minU, b.maxU, b.minV, b.maxV⟩
  | _ => none

/-- src/Math/float2.cpp:537-627 `MinAreaRectInPlace`; `none` for no points (the code returns NaN) or when the loop does not end. -/
def minAreaRect (fuel : ℕ) (points : List (V2 ℝ)) : Option Result :=
  if points = [] then none
  else
    match Hull2D.convexHullInPlace points with
    | none => none
    | some [c] => some ⟨0, c, ⟨1, 0⟩, ⟨0, 1⟩, c.x, c.x, c.y, c.y⟩
    | some h => calipers fuel (fun i => h.getD i ⟨0, 0⟩) h.length

end
end MGL.MinAreaRect
