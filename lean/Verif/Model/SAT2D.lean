import Verif.Model.Float2
import Verif.Model.Hull2D

/-! Model of the separating axis test for convex polygons of the plane (src/Algorithm/SAT.cpp). Exact arithmetic over the reals.
The outcome `none` is a violated assertion or a read outside an array. -/

namespace MGL.SAT2D
noncomputable section

/-- src/Math/float2.cpp:366-369 `PerpDot`. -/
def perpDot (a b : V2 ℝ) : ℝ := a.x * b.y - a.y * b.x

/-- src/Algorithm/SAT.cpp:10-16, the loop of `HasCcwWindingOrder` with `poly[prev2]` and `poly[prev1]`. -/
def ccwFrom (p2 p1 : V2 ℝ) : List (V2 ℝ) → Bool
  | [] => true
  | x :: r => if Hull2D.perpDot2D p2 p1 x < -(1 / 100) then false else ccwFrom p1 x r

/-- src/Algorithm/SAT.cpp:6-18 `HasCcwWindingOrder`; for one vertex it reads `poly[-1]`, for none it reads nothing. -/
def hasCcwWindingOrder (poly : List (V2 ℝ)) : Option Bool :=
  match poly, poly.reverse with
  | [], _ => some true
  | p, z :: y :: _ => some (ccwFrom y z p)
  | _, _ => none

/-- src/Algorithm/SAT.cpp:42-44 and 55-57: `minOther`, the least product of the vertices of the other polygon with the edge. -/
def minPerp (edge b0 : V2 ℝ) (bs : List (V2 ℝ)) : ℝ := bs.foldl (fun m q => min2 m (perpDot q edge)) (perpDot b0 edge)

/-- src/Algorithm/SAT.cpp:30-48 and 51-61, one of the two loops of `SATCollide2D`: whether it finds a separating edge. -/
def separated (b0 : V2 ℝ) (bs : List (V2 ℝ)) (prev : V2 ℝ) : List (V2 ℝ) → Bool
  | [] => false
  | p :: r =>
    let edge := p - prev
    let maxThis := perpDot p edge
    if minPerp edge b0 bs > maxThis then true else separated b0 bs p r

/-- src/Algorithm/SAT.cpp:20-65 `SATCollide2D`, with the assertions (22-25). -/
def collide (a b : List (V2 ℝ)) : Option Bool :=
  match a, b, a.getLast?, b.getLast?, hasCcwWindingOrder a, hasCcwWindingOrder b with
  | a0 :: as, b0 :: bs, some za, some zb, some true, some true =>
    if separated b0 bs za (a0 :: as) then some false
    else if separated a0 as zb (b0 :: bs) then some false
    else some true
  | _, _, _, _, _, _ => none

/-- src/Algorithm/SAT.cpp:84-94 and 116-127: `minOther` and the vertex with this product. -/
def minPerpAt (edge b0 : V2 ℝ) (bs : List (V2 ℝ)) : ℝ × V2 ℝ :=
  bs.foldl (fun m q => if perpDot q edge < m.1 then (perpDot q edge, q) else m) (perpDot b0 edge, b0)

/-- The variables `minimumPenetrationDistance`, `outCollisionPoint` and `outCollisionNormal` (src/Algorithm/SAT.cpp:67-68 and 77). -/
structure Best where
  dist : ℝ
  point : V2 ℝ
  normal : V2 ℝ

/-- src/Algorithm/SAT.cpp:79-108 and 110-142, one of the two loops of `SATCollide2D_CollisionPoint`: `sign` is 1 in the first and -1 in
the second; `inl` is an early return of a positive distance. No best edge yet stands for `-FLOAT_INF` (77). `Normalized` (src/Math/float2.cpp:132-139) is
`Normalize` on a copy. -/
def penetrate (sign : ℝ) (b0 : V2 ℝ) (bs : List (V2 ℝ)) (best : Option Best) (prev : V2 ℝ) : List (V2 ℝ) → ℝ ⊕ Option Best
  | [] => .inr best
  | p :: r =>
    let edge := (Float2.normalize (p - prev)).1
    let maxThis := perpDot p edge
    let m := minPerpAt edge b0 bs
    let dist := m.1 - maxThis
    if dist > 0 then .inl dist
    else
      let new : Best := ⟨dist, m.2, sign • Float2.perp' edge⟩
      match best with
      | none => penetrate sign b0 bs (some new) p r
      | some old => if dist > old.dist then penetrate sign b0 bs (some new) p r else penetrate sign b0 bs (some old) p r

/-- src/Algorithm/SAT.cpp:67-145 `SATCollide2D_CollisionPoint`: `inl` is an early return of a positive distance, otherwise the result and the
values stored in the references. -/
def collisionPoint (a b : List (V2 ℝ)) : Option (ℝ ⊕ Best) :=
  match a, b, a.getLast?, b.getLast?, hasCcwWindingOrder a, hasCcwWindingOrder b with
  | a0 :: as, b0 :: bs, some za, some zb, some true, some true =>
    match penetrate 1 b0 bs none za (a0 :: as) with
    | .inl d => some (.inl d)
    | .inr best =>
      match penetrate (-1) a0 as best zb (b0 :: bs) with
      | .inl d => some (.inl d)
      | .inr (some best) => some (.inr best)
      | .inr none => none
  | _, _, _, _, _, _ => none

end
end MGL.SAT2D
