import Verif.Model.KdTree
import Verif.Model.FloatX
import Verif.Model.Triangle

/-! Model of `KdTree<T>::RayQuery` (src/Geometry/KDTree.inl:325-449) and of the nearest hit visitor
(src/Geometry/KDTree.h:208-243). The end point of the ray is at infinity and has components that are not-a-number when the direction
has a component zero, so that the computation is done with the special values of floating point numbers. -/

namespace MGL

/-- src/Geometry/KDTree.inl:351-357 `StackElem`; the null pointer is `none`. -/
structure RayElem (α : Type*) where
  node : Option ℕ
  t : FX α
  pos : Fin 3 → FX α
  prev : ℕ

/-- src/Geometry/KDTree.inl:341-373, the local variables of `RayQuery`: `stack`, `entryPoint`, `exitPoint`, `currentNode`. -/
structure RayState (α : Type*) where
  stack : ℕ → RayElem α
  entryPoint : ℕ
  exitPoint : ℕ
  current : Option ℕ

/-- src/Geometry/KDTree.inl:433-436, the arguments of the callback: the leaf, `tNear` and `tFar`. -/
structure RayCall (α : Type*) where
  leaf : ℕ
  tNear : FX α
  tFar : FX α
deriving DecidableEq

namespace KdTree
variable {T α : Type*} [Field α] [LinearOrder α]

/-- src/Geometry/KDTree.inl:359 `cMaxStackItems`. -/
def cMaxStackItems : ℕ := 100

/-- src/Geometry/KDTree.inl:396 `EqualAbs(x, splitPos)`. -/
def equalAbsX (x : FX α) (p : α) : Bool :=
  match x with
  | .fin a => equalAbs a p
  | _ => false

/-- src/Geometry/KDTree.inl:417-430: the far child is put on the stack. `none` when the stack overflows. -/
def rayPush (pos dir : V3 α) (st : RayState α) (axis : Fin 3) (splitPos : α) (near far : ℕ) : Option (RayState α) :=
  let t := FX.div (splitPos - pos.get axis) (dir.get axis)
  let e := if st.exitPoint + 1 = st.entryPoint then st.exitPoint + 2 else st.exitPoint + 1
  if e < cMaxStackItems then
    let elem : RayElem α := ⟨some far, t, fun a => if a = axis then .fin splitPos else FX.finAdd (pos.get a) (t.mulFin (dir.get a)), st.exitPoint⟩
    some ⟨fun k => if k = e then elem else st.stack k, st.entryPoint, e, some near⟩
  else none

/-- src/Geometry/KDTree.inl:387-430, one step of the inner loop at a node with the children `c` and `c + 1`. -/
def rayStep (pos dir : V3 α) (st : RayState α) (axis : Fin 3) (splitPos : α) (c : ℕ) : Option (RayState α) :=
  if ((st.stack st.entryPoint).pos axis).leFin splitPos then
    if ((st.stack st.exitPoint).pos axis).leFin splitPos then some { st with current := some c }
    else if equalAbsX ((st.stack st.exitPoint).pos axis) splitPos then some { st with current := some (c + 1) }
    else rayPush pos dir st axis splitPos c (c + 1)
  else if FX.finLt splitPos ((st.stack st.exitPoint).pos axis) then some { st with current := some (c + 1) }
  else rayPush pos dir st axis splitPos (c + 1) c

/-- src/Geometry/KDTree.inl:444-447. -/
def rayPop (st : RayState α) : RayState α :=
  ⟨st.stack, st.exitPoint, (st.stack st.exitPoint).prev, (st.stack st.exitPoint).node⟩

/-- src/Geometry/KDTree.inl:433-436: what the callback is called with. -/
def rayCall (st : RayState α) (i : ℕ) : RayCall α := ⟨i, (st.stack st.entryPoint).t, (st.stack st.exitPoint).t⟩

/-- src/Geometry/KDTree.inl:375-448, the two loops with one step budget. The callback `cb` has a state and says whether it wants to
stop. -/
def rayLoop {σ : Type*} (s : KdTree T α) (pos dir : V3 α) (cb : σ → RayCall α → σ × Bool) : ℕ → RayState α → σ → Option σ
  | 0, _, _ => none
  | f + 1, st, x =>
    match st.current with
    | none => some x
    | some i =>
      match s.nodes i with
      | .leaf _ =>
        if (cb x (rayCall st i)).2 then some (cb x (rayCall st i)).1
        else rayLoop s pos dir cb f (rayPop st) (cb x (rayCall st i)).1
      | .inner axis splitPos c => (rayStep pos dir st axis splitPos c).bind fun st => rayLoop s pos dir cb f st x

/-- src/Geometry/KDTree.inl:338: whether the ray meets the box around the objects. The box around no objects, from plus to minus
infinity, is met when no component of the direction is treated as zero. -/
def rayMeetsRoot (s : KdTree T α) (pos dir : V3 α) : Bool :=
  match s.rootAABB with
  | none => !equalAbs dir.x 0 && !equalAbs dir.y 0 && !equalAbs dir.z 0
  | some a => (a.intersectsRay pos dir).isSome

/-- src/Geometry/KDTree.inl:350-373, the variables before the loop. The stack has arbitrary content `junk`. -/
def rayStart (s : KdTree T α) (pos dir : V3 α) (junk : ℕ → RayElem α) : RayState α :=
  ⟨fun k =>
    if k = 0 then { junk 0 with t := .fin 0, pos := fun a => .fin (pos.get a + 0 * dir.get a) }
    else if k = 1 then { junk 1 with node := none, t := .posInf, pos := fun a => FX.finAdd (pos.get a) (FX.infOfSign (dir.get a)) }
    else junk k, 0, 1, s.root⟩

/-- src/Geometry/KDTree.inl:328-449 `RayQuery`: the state of the callback at the end. -/
def rayQuery {σ : Type*} (s : KdTree T α) (pos dir : V3 α) (junk : ℕ → RayElem α) (cb : σ → RayCall α → σ × Bool) (f : ℕ) (x : σ) : Option σ :=
  if s.rayMeetsRoot pos dir then s.rayLoop pos dir cb f (s.rayStart pos dir junk) x else some x

/-- src/Geometry/KDTree.h:231, without `intersects`: no best hit yet is `rayT = FLOAT_INF`. -/
def nearer (tNear tFar : FX α) (t : α) (best : Option (α × ℕ)) : Bool :=
  tNear.leFin t && FX.finLe t tFar && best.elim true fun b => decide (t < b.1)

/-- src/Geometry/KDTree.h:227-237, one step of the loop: a hit inside `[tNear, tFar]` that is nearer than the best one replaces
it. -/
def nearestUpdate (hit : ℕ → Option α) (tNear tFar : FX α) (o : ℕ) (best : Option (α × ℕ)) : Option (α × ℕ) :=
  (hit o).elim best fun t => if nearer tNear tFar t best then some (t, o) else best

/-- src/Geometry/KDTree.h:222-241, the loop of the visitor over the bucket of a leaf; `hit` is the intersection of the ray with an
object, `none` for no intersection. The state is `(rayT, triangleIndex)`, `none` for `rayT` infinite. -/
def nearestBucket (hit : ℕ → Option α) (tNear tFar : FX α) : List ℕ → Option (α × ℕ) → Option (α × ℕ)
  | [], best => best
  | o :: os, best => nearestBucket hit tNear tFar os (nearestUpdate hit tNear tFar o best)

/-- src/Geometry/KDTree.h:222-242 `TriangleKdTreeRayQueryNearestHitVisitor::operator()`. -/
def nearestVisitor (s : KdTree T α) (hit : ℕ → Option α) (best : Option (α × ℕ)) (c : RayCall α) : Option (α × ℕ) × Bool :=
  let best := nearestBucket hit c.tNear c.tFar (s.leafObjects c.leaf) best
  (best, best.isSome)

/-- src/Geometry/KDTree.h:229-230: the distance at which the ray hits the triangle with the given index. -/
def triangleHit (s : KdTree (Tri α) α) (pos dir : V3 α) (o : ℕ) : Option α :=
  s.objects[o]?.bind fun tri => (Tri.intersectLineTri pos dir tri.a tri.b tri.c).map fun r => r.1

/-- `RayQuery` with a fresh `TriangleKdTreeRayQueryNearestHitVisitor` (src/Geometry/KDTree.h:208-221): `(rayT, triangleIndex)`. -/
def nearestHit (s : KdTree (Tri α) α) (pos dir : V3 α) (junk : ℕ → RayElem α) (f : ℕ) : Option (Option (α × ℕ)) :=
  s.rayQuery pos dir junk (s.nearestVisitor (s.triangleHit pos dir)) f none

end KdTree
end MGL
