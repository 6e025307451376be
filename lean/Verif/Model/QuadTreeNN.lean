import Verif.Model.QuadTree
import Verif.Model.PQueue
import Verif.Model.Scalar

/-! The nearest neighbour search of the quad tree: src/Geometry/QuadTree.inl:406-596.

The heap is any implementation of the contract in `Verif.Model.PQueue`; `f` bounds the number of steps and `none` means that it was
too small. `dist` is the `DistanceSq` to the point that the user defines for the objects. -/

namespace MGL
namespace QuadTree
variable {T α : Type*} [DecidableEq T] [Field α] [LinearOrder α]

/-- src/Geometry/QuadTree.h:104-111 `Node::DistanceSq`. -/
def nodeDistSq (s : QuadTree T α) (p : V2 α) (n : ℕ) : α :=
  let c : V2 α := ⟨p.x - (s.center n).x, p.y - (s.center n).y⟩
  let r := s.radius n
  let q : V2 α := ⟨clamp c.x (-r.x) r.x, clamp c.y (-r.y) r.y⟩
  (q.x - c.x) * (q.x - c.x) + (q.y - c.y) * (q.y - c.y)

/-- src/Geometry/QuadTree.inl:554-572: report the queued objects that are not farther than the next node. `stop` is the answer of the
object callback to the number of reports so far, the distance and the object. The last component says that the search is over. -/
def flush (P : PQueue α T) (stop : ℕ → α → T → Bool) (d : α) : ℕ → P.Q → List (α × T) → Option (P.Q × List (α × T) × Bool)
  | f, q, out =>
    match P.pop q with
    | none => some (q, out, false)
    | some (x, q') =>
      if x.1 ≤ d then
        match f with
        | 0 => none
        | f + 1 => if stop out.length x.1 x.2 then some (q', out ++ [x], true) else flush P stop d f q' (out ++ [x])
      else some (q, out, false)

/-- src/Geometry/QuadTree.inl:549-584: the node callback of the search. -/
def nnVisit (P : PQueue α T) (s : QuadTree T α) (dist : T → α) (stop : ℕ → α → T → Bool) (f : ℕ) (n : ℕ) (d : α) (q : P.Q) (out : List (α × T)) :
    Option (P.Q × List (α × T) × Bool) :=
  (flush P stop d f q out).map fun r =>
    if r.2.2 then r else ((s.objects n).foldl (fun q o => P.insert (dist o) o q) r.1, r.2.1, false)

/-- src/Geometry/QuadTree.inl:458-496: the four children of an inner node go into the queue with their distances. -/
def pushChildren (R : PQueue α ℕ) (s : QuadTree T α) (p : V2 α) (n : ℕ) (nodes : R.Q) : R.Q :=
  match s.child n with
  | none => nodes
  | some c => R.insert (s.nodeDistSq p (c + 3)) (c + 3) (R.insert (s.nodeDistSq p (c + 2)) (c + 2)
      (R.insert (s.nodeDistSq p (c + 1)) (c + 1) (R.insert (s.nodeDistSq p c) c nodes)))

/-- src/Geometry/QuadTree.inl:447-497: the loop of `NearestNeighborNodes` with the callback of `NearestNeighborObjects`. -/
def nnLoop (R : PQueue α ℕ) (P : PQueue α T) (s : QuadTree T α) (p : V2 α) (dist : T → α) (stop : ℕ → α → T → Bool) :
    ℕ → R.Q → P.Q → List (α × T) → Option (List (α × T))
  | f, nodes, q, out =>
    match R.pop nodes with
    | none => some out
    | some ((d, n), nodes') =>
      match f with
      | 0 => none
      | f + 1 =>
        (if s.objects n = [] then some (q, out, false) else nnVisit P s dist stop f n d q out).bind fun r =>
          if r.2.2 then some r.2.1
          else nnLoop R P s p dist stop f
            (pushChildren R s p n nodes') r.1 r.2.1

/-- src/Geometry/QuadTree.inl:587-595 `NearestNeighborObjects`: the reported objects with their distances, in order.
The tree must have been initialised by `Clear`. -/
def nearestObjects (R : PQueue α ℕ) (P : PQueue α T) (s : QuadTree T α) (p : V2 α) (dist : T → α) (stop : ℕ → α → T → Bool) (f : ℕ) :
    Option (List (α × T)) :=
  nnLoop R P s p dist stop f (R.insert 0 s.root R.empty) P.empty []

end QuadTree
end MGL
