import Verif.Model.AABB2D
import Mathlib.Data.ENat.Basic
import Mathlib.Data.List.Basic

/-! Model of class `QuadTree<T>` (src/Geometry/QuadTree.h, src/Geometry/QuadTree.inl).

The vector `nodes` is represented by one array per field of `Node`; a pointer to a node is its index. What the arrays
contain at and beyond `size` is arbitrary, as are the fields `center` and `radius` of the three unused nodes next to the
root. The vector is reserved once (src/Geometry/QuadTree.h:129) and pointers into it are kept, so that growing it beyond
its capacity is undefined behaviour: there the functions return `none`. The capacity is a parameter (`200000` in the code).
The loops and recursions carry a step budget and return `none` when it is used up; that some budget is always enough is a
theorem.

The user supplied functions `MinX`, `MaxX`, `MinY`, `MaxY`, `GetAABB2D` are given by one function `box : T → Rect α`. The
user supplied pair `AssociateQuadTreeNode`, `GetQuadTreeNode` is a map from objects to nodes, kept in the state. -/

namespace MGL

/-- The state of a `QuadTree<T>` and of the user supplied association of objects with nodes:
src/Geometry/QuadTree.h:63-77 (`Node`), 236-244. -/
structure QuadTree (T α : Type*) where
  size : ℕ
  parent : ℕ → Option ℕ
  /-- `childIndex`; `none` is `0xFFFFFFFF`. -/
  child : ℕ → Option ℕ
  objects : ℕ → List T
  center : ℕ → V2 α
  radius : ℕ → V2 α
  /-- `rootNodeIndex`; meaningful when the tree has nodes. -/
  root : ℕ
  bounding : Rect α
  assoc : T → Option ℕ

namespace QuadTree
variable {T α : Type*} [DecidableEq T] [Field α] [LinearOrder α]

/-- src/Geometry/QuadTree.inl:205-238 `AllocateNodeGroup`. The index of the group is the old size. -/
def allocateNodeGroup (cap : ℕ∞) (s : QuadTree T α) (parent : Option ℕ) : Option (QuadTree T α) :=
  if cap < ((s.size + 4 : ℕ) : ℕ∞) then none else
  let n := s.size
  let s1 : QuadTree T α := { s with
    size := n + 4
    parent := fun i => if n ≤ i ∧ i < n + 4 then parent else s.parent i
    child := fun i => if n ≤ i ∧ i < n + 4 then none else s.child i
    objects := fun i => if n ≤ i ∧ i < n + 4 then [] else s.objects i }
  match parent with
  | none => some s1
  | some p =>
    let r : V2 α := ⟨(s.radius p).x * (1 / 2), (s.radius p).y * (1 / 2)⟩
    let c := s.center p
    some { s1 with
      radius := fun i => if n ≤ i ∧ i < n + 4 then r else s.radius i
      center := fun i =>
        if i = n then ⟨c.x - r.x, c.y - r.y⟩
        else if i = n + 1 then ⟨c.x + r.x, c.y - r.y⟩
        else if i = n + 2 then ⟨c.x - r.x, c.y + r.y⟩
        else if i = n + 3 then ⟨c.x + r.x, c.y + r.y⟩
        else s.center i }

/-- src/Geometry/QuadTree.inl:24-43 `Clear`. The associations of the objects are not touched. -/
def clear (cap : ℕ∞) (s : QuadTree T α) (minXY maxXY : V2 α) : Option (QuadTree T α) :=
  (allocateNodeGroup cap { s with size := 0, bounding := ⟨minXY, maxXY⟩ } none).map fun s1 =>
    let c : V2 α := ⟨(minXY.x + maxXY.x) * (1 / 2), (minXY.y + maxXY.y) * (1 / 2)⟩
    { s1 with
      root := 0
      center := Function.update s1.center 0 c
      radius := Function.update s1.radius 0 ⟨maxXY.x - c.x, maxXY.y - c.y⟩ }

/-- `n->objects.push_back(object); AssociateQuadTreeNode(object, n);`
src/Geometry/QuadTree.inl:152-153, 158-159. -/
def push (s : QuadTree T α) (o : T) (n : ℕ) : QuadTree T α :=
  { s with objects := Function.update s.objects n (s.objects n ++ [o]), assoc := Function.update s.assoc o (some n) }

/-- src/Geometry/QuadTree.inl:135-142, 255-262 `straddledEitherOne > 0`: the object is on both sides of a split line
of the node. -/
def straddles (s : QuadTree T α) (box : T → Rect α) (n : ℕ) (o : T) : Bool :=
  let left := (s.center n).x - (box o).minPoint.x
  let right := (box o).maxPoint.x - (s.center n).x
  let top := (s.center n).y - (box o).minPoint.y
  let bottom := (box o).maxPoint.y - (s.center n).y
  decide (max2 (min2 left right) (min2 top bottom) > 0)

/-- src/Geometry/QuadTree.inl:164-189, 274-295: which of the four children (in the order top-left, top-right,
bottom-left, bottom-right) the object goes to. -/
def quadrant (s : QuadTree T α) (box : T → Rect α) (n : ℕ) (o : T) : ℕ :=
  let left := (s.center n).x - (box o).minPoint.x
  let top := (s.center n).y - (box o).minPoint.y
  if left > 0 then (if top > 0 then 0 else 2) else (if top > 0 then 1 else 3)

/-- `leaf->objects[i] = leaf->objects.back(); leaf->objects.pop_back();` src/Geometry/QuadTree.inl:298-299; also
src/Geometry/QuadTree.h:93-94. -/
def swapPop (l : List T) (i : ℕ) : List T :=
  match l.getLast? with
  | none => []
  | some b => (l.set i b).dropLast

/-- The loop of src/Geometry/QuadTree.inl:248-300 from index `i`, with at most `k` passes. `add` is
`Add(object, node)`. -/
def splitLoop (box : T → Rect α) (add : QuadTree T α → T → ℕ → Option (QuadTree T α)) (leaf c : ℕ) :
    ℕ → QuadTree T α → ℕ → Option (QuadTree T α)
  | k, s, i =>
    match (s.objects leaf)[i]? with
    | none => some s
    | some o =>
      match k with
      | 0 => none
      | k + 1 =>
        if s.straddles box leaf o then splitLoop box add leaf c k s (i + 1)
        else
          (add s o (c + s.quadrant box leaf o)).bind fun s1 =>
            splitLoop box add leaf c k { s1 with objects := Function.update s1.objects leaf (swapPop (s1.objects leaf) i) } i

/-- src/Geometry/QuadTree.inl:240-301 `SplitLeaf`. -/
def splitLeaf (cap : ℕ∞) (box : T → Rect α) (add : QuadTree T α → T → ℕ → Option (QuadTree T α)) (s : QuadTree T α) (leaf : ℕ) :
    Option (QuadTree T α) :=
  (allocateNodeGroup cap s (some leaf)).bind fun s1 =>
    splitLoop box add leaf s.size (s.objects leaf).length { s1 with child := Function.update s1.child leaf (some s.size) } 0

/-- src/Geometry/QuadTree.inl:128-191 `Add(object, n)`. The constants are those of src/Geometry/QuadTree.h:40, 45. -/
def addAt (cap : ℕ∞) (box : T → Rect α) : ℕ → QuadTree T α → T → ℕ → Option (QuadTree T α)
  | 0, _, _, _ => none
  | f + 1, s, o, n =>
    if s.straddles box n o then some (s.push o n)
    else match s.child n with
      | none =>
        let s1 := s.push o n
        if (s1.objects n).length > 16 ∧ min2 (s1.radius n).x (s1.radius n).y ≥ 1 / 20 then splitLeaf cap box (addAt cap box f) s1 n
        else some s1
      | some c => addAt cap box f s o (c + s.quadrant box n o)

/-- src/Math/MathFunc.h `Swap(nodes[a], nodes[b])`: all fields are exchanged. -/
def swapNodes (s : QuadTree T α) (a b : ℕ) : QuadTree T α :=
  let sw (i : ℕ) : ℕ := if i = a then b else if i = b then a else i
  { s with parent := fun i => s.parent (sw i), child := fun i => s.child (sw i), objects := fun i => s.objects (sw i),
           center := fun i => s.center (sw i), radius := fun i => s.radius (sw i) }

/-- src/Geometry/QuadTree.inl:644-664, the first part of `GrowImpl`: the root is moved to the `q`-th place of its group. -/
def moveRoot (s : QuadTree T α) (q : ℕ) : QuadTree T α :=
  if q ≠ 0 then
    let old := s.root + q
    let s2 := s.swapNodes s.root old
    { s2 with
      parent := match s2.child old with
        | none => s2.parent
        | some c => fun i => if c ≤ i ∧ i < c + 4 then some old else s2.parent i
      assoc := fun o => if o ∈ s2.objects old then some old else s2.assoc o }
  else s

/-- src/Geometry/QuadTree.inl:638-694 `GrowImpl`; `DebugSanityCheckNode` (693) does nothing in release builds. -/
def growImpl (cap : ℕ∞) (s : QuadTree T α) (q : ℕ) : Option (QuadTree T α) :=
  let s1 := s.moveRoot q
  let oldRoot := s1.root
  (allocateNodeGroup cap s1 none).map fun s4 =>
    let nr := s1.size
    let c : V2 α := ⟨(s4.bounding.minPoint.x + s4.bounding.maxPoint.x) * (1 / 2), (s4.bounding.minPoint.y + s4.bounding.maxPoint.y) * (1 / 2)⟩
    let r : V2 α := ⟨s4.bounding.maxPoint.x - c.x, s4.bounding.maxPoint.y - c.y⟩
    let h : V2 α := ⟨r.x * (1 / 2), r.y * (1 / 2)⟩
    { s4 with
      root := nr
      child := Function.update s4.child nr (some oldRoot)
      parent := fun i => if oldRoot ≤ i ∧ i < oldRoot + 4 then some nr else s4.parent i
      radius := fun i => if i = nr then r else if oldRoot ≤ i ∧ i < oldRoot + 4 then h else s4.radius i
      center := fun i =>
        if i = nr then c
        else if i = oldRoot then ⟨c.x - h.x, c.y - h.y⟩
        else if i = oldRoot + 1 then ⟨c.x + h.x, c.y - h.y⟩
        else if i = oldRoot + 2 then ⟨c.x - h.x, c.y + h.y⟩
        else if i = oldRoot + 3 then ⟨c.x + h.x, c.y + h.y⟩
        else s4.center i }

/-- src/Geometry/QuadTree.inl:598-606 `GrowRootTopLeft`. -/
def growTopLeft (cap : ℕ∞) (s : QuadTree T α) : Option (QuadTree T α) :=
  let b := s.bounding
  growImpl cap { s with bounding :=
    ⟨⟨b.minPoint.x - (b.maxPoint.x - b.minPoint.x), b.minPoint.y - (b.maxPoint.y - b.minPoint.y)⟩, b.maxPoint⟩ } 3

/-- src/Geometry/QuadTree.inl:608-616 `GrowRootTopRight`. -/
def growTopRight (cap : ℕ∞) (s : QuadTree T α) : Option (QuadTree T α) :=
  let b := s.bounding
  growImpl cap { s with bounding :=
    ⟨⟨b.minPoint.x, b.minPoint.y - (b.maxPoint.y - b.minPoint.y)⟩, ⟨b.maxPoint.x + (b.maxPoint.x - b.minPoint.x), b.maxPoint.y⟩⟩ } 2

/-- src/Geometry/QuadTree.inl:618-626 `GrowRootBottomLeft`. -/
def growBottomLeft (cap : ℕ∞) (s : QuadTree T α) : Option (QuadTree T α) :=
  let b := s.bounding
  growImpl cap { s with bounding :=
    ⟨⟨b.minPoint.x - (b.maxPoint.x - b.minPoint.x), b.minPoint.y⟩, ⟨b.maxPoint.x, b.maxPoint.y + (b.maxPoint.y - b.minPoint.y)⟩⟩ } 1

/-- src/Geometry/QuadTree.inl:628-636 `GrowRootBottomRight`. -/
def growBottomRight (cap : ℕ∞) (s : QuadTree T α) : Option (QuadTree T α) :=
  let b := s.bounding
  growImpl cap { s with bounding :=
    ⟨b.minPoint, ⟨b.maxPoint.x + (b.maxPoint.x - b.minPoint.x), b.maxPoint.y + (b.maxPoint.y - b.minPoint.y)⟩⟩ } 0

/-- src/Geometry/QuadTree.inl:45-112 `Add(object)`: `g` bounds the number of times the root grows, `f` is the
budget of `addAt`. -/
def add (cap : ℕ∞) (box : T → Rect α) (f : ℕ) : ℕ → QuadTree T α → T → Option (QuadTree T α)
  | g, s, o =>
    let b := box o
    let bb := s.bounding
    let again (grow : QuadTree T α → Option (QuadTree T α)) : Option (QuadTree T α) :=
      match g with
      | 0 => none
      | g + 1 => (grow s).bind fun s1 => add cap box f g s1 o
    if b.minPoint.x ≥ bb.minPoint.x then
      if b.maxPoint.x ≤ bb.maxPoint.x then
        if b.minPoint.y ≥ bb.minPoint.y then
          if b.maxPoint.y ≤ bb.maxPoint.y then addAt cap box f s o s.root
          else again (growBottomRight cap)
        else again (growTopRight cap)
      else if b.minPoint.y < bb.minPoint.y then again (growTopRight cap)
      else again (growBottomRight cap)
    else if b.minPoint.y < bb.minPoint.y then again (growTopLeft cap)
    else again (growBottomLeft cap)

/-- src/Geometry/QuadTree.h:86-97 `Node::Remove`. -/
def nodeRemove (s : QuadTree T α) (o : T) (n : ℕ) : QuadTree T α :=
  match (s.objects n).findIdx? (· = o) with
  | none => s
  | some i => { s with assoc := Function.update s.assoc o none, objects := Function.update s.objects n (swapPop (s.objects n) i) }

/-- src/Geometry/QuadTree.inl:114-126 `Remove`. A pointer to a node that no longer exists is dangling: `none`. -/
def remove (s : QuadTree T α) (o : T) : Option (QuadTree T α) :=
  match s.assoc o with
  | none => some s
  | some n => if n < s.size then some (s.nodeRemove o n) else none

/-- src/Geometry/QuadTree.inl:726-737 `NumObjects`. -/
def numObjects (s : QuadTree T α) : ℕ := ((List.range s.size).map fun i => (s.objects i).length).sum

/-- src/Geometry/QuadTree.h:99-102 `ComputeAABB`. -/
def nodeRect (s : QuadTree T α) (n : ℕ) : Rect α :=
  ⟨⟨(s.center n).x - (s.radius n).x, (s.center n).y - (s.radius n).y⟩, ⟨(s.center n).x + (s.radius n).x, (s.center n).y + (s.radius n).y⟩⟩

/-- src/Geometry/QuadTree.inl:315-355, the loop of `AABBQuery`; the stack is a list with the top first. `stop` is the
answer of the callback for a node; the result is the list of nodes the callback is called with. -/
def queryLoop (s : QuadTree T α) (q : Rect α) (stop : ℕ → Bool) : ℕ → List ℕ → Option (List ℕ)
  | _, [] => some []
  | 0, _ :: _ => none
  | f + 1, i :: stack =>
    let callback := !(s.objects i).isEmpty
    if callback && stop i then some [i] else
    let stack' : List ℕ := match s.child i with
      | none => stack
      | some c =>
        let ctr := s.center i
        let st := if q.minPoint.x ≤ ctr.x ∧ q.minPoint.y ≤ ctr.y then c :: stack else stack
        let st := if q.maxPoint.x ≥ ctr.x ∧ q.maxPoint.y ≥ ctr.y then (c + 3) :: st else st
        let st := if q.minPoint.x ≤ ctr.x ∧ q.maxPoint.y ≥ ctr.y then (c + 2) :: st else st
        if q.maxPoint.x ≥ ctr.x ∧ q.minPoint.y ≤ ctr.y then (c + 1) :: st else st
    (queryLoop s q stop f stack').map fun l => if callback then i :: l else l

/-- src/Geometry/QuadTree.inl:303-356 `AABBQuery`. -/
def aabbQuery (s : QuadTree T α) (q : Rect α) (stop : ℕ → Bool) (f : ℕ) : Option (List ℕ) :=
  if s.size = 0 || !q.intersects s.bounding then some [] else queryLoop s q stop f [s.root]

/-- src/Geometry/QuadTree.inl:379-390: the ancestors of a node, by following `parent`. -/
def ancestors (s : QuadTree T α) : ℕ → Option ℕ → Option (List ℕ)
  | _, none => some []
  | 0, some _ => none
  | f + 1, some n => (ancestors s f (s.parent n)).map fun l => n :: l

/-- src/Geometry/QuadTree.inl:364-393 the callback of `CollidingPairsQuery` on a node: the pairs it reports. -/
def pairsAt (s : QuadTree T α) (box : T → Rect α) (q : Rect α) (f : ℕ) (n : ℕ) : Option (List (T × T)) :=
  let objs := s.objects n
  (s.ancestors f (s.parent n)).map fun anc =>
    (List.range objs.length).flatMap fun i =>
      match objs[i]? with
      | none => []
      | some a =>
        if !q.intersects (box a) then []
        else ((objs.drop (i + 1)).filter fun b => (box a).intersects (box b)).map (fun b => (a, b)) ++
          anc.flatMap fun m => ((s.objects m).filter fun b => (box a).intersects (box b)).map fun b => (a, b)

/-- src/Geometry/QuadTree.inl:396-404 `CollidingPairsQuery`: all reported pairs, in order. -/
def collidingPairs (s : QuadTree T α) (box : T → Rect α) (q : Rect α) (f : ℕ) : Option (List (T × T)) :=
  (s.aabbQuery q (fun _ => false) f).bind fun ns => (ns.mapM fun n => s.pairsAt box q f n).map List.flatten

end QuadTree
end MGL
