import Verif.Model.AABB
import Verif.Spec.KdTree

/-! Model of class `KdTree<T>` (src/Geometry/KDTree.h, src/Geometry/KDTree.inl).

The vectors `nodes` and `buckets` are functions with a size; a pointer to a node is its index. What they contain at and
beyond the size is arbitrary. A bucket is the list of the indices in front of its sentinel; the model has no object with
the index `0xFFFFFFFF` of the sentinel. The vector of bytes `objects` is a list of objects. The member function
`BoundingAABB` of the objects is given by a function `box : T → AABB α`. The box around no objects, with its minimum at
plus and its maximum at minus infinity, is `none`. The memory of the buckets, which `Clear` leaks, is not modelled. -/

namespace MGL

/-- Assignment to `operator[]` of a vector (src/Math/float3.h:94, 113). -/
def V3.set {α : Type*} (v : V3 α) (i : Fin 3) (x : α) : V3 α :=
  match i with
  | 0 => ⟨x, v.y, v.z⟩
  | 1 => ⟨v.x, x, v.z⟩
  | 2 => ⟨v.x, v.y, x⟩

/-- src/Geometry/KDTree.h:38-60 `KdTreeNode`: `leaf` when `splitAxis` is `AxisNone`. The child index of a leaf is not
modelled, it is never read. -/
inductive KdNode (α : Type*) where
  | leaf (bucketIndex : ℕ)
  | inner (splitAxis : Fin 3) (splitPos : α) (childIndex : ℕ)
  deriving DecidableEq

/-- src/Geometry/KDTree.h:180-199, the members of `KdTree`. -/
structure KdTree (T α : Type*) where
  size : ℕ
  nodes : ℕ → KdNode α
  objects : List T
  numBuckets : ℕ
  buckets : ℕ → List ℕ
  rootAABB : Option (AABB α)

namespace KdTree
variable {T α : Type*} [Field α] [LinearOrder α]

/-- src/Geometry/KDTree.h:180 `maxTreeDepth`. -/
def maxTreeDepth : ℕ := 30

/-- src/Geometry/AABB.h:445 `Enclose(aabb)`, for a box that may be the negative infinite one. -/
def enclose (a : Option (AABB α)) (b : AABB α) : Option (AABB α) :=
  match a with
  | none => some b
  | some a => some (a.encloseMinMax b.minPoint b.maxPoint)

/-- src/Geometry/KDTree.inl:178-182 `Object(objectIndex).BoundingAABB()`; `none` beyond the objects. -/
def objectBox (box : T → AABB α) (objs : List T) (o : ℕ) : Option (AABB α) := objs[o]?.map box

/-- src/Geometry/KDTree.inl:48-60 `BoundingAABB(bucket)`. -/
def boundingAABB (box : T → AABB α) (objs : List T) (bucket : List ℕ) : Option (AABB α) :=
  bucket.foldl (fun a o => match objectBox box objs o with | none => a | some b => enclose a b) none

/-- src/Geometry/KDTree.inl:94-97: whether an object goes to the left and to the right child. -/
def place (leftAABB rightAABB aabb : AABB α) : Bool × Bool :=
  let left := leftAABB.intersectsAABB aabb
  let right := rightAABB.intersectsAABB aabb
  if !left && !right then (true, true) else (left, right)

/-- src/Geometry/KDTree.inl:94-97, for the object with the given index. -/
def placeObject (box : T → AABB α) (objs : List T) (leftAABB rightAABB : AABB α) (o : ℕ) : Bool × Bool :=
  match objectBox box objs o with
  | none => (false, false)
  | some b => place leftAABB rightAABB b

/-- src/Geometry/KDTree.inl:73 the split axis. -/
def splitAxis (a : AABB α) : Fin 3 := f3MaxElementIndex a.size

/-- src/Geometry/KDTree.inl:74 the split position. -/
def splitPos (a : AABB α) : α := a.centerPoint.get (splitAxis a)

/-- src/Geometry/KDTree.inl:77, 79. -/
def leftAABB (a : AABB α) : AABB α := ⟨a.minPoint, a.maxPoint.set (splitAxis a) (splitPos a)⟩

/-- src/Geometry/KDTree.inl:78, 80. -/
def rightAABB (a : AABB α) : AABB α := ⟨a.minPoint.set (splitAxis a) (splitPos a), a.maxPoint⟩

/-- src/Geometry/KDTree.inl:91-111, the left bucket. -/
def leftBucket (box : T → AABB α) (objs : List T) (a : AABB α) (bucket : List ℕ) : List ℕ :=
  bucket.filter fun o => (placeObject box objs (leftAABB a) (rightAABB a) o).1

/-- src/Geometry/KDTree.inl:91-111, the right bucket. -/
def rightBucket (box : T → AABB α) (objs : List T) (a : AABB α) (bucket : List ℕ) : List ℕ :=
  bucket.filter fun o => (placeObject box objs (leftAABB a) (rightAABB a) o).2

/-- src/Geometry/KDTree.inl:121-143: the leaf `i` with the bucket `b` becomes an inner node with two new leaves.
`AllocateNodePair` (28-38) is included: the index of the pair is the old size. -/
def makeInner (s : KdTree T α) (i b : ℕ) (axis : Fin 3) (pos : α) (lb rb : List ℕ) : KdTree T α :=
  { s with
    size := s.size + 2
    nodes := fun j =>
      if j = i then .inner axis pos s.size
      else if j = s.size then .leaf b
      else if j = s.size + 1 then .leaf s.numBuckets
      else s.nodes j
    numBuckets := s.numBuckets + 1
    buckets := fun k => if k = b then lb else if k = s.numBuckets then rb else s.buckets k }

/-- src/Geometry/KDTree.inl:62-152 `SplitLeaf(nodeIndex, nodeAABB, numObjectsInBucket, leafDepth)`. The first argument is
`maxTreeDepth - leafDepth`, which is zero when the function returns at once in line 66. The function is only called for
leaves, and its recursive calls only for buckets of more than 16 objects, whose box is never `none`. -/
def splitLeaf (box : T → AABB α) : ℕ → KdTree T α → ℕ → AABB α → ℕ → KdTree T α
  | 0, s, _, _, _ => s
  | d + 1, s, i, a, n =>
    match s.nodes i with
    | .inner _ _ _ => s
    | .leaf b =>
      let lb := leftBucket box s.objects a (s.buckets b)
      let rb := rightBucket box s.objects a (s.buckets b)
      if lb.length = n ∨ rb.length = n then s else
      let c := s.size
      let s1 := s.makeInner i b (splitAxis a) (splitPos a) lb rb
      let s2 := (boundingAABB box s.objects lb).elim s1 fun la =>
        if lb.length > 16 then splitLeaf box d s1 c la lb.length else s1
      (boundingAABB box s.objects rb).elim s2 fun ra =>
        if rb.length > 16 then splitLeaf box d s2 (c + 1) ra rb.length else s2

/-- src/Geometry/KDTree.h:83-87, the constructor. The member `rootAABB` is not initialised: `g` is what it happens to be. -/
def start (g : Option (AABB α)) : KdTree T α := ⟨0, fun _ => .leaf 0, [], 0, fun _ => [], g⟩

/-- src/Geometry/KDTree.inl:236-243 `AddObjects`. -/
def addObjects (s : KdTree T α) (os : List T) : KdTree T α := { s with objects := s.objects ++ os }

/-- src/Geometry/KDTree.inl:245-276, `Build` up to the call of `SplitLeaf`. -/
def buildRoot (box : T → AABB α) (s : KdTree T α) : KdTree T α :=
  { s with
    size := 2
    nodes := fun i => if i = 1 then .leaf 1 else .leaf 0
    numBuckets := 2
    buckets := fun k => if k = 1 then List.range s.objects.length else []
    rootAABB := boundingAABB box s.objects (List.range s.objects.length) }

/-- src/Geometry/KDTree.inl:245-284 `Build`. Without objects the call of `SplitLeaf` returns in line 118. -/
def build (box : T → AABB α) (s : KdTree T α) : KdTree T α :=
  let s1 := s.buildRoot box
  match s1.rootAABB with
  | none => s1
  | some a => splitLeaf box (maxTreeDepth - 1) s1 1 a s.objects.length

/-- src/Geometry/KDTree.inl:286-295 `Clear`. -/
def clear (s : KdTree T α) : KdTree T α := { s with size := 0, objects := [], numBuckets := 0 }

/-- One call of `AddObjects`, `Build` or `Clear`, src/Geometry/KDTree.inl:236-303. -/
def step (box : T → AABB α) (s : KdTree T α) : KdOp T → KdTree T α
  | .addObjects os => s.addObjects os
  | .build => s.build box
  | .clear => s.clear

/-- A history of calls on a new tree (no source line: user code that calls src/Geometry/KDTree.inl:236-303). -/
def run (box : T → AABB α) (g : Option (AABB α)) (ops : List (KdOp T)) : KdTree T α := ops.foldl (step box) (start g)

/-- src/Geometry/KDTree.inl:204-207 `NumObjects`. -/
def numObjects (s : KdTree T α) : ℕ := s.objects.length

/-- src/Geometry/KDTree.inl:186-189 `NumNodes`. The difference is taken in `size_t` and converted to `int`: for no nodes at
all it is -1. -/
def numNodes (s : KdTree T α) : ℤ := s.size - 1

/-- src/Geometry/KDTree.h:56 `IsLeaf`. -/
def isLeaf (s : KdTree T α) (i : ℕ) : Bool := match s.nodes i with | .leaf _ => true | .inner _ _ _ => false

/-- src/Geometry/KDTree.inl:193-201 `NumLeaves`. -/
def numLeaves (s : KdTree T α) : ℕ := ((List.range' 1 (s.size - 1)).filter fun i => s.isLeaf i).length

/-- src/Geometry/KDTree.inl:211-219 `NumInnerNodes`. -/
def numInnerNodes (s : KdTree T α) : ℕ := ((List.range' 1 (s.size - 1)).filter fun i => !s.isLeaf i).length

/-- src/Geometry/KDTree.inl:222-228 `TreeHeight(nodeIndex)`, with a budget for the recursion. -/
def treeHeightAt (s : KdTree T α) : ℕ → ℕ → Option ℕ
  | 0, _ => none
  | f + 1, i =>
    match s.nodes i with
    | .leaf _ => some 1
    | .inner _ _ c => (s.treeHeightAt f c).bind fun l => (s.treeHeightAt f (c + 1)).map fun r => 1 + max l r

/-- src/Geometry/KDTree.inl:231-234 `TreeHeight()`. -/
def treeHeight (s : KdTree T α) (f : ℕ) : Option ℕ := s.treeHeightAt f 1

/-- src/Geometry/KDTree.inl:160-170 `Bucket(leaf.bucketIndex)`, the objects of a leaf. -/
def leafObjects (s : KdTree T α) (i : ℕ) : List ℕ := match s.nodes i with | .leaf b => s.buckets b | .inner _ _ _ => []

/-- src/Geometry/KDTree.inl:298 `Root()`. -/
def root (s : KdTree T α) : Option ℕ := if s.size > 1 then some 1 else none

/-- src/Geometry/AABB.cpp:942-969 `Intersects`, against a box that may be the negative infinite one. -/
def meets (q : AABB α) (a : Option (AABB α)) : Bool := match a with | none => false | some a => q.intersectsAABB a

/-- src/Geometry/KDTree.inl:481-491 and 494-504, one child: `none` when the stack, of the size `maxTreeDepth*2`, would
overflow. In the result the flag says that the callback asked to stop, and the list is the calls made. -/
def queryChild (s : KdTree T α) (stop : ℕ → Bool) (c : ℕ) (stack : List ℕ) : Option (Bool × List ℕ × List ℕ) :=
  if s.isLeaf c then some (stop c, [c], stack)
  else if stack.length < maxTreeDepth * 2 then some (false, [], c :: stack)
  else none

/-- src/Geometry/KDTree.inl:472-505, the loop of `AABBQuery` with a step budget. The stack has its top first. The result
is the list of the leaves for which the callback is called; `none` is undefined behaviour or the end of the budget. -/
def queryLoop (s : KdTree T α) (q : AABB α) (stop : ℕ → Bool) : ℕ → List ℕ → Option (List ℕ)
  | _, [] => some []
  | 0, _ :: _ => none
  | f + 1, i :: stack =>
    match s.nodes i with
    | .leaf _ => none
    | .inner axis pos c =>
      (if q.minPoint.get axis ≤ pos then s.queryChild stop c stack else some (false, [], stack)).bind fun r1 =>
      if r1.1 then some r1.2.1 else
      (if q.maxPoint.get axis ≥ pos then s.queryChild stop (c + 1) r1.2.2 else some (false, [], r1.2.2)).bind fun r2 =>
      if r2.1 then some (r1.2.1 ++ r2.2.1) else
      (queryLoop s q stop f r2.2.2).map fun calls => r1.2.1 ++ (r2.2.1 ++ calls)

/-- src/Geometry/KDTree.inl:453-506 `AABBQuery`. `stop` is the answer of the callback for a leaf. -/
def aabbQuery (s : KdTree T α) (q : AABB α) (stop : ℕ → Bool) (f : ℕ) : Option (List ℕ) :=
  if !meets q s.rootAABB then some []
  else match s.root with
    | none => none
    | some i => if s.isLeaf i then some [i] else s.queryLoop q stop f [i]

end KdTree
end MGL
