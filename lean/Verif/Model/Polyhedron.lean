import Verif.Spec.Vec3
import Verif.Model.CArith

/-! Model of the index structure of class `Polyhedron` (src/Geometry/Polyhedron.cpp, Polyhedron.h): the vertex array `v` and
the faces `f`, each the array of its vertex indices (`int`, hence ℤ). `vec` is modelled without rounding. Reading the vertex
array out of range is undefined behaviour: `none`. A `std::set` is the strictly increasing list of its elements. `assume` and
the log messages do nothing. -/

namespace MGL

/-- src/Geometry/Polyhedron.h:31-62 `class Polyhedron`, its two data members (`struct Face` is its member `v`). -/
structure Polyhedron (α : Type) where
  v : List (V3 α)
  f : List (List ℤ)
deriving DecidableEq

/-- `std::set::insert`, on the strictly increasing list of the elements; used at src/Geometry/Polyhedron.cpp:166, 634, 1489
and 2672. Elements that are not ordered either way are equal. -/
def stdSetInsert {β : Type*} (lt : β → β → Bool) (e : β) : List β → List β
  | [] => [e]
  | x :: xs => if lt e x then e :: x :: xs else if lt x e then x :: stdSetInsert lt e xs else x :: xs

/-- `operator<` of `std::pair<int, int>`, the order of the sets at src/Geometry/Polyhedron.cpp:156, 613 and 1469. -/
def pairLt (a b : ℤ × ℤ) : Bool := decide (a.1 < b.1 ∨ (¬ b.1 < a.1 ∧ a.2 < b.2))

namespace Polyhedron
variable {α : Type}

/-- src/Geometry/Polyhedron.cpp:127-133 `Vertex`: `none` outside the array. -/
def vertex (p : Polyhedron α) (i : ℤ) : Option (V3 α) := if 0 ≤ i then p.v[i.toNat]? else none

/-- src/Geometry/Polyhedron.cpp:86-90 `Face::FlipWindingOrder`: for `i < v.size()/2` the entries `i` and `v.size()-1-i` are
swapped. -/
def flipFace (f : List ℤ) : List ℤ :=
  (List.range (f.length / 2)).foldl (fun g i => (g.set i (g.getD (f.length - 1 - i) 0)).set (f.length - 1 - i) (g.getD i 0)) f

/-- src/Geometry/Polyhedron.cpp:605-609 `FlipWindingOrder`. -/
def flipWindingOrder (p : Polyhedron α) : Polyhedron α := { p with f := p.f.map flipFace }

/-- src/Geometry/Polyhedron.cpp:119-125 `NumEdges`; the sum is not negative, so `/` is the floor. -/
def numEdges (p : Polyhedron α) : ℤ := (p.f.foldl (fun n f => n + (f.length : ℤ)) 0) / 2

/-- src/Geometry/Polyhedron.cpp:163-168 `EdgeIndices`, the inner loop over one face: `x` is the previous vertex. -/
def edgeIndicesFace (x : ℤ) : List ℤ → List (ℤ × ℤ) → List (ℤ × ℤ)
  | [], s => s
  | y :: ys, s => edgeIndicesFace y ys (stdSetInsert pairLt (min x y, max x y) s)

/-- src/Geometry/Polyhedron.cpp:157-169 `EdgeIndices`, one round of the loop over the faces. -/
def edgeIndicesStep (s : List (ℤ × ℤ)) (f : List ℤ) : List (ℤ × ℤ) :=
  match f.getLast? with
  | some x => if f.length < 3 then s else edgeIndicesFace x f s
  | none => s

/-- src/Geometry/Polyhedron.cpp:154-174 `EdgeIndices`. -/
def edgeIndices (p : Polyhedron α) : List (ℤ × ℤ) := p.f.foldl edgeIndicesStep []

/-- src/Geometry/Polyhedron.cpp:185-195 `FacePolygon`: the vertices of the face. -/
def facePolygon (p : Polyhedron α) (k : ℕ) : Option (List (V3 α)) := do
  let f ← p.f[k]?
  f.mapM p.vertex

/-- src/Geometry/Polyhedron.cpp:176-183 `Faces`: the vertex lists of all faces. -/
def faces (p : Polyhedron α) : Option (List (List (V3 α))) := p.f.mapM fun f => f.mapM p.vertex

/-- src/Geometry/Polyhedron.cpp:582-603 `FaceIndicesValid`. -/
def faceIndicesValid (p : Polyhedron α) : Bool :=
  (p.f.all fun f => f.all fun i => !(decide (i < 0) || decide (i ≥ (p.v.length : ℤ))))
    && (p.f.all fun f => !decide (f.length < 3))
    && (p.f.all fun f => (List.range f.length).all fun j =>
        (List.range' (j + 1) (f.length - (j + 1))).all fun k => !decide (f.getD j 0 = f.getD k 0))

/-- src/Geometry/Polyhedron.cpp:622-636 `IsClosed`, the inner loop over one face: `none` is the `return false` of an edge that
is used twice. -/
def closedFace (x : ℤ) : List ℤ → List (ℤ × ℤ) → Option (List (ℤ × ℤ))
  | [], s => some s
  | y :: ys, s => if (x, y) ∈ s then none else closedFace y ys (stdSetInsert pairLt (x, y) s)

/-- src/Geometry/Polyhedron.cpp:613-637 `IsClosed`, the loop over the faces. -/
def closedFaces : List (List ℤ) → List (ℤ × ℤ) → Option (List (ℤ × ℤ))
  | [], s => some s
  | f :: fs, s => match f.getLast? with
    | some x => if f.length ≤ 1 then closedFaces fs s else (closedFace x f s).bind (closedFaces fs)
    | none => closedFaces fs s

/-- src/Geometry/Polyhedron.cpp:611-651 `IsClosed`. -/
def isClosed (p : Polyhedron α) : Bool :=
  match closedFaces p.f [] with
  | none => false
  | some s => s.all fun e => decide ((e.2, e.1) ∈ s)

/-- src/Geometry/Polyhedron.cpp:695-698 `EulerFormulaHolds`. -/
def eulerFormulaHolds (p : Polyhedron α) : Bool := decide ((p.v.length : ℤ) + p.f.length - p.numEdges = 2)

/-- src/Geometry/Polyhedron.cpp:2650-2663 `RemoveDegenerateFaces`: the faces that are kept are moved to the front in order,
then the rest is erased; this is `filter`. -/
def removeDegenerateFaces (p : Polyhedron α) : Polyhedron α := { p with f := p.f.filter fun f => 3 ≤ f.length }

/-- src/Geometry/Polyhedron.cpp:2608-2611 `IntTriCmp`. -/
def intTriCmp (a b : ℤ) : Option ℤ := chk 32 (a - b)

/-- src/Geometry/Polyhedron.cpp:2636-2647 `ArrayBinarySearch`, the loop. The fuel bounds the number of rounds (`none` when it
runs out: the loop has not ended), and also an integer overflow is `none`. -/
def binarySearchLoop (list : List ℤ) (value : ℤ) : ℕ → ℤ → ℤ → ℤ → Option ℤ
  | 0, _, _, _ => none
  | n + 1, left, right, round => do
    let s ← chk 32 (left + right)
    let s ← chk 32 (s + round)
    let middle := Int.tdiv s 2
    let round := if round = 0 then 1 else 0
    let x ← if 0 ≤ middle then list[middle.toNat]? else none
    let order ← intTriCmp x value
    if order = 0 then some middle
    else
      let left' := if order < 0 then middle else left
      let right' := if order < 0 then right else middle
      if left' < right' then binarySearchLoop list value n left' right' round else some (-1)

/-- src/Geometry/Polyhedron.cpp:2622-2648 `ArrayBinarySearch`, for `int` and `IntTriCmp`; the list must not be empty. -/
def arrayBinarySearch (fuel : ℕ) (list : List ℤ) (value : ℤ) : Option ℤ := do
  let x ← list.head?
  let order ← intTriCmp x value
  if order > 0 then some (-1)
  else if order = 0 then some 0
  else
    let right : ℤ := list.length - 1
    let y ← list.getLast?
    let order ← intTriCmp y value
    if order < 0 then some (-1)
    else if order = 0 then some right
    else binarySearchLoop list value fuel 0 right 0

/-- src/Geometry/Polyhedron.cpp:2667-2672 `RemoveRedundantVertices`, the set of the used vertices. -/
def usedVertices (p : Polyhedron α) : List ℤ :=
  p.f.foldl (fun s f => f.foldl (fun s i => stdSetInsert (fun a b => decide (a < b)) i s) s) []

/-- src/Geometry/Polyhedron.cpp:2691-2692 `RemoveRedundantVertices`, the loop that moves the used vertices to the front: `i` is
the next place. -/
def moveVertices : List ℤ → ℕ → List (V3 α) → Option (List (V3 α))
  | [], _, v => some v
  | u :: us, i, v => do
    let x ← if 0 ≤ u then v[u.toNat]? else none
    if i < v.length then moveVertices us (i + 1) (v.set i x) else none

/-- src/Geometry/Polyhedron.cpp:2665-2696 `RemoveRedundantVertices`; `fuel` bounds the rounds of each binary search. -/
def removeRedundantVertices (fuel : ℕ) (p : Polyhedron α) : Option (Polyhedron α) := do
  let used := p.usedVertices
  let f ← p.f.mapM fun f => f.mapM fun i => arrayBinarySearch fuel used i
  let v ← moveVertices used 0 p.v
  some ⟨v.take used.length, f⟩

/-- src/Geometry/Polyhedron.cpp:2992-3009 `GenerateVertexAdjacencyData`, the inner loop over one face: `v0` is the previous
vertex. -/
def adjacencyFace (v0 : ℤ) : List ℤ → List (List ℤ) → Option (List (List ℤ))
  | [], a => some a
  | v1 :: vs, a => do
    let row ← if 0 ≤ v0 then a[v0.toNat]? else none
    adjacencyFace v1 vs (a.set v0.toNat (row ++ [v1]))

/-- src/Geometry/Polyhedron.cpp:2992-3009 `GenerateVertexAdjacencyData`; `back()` of an empty face is undefined. -/
def vertexAdjacency (p : Polyhedron α) : Option (List (List ℤ)) :=
  p.f.foldlM (fun a f => do adjacencyFace (← f.getLast?) f a) (List.replicate p.v.length [])

/-- src/Geometry/Polyhedron.cpp:3117-3132 `SwapVertices`. -/
def swapVertices (p : Polyhedron α) (i j : ℤ) : Option (Polyhedron α) :=
  if i = j then some p
  else do
    let x ← p.vertex i
    let y ← p.vertex j
    some ⟨(p.v.set i.toNat y).set j.toNat x, p.f.map fun f => f.map fun k => if k = i then j else if k = j then i else k⟩

/-- src/Geometry/Polyhedron.cpp:3011-3021 `CmpFaces`; the differences of indices are taken not to overflow. -/
def cmpFaces (a b : List ℤ) : ℤ :=
  if a.length ≠ b.length then (b.length : ℤ) - a.length
  else match (a.zip b).find? fun e => e.1 ≠ e.2 with
    | some (x, y) => x - y
    | none => 0

/-- src/Geometry/Polyhedron.cpp:3031-3036 `CanonicalizeFaceArray`, the first place of the smallest index of a face. -/
def smallestJ (f : List ℤ) : ℕ :=
  (List.range' 1 (f.length - 1)).foldl (fun s j => if f.getD j 0 < f.getD s 0 then j else s) 0

/-- src/Geometry/Polyhedron.cpp:3037-3042 `CanonicalizeFaceArray`, `n` times the first index is moved to the end. -/
def cycleFront : ℕ → List ℤ → List ℤ
  | 0, f => f
  | _ + 1, [] => []
  | n + 1, x :: xs => cycleFront n (xs ++ [x])

/-- src/Geometry/Polyhedron.cpp:3047-3049 `CanonicalizeFaceArray`, the inner loop of the sort for one `i`: `x` is `f[i]`, the
list the faces after it. Result: the new `f[i]` and the new faces after it. -/
def sweepFaces (x : List ℤ) : List (List ℤ) → List ℤ × List (List ℤ)
  | [] => (x, [])
  | y :: ys =>
    if cmpFaces x y > 0 then
      let r := sweepFaces y ys
      (r.1, x :: r.2)
    else
      let r := sweepFaces x ys
      (r.1, y :: r.2)

/-- src/Geometry/Polyhedron.cpp:3046-3049 `CanonicalizeFaceArray`, the sort; the recursion is on the number of faces that are
left. -/
def sortFaces : ℕ → List (List ℤ) → List (List ℤ)
  | 0, fs => fs
  | _ + 1, [] => []
  | n + 1, x :: xs =>
    let r := sweepFaces x xs
    r.1 :: sortFaces n r.2

/-- src/Geometry/Polyhedron.cpp:3023-3050 `CanonicalizeFaceArray`. -/
def canonicalizeFaceArray (p : Polyhedron α) : Polyhedron α :=
  let fs := p.f.map fun f => cycleFront (smallestJ f) f
  { p with f := sortFaces fs.length fs }

/-- src/Geometry/Polyhedron.cpp:3083-3112 `ContainsFace`, the test of one face `f2` of the polyhedron. -/
def faceMatches (face f2 : List ℤ) : Bool :=
  if f2.length ≠ face.length then false
  else match face with
    | [] => true
    | a :: _ =>
      match f2.findIdx? (· == a) with
      | none => false
      | some shift => (List.range f2.length).all fun j =>
          f2.getD ((j + f2.length - shift) % f2.length) 0 == face.getD j 0

/-- src/Geometry/Polyhedron.cpp:3079-3115 `ContainsFace`. -/
def containsFace (p : Polyhedron α) (face : List ℤ) : Bool := p.f.any (faceMatches face)

end Polyhedron
end MGL
