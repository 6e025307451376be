import Verif.Model.QuadTree

/-! Model of the counting functions of `QuadTree` (src/Geometry/QuadTree.inl). The `int` counters are natural numbers: they are at most the
number of nodes, for which room for 200000 is reserved (QuadTree.h:129). -/

namespace MGL
namespace QuadTree
variable {T α : Type*}

/-- src/Geometry/QuadTree.inl:697-700 `NumNodes`: the difference is cut off at zero, as that of natural numbers is. For an empty
tree the difference wraps around as a `size_t`, and its conversion to `int` is negative again. -/
def numNodes (s : QuadTree T α) : ℕ := s.size - 3

/-- src/Geometry/QuadTree.inl:702-712 `NumLeaves`. -/
def numLeaves (s : QuadTree T α) : ℕ :=
  (List.range s.size).countP fun i => (decide (i ≤ s.root) || decide (i ≥ s.root + 4)) && (s.child i).isNone

/-- src/Geometry/QuadTree.inl:714-724 `NumInnerNodes`. -/
def numInnerNodes (s : QuadTree T α) : ℕ :=
  (List.range s.size).countP fun i => (decide (i ≤ s.root) || decide (i ≥ s.root + 4)) && !(s.child i).isNone

/-- src/Geometry/QuadTree.inl:739-748 `TreeHeight(node)`: the first argument is the depth of the recursion that is allowed. -/
def nodeHeight (s : QuadTree T α) : ℕ → ℕ → Option ℕ
  | 0, _ => none
  | f + 1, n =>
    match s.child n with
    | none => some 1
    | some c => do
      let a ← nodeHeight s f c
      let b ← nodeHeight s f (c + 1)
      let d ← nodeHeight s f (c + 2)
      let e ← nodeHeight s f (c + 3)
      some (1 + max (max a b) (max d e))

/-- src/Geometry/QuadTree.inl:750-756 `TreeHeight()`. -/
def treeHeight (s : QuadTree T α) (f : ℕ) : Option ℕ := if s.size = 0 then some 0 else s.nodeHeight f s.root

end QuadTree
end MGL
