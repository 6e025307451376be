import Verif.Model.KdTree

/-! Model of `KdTree::IsPartOfThisTree` (src/Geometry/KDTree.inl). A pointer to a node is the index of the node in the vector of
nodes; pointers to nodes of other trees are not modelled. -/

namespace MGL
namespace KdTree
variable {T α : Type*}

/-- src/Geometry/KDTree.inl:313-323 `IsPartOfThisTree(root, node)`, with a budget for the recursion. -/
def isPartAt (s : KdTree T α) : ℕ → ℕ → ℕ → Option Bool
  | 0, _, _ => none
  | f + 1, root, node =>
    if root = node then some true
    else
      match s.nodes root with
      | .leaf _ => some false
      | .inner _ _ c => (s.isPartAt f c node).bind fun a => if a then some true else s.isPartAt f (c + 1) node

/-- src/Geometry/KDTree.inl:303-311 `IsPartOfThisTree(node)`; `none` as `node` is the null pointer. -/
def isPartOfThisTree (s : KdTree T α) (f : ℕ) (node : Option ℕ) : Option Bool :=
  match s.root with
  | none => some false
  | some r =>
    match node with
    | none => some false
    | some n => s.isPartAt f r n

end KdTree
end MGL
