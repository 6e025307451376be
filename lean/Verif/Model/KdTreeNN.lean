import Verif.Model.KdTree

/-! Model of `KdTree<T>::NearestObjects` (src/Geometry/KDTree.inl:676-724). The container `MaxHeap` comes from another library;
here the queue is the list of its elements, and `pick n queue` is the position of the element that `Front` shows, where `n` is
the number of steps left to do. What the container promises is a hypothesis of the theorems. -/

namespace MGL

/-- src/Geometry/KDTree.inl:677-684 `NearestObjectsTraversalNode`. The pointer to a node is its index. The box around no
objects is `none`. -/
structure KdEntry where
  d : ℝ
  aabb : Option (AABB ℝ)
  node : ℕ

namespace KdTree
variable {T σ : Type*}

/-- src/Geometry/KDTree.inl:709-713, the entry of the left child. -/
noncomputable def leftEntry (point : V3 ℝ) (a : AABB ℝ) (axis : Fin 3) (pos : ℝ) (child : ℕ) : KdEntry :=
  let b : AABB ℝ := ⟨a.minPoint, a.maxPoint.set axis pos⟩
  ⟨b.distance point, some b, child⟩

/-- src/Geometry/KDTree.inl:716-720, the entry of the right child. -/
noncomputable def rightEntry (point : V3 ℝ) (a : AABB ℝ) (axis : Fin 3) (pos : ℝ) (child : ℕ) : KdEntry :=
  let b : AABB ℝ := ⟨a.minPoint, (a.maxPoint.set axis pos).set axis (a.maxPoint.get axis)⟩
  let b : AABB ℝ := ⟨b.minPoint.set axis pos, b.maxPoint⟩
  ⟨b.distance point, some b, child + 1⟩

/-- src/Geometry/KDTree.inl:697-722, the loop of `NearestObjects` with a step budget. `cb` is the callback: it changes the
state of the caller and answers whether to stop. Its answer is dropped, as in line 703. `none` is the end of the budget, or a
position beyond the queue. An inner node with the box around no objects does not occur and gives `none`. -/
noncomputable def nearestLoop (s : KdTree T ℝ) (point : V3 ℝ) (pick : ℕ → List KdEntry → ℕ) (cb : σ → KdEntry → σ × Bool) :
    ℕ → List KdEntry → σ → Option σ
  | _, [], st => some st
  | 0, _ :: _, _ => none
  | f + 1, q :: qs, st =>
    match (q :: qs)[pick f (q :: qs)]? with
    | none => none
    | some t =>
      let rest := (q :: qs).eraseIdx (pick f (q :: qs))
      match s.nodes t.node with
      | .leaf _ => nearestLoop s point pick cb f rest (cb st t).1
      | .inner axis pos c =>
        match t.aabb with
        | none => none
        | some a => nearestLoop s point pick cb f (rightEntry point a axis pos c :: leftEntry point a axis pos c :: rest) st

/-- src/Geometry/KDTree.inl:686-723 `NearestObjects`; `none` when there is no root node to read. -/
noncomputable def nearestObjects (s : KdTree T ℝ) (point : V3 ℝ) (pick : ℕ → List KdEntry → ℕ) (cb : σ → KdEntry → σ × Bool)
    (f : ℕ) (st : σ) : Option σ :=
  match s.root with
  | none => none
  | some i => s.nearestLoop point pick cb f [⟨0, s.rootAABB, i⟩] st

end KdTree
end MGL
