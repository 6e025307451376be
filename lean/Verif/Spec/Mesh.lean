import Mathlib.Data.List.Rotate
import Mathlib.Data.List.Nodup
import Mathlib.Data.Int.Basic
import Mathlib.Logic.Equiv.Basic
import Mathlib.Data.List.Forall2

/-! Polygon meshes as combinatorial objects: a face is the cyclic list of the numbers of its vertices. Nothing here mentions
the code. -/

namespace MGL.Spec

/-- The directed edges of a face: from every vertex to the next one, and from the last back to the first. -/
def faceEdges (f : List ℤ) : List (ℤ × ℤ) := f.zip (f.rotate 1)

/-- The directed edges of all faces that have an edge, that is at least two vertices. -/
def meshEdges (fs : List (List ℤ)) : List (ℤ × ℤ) := (fs.filter fun f => 2 ≤ f.length).flatMap faceEdges

/-- A closed, consistently oriented surface: no directed edge is used twice, and the reverse of every edge is used. -/
def ClosedMesh (fs : List (List ℤ)) : Prop :=
  (meshEdges fs).Nodup ∧ ∀ a b, (a, b) ∈ meshEdges fs → (b, a) ∈ meshEdges fs

/-- A surface without boundary: every directed edge is used as often as its reverse. -/
def NoBoundary (fs : List (List ℤ)) : Prop := ∀ a b, (meshEdges fs).count (a, b) = (meshEdges fs).count (b, a)

/-- Faces that are proper polygons over `n` vertices: at least three corners, no corner twice, every corner a vertex number. -/
def ValidFaces (n : ℕ) (fs : List (List ℤ)) : Prop :=
  ∀ f ∈ fs, 3 ≤ f.length ∧ f.Nodup ∧ ∀ i ∈ f, 0 ≤ i ∧ i < n

/-- Two faces are the same cyclic list. -/
def SameFace (f g : List ℤ) : Prop := ∃ k, g = f.rotate k

/-- The two lists hold the same cyclic lists, up to the order. -/
def SameFaces {β : Type*} (A B : List (List β)) : Prop := ∃ l, List.Forall₂ (fun a b => ∃ k, b = a.rotate k) A l ∧ l.Perm B

/-- The mesh `(v', f')` is the mesh `(v, f)` with the vertices renumbered by a bijection, and its faces turned and listed in
another order. -/
def Renumbered {β : Type*} (v : List β) (f : List (List ℤ)) (v' : List β) (f' : List (List ℤ)) : Prop :=
  v'.length = v.length ∧ ∃ π : Equiv.Perm ℤ, (∀ k : ℕ, k < v.length → ∃ m : ℕ, π k = m ∧ v'[m]? = v[k]?) ∧
    SameFaces (f.map (List.map π)) f'

end MGL.Spec
