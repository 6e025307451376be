import Verif.Model.Triangle2D
import Verif.Props.Line
import Verif.Props.Triangle

/-! The plane inside space: the theorems about segments and triangles of space carry over. -/

set_option linter.unusedSectionVars false

namespace MGL.Up
variable {α : Type*} [Field α] [LinearOrder α] [IsStrictOrderedRing α]

/-- A point of the plane as a point of the plane `z = 0`. -/
def up (p : V2 α) : V3 α := ⟨p.x, p.y, 0⟩

theorem up_inj {p q : V2 α} (h : up p = up q) : p = q := by
  have h1 := congrArg V3.x h
  have h2 := congrArg V3.y h
  exact V2.ext h1 h2

theorem up_add (p q : V2 α) : up (p + q) = up p + up q := by ext <;> simp [up]
theorem up_sub (p q : V2 α) : up (p - q) = up p - up q := by ext <;> simp [up]
theorem up_smul (t : α) (p : V2 α) : up (t • p) = t • up p := by ext <;> simp [up]
theorem dot_up (p q : V2 α) : V3.dot (up p) (up q) = V2.dot p q := by simp [up, V3.dot, V2.dot]
theorem lenSq_up (p : V2 α) : V3.lenSq (up p) = V2.lenSq p := dot_up p p
theorem distSq_up (p q : V2 α) : V3.distSq (up p) (up q) = Spec.distSq2 p q := by
  rw [V3.distSq_eq]; simp [up, Spec.distSq2]; ring
theorem distSqM (p q : V2 α) : Seg2.distSq' p q = Spec.distSq2 p q := by unfold Seg2.distSq' Spec.distSq2; ring
theorem dist2_comm (p q : V2 α) : Spec.distSq2 p q = Spec.distSq2 q p := by unfold Spec.distSq2; ring

theorem up_seg {p a b : V2 α} (h : p ∈ Spec.seg2 a b) : up p ∈ Spec.seg (up a) (up b) := by
  obtain ⟨t, h0, h1, rfl⟩ := h
  exact ⟨t, h0, h1, by rw [up_add, up_smul, up_sub]⟩

theorem of_up_seg {p a b : V2 α} (h : up p ∈ Spec.seg (up a) (up b)) : p ∈ Spec.seg2 a b := by
  obtain ⟨t, h0, h1, h2⟩ := h
  exact ⟨t, h0, h1, up_inj (by rw [h2, up_add, up_smul, up_sub])⟩

theorem up_tri {p a b c : V2 α} (h : p ∈ Spec.tri2 a b c) : up p ∈ Spec.tri (up a) (up b) (up c) := by
  obtain ⟨u, v, w, h0, h1, h2, h3, rfl⟩ := h
  exact ⟨u, v, w, h0, h1, h2, h3, by simp only [up_add, up_smul]⟩

theorem tri_up {x : V3 α} {a b c : V2 α} (h : x ∈ Spec.tri (up a) (up b) (up c)) : ∃ p ∈ Spec.tri2 a b c, x = up p := by
  obtain ⟨u, v, w, h0, h1, h2, h3, rfl⟩ := h
  exact ⟨_, ⟨u, v, w, h0, h1, h2, h3, rfl⟩, by simp only [up_add, up_smul]⟩

theorem of_up_tri {p a b c : V2 α} (h : up p ∈ Spec.tri (up a) (up b) (up c)) : p ∈ Spec.tri2 a b c := by
  obtain ⟨q, hq, e⟩ := tri_up h
  rw [up_inj e]; exact hq

/-- A segment of the plane as a segment of space. -/
def upS (s : Seg2 α) : LineSeg α := ⟨up s.a, up s.b⟩

theorem upS_ne {s : Seg2 α} (h : s.a ≠ s.b) : (upS s).a ≠ (upS s).b := fun e => h (up_inj e)

theorem getPoint_up (s : Seg2 α) (d : α) : (upS s).getPoint d = up (s.getPoint d) := by
  simp only [LineSeg.getPoint, Seg2.getPoint, upS, up_add, up_smul]

theorem closestPoint_up (s : Seg2 α) (p : V2 α) : (upS s).closestPoint (up p) = (up (s.closestPoint p).1, (s.closestPoint p).2) := by
  simp only [LineSeg.closestPoint, Seg2.closestPoint, upS, ← up_sub, dot_up, lenSq_up, ← up_smul, ← up_add]

theorem lineLine_up (v0 v10 v2 v32 : V2 α) :
    closestPointLineLine (up v0) (up v10) (up v2) (up v32) = Seg2.closestPointLineLine v0 v10 v2 v32 := by
  simp only [closestPointLineLine, Seg2.closestPointLineLine, ← up_sub, dot_up]

theorem up_ite (c : Prop) [Decidable c] (p q : V2 α) : up (if c then p else q) = if c then up p else up q := by split_ifs <;> rfl

theorem closestSeg_up (s o : Seg2 α) : (upS s).closestSeg (upS o) = (up (s.closestSeg o).1, (s.closestSeg o).2) := by
  have e : closestPointLineLine (upS s).a ((upS s).b - (upS s).a) (upS o).a ((upS o).b - (upS o).a) =
      Seg2.closestPointLineLine s.a (s.b - s.a) o.a (o.b - o.a) := by
    simp only [upS, ← up_sub, lineLine_up]
  have eo : ∀ p : V2 α, (upS o).closestPoint (up p) = (up (o.closestPoint p).1, (o.closestPoint p).2) := closestPoint_up o
  have es : ∀ p : V2 α, (upS s).closestPoint (up p) = (up (s.closestPoint p).1, (s.closestPoint p).2) := closestPoint_up s
  unfold LineSeg.closestSeg Seg2.closestSeg
  dsimp only
  rw [e]
  generalize Seg2.closestPointLineLine s.a (s.b - s.a) o.a (o.b - o.a) = r
  obtain ⟨d, d2⟩ := r
  have oa : (upS o).a = up o.a := rfl
  have ob : (upS o).b = up o.b := rfl
  have sa : (upS s).a = up s.a := rfl
  have sb : (upS s).b = up s.b := rfl
  dsimp only
  simp only [oa, ob, sa, sb, ← up_ite, eo, es, distSq_up, distSqM, ← up_sub, ← up_smul, ← up_add]
  split_ifs <;> rfl

theorem pair_of_up {s o : Seg2 α} {q r : V2 α} (h : Spec.IsClosestPair (Spec.seg (upS s).a (upS s).b) (Spec.seg (upS o).a (upS o).b) (up q) (up r)) :
    Spec.IsClosestPair2 (Spec.seg2 s.a s.b) (Spec.seg2 o.a o.b) q r :=
  ⟨of_up_seg h.1, of_up_seg h.2.1, fun x hx y hy => by
    have := h.2.2 (up x) (up_seg hx) (up y) (up_seg hy)
    rwa [distSq_up, distSq_up] at this⟩

/-- A triangle of the plane as a triangle of space. -/
def upT (t : Tri2 α) : Tri α := ⟨up t.a, up t.b, up t.c⟩

theorem closestTri_up (t : Tri2 α) (p : V2 α) : (upT t).closestPoint (up p) = (t.closestPoint p).map up := by
  have a : (upT t).a = up t.a := rfl
  have b : (upT t).b = up t.b := rfl
  have c : (upT t).c = up t.c := rfl
  unfold Tri.closestPoint Tri2.closestPoint
  dsimp only
  simp only [a, b, c, ← up_sub, dot_up, ← up_smul, ← up_add]
  split_ifs <;> rfl

end MGL.Up
