import Verif.Model.AABB

/-! The overloads of `AABB::Enclose` on finite objects, and histories of calls. -/

namespace MGL

open V3 Spec

variable {α : Type*} [Field α] [LinearOrder α]

/-- An object handed to one `Enclose` call: the argument types of src/Geometry/AABB.cpp:1047-1089. -/
inductive EncArg (α : Type*)
  | point (p : V3 α)
  | box (mn mx : V3 α)
  | segment (a b : V3 α)
  | triangle (a b c : V3 α)
  | sphere (c : V3 α) (r : α)
  | capsule (a b : V3 α) (r : α)
  | obb (c u v w r : V3 α)

/-- The points of the object (no source line: the meaning of the arguments of src/Geometry/AABB.cpp:1047-1089). -/
def EncArg.points : EncArg α → Set (V3 α)
  | .point p => {p}
  | .box mn mx => Spec.box mn mx
  | .segment a b => Spec.seg a b
  | .triangle a b c => Spec.tri a b c
  | .sphere c r => Spec.ball c r
  | .capsule a b r => Spec.capsule a b r
  | .obb c u v w r => Spec.obb c u v w r

/-- The object is a proper one: boxes with ordered corners, radii and half sizes not negative. -/
def EncArg.Valid : EncArg α → Prop
  | .box mn mx => mn.x ≤ mx.x ∧ mn.y ≤ mx.y ∧ mn.z ≤ mx.z
  | .sphere _ r => 0 ≤ r
  | .capsule _ _ r => 0 ≤ r
  | .obb _ _ _ _ r => 0 ≤ r.x ∧ 0 ≤ r.y ∧ 0 ≤ r.z
  | _ => True

/-- src/Geometry/AABB.cpp:1047-1089 the overloads of `Enclose`, applied to finite arguments. -/
def EncArg.enclose (b : AABB (Ext α)) : EncArg α → AABB (Ext α)
  | .point p => b.enclosePoint p.toExt
  | .box mn mx => b.encloseMinMax mn.toExt mx.toExt
  | .segment p q => b.encloseSegment p.toExt q.toExt
  | .triangle p q r => b.encloseTriangle p.toExt q.toExt r.toExt
  | .sphere c r => b.encloseMinMax (AABB.ofSphere ⟨c, r⟩).minPoint.toExt (AABB.ofSphere ⟨c, r⟩).maxPoint.toExt
  | .capsule p q r => b.encloseMinMax (AABB.ofCapsule p q r).minPoint.toExt (AABB.ofCapsule p q r).maxPoint.toExt
  | .obb c u v w r => b.encloseMinMax (AABB.obbExtent c u v w r).minPoint.toExt (AABB.obbExtent c u v w r).maxPoint.toExt

/-- `SetNegativeInfinity` followed by the given `Enclose` calls (no source line: a history of calls of src/Geometry/AABB.cpp:1047-1089). -/
def encloseAll (args : List (EncArg α)) : AABB (Ext α) :=
  args.foldl EncArg.enclose AABB.negInf

end MGL
