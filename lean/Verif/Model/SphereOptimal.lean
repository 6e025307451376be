import Verif.Model.Sphere

/-! `Sphere::OptimalEnclosingSphere` of an array of points. -/

namespace MGL
open V3
namespace Sphere

/-- The variables of the loop of src/Geometry/Sphere.cpp:344-382: `i`, `sp`, `expendable` and `s`. `clean` is not a variable
of the code: it records that `s` was not replaced without a restart of the loop since the last restart. -/
structure OptState where
  i : ℕ
  sp : Fin 4 → ℕ
  expendable : Fin 4 → Bool
  s : Sphere ℝ
  clean : Bool

/-- src/Geometry/Sphere.cpp:355-382, one pass through the body of the loop and the `++i` after it. The assignment `i = 0` of
line 379 is followed by the `++i` of the `for`. -/
noncomputable def optStep (pts : ℕ → V3 ℝ) (st : OptState) : OptState :=
  if ∃ k, st.i = st.sp k then { st with i := st.i + 1 }
  else if distSq (pts st.i) st.s.pos > st.s.r * st.s.r + 1 / 10000 then
    let res := optimal5 (pts (st.sp 0)) (pts (st.sp 1)) (pts (st.sp 2)) (pts (st.sp 3)) (pts st.i)
    if h : res.2 < 4 then
      if st.sp ⟨res.2, h⟩ < st.i ∨ st.expendable ⟨res.2, h⟩ = true then
        let sp := Function.update st.sp ⟨res.2, h⟩ st.i
        let ex := Function.update st.expendable ⟨res.2, h⟩ false
        ⟨0 + 1, sp, fun k => if sp k < st.i then true else ex k, res.1, true⟩
      else ⟨st.i + 1, st.sp, st.expendable, res.1, false⟩
    else ⟨st.i + 1, st.sp, st.expendable, res.1, false⟩
  else { st with i := st.i + 1 }

/-- src/Geometry/Sphere.cpp:355-384, the loop; `none` when it has not ended after `fuel` passes. -/
noncomputable def optLoop (pts : ℕ → V3 ℝ) (n : ℕ) : ℕ → OptState → Option OptState
  | 0, _ => none
  | fuel + 1, st => if st.i < n then optLoop pts n fuel (optStep pts st) else some st

/-- src/Geometry/Sphere.cpp:344-355, the variables before the loop. -/
noncomputable def optStart (pts : ℕ → V3 ℝ) : OptState :=
  ⟨4, fun k => k, fun _ => true, optimal4 (pts 0) (pts 1) (pts 2) (pts 3), true⟩

/-- src/Geometry/Sphere.cpp:328-385 `OptimalEnclosingSphere(pts, numPoints)` for five or more points, with at most `fuel`
passes of the loop. Fewer points go to the functions for a fixed number of points (332-340). -/
noncomputable def optimalN (pts : List (V3 ℝ)) (fuel : ℕ) : Option OptState :=
  optLoop (fun i => pts.getD i ⟨0, 0, 0⟩) pts.length fuel (optStart fun i => pts.getD i ⟨0, 0, 0⟩)

end Sphere
end MGL
