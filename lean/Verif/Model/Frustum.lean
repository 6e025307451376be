import Verif.Model.Capsule
import Verif.Model.AABBEnclose
import Verif.Model.MatGen
import Mathlib.Analysis.SpecialFunctions.Trigonometric.Arctan

/-! Model of class `Frustum` (src/Geometry/Frustum.cpp), scalar path, exact arithmetic. `Frustum` holds the parameters of
an initialised frustum and has the functions that are computed from them; `FrustumObj` is the C++ object, with parameters
that may still be NaN and with the three cached matrices. Not modelled: everything that goes through `Polyhedron` (for GJK see GJKShapes.lean)
(`ClosestPoint` of perspective frusta, `Volume`, the `Intersects` tests). -/

namespace MGL
open V3

/-- src/Geometry/Frustum.h:30-46 `FrustumType`. -/
inductive FrustumType | invalid | orthographic | perspective
  deriving DecidableEq

/-- src/Geometry/Frustum.h:51-69 `FrustumProjectiveSpace`. -/
inductive FrustumSpace | invalid | gl | d3d
  deriving DecidableEq

/-- src/Geometry/Frustum.h:79-91 `FrustumHandedness`. -/
inductive FrustumHand | invalid | left | right
  deriving DecidableEq

/-- src/Geometry/Frustum.h:99-151, the parameters. `h` is the union of `horizontalFov` and `orthographicWidth`, `v` that of
`verticalFov` and `orthographicHeight`. -/
structure Frustum where
  type : FrustumType
  space : FrustumSpace
  hand : FrustumHand
  pos : V3 ℝ
  front : V3 ℝ
  up : V3 ℝ
  near : ℝ
  far : ℝ
  h : ℝ
  v : ℝ

noncomputable section

namespace Frustum

/-- src/Geometry/Frustum.cpp:185-191 `WorldRight`, from the members it uses. -/
def worldRightOf (hand : FrustumHand) (front up : V3 ℝ) : V3 ℝ :=
  if hand = .right then cross front up else cross up front

/-- src/Geometry/Frustum.cpp:185-191 `WorldRight`. -/
def worldRight (f : Frustum) : V3 ℝ := worldRightOf f.hand f.front f.up

/-- src/Geometry/Frustum.cpp:164-167 `AspectRatio`. -/
def aspectRatio (f : Frustum) : ℝ := Real.tan (f.h * (1 / 2)) / Real.tan (f.v * (1 / 2))

/-- src/Geometry/Frustum.cpp:193-199 `NearPlaneWidth`, from the members it uses. -/
def nearPlaneWidthOf (type : FrustumType) (near h : ℝ) : ℝ :=
  if type = .perspective then Real.tan (h * (1 / 2)) * 2 * near else h

/-- src/Geometry/Frustum.cpp:193-199 `NearPlaneWidth`. -/
def nearPlaneWidth (f : Frustum) : ℝ := nearPlaneWidthOf f.type f.near f.h

/-- src/Geometry/Frustum.cpp:201-207 `NearPlaneHeight`. -/
def nearPlaneHeight (f : Frustum) : ℝ := nearPlaneWidthOf f.type f.near f.v

/-- src/Geometry/Frustum.cpp:390-410 `NearPlanePos`. -/
def nearPlanePos (f : Frustum) (x y : ℝ) : V3 ℝ :=
  if f.type = .perspective then
    f.pos + f.near • f.front + (x * (Real.tan (f.h * (1 / 2)) * f.near)) • f.worldRight +
      (y * (Real.tan (f.v * (1 / 2)) * f.near)) • f.up
  else f.pos + f.near • f.front + (x * f.h * (1 / 2)) • f.worldRight + (y * f.v * (1 / 2)) • f.up

/-- src/Geometry/Frustum.cpp:417-437 `FarPlanePos`. -/
def farPlanePos (f : Frustum) (x y : ℝ) : V3 ℝ :=
  if f.type = .perspective then
    f.pos + f.far • f.front + (x * (Real.tan (f.h * (1 / 2)) * f.far)) • f.worldRight +
      (y * (Real.tan (f.v * (1 / 2)) * f.far)) • f.up
  else f.pos + f.far • f.front + (x * f.h * (1 / 2)) • f.worldRight + (y * f.v * (1 / 2)) • f.up

/-- src/Geometry/Frustum.cpp:209-212 `NearPlane`. -/
def nearPlane (f : Frustum) : Plane ℝ := Plane.setPointNormal (f.pos + f.near • f.front) (-f.front)

/-- src/Geometry/Frustum.cpp:214-217 `FarPlane`. -/
def farPlane (f : Frustum) : Plane ℝ := Plane.setPointNormal (f.pos + f.far • f.front) f.front

/-- src/Geometry/Frustum.cpp:219-234 `LeftPlane`. -/
def leftPlane (f : Frustum) : Plane ℝ :=
  if f.type = .perspective then
    let left := (f3ScaleToLength (-f.worldRight) (Real.tan (f.h * (1 / 2)))).1
    let leftSide := f.front + left
    Plane.setPointNormal f.pos (f3Normalized (if f.hand = .right then cross f.up leftSide else cross leftSide f.up))
  else Plane.setPointNormal (f.nearPlanePos (-1) 0) (f3Normalized (-f.worldRight))

/-- src/Geometry/Frustum.cpp:236-251 `RightPlane`. -/
def rightPlane (f : Frustum) : Plane ℝ :=
  if f.type = .perspective then
    let right := (f3ScaleToLength f.worldRight (Real.tan (f.h * (1 / 2)))).1
    let rightSide := f.front + right
    Plane.setPointNormal f.pos (f3Normalized (if f.hand = .right then cross rightSide f.up else cross f.up rightSide))
  else Plane.setPointNormal (f.nearPlanePos 1 0) (f3Normalized f.worldRight)

/-- src/Geometry/Frustum.cpp:253-266 `TopPlane`. -/
def topPlane (f : Frustum) : Plane ℝ :=
  if f.type = .perspective then
    let topSide := f.front + Real.tan (f.v * (1 / 2)) • f.up
    let right := f.worldRight
    Plane.setPointNormal f.pos (f3Normalized (if f.hand = .right then cross right topSide else cross topSide right))
  else Plane.setPointNormal (f.nearPlanePos 0 1) f.up

/-- src/Geometry/Frustum.cpp:268-281 `BottomPlane`. -/
def bottomPlane (f : Frustum) : Plane ℝ :=
  if f.type = .perspective then
    let bottomSide := f.front - Real.tan (f.v * (1 / 2)) • f.up
    let left := -f.worldRight
    Plane.setPointNormal f.pos (f3Normalized (if f.hand = .right then cross left bottomSide else cross bottomSide left))
  else Plane.setPointNormal (f.nearPlanePos 0 (-1)) (-f.up)

/-- src/Geometry/Frustum.cpp:689-702 `GetPlane`. -/
def getPlane (f : Frustum) (i : Fin 6) : Plane ℝ :=
  match i with
  | 0 => f.nearPlane
  | 1 => f.farPlane
  | 2 => f.leftPlane
  | 3 => f.rightPlane
  | 4 => f.topPlane
  | 5 => f.bottomPlane

/-- src/Geometry/Frustum.cpp:1029-1040 `ToPBVolume`: the six planes, in its order. -/
def toPBVolume (f : Frustum) : List (Plane ℝ) :=
  [f.nearPlane, f.leftPlane, f.rightPlane, f.topPlane, f.bottomPlane, f.farPlane]

/-- src/Geometry/Frustum.cpp:444-447 `ViewportToScreenSpace`. -/
def viewportToScreenSpace (x y : ℝ) (screenWidth screenHeight : ℤ) : ℝ × ℝ :=
  ((x + 1) * (1 / 2) * (screenWidth - 1), (1 - y) * (1 / 2) * (screenHeight - 1))

/-- src/Geometry/Frustum.cpp:454-457 `ScreenToViewportSpace`. -/
def screenToViewportSpace (x y : ℝ) (screenWidth screenHeight : ℤ) : ℝ × ℝ :=
  (x * 2 / (screenWidth - 1) - 1, 1 - y * 2 / (screenHeight - 1))

/-- src/Geometry/Frustum.cpp:479-484 `UnProjectLineSegment`. -/
def unProjectLineSegment (f : Frustum) (x y : ℝ) : LineSeg ℝ := ⟨f.nearPlanePos x y, f.farPlanePos x y⟩

/-- src/Geometry/Frustum.cpp:486-489 `UnProjectFromNearPlane`; src/Geometry/LineSegment.cpp:417-420 `ToRay`. -/
def unProjectFromNearPlane (f : Frustum) (x y : ℝ) : Ray ℝ :=
  ⟨(f.unProjectLineSegment x y).a, (f.unProjectLineSegment x y).dir⟩

/-- src/Geometry/Frustum.cpp:464-477 `UnProject`. -/
def unProject (f : Frustum) (x y : ℝ) : Ray ℝ :=
  if f.type = .perspective then ⟨f.pos, f3Normalized (f.nearPlanePos x y - f.pos)⟩
  else f.unProjectFromNearPlane x y

/-- src/Geometry/Frustum.cpp:491-496 `PointInside`. -/
def pointInside (f : Frustum) (x y z : ℝ) : V3 ℝ := (f.unProjectLineSegment x y).getPoint z

/-- src/Geometry/Frustum.cpp:790-793 `CenterPoint`. -/
def centerPoint (f : Frustum) : V3 ℝ := f.pos + ((f.near + f.far) * (1 / 2)) • f.front

/-- src/Geometry/Frustum.cpp:795-843 `GetCornerPoints`. -/
def getCornerPoints (f : Frustum) : List (V3 ℝ) :=
  let right := f.worldRight
  let nearCenter := f.pos + f.near • f.front
  let farCenter := f.pos + f.far • f.front
  if f.type = .perspective then
    let tanhfov := Real.tan (f.h * (1 / 2))
    let tanvfov := Real.tan (f.v * (1 / 2))
    let nearHalfWidth := (tanhfov * f.near) • right
    let nearHalfHeight := (tanvfov * f.near) • f.up
    let farHalfWidth := (tanhfov * f.far) • right
    let farHalfHeight := (tanvfov * f.far) • f.up
    [nearCenter - nearHalfWidth - nearHalfHeight, nearCenter + nearHalfWidth - nearHalfHeight,
     nearCenter - nearHalfWidth + nearHalfHeight, nearCenter + nearHalfWidth + nearHalfHeight,
     farCenter - farHalfWidth - farHalfHeight, farCenter + farHalfWidth - farHalfHeight,
     farCenter - farHalfWidth + farHalfHeight, farCenter + farHalfWidth + farHalfHeight]
  else
    let halfWidth := (f.h * (1 / 2)) • right
    let halfHeight := (f.v * (1 / 2)) • f.up
    [nearCenter - halfWidth - halfHeight, nearCenter + halfWidth - halfHeight,
     nearCenter - halfWidth + halfHeight, nearCenter + halfWidth + halfHeight,
     farCenter - halfWidth - halfHeight, farCenter + halfWidth - halfHeight,
     farCenter - halfWidth + halfHeight, farCenter + halfWidth + halfHeight]

/-- src/Geometry/Frustum.cpp:866-881 `CornerPoint`. -/
def cornerPoint (f : Frustum) (i : Fin 8) : V3 ℝ :=
  match i with
  | 0 => f.nearPlanePos (-1) (-1)
  | 1 => f.farPlanePos (-1) (-1)
  | 2 => f.nearPlanePos (-1) 1
  | 3 => f.farPlanePos (-1) 1
  | 4 => f.nearPlanePos 1 (-1)
  | 5 => f.farPlanePos 1 (-1)
  | 6 => f.nearPlanePos 1 1
  | 7 => f.farPlanePos 1 1

/-- src/Geometry/Frustum.cpp:845-864 `Edge`: the two corner indices of the edge. -/
def edgeCorners (i : Fin 12) : Fin 8 × Fin 8 :=
  match i with
  | 0 => (0, 1)
  | 1 => (0, 2)
  | 2 => (0, 4)
  | 3 => (1, 3)
  | 4 => (1, 5)
  | 5 => (2, 3)
  | 6 => (2, 6)
  | 7 => (3, 7)
  | 8 => (4, 5)
  | 9 => (4, 6)
  | 10 => (5, 7)
  | 11 => (6, 7)

/-- src/Geometry/Frustum.cpp:845-864 `Edge`. -/
def edge (f : Frustum) (i : Fin 12) : LineSeg ℝ :=
  ⟨f.cornerPoint (edgeCorners i).1, f.cornerPoint (edgeCorners i).2⟩

/-- src/Geometry/Frustum.cpp:889-897, the loop of `ExtremePoint`; `none` is the state before the first pass, with the
distance `-FLOAT_INF`. -/
def extremeLoop (direction : V3 ℝ) : Option (V3 ℝ × ℝ) → List (V3 ℝ) → Option (V3 ℝ × ℝ)
  | s, [] => s
  | none, c :: cs => extremeLoop direction (some (c, dot direction c)) cs
  | some (m, pd), c :: cs =>
    extremeLoop direction (if dot direction c > pd then some (c, dot direction c) else some (m, pd)) cs

/-- src/Geometry/Frustum.cpp:883-899 `ExtremePoint(direction, projectionDistance)`: the point and the distance. -/
def extremePoint (f : Frustum) (direction : V3 ℝ) : Option (V3 ℝ × ℝ) := extremeLoop direction none f.getCornerPoints

/-- src/Geometry/Frustum.cpp:907-912, the loop of `ProjectToAxis`; `none` is the state before the first pass. -/
def projectLoop (direction : V3 ℝ) : Option (ℝ × ℝ) → List (V3 ℝ) → Option (ℝ × ℝ)
  | s, [] => s
  | none, c :: cs => projectLoop direction (some (dot direction c, dot direction c)) cs
  | some (mn, mx), c :: cs => projectLoop direction (some (min2 mn (dot direction c), max2 mx (dot direction c))) cs

/-- src/Geometry/Frustum.cpp:901-913 `ProjectToAxis`. -/
def projectToAxis (f : Frustum) (direction : V3 ℝ) : Option (ℝ × ℝ) := projectLoop direction none f.getCornerPoints

/-- src/Geometry/Frustum.cpp:915-933 `UniqueFaceNormals`. -/
def uniqueFaceNormals (f : Frustum) : List (V3 ℝ) :=
  if f.type = .perspective then
    [f.front, f.leftPlane.normal, f.rightPlane.normal, f.topPlane.normal, f.bottomPlane.normal]
  else [f.front, f.up, cross f.front f.up]

/-- src/Geometry/Frustum.cpp:935-954 `UniqueEdgeDirections`. -/
def uniqueEdgeDirections (f : Frustum) : List (V3 ℝ) :=
  if f.type = .perspective then
    [f.nearPlanePos (-1) (-1) - f.nearPlanePos 1 (-1), f.nearPlanePos (-1) (-1) - f.nearPlanePos (-1) 1,
     f.farPlanePos (-1) (-1) - f.nearPlanePos (-1) (-1), f.farPlanePos 1 (-1) - f.nearPlanePos 1 (-1),
     f.farPlanePos (-1) 1 - f.nearPlanePos (-1) 1, f.farPlanePos 1 1 - f.nearPlanePos 1 1]
  else [f.front, f.up, cross f.front f.up]

/-- src/Geometry/Frustum.cpp:956-963 `MinimalEnclosingAABB`. -/
def minimalEnclosingAABB (f : Frustum) : AABB (Ext ℝ) :=
  encloseAll ((List.finRange 8).map fun i => EncArg.point (f.cornerPoint i))

/-- src/Geometry/Frustum.cpp:965-986 `MinimalEnclosingOBB`. -/
def minimalEnclosingOBB (f : Frustum) (expandGuardband : ℝ) : OBB ℝ :=
  let start : OBB ℝ :=
    ⟨f.pos + ((f.near + f.far) * (1 / 2)) • f.front, 0, cross f.up (-f.front), f.up, -f.front⟩
  let obb := (List.finRange 8).foldl (fun o i => o.enclose (f.cornerPoint i)) start
  { obb with r := obb.r + ⟨expandGuardband, expandGuardband, expandGuardband⟩ }

/-- src/Geometry/Frustum.cpp:641-666 `ClosestPoint(point)` for orthographic frusta, scalar path. -/
def closestPointOrtho (f : Frustum) (point : V3 ℝ) : V3 ℝ :=
  let frontHalfSize := (f.far - f.near) * (1 / 2)
  let halfWidth := f.h * (1 / 2)
  let halfHeight := f.v * (1 / 2)
  let frustumCenter := f.pos + (frontHalfSize + f.near) • f.front
  let right := cross f.front f.up
  let d := point - frustumCenter
  frustumCenter + (clamp (dot d f.front) (-frontHalfSize) frontHalfSize) • f.front
    + (clamp (dot d right) (-halfWidth) halfWidth) • right + (clamp (dot d f.up) (-halfHeight) halfHeight) • f.up

/-- src/Geometry/Frustum.cpp:677-681 `Distance(point)` for orthographic frusta. -/
def distanceOrtho (f : Frustum) (point : V3 ℝ) : ℝ := f3Distance (f.closestPointOrtho point) point

/-- src/Geometry/Frustum.cpp:735-738 `Translate`, its effect on the parameters. -/
def translate (f : Frustum) (offset : V3 ℝ) : Frustum := { f with pos := f.pos + offset }

/-- src/Geometry/Frustum.cpp:740-754, 756-770: the common part of `Transform`, given the images of `pos`, `front` and
`up`. -/
def transformParams (f : Frustum) (pos front up : V3 ℝ) : Frustum :=
  let scaleFactor := (f3Normalize front).2
  { f with
    pos := pos, front := f3Normalized front, up := f3Normalized up,
    near := f.near * scaleFactor, far := f.far * scaleFactor,
    h := if f.type = .orthographic then f.h * scaleFactor else f.h,
    v := if f.type = .orthographic then f.v * scaleFactor else f.v }

/-- src/Geometry/Frustum.cpp:740-754 `Transform(float3x3)`, its effect on the parameters. -/
def transform3 (f : Frustum) (m : Mat3 ℝ) : Frustum :=
  f.transformParams (Mat3.mulVec m f.pos) (Mat3.mulVec m f.front) (Mat3.mulVec m f.up)

/-- src/Geometry/Frustum.cpp:756-770 `Transform(float3x4)`, its effect on the parameters. -/
def transform34 (f : Frustum) (m : Mat34 ℝ) : Frustum :=
  f.transformParams (Mat34.mulPos m f.pos) (Mat34.mulDir m f.front) (Mat34.mulDir m f.up)

/-- src/Geometry/Frustum.cpp:772-776 `Transform(float4x4)`, its effect on the parameters. -/
def transform4 (f : Frustum) (m : Mat4 ℝ) : Frustum := f.transform34 (Mat4.float3x4Part m)

/-- src/Geometry/Frustum.cpp:778-781 `Transform(Quat)`, its effect on the parameters. -/
def transformQuat (f : Frustum) (q : Quat ℝ) : Frustum := f.transform3 (Quat.toFloat3x3 q)

/-! ### Matrices -/

/-- src/Geometry/Frustum.cpp:301-317 `ComputeWorldMatrix`, from the members it uses. -/
def worldMatrixOf (hand : FrustumHand) (pos front up : V3 ℝ) : Mat34 ℝ :=
  let c0 := f3Normalized (worldRightOf hand front up)
  let c2 := if hand = .right then -front else front
  !![c0.x, up.x, c2.x, pos.x; c0.y, up.y, c2.y, pos.y; c0.z, up.z, c2.z, pos.z]

/-- src/Geometry/Frustum.cpp:331-388 `ComputeProjectionMatrix`, from the members it uses; `none` is `float4x4::nan`. -/
def projectionMatrixOf (type : FrustumType) (space : FrustumSpace) (hand : FrustumHand) (near far h v : ℝ) :
    Option (Mat4 ℝ) :=
  match type, space, hand with
  | .perspective, .gl, .right =>
    some (Mat4.openGLPerspProjRH near far (nearPlaneWidthOf type near h) (nearPlaneWidthOf type near v))
  | .perspective, .gl, .left =>
    some (Mat4.openGLPerspProjLH near far (nearPlaneWidthOf type near h) (nearPlaneWidthOf type near v))
  | .perspective, .d3d, .right =>
    some (Mat4.d3dPerspProjRH near far (nearPlaneWidthOf type near h) (nearPlaneWidthOf type near v))
  | .perspective, .d3d, .left =>
    some (Mat4.d3dPerspProjLH near far (nearPlaneWidthOf type near h) (nearPlaneWidthOf type near v))
  | .orthographic, .gl, .right => some (Mat4.openGLOrthoProjRH near far h v)
  | .orthographic, .gl, .left => some (Mat4.openGLOrthoProjLH near far h v)
  | .orthographic, .d3d, .right => some (Mat4.d3dOrthoProjRH near far h v)
  | .orthographic, .d3d, .left => some (Mat4.d3dOrthoProjLH near far h v)
  | _, _, _ => none

/-- src/Geometry/Frustum.cpp:301-317 `ComputeWorldMatrix`. -/
def computeWorldMatrix (f : Frustum) : Mat34 ℝ := worldMatrixOf f.hand f.pos f.front f.up

/-- src/Geometry/Frustum.cpp:319-324 `ComputeViewMatrix`. -/
def computeViewMatrix (f : Frustum) : Mat34 ℝ := Mat34.inverseOrthonormal f.computeWorldMatrix

/-- src/Geometry/Frustum.cpp:331-388 `ComputeProjectionMatrix`. -/
def computeProjectionMatrix (f : Frustum) : Option (Mat4 ℝ) :=
  projectionMatrixOf f.type f.space f.hand f.near f.far f.h f.v

/-- src/Geometry/Frustum.cpp:326-329 `ComputeViewProjMatrix`. -/
def computeViewProjMatrix (f : Frustum) : Option (Mat4 ℝ) :=
  f.computeProjectionMatrix.map fun p => Mat4.mulMat34 p f.computeViewMatrix

/-- src/Math/float4.cpp:390-404 `NormalizeW`, scalar path, then `xyz`. -/
def normalizeW (q : F4 ℝ) : V3 ℝ :=
  if |q 3| > 1 / 1000000 then ⟨q 0 * (1 / q 3), q 1 * (1 / q 3), q 2 * (1 / q 3)⟩ else ⟨q 0, q 1, q 2⟩

/-- src/Geometry/Frustum.cpp:498-503 `Project`, given `ViewProjMatrix()`. -/
def projectWith (viewProj : Mat4 ℝ) (point : V3 ℝ) : V3 ℝ := normalizeW (Mat4.mulVec4 viewProj ![point.x, point.y, point.z, 1])

/-- src/Geometry/Frustum.cpp:519-544 `Contains(point)`, scalar path, given `ViewProjMatrix()` (`none` is a matrix with
NaNs, for which all comparisons fail). -/
def containsWith (space : FrustumSpace) (viewProj : Option (Mat4 ℝ)) (point : V3 ℝ) : Bool :=
  match viewProj with
  | none => false
  | some m =>
    let eps : ℝ := 1 / 1000
    let position : ℝ := 1 + eps
    let neg : ℝ := -position
    let projected := projectWith m point
    match space with
    | .d3d => decide (neg ≤ projected.x ∧ projected.x ≤ position ∧ neg ≤ projected.y ∧ projected.y ≤ position ∧
        -eps ≤ projected.z ∧ projected.z ≤ position)
    | .gl => decide (neg ≤ projected.x ∧ projected.x ≤ position ∧ neg ≤ projected.y ∧ projected.y ≤ position ∧
        neg ≤ projected.z ∧ projected.z ≤ position)
    | .invalid => false

end Frustum

/-! ### The object with its cached matrices -/

/-- src/Geometry/Frustum.h:96-160 `Frustum`, as an object. `none` is a member that is NaN (a matrix with a NaN in it).
`started` is `!IsNan(worldMatrix[0][0])`. The values of `h`, `v` before they are set are indeterminate. -/
structure FrustumObj where
  type : FrustumType
  space : FrustumSpace
  hand : FrustumHand
  pos : Option (V3 ℝ)
  front : Option (V3 ℝ)
  up : Option (V3 ℝ)
  near : Option ℝ
  far : Option ℝ
  h : ℝ
  v : ℝ
  started : Bool
  worldMatrix : Option (Mat34 ℝ)
  projectionMatrix : Option (Mat4 ℝ)
  viewProjMatrix : Option (Mat4 ℝ)

namespace FrustumObj

/-- src/Geometry/Frustum.cpp:57-85, the constructor, without the compile time defaults for the conventions. It leaves the
union members and `projectionMatrix` uninitialised: `h`, `v`, `junk` stand for what is in memory. -/
def ctor (h v : ℝ) (junk : Option (Mat4 ℝ)) : FrustumObj :=
  ⟨.invalid, .invalid, .invalid, none, none, none, none, none, h, v, false, none, junk, none⟩

/-- src/Geometry/Frustum.cpp:301-317 `ComputeWorldMatrix`. -/
def computeWorldMatrix (o : FrustumObj) : Option (Mat34 ℝ) :=
  match o.pos, o.front, o.up with
  | some p, some f, some u => some (Frustum.worldMatrixOf o.hand p f u)
  | _, _, _ => none

/-- src/Geometry/Frustum.cpp:331-388 `ComputeProjectionMatrix`. -/
def computeProjectionMatrix (o : FrustumObj) : Option (Mat4 ℝ) :=
  match o.near, o.far with
  | some n, some f => Frustum.projectionMatrixOf o.type o.space o.hand n f o.h o.v
  | _, _ => none

/-- The product `projectionMatrix * viewMatrix` at src/Geometry/Frustum.cpp:148-150, 158-160, 328, for the given
projection and world matrices. -/
def viewProjOf (proj : Option (Mat4 ℝ)) (world : Option (Mat34 ℝ)) : Option (Mat4 ℝ) :=
  match proj, world with
  | some p, some w => some (Mat4.mulMat34 p (Mat34.inverseOrthonormal w))
  | _, _ => none

/-- src/Geometry/Frustum.h:414 `ViewMatrix`. -/
def viewMatrix (o : FrustumObj) : Option (Mat34 ℝ) := o.worldMatrix.map Mat34.inverseOrthonormal

/-- src/Geometry/Frustum.cpp:319-324 `ComputeViewMatrix`. -/
def computeViewMatrix (o : FrustumObj) : Option (Mat34 ℝ) := o.computeWorldMatrix.map Mat34.inverseOrthonormal

/-- src/Geometry/Frustum.cpp:326-329 `ComputeViewProjMatrix`. -/
def computeViewProjMatrix (o : FrustumObj) : Option (Mat4 ℝ) :=
  viewProjOf o.computeProjectionMatrix o.computeWorldMatrix

/-- src/Geometry/Frustum.cpp:145-151 `WorldMatrixChanged`. Column 0 of the new world matrix is a normalised vector or
(1,0,0), so that its first element is not NaN. -/
def worldMatrixChanged (o : FrustumObj) : FrustumObj :=
  { o with
    worldMatrix := o.computeWorldMatrix, started := true,
    viewProjMatrix := viewProjOf o.projectionMatrix o.computeWorldMatrix }

/-- src/Geometry/Frustum.cpp:153-162 `ProjectionMatrixChanged`. -/
def projectionMatrixChanged (o : FrustumObj) : FrustumObj :=
  { o with
    projectionMatrix := o.computeProjectionMatrix,
    viewProjMatrix := if o.started then viewProjOf o.computeProjectionMatrix o.worldMatrix else o.viewProjMatrix }

/-- src/Geometry/Frustum.cpp:87-94 `SetKind`. -/
def setKind (o : FrustumObj) (p : FrustumSpace) (h : FrustumHand) : FrustumObj :=
  let o := { o with space := p, hand := h }
  (if o.up.isSome then o.worldMatrixChanged else o).projectionMatrixChanged

/-- src/Geometry/Frustum.cpp:96-101 `SetViewPlaneDistances`. -/
def setViewPlaneDistances (o : FrustumObj) (n f : ℝ) : FrustumObj :=
  { o with near := some n, far := some f }.projectionMatrixChanged

/-- src/Geometry/Frustum.cpp:103-109 `SetFrame`. -/
def setFrame (o : FrustumObj) (p f u : V3 ℝ) : FrustumObj :=
  { o with pos := some p, front := some f, up := some u }.worldMatrixChanged

/-- src/Geometry/Frustum.cpp:111-115 `SetPos`. -/
def setPos (o : FrustumObj) (p : V3 ℝ) : FrustumObj := { o with pos := some p }.worldMatrixChanged

/-- src/Geometry/Frustum.cpp:117-121 `SetFront`. -/
def setFront (o : FrustumObj) (f : V3 ℝ) : FrustumObj := { o with front := some f }.worldMatrixChanged

/-- src/Geometry/Frustum.cpp:123-127 `SetUp`. -/
def setUp (o : FrustumObj) (u : V3 ℝ) : FrustumObj := { o with up := some u }.worldMatrixChanged

/-- src/Geometry/Frustum.cpp:129-135 `SetPerspective`. -/
def setPerspective (o : FrustumObj) (h v : ℝ) : FrustumObj :=
  { o with type := .perspective, h := h, v := v }.projectionMatrixChanged

/-- src/Geometry/Frustum.cpp:137-143 `SetOrthographic`. -/
def setOrthographic (o : FrustumObj) (w h : ℝ) : FrustumObj :=
  { o with type := .orthographic, h := w, v := h }.projectionMatrixChanged

/-- src/Geometry/Frustum.cpp:169-175 `SetHorizontalFovAndAspectRatio`. -/
def setHorizontalFovAndAspectRatio (o : FrustumObj) (hFov aspectRatio : ℝ) : FrustumObj :=
  { o with
    type := .perspective, h := hFov, v := 2 * Real.arctan (Real.tan (hFov * (1 / 2)) / aspectRatio) }.projectionMatrixChanged

/-- src/Geometry/Frustum.cpp:177-183 `SetVerticalFovAndAspectRatio`. -/
def setVerticalFovAndAspectRatio (o : FrustumObj) (vFov aspectRatio : ℝ) : FrustumObj :=
  { o with
    type := .perspective, v := vFov, h := 2 * Real.arctan (Real.tan (vFov * (1 / 2)) * aspectRatio) }.projectionMatrixChanged

/-- src/Geometry/Frustum.cpp:283-299 `SetWorldMatrix`. -/
def setWorldMatrix (o : FrustumObj) (m : Mat34 ℝ) : FrustumObj :=
  let c2 : V3 ℝ := ⟨m 0 2, m 1 2, m 2 2⟩
  { o with
    pos := some ⟨m 0 3, m 1 3, m 2 3⟩, front := some (if o.hand = FrustumHand.right then -c2 else c2),
    up := some ⟨m 0 1, m 1 1, m 2 1⟩ }.worldMatrixChanged

/-- src/Geometry/Frustum.cpp:735-738 `Translate`: the cached matrices stay. -/
def translate (o : FrustumObj) (offset : V3 ℝ) : FrustumObj := { o with pos := o.pos.map (· + offset) }

/-- `Normalize` (src/Math/float3.cpp:118-139) of the image of a vector that may be NaN: the comparison of the length fails
for NaN, so that the result is (1,0,0) and 0. -/
def normalizeNaN (md : V3 ℝ → V3 ℝ) (v : Option (V3 ℝ)) : V3 ℝ × ℝ :=
  match v with
  | some v => f3Normalize (md v)
  | none => (⟨1, 0, 0⟩, 0)

/-- src/Geometry/Frustum.cpp:740-754, 756-770 `Transform`, for the given maps of points and directions: the cached matrices
stay. -/
def transform (o : FrustumObj) (mp md : V3 ℝ → V3 ℝ) : FrustumObj :=
  let s : ℝ := (normalizeNaN md o.front).2
  { o with
    pos := o.pos.map mp, front := some (normalizeNaN md o.front).1, up := some (normalizeNaN md o.up).1,
    near := o.near.map (· * s), far := o.far.map (· * s),
    h := if o.type = .orthographic then o.h * s else o.h,
    v := if o.type = .orthographic then o.v * s else o.v }

/-- src/Geometry/Frustum.cpp:498-503 `Project`. -/
def project (o : FrustumObj) (p : V3 ℝ) : Option (V3 ℝ) := o.viewProjMatrix.map fun m => Frustum.projectWith m p

/-- src/Geometry/Frustum.cpp:505-545 `Contains(point)`, scalar path. -/
def contains (o : FrustumObj) (p : V3 ℝ) : Bool := Frustum.containsWith o.space o.viewProjMatrix p

/-- src/Geometry/Frustum.cpp:547-567 `Contains(LineSegment)`, scalar path. -/
def containsSeg (o : FrustumObj) (l : LineSeg ℝ) : Bool := o.contains l.a && o.contains l.b

/-- src/Geometry/Frustum.cpp:569-592 `Contains(Triangle)`, scalar path. -/
def containsTri (o : FrustumObj) (t : Tri ℝ) : Bool := o.contains t.a && o.contains t.b && o.contains t.c

/-- src/Geometry/Frustum.cpp:594-637, `Contains` of a polygon, a box, an oriented box, a frustum or a polyhedron: the loop
over its vertices. -/
def containsVertices (o : FrustumObj) (vs : List (V3 ℝ)) : Bool := vs.all o.contains

/-- One call on a frustum (no source line: the calls of src/Geometry/Frustum.cpp:87-183, 283-299, 735-781 that change the
object). -/
inductive Op
  | setKind (p : FrustumSpace) (h : FrustumHand)
  | setViewPlaneDistances (n f : ℝ)
  | setFrame (p f u : V3 ℝ)
  | setPos (p : V3 ℝ)
  | setFront (f : V3 ℝ)
  | setUp (u : V3 ℝ)
  | setPerspective (h v : ℝ)
  | setOrthographic (w h : ℝ)
  | setHorizontalFovAndAspectRatio (h a : ℝ)
  | setVerticalFovAndAspectRatio (v a : ℝ)
  | setWorldMatrix (m : Mat34 ℝ)
  | translate (offset : V3 ℝ)
  | transform3 (m : Mat3 ℝ)
  | transform34 (m : Mat34 ℝ)
  | transform4 (m : Mat4 ℝ)
  | transformQuat (q : Quat ℝ)

/-- The effect of one call (src/Geometry/Frustum.cpp, the lines cited at the functions). -/
def Op.apply (o : FrustumObj) : Op → FrustumObj
  | .setKind p h => o.setKind p h
  | .setViewPlaneDistances n f => o.setViewPlaneDistances n f
  | .setFrame p f u => o.setFrame p f u
  | .setPos p => o.setPos p
  | .setFront f => o.setFront f
  | .setUp u => o.setUp u
  | .setPerspective h v => o.setPerspective h v
  | .setOrthographic w h => o.setOrthographic w h
  | .setHorizontalFovAndAspectRatio h a => o.setHorizontalFovAndAspectRatio h a
  | .setVerticalFovAndAspectRatio v a => o.setVerticalFovAndAspectRatio v a
  | .setWorldMatrix m => o.setWorldMatrix m
  | .translate t => o.translate t
  | .transform3 m => o.transform (Mat3.mulVec m) (Mat3.mulVec m)
  | .transform34 m => o.transform (Mat34.mulPos m) (Mat34.mulDir m)
  | .transform4 m => o.transform (Mat34.mulPos (Mat4.float3x4Part m)) (Mat34.mulDir (Mat4.float3x4Part m))
  | .transformQuat q => o.transform (Mat3.mulVec (Quat.toFloat3x3 q)) (Mat3.mulVec (Quat.toFloat3x3 q))

/-- A new object after the given calls (no source line: a history of calls). -/
def run (h v : ℝ) (junk : Option (Mat4 ℝ)) (ops : List Op) : FrustumObj := ops.foldl Op.apply (ctor h v junk)

/-- The parameters of an object all of which have been set (src/Geometry/Frustum.h:223-271, the accessors). -/
def params (o : FrustumObj) : Option Frustum :=
  match o.pos, o.front, o.up, o.near, o.far with
  | some p, some f, some u, some n, some r => some ⟨o.type, o.space, o.hand, p, f, u, n, r, o.h, o.v⟩
  | _, _, _, _, _ => none

end FrustumObj
end
end MGL
