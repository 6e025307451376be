# Formal model of MathGeoLib in Lean 4

## Layout

* `lean/Verif/Spec/*`   – small specifications in mathematical terms (point sets, distance,
  bit counts, binomials, multisets). They never mention the model.
* `lean/Verif/Model/*`  – the model, one definition per C++ function. Every definition carries the
  file and line range in `/repo` it models, and says where it simplifies.
* `lean/Verif/Proofs/*` – helper lemmas.
* `lean/Verif/Props/*`  – the property theorems, next to `example`s showing that the hypotheses of
  each theorem are met by a concrete non-trivial case.
* `properties.jsonl`, `MANIFEST.json` – the claims and which theorems prove them.
* `seeded/LOG.jsonl` – wrong programs the theorems were tested against.

## Modelling decisions (what the numbers are)

1. **Bit level code** (powers of two, bit packing, mini floats, float classification, LCG state,
   `EqualUlps`) is modelled on `BitVec`, i.e. exactly, including wrap-around. `int` arithmetic is on
   exact integers with a range check; signed overflow, which is undefined behaviour in C++, is the
   outcome `none`.
2. **Comparison-only code** (AABB containment / enclosing / overlap, `Min`, `Max`, `Clamp`) is
   modelled over an arbitrary linear order. The theorems therefore hold for floats excluding NaN,
   bit for bit, with no rounding assumption.
3. **Arithmetic geometry** is modelled over an arbitrary linearly ordered field; functions that
   take square roots or trigonometric functions over the reals. Rounding is *not* modelled: the
   theorems say that the algorithm is correct in exact arithmetic. Tolerances (`1e-4f` and so on)
   are kept as they are in the code, as exact rationals: `EqualAbs` is the strict comparison
   `|a - b| < 1/10000`. `v / s` is `v * (1 / s)` as in the code.
4. **Rounding where it is the point.** For the float results of the LCG a rounding function is a
   parameter with the specification `Spec.RoundsToNearest` (monotone, exact on representable
   values, nearest).
5. **Special values.** `±FLOAT_INF` corners of empty boxes are `Ext α = WithBot (WithTop α)`. The
   kd-tree ray query computes with infinities and is modelled on `FX α`: finite values, the two
   infinities and NaN, with the rules of IEEE 754 except for rounding and the sign of zero.
6. The scalar preprocessor path is modelled (`MATH_SSE`, `MATH_SIMD`, `MATH_NEON`,
   `MATH_AUTOMATIC_SSE` undefined, `vec` = `float3`), with STL support enabled.
7. `assume(...)` is a debug diagnostic and has no effect on the result; the condition becomes a
   hypothesis of theorems which need it.
8. Division by zero is never silently totalised: theorems carry the guard that excludes it, or
   show which guard in the code does.
9. **Library functions.** `sin`, `cos`, `acos`, `asin`, `sqrt` are the real functions,
   `atan2 y x = Complex.arg (x + i y)`, `copysign` takes the sign of a zero as a parameter.
   `strtod` and number printing of the C library are a structure `Libc` with the two laws the
   round trip needs (`Model/Serialize.lean`). `MaxHeap`, which is not in the repository, is a
   structure `PQueue` with the contract of a priority queue; a sorted list meets it.
10. **Undefined behaviour and endless loops** are the outcome `none`: reads outside an array or
    through a null pointer, stack overflow of a fixed-size traversal stack, and loops that exceed
    their step budget. Theorems say the outcome is `some`, so they include memory safety and
    termination of the modelled code.
11. Matrices are Mathlib's `Matrix (Fin r) (Fin c)`, so that specifications can use Mathlib's
    product, determinant, transpose and inverse.
12. Fixed-size node arrays of the trees (`QuadTree`, `KdTree`) are modelled as index functions with
    sizes, and pointers as indices, as the code does; a separate relation (`Rep`, `Shows`) connects
    them with mathematical trees.

## Method per property

| id | model | proof |
|---|---|---|
| C01 | `BitVec 32/64` smear and decrement | smear = or of all right shifts; compared with `2^k` through `toNat`, for all arguments |
| C02 | `Int` with two's complement and | `x &&& ~(n-1)` as `x - x % n`, over all integers, then range guard |
| C03 | `BitVec 32` magic constants | structural field-wise addition of bit fields, no enumeration |
| C04 | `Nat`/`BitVec` masks of generic width | bit-extensionality (`testBit`) |
| C05 | fold over `List Char` | induction on the string |
| C06 | recursion / two-row table loop | induction with the invariant that the table holds row `i` of Pascal's triangle |
| C07 | loop over exponent bits | invariant `result = base^(prefix of exponent)` |
| C08, C09 | `BitVec` re-packing | case split on exponent classes, bit-vector arithmetic through `toNat` |
| C10 | `BitVec 32/64` compare | arithmetic on `toNat` |
| C11, C53 | text as `List Char`, `Libc` contract | round-trip law by induction over hex digits and over the list of numbers |
| C12 | integers with `2^F` scaling | exact rational semantics `value / 2^F`, floor laws |
| C13, C14 | state `BitVec 32` → `Nat` steps | invariant over call histories; full period by multiplicative order of 69621 modulo the prime 2^31-1 (Lucas certificate) |
| C15 | ordered field functions | direct |
| C16–C21 | boxes over a linear order / ordered field | point-set semantics; coordinate-wise interval reasoning; slab intersection as an intersection of intervals |
| C22, C23, C63 | lines, rays and segments over an ordered field / reals | convexity of the squared distance, variational inequality, clamping by cases |
| C24–C26, C64 | planes | affine algebra; signed distances as infima; clipping by convex combinations |
| C27–C30 | spheres over the reals | triangle inequality, quadratic formula; enclosing spheres by the circumcentre |
| C69, C70 | capsules, circles over the reals | distance to the segment; orthonormal basis of the plane, angles as points of the unit circle; images under similarities |
| C71–C73 | frusta over the reals: ten parameters, and an object with caches where `none` is NaN | half extents as functions of the depth; clip coordinates as affine functions of view coordinates; invariant over histories of calls |
| C74, C75 | planar convex hull: the stack of the scan is a list, indices outside an array give `none`, exact arithmetic over an ordered field | invariant of the monotone chain scan; order of directions in a half plane; joining two chains; fan of triangles for containment |
| C76 | GJK over an ordered field; an object is its two functions `AnyPointFast` and `ExtremePoint`; the simplex is a list; three ways to end | invariant: the foot of the origin lies in the simplex and the direction points from it to the origin; minimiser over the compact simplex shows the Voronoi tests are complete |
| C77 | GJK in the plane, in the same way | the plane `z = 0` of space with the lemmas for two and three points of C76 |
| C78–C80 | a polyhedron is its list of vertices and its list of index lists; sets and maps of edges are sorted lists | closed meshes as lists of directed edges; reversal and injective renumbering map them; the binary search by its interval invariant; canonical faces are unique among rotations, sorting is unique for a total order; SetEquals is a composition of transpositions |
| C81 | solids built by the library | tables of vertices and faces as lists, points in a frame | box and frustum faces by sign computation in a frame with a signed triple product; the solids with √2 and √5 by exact arithmetic on pairs p + q b checked in the kernel and carried to the reals; capsules for every number of vertices per cap by the area of a triangle inscribed in a circle, `4 sin sin sin` |
| C82 | MergeConvex | loop over faces as a recursion on the face list, edge set as sorted list | silhouette edges run into every vertex as often as out of it (counting); the plane of a new triangle is a non-negative combination of the two planes at its silhouette edge; two silhouette edges leaving one vertex are parallel; region = hull by Farkas separation and by summing the signed areas of all faces in perspective view, which cancel on a closed surface |
| C83 | convex queries, extreme vertices, OrientNormalsOutsideConvex | loops over faces, vertices and neighbours as recursions; visit marks as a list; running out of marks or reading out of range is `none` | the region behind all faces is the hull (C82's `region_eq_hull`); a vertex not beaten by its neighbours is not beaten at all: a sum over all edges that cancels on a closed surface would be negative (`Proofs/ConvexLocalMax.lean`) |
| C84 | Polygon: plane, maps, shape tests, measures | vertex list; the three nested loops of PlaneCCW as recursions; an uninitialised plane and NaN are `none` | the normal of any triple of a planar polygon is ± its normal; telescoping sums for the area; induction along the edges for PointOnEdge |
| C85 | Polygon: Contains and line tests | even–odd loop with the code's nudging of vertices near the test line | nudging moves crossings by at most 2e-4, so an odd count puts the point near the hull; a convex polygon changes sides at most once in each direction, so an inner point has exactly one crossing; polygons against polygons (`Model/PolygonPolygon`) and boxes (`Model/PolygonBox`) through the points where edges cross |
| C86 | Polygon: Triangulate, ClosestPoint (point, segment), Intersects(Sphere, Capsule) | ear clipping with explicit indices and tries; out-of-range reads are `none` | well-founded induction on (size, tries) with the possible index states as invariant; convex: every first corner is an ear, hence the fan; area: clipping preserves the shoelace sum; a hull point lies in a fan triangle |
| C87 | volume, surface, centre of mass of polyhedra | `Model/PolyhedronMeasure.lean` | antisymmetric edge sums vanish on closed meshes, so the sums over tetrahedra do not depend on the reference point; face normals and areas from C84; cube and pyramid counterexamples by evaluation |
| C88 | closest point of a convex polyhedron | `ClosestPointConvex`: the containment test, then the minimum over the faces of the closest point of the face polygon | a segment from the solid to an outside point leaves through a face plane (least exit time over the half-spaces); the solid meets a face plane only in the face, as neighbouring faces are bent away; then C86 for each face and an induction over the loop |
| C89 | interpolation curves | `Model/Interpolate`: the polynomials and the cosine as written | derivative positive inside (0, 1), so strictly rising; identities by `ring`; flatness by factoring out the power |
| C90 | 2D circles, smallest enclosing circle | `Model/Circle2D`: three-point circle, four-point step, extents loop on the whole array left by the convex hull, restart loop | strong minimality of each candidate circle; Helly's theorem for the four-point step; the squared radius rises through the finite set of three-point radii; hull by C74 |
| C91 | ray queries against a triangle mesh | `Model/TriangleMesh`: array layouts as index functions, the scalar loop, one SIMD lane at a time and the merge of lanes | index arithmetic of the layout; running minimum as an invariant that merges over disjoint index sets; unique solution of the line-plane equation; witnesses for `Set` |
| C92 | Decompose and FromTRS | `Model/Decompose`: all versions for 3x3, 3x4, 4x4 and quaternions | matrix identities; determinant sign gives a rotation; C41 for quaternions; witness for reflections |
| C93 | transforms of arrays | `Model/Batch`: memory as a function, both loop forms (index, moving pointer) | induction on the number of elements with a frame condition; witness for packed directions |
| C94 | smallest rectangle around points | `Model/MinAreaRect`: the rotating calipers over ℝ with the loop on fuel, after the hull of `Model/Hull2D` | invariant: four corners of support for `ed` and its quarter turns; termination by the number of edge directions still ahead; between two events the product of two widths is at least its smaller end value |
| C95 | float2 operations | `Model/Float2`: each function over ℝ, `atan2` as the argument of a complex number, random numbers as any sequence | algebra with √; the argument of Mathlib's complex numbers; induction over the rounds of RandomDir |
| C96 | random points, directions, rotations | `Model/Random`: the drawing functions on top of the bit-exact generator of `Model/LCG`, with the generator state passed along; rejection loops with their limit of 1000 tries | each draw is total and keeps the modulus (induction over the loops); membership from the theorems on `PointInside`, `FacePoint`, `Contains`, …; a concrete generator for the failure of `RandomPerpendicular` |
| C97 | triangle and edge lists of boxes: count, faces, normals, coverage, area, winding | the loops as lists of vertices for any subdivision (Model/BoxMesh) | each cell as two triangles in affine face coordinates; coverage by the cell of a parameter; area by summation |
| C98 | `Polyhedron::Contains` by ray casting, object containment, `ClosestPoint` (point, segment), `Distance`, `Intersects(Capsule)` | `Model/PolyhedronContains`, `Model/PolyhedronSeg`, over ℝ with ±∞ in `EReal` | counting: a ray that is clear of the borders passes through exactly one face from inside and through none or two from outside (sign of the heights over the face planes along the ray); the face test is the even–odd test of C85; violation by evaluating the scan on a cube |
| C55 | `Triangle::Intersects(Triangle)`, `ClosestPoint(Triangle)` and the 2D segment test they use | `Model/TriTri`, over ℝ; an unwritten `outLine` is `some none` | the section of a triangle with a plane is the segment between the crossing points of the two edges at the lone vertex; overlap of two parameter intervals on the line of C64; in one plane: walking from a common point to a vertex outside leaves through an edge; closest pair: any pair of points can be moved, not increasing the distance, until it is an edge/edge or vertex/triangle pair (`Proofs/Exit`); violations by evaluation |
| C99 | line segments of the plane | `Model/Seg2D`, `Spec/Plane2` | the plane is embedded in space (`Proofs/Plane2`), where C22 and C23 are proved; the test by directions by solving the 2×2 system |
| C100 | triangles of the plane | `Model/Triangle2D`, `Spec/Plane2` | nearest point by embedding into C31; barycentric coordinates by linear algebra, with an exact condition for when they are right |
| C101 | rectangles with sides parallel to the axes | `Model/AABB2DMore`, `Spec/Plane2` | induction over the enclosed points; coordinatewise minima and maxima; the transform by attaining each bound at a corner |
| C102 | volumes bounded by planes | `Model/PBVolume`, `Spec/HalfSpaces` | induction over the planes for containment and culling; an invariant of the loops over all triples of planes; induction over the rounds of the selection sort |
| C103 | nearest object query of the kd-tree | Model/KdTreeNN: the loop with a step budget, the queue as a list with an arbitrary choice of a least element, the callback as a state transformer whose answer is dropped | induction on the budget with the queue as a list of pairs of entry and subtree; the calls are a permutation of the leaves; each split position lies in the box left for it (Proofs/KdTree `Nested`), so distances grow downwards |
| C104 | operations of `float4` | `Model/Float4.lean` over the reals, scalar path | comparison with the Euclidean operations on the first three or all four elements (`Spec/Vec4.lean`), algebra; Cauchy's inequality for the angles; counterexamples for the swizzles, `MaxElement`, `IsPerpendicular3`, `Refract` and the spherical coordinates |
| C105 | separating axis test for convex polygons of the plane | `Model/SAT2D.lean` over the reals; a failed assertion is `none` | every edge of a strictly convex polygon has the polygon on its left; separation of two hulls by a functional (Hahn–Banach), then an edge normal from the normal cones of the two extreme vertices; translations for the minimality of the depth; counterexamples for small clockwise polygons, segments and tiny edges |
| C106 | diagonals, simplicity and contained segments and triangles of polygons | `Model/PolygonMore.lean` over the reals; a read outside the vertices is `none` | the edge into the second vertex of a diagonal is always tested and touches it; a segment that leaves a convex polygon crosses an edge (smallest parameter over the violated edges), so that the end points and the distances to the edges decide; adjacent edges that overlap make the next edge touch; counterexamples for a thin rectangle, a segment up to the boundary and a polygon away from the origin |
| C107 | inverses of affine matrices with and without scale | `Model/MatAffine.lean` over the reals, assignments to the elements in the order of the code | closed forms of the results, then orthogonality relations; for the functions with scale the product with the scale instead of the identity |
| C108 | intersection of polyhedra with segments, lines and rays | `Model/PolyhedronIntersect.lean` over the reals, loops over the faces by recursion | the way from a point outside into the solid enters through a face (largest crossing parameter of the planes in front); C98 for the ends, the tests of the faces at clear points; negation from C98 |
| C109 | intersection of two polyhedra | `Model/PolyhedronPair.lean` over the reals, loops over faces and edges by recursion | a common point is pushed to a face of one solid, then along that face to a face of the other, then along the common line of two faces to an edge of one of them; C98 for the centroids, C108 for the edges |
| C110 | projections to planes and axes, polygons in planes, equality of lines | `Model/PlaneMore.lean`; the direction that `Project(Line)` reads before it is written is an argument `junk` | intervals by cases on the sign of the scalar product; nearest points from the unit normal; C84 for the plane of a polygon; witnesses for the failures |
| C111 | polyhedra against boxes and spheres | `Model/PolyhedronBox.lean` over the reals; the template function is modelled once, with the operations of the box as arguments | as C109, with the planes of the box in place of the faces of the second polyhedron; a point of a box on two of its faces is on one of its twelve edges; C98 for spheres |
| C112 | normals of faces, convexity and planarity of polyhedra | `Model/PolyhedronFaces`; specification `Spec/FaceNormal` (enclosed area seen against a unit vector) | Newell's terms are cross products plus differences that cancel around the face; cross products in a plane are multiples of the normal; witness of the absolute tolerance |
| C113 | counts and height of quadtrees | `Model/QuadTreeCount` | invariant of C43: the used places of the node array are the nodes of the tree; bijection between the nodes other than the root and the pairs of an inner node and a quarter; induction over the depth |
| C114 | pruning tests of the search for the smallest enclosing oriented box | `Model/OBBSearch` over an ordered field; the sorted search with fuel and explicit reads out of range | bilinear function on the unit square: sign change along a side, bound by the corners; uniqueness of the solution of the linear system; interval invariant of the loop over the neighbours; coordinates in the frame of the box; witnesses for the sorted search |
| C115 | enclosing oriented boxes by trial of orientations; of one and two points | `Model/OBBBrute`; the orientations tried are an arbitrary list, with the extents that `ExtremeVertexConvex` writes | induction over the trials with the best box as invariant; coordinates in the frame; witnesses for the wrong measure and the directions |
| C116 | triangulation of spheres: count, vertices, normals, winding, coverage, closedness | the loop over the queue of triangles for any number of vertices (`Model/SphereMesh`) | induction over the loop with length, octant, sign of the triple product and the union of the cones as invariants; whole rounds of the loop keep every edge paired; witnesses for the reversed winding, small spheres and open meshes |
| C31–C34 | triangles | variational inequality `(p-q)·(x-q) ≤ 0` per Voronoi region, Cramer's rule, Farkas' lemma for the separating axes |
| C35, C36, C65–C68 | generic convex objects, OBBs | separating hyperplane; change of basis; Farkas' lemma for box against box |
| C37–C39, C57–C60 | 3×3, 3×4, 4×4 matrices and `n × n` algorithms | polynomial identities, cofactor inverse, loop invariant `B * M = A` for elimination |
| C40, C41, C61, C62 | quaternions | polynomial identities, case split on the four branches, angle addition; the polynomials of `Slerp` as they are |
| C42 | quadratic formula over the reals | completing the square |
| C43–C46 | QuadTree: node array with indices | invariant over histories of calls, induction over the shown tree; nearest neighbours through the `PQueue` contract |
| C47–C49 | KdTree: node array with indices | invariant of the recursive split, simulation of the traversal stacks by recursion on the tree |
| C50 | two's complement ranks | order isomorphism between finite floats and integers |
| C51 | index computation on 32-bit ints | masking lemma; counterexample where it fails |
| C52 | `BitVec` | bit-extensionality |
| C54 | `float3` over the reals | algebra, angle identities |
| C56 | Euler angle extraction | `atan2` and `asin` identities, 12 orders generated by one script |

Where the code violates a property, the negation is proved with a concrete witness (theorems with
`violation` in their names), and the strongest part that does hold is proved with the suffix
`_partial`.

## Trusted base

* Lean 4.33.0's kernel. Axioms: only `propext`, `Classical.choice`, `Quot.sound`; no axioms are
  added, and `native_decide`, `bv_decide`, `sorry`, `admit`, `implemented_by` and `unsafe` are not
  used. `decide +kernel` is used for concrete examples and witnesses only.
* That the definitions in `Verif/Model` transcribe the cited C++ faithfully under decisions 1–12.
* That the definitions in `Verif/Spec` say what the English properties say.

## Modelled code

Every definition in `Verif/Model` cites the lines it models. This list is made from those
citations by `tools/cited.py`.

<!-- cited -->
| file under `src` | lines | model modules |
|---|---|---|
| `Algorithm/GJK.cpp` | 33–357 | `GJK` |
| `Algorithm/GJK.h` | 28, 31–65, 69–77 | `GJK`, `GJKShapes` |
| `Algorithm/GJK2D.cpp` | 36–156 | `GJK2D` |
| `Algorithm/GJK2D.h` | 32, 34–70, 73–78, 81–93, 95–100, 103–122, 124–129 | `GJK2D` |
| `Algorithm/Random/LCG.cpp` | 49–63, 65–74, 76–105, 107–121, 123–131, 133–152, 154–165, 167–185, 187–195 | `LCG` |
| `Algorithm/Random/LCG.h` | 69–76, 80–115, 119–124 | `LCG` |
| `Algorithm/SAT.cpp` | 6–18, 20–65, 67–145 | `SAT2D` |
| `Algorithm/SAT.h` | 30–68 | `SAT` |
| `Geometry/AABB.cpp` | 68–72, 74–79, 81–85, 87–92, 94–102, 104–111, 113–148, 150–153, 155–158, 160–164, 171–181, 183–186, 188–196, 198–232, 234–249, 251–256, 258–263, 265–289, 291–306, 308–325, 327–340, 342–346, 369–384, 392–395, 397–400, 402–406, 408–412, 414–420, 422–428, 430–435, 437–440, 442–451, 453–538, 540–545, 547–559, 561–566, 568–576, 578–583, 585–588, 590–620, 622–625, 627–639, 646–649, 651–654, 656–659, 725–793, 903–908, 910–915, 917–935, 942–969, 971–974, 976–986, 1013–1029, 1031–1045, 1047–1089, 1106–1113, 1115–1188, 1190–1201, 1254–1257 | `AABB`, `AABBEnclose`, `AABBTransform`, `BoxMesh`, `CircleFaces`, `GJKShapes`, `KdTree`, `OBB`, `PBVolumeOf`, `PolyhedronMake`, `Random`, `SAT`, `Sphere` |
| `Geometry/AABB.h` | 44–52, 166, 445, 477–480 | `AABB`, `BoxMesh`, `GJKShapes`, `KdTree` |
| `Geometry/AABB2D.h` | 50–51, 53–57, 59–63, 65–69, 71–77, 79–83, 85–89, 91–95, 97–100, 102–105, 112–115, 117–120, 127–138, 148–151, 153–156, 158–161, 171–177, 179–185, 197–203, 208–225 | `AABB2D`, `AABB2DMore` |
| `Geometry/Capsule.cpp` | 58–62, 69–72, 74–77, 79–82, 84–87, 89–92, 94–99, 101–106, 108–120, 122–125, 127–132, 134–137, 149–162, 164–167, 174–178, 185–188, 190–193, 195–200, 202–212, 214–227, 229–234, 236–245, 247–252, 254–260, 262–268, 270–276, 278–281, 283–290, 292–295, 297–300, 302–305, 307–310, 312–315, 317–320, 322–325, 327–330, 332–335, 337–340, 342–348, 350–357, 359–366, 368–385, 387–390, 392–395, 397–400, 402–405, 407–410, 412–415, 418–422, 425–429, 431–436 | `AABB`, `Capsule`, `GJKShapes`, `Random` |
| `Geometry/Capsule.h` | 98 | `GJKShapes` |
| `Geometry/Circle.cpp` | 45–48, 50–53, 55–60, 62–67, 69–76, 78–81, 83–86, 88–95, 97–104, 106–113, 115–119, 121–124, 132–135, 170–173, 175–182, 184–193, 195–198, 205–212, 214–221, 223–230, 233–236, 238–252 | `Circle`, `CircleFaces` |
| `Geometry/Circle2D.cpp` | 33–56, 61–131, 134–167, 179–182, 184–187, 189–192, 194–197, 199–266, 268–286 | `Circle2D` |
| `Geometry/Circle2D.h` | 25–35 | `Circle2D` |
| `Geometry/Frustum.cpp` | 57–85, 87–183, 185–191, 193–199, 201–207, 209–212, 214–217, 219–234, 236–251, 253–266, 268–281, 283–299, 301–317, 319–324, 326–329, 331–388, 390–410, 417–437, 444–447, 454–457, 464–477, 479–484, 486–489, 491–496, 498–503, 505–545, 547–567, 569–592, 594–637, 641–666, 677–681, 689–702, 709–715, 717–733, 735–781, 790–793, 795–843, 845–864, 866–881, 883–899, 901–913, 915–933, 935–954, 956–963, 965–986, 988–1027, 1029–1040, 1054–1057, 1059–1062, 1064–1067, 1074–1077, 1084–1087, 1089–1092, 1094–1097 | `Frustum`, `GJKShapes`, `PolyhedronMake`, `Random` |
| `Geometry/Frustum.h` | 30–46, 51–69, 79–91, 96–160, 223–271, 367, 414 | `Frustum`, `GJKShapes` |
| `Geometry/KDTree.h` | 38–60, 83–87, 180–199, 208–243 | `KdTree`, `KdTreeRay` |
| `Geometry/KDTree.inl` | 48–60, 62–152, 160–170, 178–182, 186–189, 193–201, 204–207, 211–219, 222–228, 231–234, 236–311, 313–323, 325–449, 453–506, 676–724 | `FloatX`, `KdTree`, `KdTreeNN`, `KdTreePart`, `KdTreeRay` |
| `Geometry/Line.cpp` | 56–73, 97–101, 132–135, 142–145, 147–154, 156–159, 161–179, 181–184, 186–189, 251–255, 257–267, 269–273, 275–290, 320–332, 344–347 | `Line`, `OBB`, `PlaneMore` |
| `Geometry/Line.h` | 27–37 | `Line` |
| `Geometry/LineSegment.cpp` | 64–67, 69–72, 74–77, 79–82, 84–87, 89–94, 102–106, 108–112, 114–118, 120–124, 131–134, 141–144, 163–168, 170–174, 176–193, 195–274, 283–289, 300–304, 306–311, 313–317, 319–324, 326–333, 345–350, 357–360, 392–395, 417–420, 427–433, 440–443 | `Capsule`, `Circle`, `Frustum`, `GJKShapes`, `Line`, `OBB`, `Plane` |
| `Geometry/LineSegment.h` | 27–37, 84, 223 | `GJKShapes`, `Line`, `PolygonMore` |
| `Geometry/LineSegment2D.cpp` | 46–74, 76–113, 115–118, 135–138, 140–143, 145–148, 155–158, 160–165, 167–171, 197–200, 202–205, 212–215, 217–220, 222–225, 227–232, 273–290, 292–371, 373–378, 380–385, 401–405, 407–412, 459–462, 479–485 | `Seg2D`, `TriTri` |
| `Geometry/LineSegment2D.h` | 26–32 | `Seg2D` |
| `Geometry/OBB.cpp` | 101–108, 110–134, 136–140, 142–145, 147–151, 153–156, 158–165, 183–213, 215–222, 224–229, 245–251, 253–259, 266–269, 276–285, 287–306, 308–323, 325–332, 334–339, 341–349, 351–365, 367–392, 394–408, 410–430, 432–445, 462–484, 731–766, 796–833, 844–868, 880–900, 902–947, 949–985, 1970–1996, 2098–2119, 2147–2201, 2204–2207, 2214–2217, 2219–2222, 2224–2229, 2231–2262, 2265–2287, 2289–2293, 2295–2299, 2301–2307, 2309–2315, 2317–2322, 2324–2327, 2329–2332, 2334–2337, 2339–2344, 2346–2356, 2358–2362, 2364–2368, 2370–2374, 2376–2379, 2381–2387, 2389–2392, 2394–2419, 2421–2424, 2426–2435, 2437–2444, 2446–2449, 2451–2457, 2459–2466, 2468–2476, 2478–2481, 2483–2506, 2508–2516, 2518–2529, 2618–2708, 2713–2722, 2724–2736, 2738–2750, 2752–2764, 2767–2777, 2784–2789 | `BoxMesh`, `CornerContains`, `GJKShapes`, `OBB`, `OBBBrute`, `OBBSearch`, `PBVolumeOf`, `PolyhedronMake`, `Random`, `SAT` |
| `Geometry/OBB.h` | 29–49, 215, 482–485 | `BoxMesh`, `GJKShapes`, `OBB` |
| `Geometry/PBVolume.h` | 32–43, 49–53, 57–63, 70–112, 114–126, 129–133, 135–141, 144–269, 276–286 | `PBVolume` |
| `Geometry/Plane.cpp` | 65–69, 77–81, 88–96, 98–108, 110–114, 116–123, 125–130, 132–137, 139–142, 144–148, 151–160, 162–166, 168–172, 174–177, 179–182, 184–195, 197–200, 202–205, 212–215, 217–220, 222–229, 231–242, 244, 250, 255–256, 258–261, 276–279, 281–291, 298–302, 304–307, 309–312, 314–317, 319–339, 341–348, 350–357, 359–376, 378–412, 427–430, 432–440, 442–445, 447–450, 457–467, 469–473, 475–478, 480–505, 507–551, 596–634, 637–644, 646–653, 655–663, 665–668, 676–687, 694–700, 711–720, 722–742, 749–768, 775–794, 796–865, 867–870, 872–875, 877–880 | `AABB`, `Circle`, `Line`, `Plane`, `PlaneMore` |
| `Geometry/Plane.h` | 27–42 | `AABB` |
| `Geometry/Polygon.cpp` | 65–72, 74–81, 83–110, 112–119, 121–126, 128–135, 137–160, 169–176, 178–182, 184–199, 201–218, 234–237, 239–243, 251–296, 298–303, 305–309, 335–341, 343–405, 413–434, 436–441, 443–465, 467–489, 491–497, 499–505, 507–525, 527–541, 543–546, 548–551, 553–556, 558–580, 582–590, 592–600, 612–699, 706–715, 717–726, 728–746, 753–774, 798–813, 815–822, 839–853, 855–861, 864–872, 874–894, 896–899, 901–908, 910–922, 927–940, 942–946, 950–968, 974–1046, 1048–1055 | `GJKShapes`, `Polygon`, `Polygon2D`, `PolygonBox`, `PolygonMore`, `PolygonPolygon`, `PolygonSeg`, `PolyhedronMake`, `PolyhedronMeasure`, `Random` |
| `Geometry/Polygon.h` | 65, 162, 278–279, 317 | `GJKShapes`, `Polygon`, `PolygonMore`, `PolygonPolygon` |
| `Geometry/Polygon2DRef.h` | 19–40 | `GJK2D` |
| `Geometry/Polyhedron.cpp` | 86–90, 119–125, 127–133, 135–141, 143–152, 154–174, 176–183, 185–195, 197–208, 210–309, 311–315, 317–331, 333–336, 338–343, 345–408, 483–490, 492–499, 501–538, 540–550, 553–564, 566–573, 582–603, 605–609, 611–651, 653–693, 695–698, 700–720, 722–736, 738–821, 823–827, 829–903, 905–908, 910–913, 915–958, 960–968, 970–973, 975–978, 980–998, 1000–1017, 1024–1056, 1058–1062, 1064–1107, 1109–1124, 1126–1133, 1135–1142, 1151–1202, 1204–1235, 1237–1240, 1242–1245, 1262–1266, 1268–1273, 1275–1280, 1282–1287, 1289–1294, 1464–1521, 1523–1527, 1553–1563, 1666–1668, 2280–2313, 2316–2358, 2361–2376, 2379–2504, 2506–2550, 2552–2606, 2608–2611, 2622–2648, 2650–2663, 2665–2696, 2992–3009, 3011–3021, 3023–3050, 3052–3077, 3079–3115, 3117–3132, 3134–3148, 3150–3160 | `OBBBrute`, `Polyhedron`, `PolyhedronBox`, `PolyhedronContains`, `PolyhedronConvex`, `PolyhedronEq`, `PolyhedronFaces`, `PolyhedronIntersect`, `PolyhedronMake`, `PolyhedronMeasure`, `PolyhedronMerge`, `PolyhedronPair`, `PolyhedronQuery`, `PolyhedronSeg` |
| `Geometry/Polyhedron.h` | 31–62, 326, 332, 340 | `Polyhedron`, `PolyhedronContains`, `PolyhedronConvex` |
| `Geometry/QuadTree.h` | 40, 45, 63–77, 86–97, 99–102, 104–111, 129 | `QuadTree`, `QuadTreeNN` |
| `Geometry/QuadTree.inl` | 24–43, 45–112, 114–126, 128–191, 205–238, 240–301, 303–356, 364–393, 396–404, 406–596, 598–606, 608–616, 618–626, 628–636, 638–694, 697–700, 702–712, 714–724, 726–737, 739–748, 750–756 | `PQueue`, `QuadTree`, `QuadTreeCount`, `QuadTreeNN` |
| `Geometry/Ray.cpp` | 65–69, 100–103, 120–136, 148–152, 154–190, 192–203, 205–256, 352–362, 424–428 | `Line`, `OBB`, `PlaneMore` |
| `Geometry/Ray.h` | 27–37 | `Line` |
| `Geometry/Sphere.cpp` | 76–79, 81–86, 88–93, 95–101, 103–106, 108–113, 115–122, 130–133, 135–138, 140–145, 147–152, 154–159, 177–180, 182–185, 187–190, 192–195, 197–203, 205–212, 214–221, 223–230, 232–240, 242–245, 252–256, 258–296, 328–385, 387–390, 392–395, 437–440, 442–447, 449–456, 458–461, 468–541, 543–568, 570–588, 590–612, 649–671, 704–743, 759–769, 771–783, 811–830, 832–836, 838–842, 844–933, 935–953, 955–974, 986–1001, 1015–1081, 1098–1168, 1171–1234, 1237–1304, 1306–1337, 1340–1366, 1369–1391 | `CornerContains`, `GJKShapes`, `Plane`, `Random`, `Sphere`, `SphereMesh`, `SphereOptimal` |
| `Geometry/Sphere.h` | 26–33, 108 | `AABB`, `GJKShapes` |
| `Geometry/Triangle.cpp` | 57–62, 69–72, 89–92, 94–148, 150–154, 156–160, 162–168, 170–178, 180–183, 185–188, 190–193, 195–198, 200–212, 214–226, 228–231, 233–236, 238–246, 248–251, 253–256, 258–273, 275–280, 296–302, 304–307, 309–312, 329–339, 341–344, 346–350, 363–366, 368–371, 378–381, 383–388, 405–447, 450–465, 467–479, 481–493, 502–515, 517–534, 540–627, 717–831, 860–869, 871–892, 895–951, 1013–1055, 1397–1430, 1432–1465, 1467–1483, 1817–1874, 1877–1901, 1903–1906, 1908–1922 | `AABB`, `GJKShapes`, `OBB`, `PolygonMore`, `Random`, `SAT`, `TriDef`, `TriTri`, `Triangle` |
| `Geometry/Triangle.h` | 29–41, 188 | `GJKShapes`, `TriDef` |
| `Geometry/Triangle2D.cpp` | 55–60, 84–87, 89–102, 104–108, 110–114, 116–122, 124–127, 139–142, 149–152, 154–166, 168–180, 182–197, 199–204, 215–221, 223–226, 238–246, 282–285, 287–290, 669–678, 695–701, 704–760, 1627–1651, 1658–1672 | `Triangle2D` |
| `Geometry/Triangle2D.h` | 27–40 | `Triangle2D` |
| `Geometry/TriangleMesh.cpp` | 40–51, 168–175, 221–231, 272–289, 302–310, 312–408, 410–436 | `TriangleMesh` |
| `Geometry/TriangleMesh.h` | 75–77 | `TriangleMesh` |
| `Geometry/TriangleMesh_IntersectRay_AVX.inl` | 20–221 | `TriangleMesh` |
| `Geometry/TriangleMesh_IntersectRay_SSE.inl` | 20–247 | `TriangleMesh` |
| `Math/BitOps.cpp` | 24–32 | `Bits` |
| `Math/BitOps.h` | 30–39, 42–51, 61–82, 89–95, 97–103, 112–118, 123–126, 128–131, 148–158, 172–176 | `Bits` |
| `Math/FixedPoint.h` | 53–56, 59–62, 66–70, 83, 85, 88–97, 99–103, 105–114, 122–126, 130–134, 138–143, 147–153, 196–200, 202–206, 268–272, 274–278, 280–284, 286–290, 298–308 | `FixedPoint` |
| `Math/Interpolate.h` | 29–33, 36–40, 42–47, 49–54, 57–62, 64–69, 71–77, 79–85, 88–96, 100–109, 125–131, 133–140, 142–146 | `Interpolate` |
| `Math/MathConstants.h` | 39 | `AABB` |
| `Math/MathFunc.cpp` | 95, 101–117, 119–124, 126–131, 133–139, 141–145, 327–330, 332–335, 337–349, 351–364, 366–375, 377–387, 389–393, 430–439, 441–449, 451–459, 461–464, 466–469, 471–474, 476–489, 491–495, 497–500, 502–505, 507–511, 513–522, 524–534, 536–539, 544–550, 553–565, 567–589, 591–610, 615–623, 625–754 | `Bits`, `CArith`, `Scalar`, `Serialize`, `SinTable` |
| `Math/MathFunc.h` | 328–333, 338, 342–346, 350–364, 368–372, 386–390, 394–398, 402–406, 423–437, 471–472, 475–476, 479–480, 511–512 | `Float3`, `MiniFloat`, `Scalar`, `Serialize` |
| `Math/MathOps.cpp` | 24–27, 53–66 | `Float3`, `Ulps` |
| `Math/Matrix.inl` | 31–39, 47–55, 63–71, 78–89, 97–122, 129–140, 148–173, 180–191, 199–224, 231–242, 250–275, 282–293, 301–326, 333–344, 352–377, 384–395, 403–428, 435–446, 454–479, 486–497, 505–530, 537–548, 556–581, 588–599, 607–632, 639–650, 658–683, 691–712, 723–729, 732–744, 747–760, 763–817, 823–847, 853–876, 879–888, 891–898, 900–907, 909–916, 918–925 | `Euler`, `Mat`, `MatAffine`, `MatGen`, `Quat` |
| `Math/MiniFloat.cpp` | 5–24, 26–96, 98–151, 153–178 | `MiniFloat` |
| `Math/Polynomial.cpp` | 23–41 | `Quadratic` |
| `Math/Quat.cpp` | 66–91, 93–115, 117–120, 122–129, 131–138, 140–147, 149–170, 172–183, 213–225, 227–231, 233–251, 253–271, 285–295, 297–375, 377–387, 389–400, 402–408, 410–416, 418–430, 452–466, 492–536, 619–632, 639–656, 692–703, 705–720, 724–735, 737–740, 846–853, 855–862, 864–871, 873–880, 900–909, 911–923, 925–935, 950 | `Euler`, `Quat`, `Random` |
| `Math/TransformOps.cpp` | 49–56, 58–66, 82–90, 92–100, 102–111, 113–118, 155–162, 164–171, 173–181, 183–193, 195–205, 207–216, 218–227, 229–248, 250–260, 262–271, 273–282 | `Mat` |
| `Math/float2.cpp` | 75–78, 85–98, 100–107, 109–113, 115–130, 132–139, 141–152, 178–182, 184–187, 223–231, 239–257, 274–277, 279–282, 284–287, 289–292, 314–327, 329–332, 344–354, 361–364, 366–369, 371–375, 377–387, 389–393, 395–399, 401–404, 406–411, 413–422, 424–429, 431–435, 443–448, 467–472, 474–477, 479–484, 486–489, 491–499, 502–510, 522–533, 535, 537–627, 629–642 | `AABB2DMore`, `Float2`, `Hull2D`, `MinAreaRect`, `Polygon2D`, `SAT2D`, `Seg2D`, `Serialize`, `Triangle2D` |
| `Math/float2.h` | 97–102 | `Float2` |
| `Math/float2.inl` | 49–53, 55–63, 65–71, 73–143, 145–159 | `Circle2D`, `Hull2D` |
| `Math/float3.cpp` | 108–116, 118–139, 141–156, 158–182, 184–187, 189–192, 199–203, 205–208, 220–229, 237–256, 339–342, 344–350, 352–355, 357–363, 365–374, 409–418, 431–440, 442–445, 457–464, 466–475, 498–506, 569–580, 582–590, 592–608, 610–613, 615–618, 620–624, 627–636, 638–642, 644–648, 650–659, 661–672, 674–679, 681–685, 692–696, 698–707, 721–728, 730–741, 763–772, 785–793, 802–811, 820–830, 832–838, 840–845, 871–874, 876–879, 891–894, 896–1011, 1046–1055, 1079–1096 | `Float3`, `Float3R`, `Frustum`, `Line`, `PBVolume`, `Plane`, `PlaneMore`, `Random`, `Serialize`, `Sphere` |
| `Math/float3.h` | 94, 113 | `KdTree` |
| `Math/float3x3.cpp` | 39–46, 48–53, 88–133, 135–140, 142–149, 173–176, 178–181, 289–292, 304–329, 398–432, 434–440, 447–455, 457–464, 481–496, 572–580, 608–669, 694–713, 715–738, 774–787, 789–824, 826–931, 940–966, 968–994, 996–1004, 1006–1044, 1046–1051, 1067–1073, 1075–1078, 1080–1092, 1094–1113, 1125–1130, 1138–1143, 1145–1151, 1153–1170, 1172–1189, 1191–1209, 1231–1236, 1245–1257, 1268–1276, 1300–1308, 1468–1471, 1473–1483, 1485–1502, 1536 | `Batch`, `Decompose`, `Mat`, `MatGen`, `Plane`, `Quat`, `Random` |
| `Math/float3x3.h` | 60, 303–313 | `AABB2DMore`, `Mat` |
| `Math/float3x4.cpp` | 52–56, 58–62, 146–149, 166–173, 175–178, 193–196, 198–206, 208–215, 340–343, 572–577, 579–582, 850–870, 872–884, 898–924, 926–950, 952–993, 995–1001, 1104–1113, 1143–1152, 1160–1170, 1172–1189, 1191–1196, 1198–1208, 1210–1227, 1229–1250, 1252–1275, 1635–1638, 1640–1650, 1652–1670, 1672–1683, 1698–1702, 1734 | `AABBTransform`, `Batch`, `Decompose`, `Mat`, `MatGen`, `Random` |
| `Math/float3x4.h` | 60, 489–490 | `Mat` |
| `Math/float4.cpp` | 146–149, 151–161, 163–170, 172–179, 181–188, 190–197, 199–206, 208–215, 217–224, 283–290, 292–299, 301–308, 310–317, 319–343, 345–357, 359–379, 381–388, 390–404, 406–409, 411–414, 416–419, 421–424, 426–429, 431–443, 445–459, 470–476, 490–494, 496–500, 512–522, 530–550, 552–559, 561–568, 570–573, 575–578, 580–596, 598–601, 603–619, 621–628, 630–637, 648–652, 654–670, 681–688, 699–706, 708–718, 744–763, 765–785, 787–803, 805–812, 835–858, 860–868, 870–882, 884–896, 898–903, 905–910, 931–936, 938–943, 946–955, 957–966, 968–973, 975–984, 986–991, 993–998, 1000–1005, 1007–1012, 1014–1019, 1021–1024, 1026–1040, 1054–1061, 1063–1074, 1081–1089, 1091–1098, 1100–1109, 1165–1181, 1183–1200, 1202–1212, 1214–1220, 1222–1236, 1402–1409, 1411–1418, 1420–1427, 1429–1436, 1438–1445, 1447–1454 | `Float4`, `Frustum`, `Serialize` |
| `Math/float4.h` | 377, 383, 402, 416, 429, 438, 448, 646, 658, 665 | `Float4` |
| `Math/float4d.h` | 131–150 | `PolyhedronFaces` |
| `Math/float4x4.cpp` | 54–67, 69–82, 219–228, 240–243, 245–248, 255–258, 444–450, 452–461, 484–496, 498–507, 509–523, 525–535, 537–546, 548–558, 560–572, 574–579, 602–607, 777–793, 1071–1083, 1244–1262, 1264–1272, 1274, 1276–1288, 1290–1310, 1312–1320, 1332–1341, 1393–1407, 1409–1421, 1423–1437, 1454–1458, 1512–1539, 1551–1561, 1573–1583, 1585–1595, 1597–1603, 1605–1616, 1618–1624, 1626–1637, 1639–1645, 1647–1658, 1660–1687, 1689–1716, 1718–1746, 2062–2072, 2074–2096, 2111–2123, 2155–2182, 2184–2211, 2213–2223, 2234 | `Batch`, `Decompose`, `Mat`, `MatGen`, `Random` |
| `Math/float4x4.h` | 71 | `Mat` |
<!-- /cited -->

## Not modelled

* Everything under `src` outside the lines listed above. Whole files without a model include
  `Time`, the SIMD ray kernels beyond what `TriangleMesh` cites, and the interop with graphics engines.
* SIMD code paths, and the non-STL build.
* Floating point rounding, overflow and underflow in arithmetic geometry; NaN arguments except
  where a theorem mentions them.
* Text formatting of finite floats (`ToString`), logging, `assume` output, memory allocation.
