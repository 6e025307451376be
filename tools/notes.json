{
 "C01": {
  "status": "proved",
  "note": "All 2^32 / 2^64 words: characterisation by sets of powers of two, including the results for 0 and for words above the largest power of two."
 },
 "C02": {
  "status": "proved",
  "note": "Any width; undefined behaviour (signed overflow) is a distinct outcome excluded by the hypothesis that x+n is representable."
 },
 "C03": {
  "status": "proved",
  "note": "Loop terminates and returns the number of set bits for every word."
 },
 "C04": {
  "status": "proved",
  "note": "Masks bit by bit; pack/extract round trip for four pairwise disjoint fields."
 },
 "C05": {
  "status": "proved",
  "note": "Strings of any length."
 },
 "C06": {
  "status": "partial",
  "note": "Factorial and CombinatorialTab proved for all arguments with a representable result, with the exact limit of Factorial. CombinatorialRec is only proved for 0 <= k <= n: outside that range it returns 1 (witness theorem)."
 },
 "C07": {
  "status": "proved",
  "note": "Every exponent, in any division ring; exponent -2^31 is covered by its own theorem."
 },
 "C08": {
  "status": "partial",
  "note": "Round trip and values proved for all halfs except the classes where the code is wrong: denormals and infinities have machine-checked counterexamples."
 },
 "C09": {
  "status": "partial",
  "note": "Round trip proved for every mini-float format except infinities; the failing cases have machine-checked counterexamples."
 },
 "C10": {
  "status": "proved",
  "note": "All 2^32 and 2^64 patterns."
 },
 "C100": {
  "status": "partial",
  "note": "Nearest points, bounds, extreme points and random points are proved in full. Fails: BarycentricUVW omits the division by the doubled area; C100_barycentric_partial shows that it is right exactly for counter-clockwise triangles of doubled area one, C100_barycentric_violation gives points misjudged in both directions; IsDegenerate misses collinear vertices; ClosestPoint divides by zero when vertices coincide."
 },
 "C101": {
  "status": "partial",
  "note": "Everything holds but TransformAsAABB(float3x3), which reads m[0][3] and m[1][3] of a matrix with three columns: C101_transform3_partial says what it computes when the rows are stored one after the other, C101_transform_violation shows a rotation for which the result does not have the image of the centre. The transforms by float3x4 and float4x4 are proved in full (C101_transform_partial)."
 },
 "C102": {
  "status": "partial",
  "note": "Contains, SetIntersection and what the two culling functions return are proved in full; touching objects are classified wrongly (C102_cull_violation). ToPolyhedron: with unit normals no two of which are equal, the vertices are corners of the volume, all well conditioned corners are vertices, the faces lie on the planes and consecutive vertices share a second plane when the asserts hold (C102_polyhedron_partial). It fails when two normals are equal (C102_vertex_violation, a vertex outside) and when more than three planes meet (C102_pyramid_violation). Missing: that the asserts hold for volumes with three planes at each corner, and the winding order. ToPBVolume of AABB and OBB is exact (C102_ofAABB, C102_ofOBB)."
 },
 "C103": {
  "status": "partial",
  "note": "Proved over the reals for every priority queue that shows a least element: termination, one call per leaf, nondecreasing distances, the distance given is the distance of the box, and objects not seen before are at least that far away. Violations: the answer of the callback is dropped, so the query never stops early; an object that straddles a split is given again in a leaf with a distance larger than its own, against the documentation. The container MaxHeap is another library and enters by its contract."
 },
 "C104": {
  "status": "partial",
  "note": "Over the reals, scalar path. Proved: Swizzled, lengths, distances, scalar products, IsZero, IsNormalized, Normalize(3), ScaleToLength(3), IsPerpendicular, MinElement and the index functions, elementwise operations, NormalizeW, Cross, OuterProduct, ProjectTo(3), Reflect(3), AngleBetween, Lerp, Orthonormalize, AreOrthonormal, Equals. Violations: yyyy, zzzz and wwww repeat the first element (C104_swizzle_violation says exactly when they are right); MaxElement takes the smaller of z and w (C104_maxElement_partial says exactly when it is right); IsPerpendicular3 scales its tolerance by all four elements; Perpendicular is not perpendicular near the y axis; Refract breaks Snell's law; ToSphericalCoordinates divides by the length of all four elements."
 },
 "C105": {
  "status": "partial",
  "note": "Proved for polygons with any number of vertices, at least three, every three of them making a left turn: the assertions hold, SATCollide2D is true exactly when the hulls meet (separating axis theorem proved through Hahn-Banach and the normal cones of two vertices), and with edges longer than 1e-3 the signed distance, normal and point of SATCollide2D_CollisionPoint are right, including that no shorter move separates the polygons. Violations: the tolerance of the winding assertion lets small clockwise polygons pass and the answer is then wrong; disjoint collinear segments are reported to collide; edges of at most 1e-3 get an arbitrary direction, so that tiny polygons a unit apart are reported to penetrate. Missing: polygons with three collinear or repeated vertices."
 },
 "C106": {
  "status": "partial",
  "note": "DiagonalExists is proved to answer false for every two different vertices of every planar polygon with different consecutive vertices (C106_diagonal_never), a violation, with the diagonal of a square as the case (C106_diagonal_violation). IsSimple is characterised exactly: every two edges without a common vertex stay more than 1e-3 apart (C106_isSimple_partial); it answers true only for simple polygons (C106_isSimple_sound) and rejects a thin convex rectangle (C106_isSimple_violation). Contains(LineSegment) and Contains(Triangle) are characterised exactly for convex polygons: everything within the thickness of the plane, projections in the polygon and more than 1e-3 from its edges; a segment that ends on the boundary is rejected (C106_containsSeg_violation). Contains2D accepts a segment that leaves the polygon (C106_contains2D_violation). Missing: Contains(LineSegment) of polygons that are not convex, segments orthogonal to the plane of the polygon."
 },
 "C107": {
  "status": "partial",
  "note": "InverseAffineMatrixNoScale is proved to invert every matrix with an orthonormal basis and any translation (C107_noScale). InverseAffineMatrixUniformScale and InverseAffineMatrixNonuniformScale are proved to map the image of v to s v instead of v for every orthogonal basis with axes of the lengths s, so that they are inverses exactly for the scale 1 (C107_uniform_partial, C107_nonuniform_partial, C107_scale_violation): the rows are divided by the scale once instead of twice."
 },
 "C108": {
  "status": "partial",
  "note": "For convex polyhedra as in C98 the answers are proved right for segments whose ends are clear points and for rays and lines that are steep to, or off the plane of, each face, if they do not pass within 2e-4 of the border of a face (C108_segment_partial, C108_lines_partial). Missing: segments, rays and lines near the borders, where the answer can be wrong; C108_segment_violation gives a segment six units away that is reported to intersect."
 },
 "C109": {
  "status": "partial",
  "note": "Proved for convex polyhedra with planar convex faces of which no two are coplanar, if the two centroids and the edges of each polyhedron are clear of the borders of the faces of the other (C109_polyhedron_partial); the core is that two convex solids with a common point have an edge of one that meets the other. Missing: edges and centroids that pass near the borders of faces, where the containment test C98 is wrong."
 },
 "C11": {
  "status": "partial",
  "note": "Floats proved in full. Doubles: value proved for all patterns, the read position is wrong (witness)."
 },
 "C110": {
  "status": "partial",
  "note": "Ray::ProjectToAxis is exact for rays that point forwards along the axis or are perpendicular to it; C110_ray_axis_violation: a wrong constant (-1e4 for -1e-4) makes it wrong for every pair of unit vectors with a negative scalar product. Project(Polygon) is proved in full. Project(Line) and Project(Ray) read an uninitialised direction: C110_project_line_violation shows that any unit vector parallel to the plane can come out; the position is right. Contains(Polygon) is proved for polygons that lie in a plane exactly; C110_contains_polygon_violation: it refuses a triangle whose vertices are all in the plane up to the tolerance. Line::Equals accepts equal lines and bounds position and angle; C110_line_equals_violation: it accepts lines that diverge by more than two degrees."
 },
 "C111": {
  "status": "partial",
  "note": "The answer is proved for convex polyhedra with faces that are not too small, if the centre and the edges of the object (for a sphere: its centre) stay away from the borders of the faces, and the edges of the polyhedron are perpendicular to the axes of the box or not nearly so. Missing: rays and edges within the tolerances of a border, where C98_contains_violation and C108_segment_violation show wrong answers of the tests that are called, and concave polyhedra (the code has a comment that it is wrong for them)."
 },
 "C112": {
  "status": "partial",
  "note": "FaceNormal is proved for planar faces of any shape (Newell's sum is the enclosed area times the normal), IsConvex accepts all convex surfaces and answers whether a vertex is more than 1e-2 in front of a face, FacesAreNondegeneratePlanar accepts strictly convex faces and is sound up to the tolerance, TriangulateConvex returns the fans of strictly convex faces. Violated: the tolerance of IsConvex is absolute, a small polyhedron with a dent is reported as convex (C112_isConvex_violation). Missing: faces whose first three corners are collinear in FacesAreNondegeneratePlanar (their plane is NaN and every corner passes), concave faces in TriangulateConvex; rounding is not modelled."
 },
 "C113": {
  "status": "proved",
  "note": "After every valid history the counts are those of the nodes that can be reached from the root, leaves are three times the inner nodes plus one, and TreeHeight ends and is the length of the longest path. The history is the one of C43 (exact arithmetic, the association of objects with nodes kept by the user)."
 },
 "C114": {
  "status": "partial",
  "note": "The test of two edges is proved exact; that of opposing edges is proved sound, and complete for normals at a distance of 1e-4 from the faces when the solver accepts the system. The test of a vertex never misses and is sound up to its slack; a witness shows that it accepts vertices that are not antipodal. The step of the search is proved in full. SortedArrayContains moves its bounds to the searched number instead of the middle: witnesses show a wrong answer, a loop without end and a read out of range; answers of true are proved right."
 },
 "C115": {
  "status": "partial",
  "note": "For every sequence of orientations the returned box is proved to contain all points and to be the smallest in one of them. The code adds the depth instead of multiplying by it: a witness shows that it returns a box with more than four times the volume of another it tried. The box of two points is proved to be the segment when they are more than 1e-6 apart; its directions are perpendicular for distance one, and witnesses show that they are not for distance two and that nearer points are not enclosed. The choice of the orientations is not modelled: the list is arbitrary."
 },
 "C116": {
  "status": "partial",
  "note": "The counts, the positions and the normals are proved (normals for radii above 1e-6), and that the meshes with the documented 24*4^k vertices fill the arrays and are closed. Winding and coverage are proved for radii of at least 0.0015. The documented winding is reversed (C116_winding_violation); below about 0.0014 the midpoints collapse to one point and triangles have no area (C116_small_violation); for other numbers of vertices, which the documentation advises against, the mesh has edges without partner (C116_closed_violation). Texture coordinates are not modelled."
 },
 "C12": {
  "status": "partial",
  "note": "Exact rational semantics for every operation whose intermediates do not overflow; the source's claim that MulPrecise cannot overflow is refuted, and proved for non-negative values with few fraction bits."
 },
 "C13": {
  "status": "proved",
  "note": "Every generator state; float arithmetic rounded by an arbitrary round-to-nearest binary32 operation. Int(a,b) with more than 2^31-1 values is undefined behaviour (theorem)."
 },
 "C14": {
  "status": "partial",
  "note": "Never stuck and full period for every good seed and call history; seeds that are multiples of 2^31-1 and mixing with IntFast do get stuck (witness theorems)."
 },
 "C15": {
  "status": "partial",
  "note": "All helpers in exact arithmetic; two parts of the claim are false and have witnesses: PingPongMod of negative x is negative, and ModPos with rounding can return m."
 },
 "C16": {
  "status": "proved",
  "note": "Induction over arbitrary histories of Enclose on points, boxes, segments, triangles, spheres, capsules and oriented boxes, starting from SetNegativeInfinity; SetFrom for point lists and objects."
 },
 "C17": {
  "status": "proved",
  "note": "All boxes over every linearly ordered field; intersection of boxes as shared interior volume, symmetric, and Intersection as set intersection."
 },
 "C18": {
  "status": "proved",
  "note": "Closest point by the variational inequality; sphere overlap and both distances as set statements over the reals."
 },
 "C19": {
  "status": "partial",
  "note": "Everything in the statement is proved. One extra finding keeps it partial: PointOnEdge numbers the edges differently from Edge, proved as C19_pointOnEdge_index_mismatch."
 },
 "C20": {
  "status": "partial",
  "note": "Proved for 3x3, 3x4 and 4x4 matrices (all of them, not only orthogonal ones), Translate and Scale. TransformAsAABB(Quat) does not enclose the image (violation theorem); only the degenerate case is proved for it."
 },
 "C21": {
  "status": "partial",
  "note": "Exact for directions whose components are zero or at least the parallelism tolerance; for smaller non-zero components and for very short segments the claim is false of the code, shown by two counterexample theorems."
 },
 "C22": {
  "status": "partial",
  "note": "ClosestPoint and Distance proved for unit-direction lines and rays and non-degenerate segments. Contains compares the squared distance with the threshold (violation theorem; what it decides is the _partial theorem)."
 },
 "C23": {
  "status": "partial",
  "note": "All nine closest-pair functions and all Distance overloads proved, including parallel objects, spheres and capsules. LineSegment::Distance(Line, d, d2) exchanges its out-parameters (violation theorem)."
 },
 "C24": {
  "status": "proved",
  "note": "Point distances, projection, mirroring, half spaces, ReverseNormal, sides, projected segments and triangles, SignedDistance of boxes, segments, triangles and spheres, Distance of spheres and capsules; unit normal assumed as the code does."
 },
 "C25": {
  "status": "partial",
  "note": "Translate moves the plane the wrong way (C25_translate_violation; C25_translate_partial says what it does). Transform is proved for every unit quaternion, and for every matrix whose linear part shortens no vector by more than the factor sqrt(3)*1e-6 (the _conditioned theorems); the _partial theorems hold whenever the matrix inversion succeeds. Below its 1e-6 tolerance it fails (C25_transform3_violation)."
 },
 "C26": {
  "status": "partial",
  "note": "Segment, line and triangle clipping proved outside the tolerance cases; violations: a first end point exactly on the plane, lines parallel and within 1e-3, triangle edges shorter than 1e-6."
 },
 "C27": {
  "status": "partial",
  "note": "Containment, distances, intersections, extreme point, bounding box and transforms proved in full over the reals. ClosestPoint at the centre divides 0/0 (violation proved, partial elsewhere); ProjectToAxis needs a unit direction; MaximalContainedAABB is contained but not maximal."
 },
 "C28": {
  "status": "partial",
  "note": "OptimalEnclosingSphere of 2, 3, 4 points contains all inputs in every branch; the 3-point result is minimal up to 2e-4 for triangles that are not nearly degenerate. For n points: every point but the first is in the sphere with the slack of the code, if the last change of the sphere restarted the loop (C28_optimal_n_partial); the first point, once evicted from the support, is never looked at again because i = 0 is followed by ++i, and can end up far outside (C28_optimal_n_violation: six points, the first one 14 units outside a sphere of radius 50). Enclose always contains the new point; it keeps the old ball when r >= 1 (every history), and loses points for small spheres (violation). FastEnclosingSphere divides 0/0 for one point. Missing: termination of the n-point loop and 4-point minimality."
 },
 "C29": {
  "status": "partial",
  "note": "Three- and four-point fits go through all points with every failure case identified; the two-point sphere is enlarged by 1e-4 (violation)."
 },
 "C30": {
  "status": "partial",
  "note": "Exact for lines; rays and segments proved outside the grazing tolerance, violations proved for a ray/segment starting inside or grazing."
 },
 "C31": {
  "status": "partial",
  "note": "ClosestPoint proved for every triangle with three different vertices, collinear ones included; two equal vertices make the code divide zero by zero (C31_degenerate_violation). Distances to points and spheres follow. Closest pairs with lines and segments and Distance(Capsule) are proved when the line is not within the tolerances of the intersection test (partial and violation theorems)."
 },
 "C32": {
  "status": "proved",
  "note": "Proved for triangles with nonzero area. Extra theorems: Contains never misses a point of the triangle; it also accepts points within its tolerance (C32_contains_sound_partial, C32_contains_violation)."
 },
 "C33": {
  "status": "proved",
  "note": "IntersectLineTri characterised by an if and only if; hit and completeness theorems for line, ray and segment. C33_tolerance_effects shows what the tolerances in the statement exclude."
 },
 "C34": {
  "status": "partial",
  "note": "false implies that the triangle misses the open box, for triangles of nonzero area (C34_false_partial); true implies a common point of the triangle and the closed box, for every triangle (C34_true, by Farkas' lemma and Caratheodory's theorem, no tolerance); C34_exact combines them. For a zero-area triangle the code can answer false although the triangle meets the open box: C34_degenerate_violation."
 },
 "C35": {
  "status": "proved",
  "note": "No intersection implies disjoint for every two objects with correct projections; exact for AABB and OBB pairs and for boxes against triangles of nonzero area (the completeness half is proved with Farkas' lemma)."
 },
 "C36": {
  "status": "proved",
  "note": "Exact set statements over an ordered field for boxes with orthonormal axes and non-negative half sizes: containment, closest point, extreme point, projection, enclosing AABB, local/world matrices, containment of segments, boxes and triangles, sphere and plane tests; distances over the reals."
 },
 "C37": {
  "status": "proved",
  "note": "Real arithmetic. Inverse proved sound with the fixed tolerance and successful for every non-singular matrix once the tolerance is small enough. SolveAxb succeeds for every matrix that maps no vector with a component of at least 1 to one with all components below 1/10000 (C37_solveAxb_success)."
 },
 "C38": {
  "status": "proved",
  "note": "Real arithmetic."
 },
 "C39": {
  "status": "proved",
  "note": "Real arithmetic."
 },
 "C40": {
  "status": "proved",
  "note": "Hamilton product, conjugation, isometry, matrix, composition, inverse, normalisation, axis-angle and axis rotations, over any field (algebra) and the reals (square roots, trigonometry)."
 },
 "C41": {
  "status": "proved",
  "note": "All four branches of SetQuatFrom; plus round trip up to sign."
 },
 "C42": {
  "status": "proved",
  "note": "Outside the tolerance band exactly the real roots; inside the band a residual bound, and a witness that roots are missed there."
 },
 "C43": {
  "status": "partial",
  "note": "Proved for every history of Clear, Add and Remove that respects the documented use (Clear first, objects unique, Remove only of objects that are not stale): contents, NumObjects, links, squares, node association, termination of every call, and independence of the 200000 node reserve as long as the tree fits in it. The full statement fails in one case, shown as C43_remove_after_clear_violation: Clear does not reset the node stored in each object, so Remove of an object dropped by an earlier Clear follows a pointer to a node that no longer exists. Rounding of centre and radius is not modelled."
 },
 "C44": {
  "status": "proved",
  "note": "For the tree after every valid history (Clear first, unique objects, no Remove of stale objects): the visited nodes are exactly the nodes of the tree that hold objects and meet the query rectangle, each once, cut after the first node for which the callback returns true; every stored object that meets the rectangle is in one of them; the loop ends. Exact arithmetic."
 },
 "C45": {
  "status": "partial",
  "note": "Proved: every report is a pair of different stored objects that intersect, no unordered pair twice, and every pair that overlaps (not only touches) and lies in the query region is reported. The full statement is false: rectangles that touch count as intersecting for AABB2D::Intersects but are not compared when they lie on both sides of a split line (C45_touching_violation)."
 },
 "C46": {
  "status": "partial",
  "note": "Proved for every heap that meets the contract of MaxHeap (not in the repository): reports are sorted by distance, without duplicates, no unreported object is nearer than a reported one, no report after the callback asked to stop, and every object nearer than some non-empty node is reported. The full statement is false for every non-empty tree: the objects of the last visited node are never reported (C46_incomplete_violation, proved for all histories, heaps and callbacks)."
 },
 "C47": {
  "status": "partial",
  "note": "Theorems for every history of calls and every type of objects with proper boxes. C47_leaf_capacity states when a leaf may exceed 16 objects with the model's own bounding box and halves. NumNodes is -1 before Build and after Clear (C47_numNodes_violation). IsPartOfThisTree is exact for every history (C47_isPartOfThisTree)."
 },
 "C48": {
  "status": "partial",
  "note": "Complete after every history that ends with Build. False after Clear: the box of the former objects is kept and the root pointer is null, so a query that overlaps it reads through null (C48_query_after_clear_violation)."
 },
 "C49": {
  "status": "partial",
  "note": "Proved for rays with every direction component at least 1/10000 in size whose crossings of the splits are not within the tolerance of each other, for every history of calls. False for axis-parallel rays (infinity times zero) and for rays that cross two splits within the tolerance: both have a witness ray that passes through a triangle and finds none."
 },
 "C50": {
  "status": "partial",
  "note": "EqualUlps proved when the integer subtraction does not overflow; exact condition of definedness and the undefined case are theorems."
 },
 "C51": {
  "status": "partial",
  "note": "Table bounds and accuracy for every angle; SinCos reads one element behind the table for negative multiples of 2*pi (C51_sincos_out_of_bounds)."
 },
 "C52": {
  "status": "partial",
  "note": "The full claim is false on LP64 (C52_extractLSB_wrong_bit is the machine-checked witness); proved when the lowest set bit is below 31."
 },
 "C53": {
  "status": "partial",
  "note": "float2/3/4 text round trip relative to a stated libc contract; fails for every vector with a NaN before the last element (proved)."
 },
 "C54": {
  "status": "partial",
  "note": "All functions modelled over the reals. Proved for all inputs except: ScaleToLength of vectors shorter than 1e-3 changes direction (violation theorem), Refract does not obey Snell's law (violation theorem), PerpendicularBasis only for unit vectors (violation for others)."
 },
 "C55": {
  "status": "partial",
  "note": "Proved for triangles whose planes are at an angle of more than 1e-3 when each triangle is clearly on one side of the other's plane, or straddles it with its second vertex outside the plane: the test is exact and outLine is the set of the common points; ClosestPoint is then a closest pair. Parallel planes more than 1e-4 apart: false, rightly, and the closest pair is right. One plane: never a missed intersection if edges are parallel or at an angle above 1e-4, and exact if in addition no edges are parallel and the first vertices are clearly in or out. The full property fails: C55_intersects_violation (a crossing is missed if the second vertex is exactly in the other's plane), C55_apart_violation (true for triangles 1/2 apart), C55_unwritten_violation (outLine is not written if a vertex is contained, so ClosestPoint is undetermined) and C55_closestPoint_violation (the point written for the second and third edge is not in either triangle). Missing: planes at an angle between 0 and 1e-3, triangles within 1e-4 of the other's plane on one side, and rounding."
 },
 "C56": {
  "status": "proved",
  "note": "All twelve orders, matrix and quaternion versions, over the reals with Real.sin/cos/arcsin/arccos and atan2 = Complex.arg. Angles returned are not claimed unique."
 },
 "C57": {
  "status": "partial",
  "note": "translate_mat4_violation: the float4x4 translation shortcuts ignore the last row, so they are wrong when it is not (0,0,0,1); proved for affine matrices."
 },
 "C58": {
  "status": "proved",
  "note": "Real arithmetic."
 },
 "C59": {
  "status": "partial",
  "note": "LU proved sound and complete. cholesky_violation: CholeskyDecompose fails for every 4x4 matrix. pivot_violation: with tolerance 1e-4 Pivot does not reach echelon form for diag(1e-5,1,1,1); proved for every matrix with a small enough tolerance, and row equivalence for every tolerance."
 },
 "C60": {
  "status": "partial",
  "note": "adjugate_violation, orthographicProjection_violation and scaleAlongAxis_violation: the code does not do what is documented; the _partial theorems say what holds."
 },
 "C61": {
  "status": "partial",
  "note": "Lerp and Slerp proved unit, on the shorter arc, exact at 0, 1/2 (Slerp) and 1, with the polynomial approximations of the code. AngleBetween is the shortest angle only when the inner product is non-negative (violation theorem otherwise). The accuracy of Slerp's constant speed is not stated."
 },
 "C62": {
  "status": "partial",
  "note": "Matrix RotateFromTo always a rotation carrying source to target; shortest unless |dot| > 0.999 (violation theorem). Quat::RotateFromTo proved for non-collinear directions; for equal directions it is a half turn (violation theorem). LookAt proved."
 },
 "C63": {
  "status": "partial",
  "note": "Segment functions proved. Line::ProjectToAxis collapses the projection of nearly perpendicular lines (violation theorem)."
 },
 "C64": {
  "status": "partial",
  "note": "Sphere, box, triangle and containment queries and the constructors are proved in full. Line, ray and segment queries are proved when the direction is more than 1e-4 away from parallel; nearly parallel configurations use tolerances and fail (C64_intersects_ray_violation, C64_closestPoint_segment_violation). Intersects(point list) misses a touching vertex reached from the front (C64_intersects_vertices_violation). DihedralAngle returns the cosine, not the angle (C64_dihedralAngle_violation). Two planes with sine of the angle at least 1/1000, and three planes with triple product of the normals at least 1/500, always give exactly their common points (the _angle_partial and _det_partial theorems); three planes of which two are parallel can be reported as intersecting (C64_intersects_planes_violation)."
 },
 "C65": {
  "status": "partial",
  "note": "Exact for lines, rays and segments whose direction in box coordinates has no component between zero and the tolerance 1e-4 (ClearDir), and for triangles under the hypotheses of C34. Missing: small non-zero direction components, which the slab test treats as parallel."
 },
 "C66": {
  "status": "partial",
  "note": "SetFrom exact for all uniformly scaling matrices and unit quaternions; Translate, Enclose, FixedOrientationEnclosingOBB (smallest of its orientation), enclosing and contained spheres (extremal) proved in full. Transform and Scale proved when every scaled half size exceeds 1e-6; C66_transform_flat_violation shows that a flat box loses its axes even under the identity."
 },
 "C67": {
  "status": "partial",
  "note": "Corners, edges, face planes and PointInside proved. FacePoint and PointOnEdge give points of a face and of an edge; the two violation theorems show that the indices do not match those of FacePlane and Edge."
 },
 "C68": {
  "status": "partial",
  "note": "False implies disjoint for every tolerance >= 0; exact for tolerance 0. C68_obb_tolerance_violation: with the default tolerance 1e-3 two disjoint boxes are reported to intersect, so true does not imply a common point."
 },
 "C69": {
  "status": "partial",
  "note": "Proved for all capsules of non-negative radius: Contains (points and objects), Distance, Intersects (not triangle), ExtremePoint, ProjectToAxis, the enclosing AABB, and images under translation, scaling, similarities and unit quaternions. ClosestPoint is proved for points inside or at least 1/1000 from the segment, and C69_closestPoint_violation shows a wrong point for thin capsules. Top/Bottom, CrossSection, PointInside and the enclosing OBB are proved when the end points coincide or are more than 1e-6 apart; C69_minimalEnclosingOBB_violation shows the box of a shorter capsule misses it. Intersects(Triangle) is proved under the conditions of C31. Missing: Intersects with AABB, OBB, Frustum, Polyhedron, Polygon (GJK based)."
 },
 "C70": {
  "status": "partial",
  "note": "Real arithmetic. Discs, planes and transforms are proved in full. GetPoint and ExtremePoint need a normal for which the library's basis is orthonormal; ExtremePoint and the edge queries fail for points or directions near the axis (C70_extremePoint_violation, C70_edge_violation). GetPoint(angle) and GetPoint(angle, 1) are different points (C70_getPoint_violation). IntersectsDisc misses discs parallel to the ray that contain part of it (C70_intersectsDisc_violation). Intersects(Plane) is proved when the planes enclose an angle with sine at least 1/1000 and the circle does not almost touch the plane. IntersectsFaces is proved under the same condition for each face, or when the circle is parallel to a face and at least 1/10000 away from its plane (C70_intersectsFaces_partial, C70_intersectsFaces_box_partial)."
 },
 "C71": {
  "status": "partial",
  "note": "ClosestPoint of a perspective frustum (which goes through Polyhedron) is not modelled. AspectRatio and SetHorizontalFovAndAspectRatio agree only for perspective frusta; the ratio of an orthographic frustum read through the union of width and field of view is shown in C71_aspectRatio_violation."
 },
 "C72": {
  "status": "partial",
  "note": "Contains accepts points outside: the tolerance is taken after the perspective division, so for near planes close to the eye or far/near above 1000 the eye, points behind the camera or beyond the far plane are contained (C72_contains_violation). Complete for points of the frustum. The documented linear [0, 1] depth of Project does not hold (C72_project_depth_violation)."
 },
 "C73": {
  "status": "partial",
  "note": "Holds for all histories of setters and is restored by them after any history; Translate and Transform leave the caches stale and the constructor leaves the projection matrix uninitialised (violation theorems)."
 },
 "C74": {
  "status": "partial",
  "note": "Shape, succeeding for every input and the 2/1000 bound hold for all inputs; that the hull is exactly that of the input and that exactly the extreme points stay needs distinct points to be more than 1/1000 apart, as the code merges closer ones (C74_close_violation)."
 },
 "C75": {
  "status": "partial",
  "note": "Proved for strictly convex polygons with at least three vertices; hulls with fewer points give wrong answers (C75_degenerate_violation). Points outside but within the tolerance of an edge may be reported as inside."
 },
 "C76": {
  "status": "partial",
  "note": "Proved for all convex objects: the array is never overrun, an answer reached by a separating direction is right, and an answer 'meet' means that the objects come within 0.068 of each other. Two negations are proved: the test calls a triangle and a point at distance 0.03 intersecting (absolute tolerance on an unnormalised direction), and after 50 iterations it gives up with 'false' on a polygon that has the point as a vertex. Missing: a bound on the number of iterations for particular classes."
 },
 "C77": {
  "status": "partial",
  "note": "Proved for all convex objects of the plane: the array is never overrun, an answer reached by a separating direction is right, and an answer 'meet' means that the objects come within 10^-3.5 of each other. Two negations are proved: the tolerance makes the test true for a point outside, and after 50 iterations the test gives up with 'false' on a polygon that has the point as a vertex. Missing: a bound on the number of iterations."
 },
 "C78": {
  "status": "proved",
  "note": "Index structure only. NumEdges of an open surface is not its number of edges (shown)."
 },
 "C79": {
  "status": "partial",
  "note": "All four operations are proved for every polyhedron whose indices are vertex numbers (2^30 vertices at most for the binary search, whose sums are int). ContainsFace is sound and finds a face listed with the same starting corner, but misses a face listed with another one (violation). The binary search does not end for a missing number between the first and last entry (violation; no caller does this)."
 },
 "C80": {
  "status": "partial",
  "note": "Completeness needs different vertices; soundness of the converse inclusion of faces needs that no face is listed twice, with a counterexample otherwise."
 },
 "C81": {
  "status": "partial",
  "note": "Proved over ordered fields and, where roots occur, over the reals. Two parts of the statement are false of the code and shown so by C81_obb_violation (left-handed axes turn the faces inwards) and C81_solids_violation (with the default ccwIsFrontFacing = true all five platonic solids have inward faces); C81_capsule_violation shows that fewer than three vertices per cap give no solid. The accumulated angle is exact here; rounding is not modelled."
 },
 "C82": {
  "status": "proved",
  "note": "Proved over the reals for every convex surface with faces of at least three corners (the other cases of FacePlane are not modelled). \"Convex surface\" is spelled out in Spec/ConvexSurface.lean: closed, convex outward faces, not flat, not running over the same place twice; C82_convex shows that merging keeps all of it. C82_euler_violation: vertices that leave the surface stay in the vertex list, so Euler's formula, which the function asserts in a comment, fails. Rounding is not modelled."
 },
 "C83": {
  "status": "partial",
  "note": "Contains, extreme vertices including the hill climb of ExtremeVertexConvex (termination, memory safety and global optimality), ProjectToAxis, ApproximateConvexCentroid and OrientNormalsOutsideConvex are proved for convex surfaces of any size. C83_clip_partial and C83_intersects_partial need that no face is nearly parallel to the line without being parallel (the code treats |cos| < 1e-5 as parallel); C83_intersects_violation shows a wrong answer otherwise. C83_extreme_partial needs one projection above -FLT_MAX (C83_extreme_violation). C83_contains_solid_violation: the default Tetrahedron() does not contain its centre."
 },
 "C84": {
  "status": "partial",
  "note": "Plane, maps, IsPlanar, IsConvex, Intersects(Plane), extremes, AABB, Area, Perimeter, PointOnEdge, Centroid and ToPolyhedron for polygons of any number of vertices. Violated: PlaneCCW of small polygons is an arbitrary plane, its orientation is wrong on concave polygons whose first corner is reflex, IsPlanar is true when the first three vertices are collinear, IsConvex is true for a five-pointed star, PointOnEdge divides by zero on repeated vertices."
 },
 "C85": {
  "status": "partial",
  "note": "Soundness for every planar polygon (contained points are within 2e-4 of the hull and within the thickness of the plane), completeness for strictly convex ones more than 2e-4 inside, the even-odd rule for every planar polygon in general position, and the transversal Intersects tests. Intersects(Polygon) is sound for planar polygons in crossing planes, finds convex ones where an edge of one passes inside the other, and rejects parallel planes beyond the thickness; missing: soundness and completeness in parallel planes, and crossings near the boundaries. Intersects(AABB) and Intersects(OBB) are sound where no edge is nearly parallel to a face of the box or the plane, and complete for crossings by an edge when GJK does not give up (C76_gaveUp_violation); frusta, which run the same template, are not modelled. Violated: segments in the plane of a polygon away from the origin are missed; Contains(Polygon) uses the thickness as squared thickness."
 },
 "C86": {
  "status": "partial",
  "note": "Triangulate is safe and ends for every input, is exactly the fan on strictly convex polygons and covers the hull, preserves signed area for any planar polygon in general position when it returns n - 2 triangles; ClosestPoint and Intersects(Sphere) are exact on strictly convex polygons. Violated: an L-shape listed from its reflex corner is \"triangulated\" by a triangle outside it. That simple concave polygons listed from a convex corner are always fully triangulated is not proved. ClosestPoint(LineSegment) and Intersects(Capsule) are exact on strictly convex polygons for segments clear of the tolerances of the triangle tests on the fan (C86_closestSeg_partial, C86_intersectsCapsule_partial)."
 },
 "C87": {
  "status": "partial",
  "note": "Volume is the enclosed volume (sum of signed tetrahedra from any reference point) and SurfaceArea the sum of the triangle areas for all closed meshes whose faces are strictly convex and either triangles or not too small; boxes have their exact volume and surface. ConvexCentroid is the centre of mass for triangle faces. Violations: the cube of side 1/200 gets a third of its volume; the centroid of a pyramid over a square is off its axis, because faces with more than three corners are not triangulated properly. Missing: concave faces, Lebesgue measure as the reference."
 },
 "C88": {
  "status": "partial",
  "note": "ClosestPointConvex is exact for points that ContainsConvex rejects, on convex surfaces without coplanar neighbouring faces and with strictly convex faces that are not too small. Missing: coplanar neighbouring faces (a triangulated box). C88_closestPoint_violation: within the tolerance of ContainsConvex the returned point is outside the polyhedron."
 },
 "C89": {
  "status": "proved",
  "note": "The curves over the real numbers, with the exact cosine and pi; rounding is not modelled."
 },
 "C90": {
  "status": "partial",
  "note": "Queries, random points and up to three points in full. For four and more points, termination, containment and minimality up to 1/1000 are proved when at least four points are corners of the convex hull, points are more than 1/1000 apart and no three are nearly on a line. When the hull is a triangle the claim is false: C90_triangle_violation gives four points, one inside the triangle of the others, whose circle misses a corner by more than 6. Missing: points nearly on a line, rounding."
 },
 "C91": {
  "status": "partial",
  "note": "Proved for packed vertices without SIMD, and for any vertex size with the SSE and AVX layouts when the number of triangles is a multiple of the lanes and the layout functions get the right arguments. False otherwise: Set with SIMD passes the old counts, so a new mesh stays empty (C91_set_violation); without SIMD, other vertex sizes are stored but read as packed (C91_stride_violation). The approximate reciprocal of SSE and AVX is exact in the model; rounding is not modelled."
 },
 "C92": {
  "status": "partial",
  "note": "Proved in both directions over the real numbers, for matrices as the middle part without assuming orthogonality, and for quaternions when the columns are orthogonal and the matrix does not mirror. With a reflection, the quaternion versions lose it although their stated assumption (orthogonal columns) holds: C92_mirror_violation. Rounding is not modelled."
 },
 "C93": {
  "status": "partial",
  "note": "Proved for all versions except float3x4::BatchTransformDir of a packed array, which transforms directions as points: C93_dir_violation. Strides are multiples of the size of a float; rounding is not modelled."
 },
 "C94": {
  "status": "partial",
  "note": "Proved in full when different points are more than 1/1000 apart (C94_minAreaRect_partial): the loop ends, the frame is orthonormal, the points are inside, area and centre agree, and no rectangle in any direction is smaller. Without that (C94_near, no two points exactly 1/1000 apart) every point is within 2/1000 of the rectangle and no rectangle around the points is smaller. Containment fails for close points, because the convex hull drops some of them (C94_close_violation). Missing: pairs exactly 1/1000 apart, for which a closing edge of that length is not normalised."
 },
 "C95": {
  "status": "partial",
  "note": "Proved for polar coordinates, normalisation, quarter turns, projection, decomposition, reflection, interpolation, orientation, elements, clamping and random directions. Fails, with witnesses: ScaleToLength leaves a short vector as it is although (newLength, 0) is documented; AngleBetween divides the angle by the lengths and is right for unit vectors only; Orthogonalize divides by the length and is right for a unit first vector only; Orthonormalize does not normalise the second vector; Refract gives a wrong vector outside total reflection; the aimed angle leaves its documented range."
 },
 "C96": {
  "status": "partial",
  "note": "Every draw is shown to succeed for every generator state, with the bit-exact generator of C13, and the value to lie in the set named. RandomPerpendicular returns a vector that is not perpendicular when the drawn direction is parallel to the z axis vector (C96_perpendicular_violation, with a concrete generator). UniformRandomPointInside of a perspective frustum is shown to be accepted by Contains, which has a tolerance (C72). Capsule surfaces need a segment that is a point or longer than 1e-6 and a direction for which Perpendicular works. The numbers of the generator are rounded as in the code; the geometry is exact. Distribution is not treated."
 },
 "C97": {
  "status": "partial",
  "note": "Count, faces, normals, UVs, coverage and area proved for every box and subdivision, for oriented boxes with a right-handed orthonormal frame too. The winding order is the opposite of the documented one: with ccwIsFrontFacing the triangles are clockwise seen from outside (C97_winding_violation; C97_winding gives the exact rule). OBB::Triangulate writes through the null pointer when no normals are requested (C97_null_normals_violation). Rounding is not modelled."
 },
 "C98": {
  "status": "partial",
  "note": "Convex polyhedra of any size without two faces in one plane: Contains(point) is exact for every point off the face planes whose candidate rays stay 2e-4 away from the borders of the faces (C98_contains_partial); the object tests (C98_objects_partial), ClosestPoint and Distance (C98_closestPoint_partial) follow. The full statement is false: a point six units outside a cube is contained (C98_contains_violation). Missing: non-convex polyhedra, rays near borders. ClosestPoint(LineSegment) and Intersects(Capsule) are exact for segments whose ends meet the same conditions and that are clear of the tolerances of the triangle test (C98_closestSeg_partial, C98_intersectsCapsule_partial)."
 },
 "C99": {
  "status": "partial",
  "note": "Nearest points, distances, intersection within a distance and the other queries are proved in full over every ordered field (distances over the reals). Fails: Contains compares the squared distance with the threshold (C99_contains_violation), and the test of two segments given by directions is only right when the sine of the angle is above 1/10000 (C99_directions_partial, C99_directions_violation)."
 }
}