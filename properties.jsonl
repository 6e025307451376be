{"id": "C01", "title": "Power-of-two test and rounding", "statement": "IsPow2(x) is true exactly when x is zero or a power of two. RoundUpPow2(x) returns the smallest power of two >= x whenever one is representable (and 0 for x==0 or when none is representable); RoundDownPow2(x) returns the largest power of two <= x (and 0 for 0). The 32-bit and 64-bit overloads obey the same law.", "quantifier": "every 32-bit and every 64-bit unsigned argument", "why_tests_cant": "2^64 arguments; a wrong shift amount in the bit smear only shows on a few of them", "anchors": ["src/Math/MathFunc.cpp: IsPow2, RoundUpPow2, RoundDownPow2", "src/Math/MathFunc.h: IsPow2, RoundUpPow2, RoundDownPow2"]}
{"id": "C02", "title": "Rounding an integer up to a multiple of a power of two", "statement": "For n a positive power of two and x+n-1 representable, RoundIntUpToMultipleOfPow2(x, n) is the smallest multiple of n that is >= x, also for negative x.", "quantifier": "every signed 32/64-bit x and every power of two n for which the intermediate sum does not overflow", "why_tests_cant": "the pair (x,n) ranges over ~2^37 / 2^70 values", "anchors": ["src/Math/MathFunc.cpp: RoundIntUpToMultipleOfPow2"]}
{"id": "C03", "title": "Population count", "statement": "CountBitsSet(v) equals the number of one bits of v.", "quantifier": "every 32-bit argument", "why_tests_cant": "2^32 arguments and a loop whose trip count depends on the data", "anchors": ["src/Math/BitOps.h: CountBitsSet"]}
{"id": "C04", "title": "Low-bit masks and bit packing round trip", "statement": "LSB(n)/LSB64(n) is the word whose low n bits are ones and nothing else. BitMask(pos,bits) has exactly the bits pos..pos+bits-1 set. When four values are packed into four pairwise disjoint bit fields with PackBits, ExtractBits of each field returns the (low bits of the) value stored there, and no bit outside the four fields is set.", "quantifier": "every bit count, every four disjoint fields of a 32-bit word and every four stored values", "why_tests_cant": "all layouts of four fields times all stored values", "anchors": ["src/Math/BitOps.h: LSBT, LSB, LSB64, BitMaskT, BitMask, PackBits, ExtractBits"]}
{"id": "C05", "title": "Binary literals evaluate to the number they spell", "statement": "BinaryStringToValue of a string of at most 32 binary digits equals the integer written in base two; with more digits it equals that integer modulo 2^32.", "quantifier": "every string of binary digits of any length", "why_tests_cant": "strings are unbounded", "anchors": ["src/Math/BitOps.cpp: BinaryStringToValue"]}
{"id": "C06", "title": "Factorials and binomial coefficients", "statement": "Factorial(n) is n! whenever n! fits in an int. CombinatorialRec(n,k) and CombinatorialTab(n,k) both compute the binomial coefficient C(n,k), hence agree, for all 0<=k<=n whose values do not overflow, and out-of-range k gives 0 in both.", "quantifier": "all n, k (machine-integer overflow excluded by hypothesis)", "why_tests_cant": "dynamic-programming table with in-place buffer swap over an unbounded n", "anchors": ["src/Math/MathFunc.cpp: Factorial, CombinatorialRec, CombinatorialTab"]}
{"id": "C07", "title": "Integer powers", "statement": "PowUInt(b,e) is the e-fold product of b; PowInt(b,e) is b^e for every int e other than the most negative one, including negative exponents (reciprocal).", "quantifier": "all bases and all 32-bit exponents", "why_tests_cant": "exponent space is 2^32 and the square-and-multiply loop depends on every bit", "anchors": ["src/Math/MathFunc.cpp: PowUInt, PowInt"]}
{"id": "C08", "title": "Half-float storage is lossless for values that are halves", "statement": "Float32ToFloat16(Float16ToFloat32(h)) == h for every half h, and Float16ToFloat32(h) is the real number h encodes.", "quantifier": "all 2^16 half patterns for the round trip, all 2^32 floats for range facts", "why_tests_cant": "needs every bit pattern including denormals, infinities and NaNs", "anchors": ["src/Math/MiniFloat.cpp: Float16ToFloat32, Float32ToFloat16"]}
{"id": "C09", "title": "Custom mini-float round trip", "statement": "For a mini-float format with the given sign/exponent/mantissa widths and bias, encoding after decoding is the identity on every representable normal value, and encoding never changes the sign of a non-zero value it keeps.", "quantifier": "every format (sign bit, exponent bits, mantissa bits, bias) that fits in 32 bits and every encoding in it", "why_tests_cant": "the format itself is a parameter", "anchors": ["src/Math/MiniFloat.cpp: Float32ToMiniFloat, MiniFloatToFloat32"]}
{"id": "C10", "title": "Float classification is a partition", "statement": "For every float (double) bit pattern exactly one of IsFinite, IsInf, IsNan is true, and each agrees with the IEEE-754 meaning of the pattern.", "quantifier": "all 2^32 (2^64) patterns", "why_tests_cant": "2^64 patterns", "anchors": ["src/Math/MathFunc.h: IsFinite, IsNan, IsInf"]}
{"id": "C11", "title": "NaN payloads survive serialisation", "statement": "Reading back the text SerializeFloat wrote for a NaN yields the bit-identical NaN and leaves the read position just behind the text; likewise for doubles.", "quantifier": "every NaN bit pattern and every following text", "why_tests_cant": "2^24 / 2^53 payloads times arbitrary trailing text", "anchors": ["src/Math/MathFunc.cpp: SerializeFloat, DeserializeFloat, DeserializeDouble, hexstr_to_u64"]}
{"id": "C12", "title": "Fixed point arithmetic", "statement": "Addition, subtraction and comparison of fixed point values (also with different precisions) agree with the exact rational arithmetic, and multiplication is exact multiplication rounded down, as long as no intermediate overflows; the documented claim that MulPrecise cannot overflow in its intermediates is examined.", "quantifier": "all values and all fraction-bit counts", "why_tests_cant": "two parameters times two machine words", "anchors": ["src/Math/FixedPoint.h: Fixed::Add, Sub, MulFast, MulPrecise, operator <"]}
{"id": "C13", "title": "Random numbers stay in their documented ranges", "statement": "LCG::Int(a,b) returns a value in [a,b]; Float() in [0,1), Float01Incl() in [0,1], FloatNeg1_1() in (-1,1) and Float(a,b) in [a,b), FloatIncl(a,b) in [a,b], for every generator state.", "quantifier": "every generator state (history of calls) and every interval", "why_tests_cant": "the generator state and the interval are arbitrary", "anchors": ["src/Algorithm/Random/LCG.cpp: Int, Float, Float01Incl, FloatNeg1_1, FloatIncl"]}
{"id": "C14", "title": "The generator never gets stuck", "statement": "With the default parameters and a seed that is not a multiple of the modulus, no call sequence ever drives the generator to the all-zero state; every value in 1..2^31-2 is produced exactly once per period of length 2^31-2. A seed that is a multiple of the modulus must not produce a degenerate sequence.", "quantifier": "all seeds and all call histories", "why_tests_cant": "the period is 2^31-2 calls", "anchors": ["src/Algorithm/Random/LCG.cpp: Seed, Int, IntFast"]}
{"id": "C15", "title": "Scalar helpers", "statement": "Clamp(v,lo,hi) is the nearest point of [lo,hi] to v; Min/Max return the smaller/larger argument; Lerp/InvLerp are inverse; Ramp and Step are monotone and reach their end values; ModPos(x,m) is in [0,m) and congruent to x; PingPongMod stays in [0,m]; Round/Floor/Ceil/Frac relate as documented.", "quantifier": "all scalar arguments", "why_tests_cant": "continuum of inputs", "anchors": ["src/Math/MathFunc.h: Clamp, Clamp01, Min, Max", "src/Math/MathFunc.cpp: Lerp, InvLerp, Step, Ramp, PingPongMod, ModPos, Frac, LerpMod"]}
{"id": "C16", "title": "AABB is the least box", "statement": "After SetNegativeInfinity followed by any sequence of Enclose operations the box contains everything enclosed and is contained in any other box that does; SetFrom(points) equals that sequence; the empty sequence gives a box containing nothing.", "quantifier": "every history of Enclose operations and every point", "why_tests_cant": "histories are unbounded", "anchors": ["src/Geometry/AABB.cpp: SetNegativeInfinity, Enclose, SetFrom", "src/Geometry/AABB.h: AABB"]}
{"id": "C17", "title": "AABB containment and overlap are the set relations", "statement": "Contains(p) is membership of the closed box; Contains(box/segment/triangle/sphere) holds exactly when the whole object is inside; Intersects(AABB) holds exactly when the boxes share interior volume (two non-degenerate boxes) and is symmetric; Intersection returns the set intersection.", "quantifier": "all boxes and objects", "why_tests_cant": "continuum of boxes; boundary cases are measure zero", "anchors": ["src/Geometry/AABB.cpp: Contains, Intersects, Intersection"]}
{"id": "C18", "title": "AABB closest point and distance", "statement": "ClosestPoint(p) lies in the box, no point of the box is nearer to p; Distance(p) is 0 exactly when p is in the box; Intersects(Sphere) is true exactly when the ball and the box share a point; Distance(Sphere) is the true set distance.", "quantifier": "all non-empty boxes and all points/spheres", "why_tests_cant": "continuum", "anchors": ["src/Geometry/AABB.cpp: ClosestPoint, Distance, Intersects(Sphere)"]}
{"id": "C19", "title": "AABB support mapping, projection, corners and faces", "statement": "ExtremePoint(d) is a point of the box maximising the dot product with d; ProjectToAxis(d) returns exactly the minimum and maximum of that dot product over the box; the eight corner points span the box (convex hull); edges join corners; face planes point outward and the box is exactly the intersection of their negative half-spaces.", "quantifier": "all boxes and directions", "why_tests_cant": "continuum of directions", "anchors": ["src/Geometry/AABB.cpp: ExtremePoint, ProjectToAxis, CornerPoint, Edge, FacePlane, FaceNormal, FaceCenterPoint"]}
{"id": "C20", "title": "Transforming an AABB yields an enclosing, tight AABB", "statement": "TransformAsAABB(M) contains the image of every point of the box and every face of it is touched by the image, for matrix and for quaternion arguments.", "quantifier": "all boxes and all affine maps / unit quaternions", "why_tests_cant": "continuum of maps", "anchors": ["src/Geometry/AABB.cpp: AABBTransformAsAABB, TransformAsAABB"]}
{"id": "C21", "title": "Line/ray/segment versus AABB", "statement": "Intersects(Line/Ray/LineSegment) is true exactly when some point of the object lies in the box, and the reported dNear/dFar delimit exactly the parameter interval of points inside the box.", "quantifier": "all boxes, all lines (direction components zero or not smaller in magnitude than the parallelism tolerance)", "why_tests_cant": "continuum; axis-parallel and grazing rays are measure zero", "anchors": ["src/Geometry/AABB.cpp: Intersects, IntersectLineAABB, IntersectLineAABB_CPP"]}
{"id": "C22", "title": "Closest point on line, ray, segment", "statement": "ClosestPoint(p) lies on the object, and no other point of the object is nearer; Distance(p) is that distance; Contains(p, threshold) accepts exactly the points within the threshold distance.", "quantifier": "all (unit direction) lines, rays, non-degenerate segments and all points", "why_tests_cant": "continuum", "anchors": ["src/Geometry/Line.cpp: ClosestPoint, Contains", "src/Geometry/Ray.cpp: ClosestPoint, Contains", "src/Geometry/LineSegment.cpp: ClosestPoint, Contains"]}
{"id": "C23", "title": "Closest pair of two linear objects", "statement": "For any two of Line, Ray, LineSegment the returned parameters lie in the objects' ranges and the pair of points they denote is at the minimum distance over all pairs; Distance returns that distance; the two out-parameters refer to the objects the documentation says.", "quantifier": "all pairs of linear objects including parallel ones", "why_tests_cant": "nine branch combinations over a 12-dimensional continuum", "anchors": ["src/Geometry/Line.cpp: ClosestPointLineLine, ClosestPoint", "src/Geometry/Ray.cpp: ClosestPoint", "src/Geometry/LineSegment.cpp: ClosestPoint, Distance"]}
{"id": "C24", "title": "Plane distance, projection, mirroring", "statement": "For a unit normal, SignedDistance is the signed Euclidean distance, Project(p) is the nearest point of the plane, Mirror is an involution that negates SignedDistance and fixes the plane, ProjectToNegativeHalf/PositiveHalf give the nearest point of the half space.", "quantifier": "all planes with unit normal, all points", "why_tests_cant": "continuum", "anchors": ["src/Geometry/Plane.cpp: SignedDistance, Distance, Project, Mirror, ProjectToNegativeHalf, ProjectToPositiveHalf"]}
{"id": "C25", "title": "Transforming a plane moves the same point set", "statement": "Translating or transforming a plane by an invertible map yields the plane consisting of exactly the images of the original points.", "quantifier": "all planes, offsets and invertible transforms", "why_tests_cant": "continuum", "anchors": ["src/Geometry/Plane.cpp: Translate, Transform"]}
{"id": "C26", "title": "Clipping against a plane", "statement": "Clip keeps exactly the part of the segment/line/triangle in the positive half space (endpoints in order), and reports whether anything is left.", "quantifier": "all planes, segments, lines, triangles", "why_tests_cant": "continuum; boundary cases measure zero", "anchors": ["src/Geometry/Plane.cpp: Clip"]}
{"id": "C27", "title": "Sphere containment, distance, intersection", "statement": "Contains(object) holds exactly when the whole object is inside the ball; Distance is the set distance; Intersects(Sphere) is true exactly when the balls share a point; ClosestPoint is the nearest point of the ball.", "quantifier": "all spheres and objects", "why_tests_cant": "continuum", "anchors": ["src/Geometry/Sphere.cpp: Contains, Distance, ClosestPoint, Intersects"]}
{"id": "C28", "title": "Enclosing spheres enclose", "statement": "Every sphere returned by OptimalEnclosingSphere (2, 3, 4 or any larger number of points), FastEnclosingSphere and every history of Enclose calls contains all points it was given, and Enclose never loses a previously enclosed point.", "quantifier": "all point sets and histories", "why_tests_cant": "unbounded histories, continuum", "anchors": ["src/Geometry/Sphere.cpp: OptimalEnclosingSphere, FastEnclosingSphere, Enclose"]}
{"id": "C29", "title": "Sphere through points passes through the points", "statement": "FitThroughPoints (2, 3, 4 points) returns, when it succeeds, a sphere whose surface contains all the given points.", "quantifier": "all point tuples", "why_tests_cant": "continuum", "anchors": ["src/Geometry/Sphere.cpp: FitThroughPoints, FitSphereThroughPoints"]}
{"id": "C30", "title": "Line versus sphere", "statement": "IntersectLine returns parameters at which the line point is exactly on the sphere surface (two-solution case), returns 0 exactly when the line misses the ball, and every point of the line between the two parameters, and none outside, is in the ball; rays and segments report a hit exactly when they share a point with the surface/ball.", "quantifier": "all spheres and lines with unit direction", "why_tests_cant": "continuum", "anchors": ["src/Geometry/Sphere.cpp: IntersectLine, Intersects(Ray), Intersects(Line), Intersects(LineSegment)"]}
{"id": "C31", "title": "Triangle closest point", "statement": "Triangle::ClosestPoint(p) lies in the triangle and no point of the triangle is nearer to p.", "quantifier": "all non-degenerate triangles, all points", "why_tests_cant": "seven Voronoi regions over a 12-dimensional continuum", "anchors": ["src/Geometry/Triangle.cpp: ClosestPoint, Distance"]}
{"id": "C32", "title": "Barycentric coordinates", "statement": "BarycentricUVW of a point in the plane of the triangle reproduces the point through Point(u,v,w), sums to one, and is non-negative exactly for points of the triangle.", "quantifier": "all non-degenerate triangles and coplanar points", "why_tests_cant": "continuum", "anchors": ["src/Geometry/Triangle.cpp: BarycentricUVW, BarycentricUV, Point, Contains"]}
{"id": "C33", "title": "Line/ray/segment versus triangle", "statement": "A reported hit (t,u,v) satisfies linePos + t*lineDir = Point(u,v); a line that is not parallel to the plane of the triangle (determinant above the tolerance) and meets the triangle is always reported.", "quantifier": "all triangles, lines", "why_tests_cant": "continuum", "anchors": ["src/Geometry/Triangle.cpp: IntersectLineTri, Intersects"]}
{"id": "C34", "title": "Triangle versus AABB has no false negatives", "statement": "If Triangle::Intersects(AABB) returns false then triangle and open box have no common point; if it returns true then none of the thirteen candidate axes separates them.", "quantifier": "all triangles and boxes", "why_tests_cant": "continuum", "anchors": ["src/Geometry/Triangle.cpp: Intersects(AABB)"]}
{"id": "C35", "title": "Separating axis test is sound and, for boxes, complete", "statement": "If SATIntersect reports no intersection the two convex objects are disjoint; for two boxes, absence of a separating axis among the tested ones implies a common point.", "quantifier": "all pairs of convex objects exposing ProjectToAxis", "why_tests_cant": "continuum", "anchors": ["src/Algorithm/SAT.h: SATIntersect", "src/Geometry/OBB.cpp: Intersects(OBB)"]}
{"id": "C36", "title": "OBB membership, closest point, support", "statement": "For an orthonormal basis, Contains(p) is membership of the oriented box, ClosestPoint is its nearest point, ExtremePoint maximises the dot product, ProjectToAxis is exact, MinimalEnclosingAABB contains the box tightly, LocalToWorld and WorldToLocal are inverse.", "quantifier": "all OBBs with orthonormal axes", "why_tests_cant": "continuum", "anchors": ["src/Geometry/OBB.cpp: Contains, ClosestPoint, ExtremePoint, ProjectToAxis, LocalToWorld, WorldToLocal"]}
{"id": "C37", "title": "3x3 matrices act as linear maps", "statement": "Matrix times vector distributes, operator* of matrices is composition, Determinant is multiplicative, Inverse (when it reports success) is a two-sided inverse, Transpose reverses products, InverseOrthonormal inverts every orthonormal matrix, SolveAxb returns a solution.", "quantifier": "all matrices and vectors", "why_tests_cant": "continuum", "anchors": ["src/Math/float3x3.cpp: operator *, Determinant, Inverse, InverseFast, InverseColOrthogonal, InverseOrthogonalUniformScale, InverseOrthonormal, InverseSymmetric, Transpose, SolveAxb"]}
{"id": "C38", "title": "3x4 matrices act as affine maps", "statement": "MulPos/MulDir implement an affine map and its linear part; product is composition; Inverse, InverseColOrthogonal, InverseOrthonormal undo the map; translation parts behave.", "quantifier": "all matrices and points", "why_tests_cant": "continuum", "anchors": ["src/Math/float3x4.cpp"]}
{"id": "C39", "title": "4x4 matrices", "statement": "Product is composition on 4-vectors and associative; Inverse (when it succeeds) inverts; Determinant is multiplicative; 3x4 embedding agrees with float3x4.", "quantifier": "all matrices", "why_tests_cant": "continuum", "anchors": ["src/Math/float4x4.cpp"]}
{"id": "C40", "title": "Unit quaternions are rotations", "statement": "Transform by a unit quaternion preserves length and dot products, equals multiplication with ToFloat3x3, product of quaternions is composition of rotations, Inverse undoes, Conjugate is Inverse for unit quaternions, products of unit quaternions are unit.", "quantifier": "all unit quaternions and vectors", "why_tests_cant": "continuum", "anchors": ["src/Math/Quat.cpp: Transform, operator *, Inverse, Conjugate, ToFloat3x3", "src/Math/Matrix.inl: SetMatrixRotatePart"]}
{"id": "C41", "title": "Quaternion from matrix", "statement": "Set(M) for a rotation matrix M yields a unit quaternion whose rotation is M, in all four numeric branches.", "quantifier": "all rotation matrices", "why_tests_cant": "four branches; continuum", "anchors": ["src/Math/Quat.cpp: SetQuatFrom, Set"]}
{"id": "C42", "title": "Quadratic solver", "statement": "SolveQuadratic returns exactly the real roots of a*x^2+b*x+c when the discriminant is outside the tolerance band, and never reports a non-root in that case.", "quantifier": "all coefficients with a != 0", "why_tests_cant": "continuum", "anchors": ["src/Math/Polynomial.cpp: SolveQuadratic"]}
{"id": "C43", "title": "QuadTree stores exactly what was added", "statement": "After any history of Clear, Add and Remove the multiset of objects stored in the tree is the multiset added minus removed, each object sits in a node whose square contains it, parent/child links are consistent and NumObjects is its size.", "quantifier": "every history of operations, every object rectangle", "why_tests_cant": "unbounded histories incl. node splitting and root growth", "anchors": ["src/Geometry/QuadTree.inl: Clear, Add, Remove, SplitLeaf, GrowImpl", "src/Geometry/QuadTree.h"]}
{"id": "C44", "title": "QuadTree rectangle query is complete", "statement": "AABBQuery visits every object whose rectangle intersects the query rectangle, and stops early only when the callback asks for it.", "quantifier": "every reachable tree and query", "why_tests_cant": "unbounded trees", "anchors": ["src/Geometry/QuadTree.inl: AABBQuery"]}
{"id": "C45", "title": "QuadTree colliding pairs", "statement": "CollidingPairsQuery reports every pair of stored objects whose rectangles intersect each other within the query region, and no pair twice.", "quantifier": "every reachable tree", "why_tests_cant": "unbounded trees", "anchors": ["src/Geometry/QuadTree.inl: CollidingPairsQuery, FindCollidingPairs"]}
{"id": "C46", "title": "QuadTree nearest neighbour enumeration", "statement": "NearestNeighborObjects reports every stored object unless stopped, in order of non-decreasing distance.", "quantifier": "every reachable tree and query point", "why_tests_cant": "unbounded trees", "anchors": ["src/Geometry/QuadTree.inl: NearestNeighborNodes, NearestNeighborObjects"]}
{"id": "C47", "title": "KdTree keeps every object", "statement": "After any history of AddObjects, Build and Clear that ends with Build, the tree holds exactly the objects added since the last Clear, every one of them is referenced from at least one leaf, the tree has at most 30 levels, a leaf has at most 16 objects unless it is at the largest depth or cannot be split, the counters report the tree, and box queries stay inside the traversal stack. IsPartOfThisTree is true exactly for the nodes that can be reached from the root, which are all nodes but the unused first one, and false for the null pointer and before Build.", "quantifier": "every history of calls and every list of objects with proper boxes", "why_tests_cant": "unbounded histories, object lists and shapes", "anchors": ["src/Geometry/KDTree.inl: Build, SplitLeaf, AddObjects, Clear, TreeHeight, NumLeaves, NumInnerNodes, NumNodes, IsPartOfThisTree"]}
{"id": "C48", "title": "KdTree box query is complete", "statement": "AABBQuery calls the callback at most once for each leaf, with leaves that together hold every object whose box has a point inside the query box, until the callback asks to stop. On a cleared tree it calls nothing.", "quantifier": "every history of calls, query box and callback", "why_tests_cant": "unbounded trees and histories", "anchors": ["src/Geometry/KDTree.inl: AABBQuery, Clear"]}
{"id": "C49", "title": "KdTree ray query is complete", "statement": "RayQuery visits, in front-to-back order, every leaf region the ray passes through; the nearest-hit visitor therefore reports the nearest triangle hit by the ray.", "quantifier": "every tree and ray, including axis-parallel rays", "why_tests_cant": "measure-zero directions, unbounded trees", "anchors": ["src/Geometry/KDTree.inl: RayQuery", "src/Geometry/KDTree.h: TriangleKdTreeRayQueryNearestHitVisitor"]}
{"id": "C50", "title": "Approximate comparison in units of last place", "statement": "EqualUlps(a,b,n) is true exactly when at most n representable floats lie between a and b, treats +0 and -0 as equal, and is symmetric.", "quantifier": "all pairs of finite floats, all n", "why_tests_cant": "2^64 pairs", "anchors": ["src/Math/MathOps.cpp: EqualUlps"]}
{"id": "C51", "title": "Table-driven sine and cosine never read outside their table", "statement": "For every argument the index used by the look-up based Sin, Cos, SinCos is inside the table.", "quantifier": "every int index the argument scaling can produce", "why_tests_cant": "2^32 indices", "anchors": ["src/Math/MathFunc.cpp: sin_lookuptable, cos_lookuptable, sincos_lookuptable"]}
{"id": "C52", "title": "ExtractLSB returns and clears the lowest set bit", "statement": "ExtractLSB(&v) returns the index of the lowest set bit of v and clears exactly that bit, or returns -1 and leaves v alone when v is 0.", "quantifier": "every value of the unsigned long argument (64 bits on LP64)", "why_tests_cant": "2^64 arguments; the defect only shows for values whose lowest set bit is at or above bit 31", "anchors": ["src/Math/BitOps.h: ExtractLSB"]}
{"id": "C53", "title": "Vectors survive text serialisation", "statement": "float2/float3/float4::FromString applied to the text of SerializeToString or SerializeToCodeString yields the bit-identical vector and consumes exactly that text, whatever the elements are (including infinities and NaNs).", "quantifier": "all element bit patterns and all following texts", "why_tests_cant": "2^128 vectors times arbitrary trailing text", "anchors": ["src/Math/float3.cpp: SerializeToString, SerializeToCodeString, FromString", "src/Math/float2.cpp", "src/Math/float4.cpp", "src/Math/MathFunc.cpp: SerializeFloat, DeserializeFloat"]}
{"id": "C54", "title": "float3 vector operations mean what their names say", "statement": "Normalize/Normalized yield the unit vector of the same direction and the old length (or a documented fallback); ScaleToLength yields a vector of the requested length; ClampLength bounds the length and keeps the direction; ProjectTo/Decompose split a vector into parallel and perpendicular parts; Reflect preserves length and mirrors; Refract obeys Snell's law; AngleBetween is the angle in [0, pi]; Lerp interpolates affinely; Cross is perpendicular to both; Perpendicular/AnotherPerpendicular/PerpendicularBasis give an orthonormal basis; Orthogonalize/Orthonormalize give orthogonal families; conversion to and from spherical coordinates round-trips.", "quantifier": "all real vectors and parameters allowed by the documentation", "why_tests_cant": "continuum of inputs; thresholds and sign branches", "anchors": ["src/Math/float3.cpp: Normalize, ScaleToLength, ClampLength, ProjectTo, Decompose, Reflect, Refract, AngleBetween, Lerp, Cross, Perpendicular, PerpendicularBasis, Orthogonalize, Orthonormalize, SetFromSphericalCoordinates, ToSphericalCoordinates"]}
{"id": "C55", "title": "Intersection and closest points of two triangles", "statement": "Triangle::Intersects(Triangle, outLine) returns true exactly if the two triangles have a common point, and then writes to outLine the line segment of the common points if the triangles are not in one plane, and a common point otherwise. Triangle::ClosestPoint(Triangle, otherPt) returns a point of the first triangle and writes a point of the second such that no two points of the triangles are closer to each other.", "quantifier": "all pairs of triangles of nonzero area", "why_tests_cant": "an 18-dimensional continuum of inputs whose failures sit on thin sets: a vertex exactly in the plane of the other triangle, triangles of one plane, edges that are parallel", "anchors": ["src/Geometry/Triangle.cpp: Triangle::Intersects(const Triangle&), FindIntersectingLineSegments, Triangle::ClosestPoint(const Triangle&)", "src/Geometry/LineSegment2D.cpp: LineSegment2DLineSegment2DIntersect, IntervalIntersection"]}
{"id": "C56", "title": "Euler angle conversions", "statement": "FromEulerABC(a,b,c) equals RotateA(a)*RotateB(b)*RotateC(c), and for every rotation matrix M (and unit quaternion) FromEulerABC(ToEulerABC(M)) = M, for all twelve axis orders.", "quantifier": "all angles; all rotation matrices, including gimbal lock", "why_tests_cant": "continuum of rotations; the gimbal-lock branches have measure zero", "anchors": ["src/Math/float3x3.cpp: FromEuler*, ToEuler*", "src/Math/Matrix.inl: ExtractEuler*, Set3x3PartRotateEuler*", "src/Math/Quat.cpp: FromEuler*, ToEuler*"]}
{"id": "C57", "title": "Translation and scale operators agree with their matrices", "statement": "The products of TranslateOp and ScaleOp objects with each other and with float3x3, float3x4 and float4x4 matrices, on either side, give the matrix product with the operator written out as a matrix, so applying the result equals applying the factors in turn.", "quantifier": "all offsets, scale factors, matrices and points", "why_tests_cant": "continuum of operands, many operand combinations", "anchors": ["src/Math/TransformOps.cpp"]}
{"id": "C58", "title": "Projection matrices map exactly their view volume to the clip volume", "statement": "The D3D and OpenGL orthographic and perspective projection constructors (left and right handed) produce a matrix that sends a point into the clip volume of that API exactly when the point lies in the view volume given by near, far and the view plane size, and depth order is preserved.", "quantifier": "all near < far, all positive view sizes, all points", "why_tests_cant": "continuum of volumes and points", "anchors": ["src/Math/float4x4.cpp: D3DOrthoProjLH, D3DOrthoProjRH, D3DPerspProjLH, D3DPerspProjRH, OpenGLOrthoProjLH, OpenGLOrthoProjRH, OpenGLPerspProjLH, OpenGLPerspProjRH"]}
{"id": "C59", "title": "LU, Cholesky and row reduction", "statement": "When LUDecompose succeeds, lower is unit lower triangular, upper is upper triangular and their product is the matrix; it succeeds whenever such a factorisation with pivots above the tolerance exists. CholeskyDecompose returns L with L*transpose(L) equal to the matrix for positive definite matrices. Pivot brings the matrix to reduced row echelon form by invertible row operations.", "quantifier": "all matrices (any size for the generic code)", "why_tests_cant": "continuum of matrices", "anchors": ["src/Math/Matrix.inl: LUDecomposeMatrix, CholeskyDecomposeMatrix", "src/Math/float4x4.cpp: LUDecompose, CholeskyDecompose, Pivot"]}
{"id": "C60", "title": "Derived matrices do what they are documented to do", "statement": "Adjugate(M)*M = det(M)*I; OrthographicProjection(plane) is the affine projection to the plane; ComplementaryProjection of P is I-P; ScaleAlongAxis(axis, s) scales by s along the axis and leaves the orthogonal directions alone; RemoveScale factors the matrix into a matrix with unit columns and a scale.", "quantifier": "all matrices, planes, axes and factors", "why_tests_cant": "continuum; some entries only show for non-unit w or non-axis-aligned axes", "anchors": ["src/Math/float4x4.cpp: Adjugate, OrthographicProjection, ComplementaryProjection", "src/Math/float3x3.cpp: ScaleAlongAxis, RemoveScale"]}
{"id": "C61", "title": "Quaternion interpolation", "statement": "For unit quaternions and t in [0,1], Lerp and Slerp return a unit quaternion on the shorter arc, reaching the first rotation at 0 and the second at 1; AngleBetween is the angle of the shortest relative rotation, in [0, pi].", "quantifier": "all pairs of unit quaternions, all t in [0,1]", "why_tests_cant": "continuum; sign and near-parallel branches", "anchors": ["src/Math/Quat.cpp: Lerp, Slerp, AngleBetween, Normalized"]}
{"id": "C62", "title": "Rotation carrying one direction to another", "statement": "For unit directions, RotateFromTo (quaternion and matrix) returns a rotation that maps the source to the target with the smallest angle; LookAt returns a rotation that maps the local forward direction to the target direction and the local up direction into the plane of target and world up, on the side of world up.", "quantifier": "all unit directions, including equal and opposite ones", "why_tests_cant": "continuum; degenerate branches", "anchors": ["src/Math/Quat.cpp: RotateFromTo", "src/Math/float3x3.cpp: RotateFromTo, LookAt, Orthonormalize"]}
{"id": "C63", "title": "Support, projection and plane queries of segments and lines", "statement": "LineSegment::ExtremePoint(d) is a farthest point of the segment; ProjectToAxis returns exactly the range of the projection of the segment or line; Intersects(Plane) holds iff they share a point; Distance(Plane) is the distance of the segment and the plane.", "quantifier": "all segments, lines, directions and planes with unit normal", "why_tests_cant": "continuum; tolerance branches", "anchors": ["src/Geometry/LineSegment.cpp: ExtremePoint, ProjectToAxis, Intersects(Plane), Distance(Plane)", "src/Geometry/Line.cpp: ProjectToAxis"]}
{"id": "C64", "title": "Plane queries decide whether the objects share a point", "statement": "Plane::Intersects(sphere/box/triangle/line/ray/segment/point list) holds iff the object shares a point with the plane, and the reported distance parameter gives the common point; Intersects(plane) returns the common line and Intersects(plane, plane) the common point; ClosestPoint(ray/segment) is a closest point of the object to the plane, projected to the plane; Contains accepts exactly the objects within the tolerance; DihedralAngle is the angle between the normals; the plane constructors contain the points, line or segment they are built from.", "quantifier": "all planes with unit normal and all objects of each kind", "why_tests_cant": "continuum of inputs; tolerance branches and parallel configurations are only reached by special inputs", "anchors": ["src/Geometry/Plane.cpp: Intersects, ClosestPoint, Contains, DihedralAngle, Set"]}
{"id": "C65", "title": "Oriented box against lines and triangles", "statement": "OBB::Intersects with a line, ray, line segment or triangle answers true exactly when the two point sets meet, and the near and far distances delimit exactly the part of the line, ray or segment inside the box.", "quantifier": "all boxes with orthonormal axes and non-negative half sizes, and all lines, rays, segments and triangles", "why_tests_cant": "The query goes through a change of coordinates and a slab or separating axis test; correctness over all orientations and positions is a statement about continuous sets.", "anchors": ["src/Geometry/OBB.cpp:OBB::Intersects", "src/Geometry/OBB.cpp:OBB::WorldToLocal", "src/Geometry/AABB.cpp:AABB::IntersectLineAABB"]}
{"id": "C66", "title": "Oriented box construction and change", "statement": "SetFrom, Transform, Translate and Scale give a box with orthonormal axes whose points are exactly the images of the points of the original; Enclose gives a box containing the old box and the new point; FixedOrientationEnclosingOBB gives the smallest box of that orientation around the points; MinimalEnclosingSphere and MaximalContainedSphere are the smallest ball around and the largest ball in the box.", "quantifier": "all boxes, all rotations/reflections with translation and uniform scale, all point arrays", "why_tests_cant": "Equality of infinite point sets under all transforms, and minimality over all competing boxes and balls.", "anchors": ["src/Geometry/OBB.cpp:OBBSetFrom", "src/Geometry/OBB.cpp:OBBTransform", "src/Geometry/OBB.cpp:OBB::Enclose", "src/Geometry/OBB.cpp:OBB::FixedOrientationEnclosingOBB", "src/Geometry/OBB.cpp:OBB::ExtremePointsAlongDirection", "src/Geometry/OBB.cpp:OBB::MinimalEnclosingSphere", "src/Geometry/OBB.cpp:OBB::MaximalContainedSphere"]}
{"id": "C67", "title": "Oriented box corners, edges and faces", "statement": "The eight corner points, twelve edges and six face planes enumerate the corners, edges and faces of the box: the box is the intersection of the half spaces behind the face planes, each edge joins two corners that differ in one axis, and PointInside, PointOnEdge and FacePoint give points of the box, of the edge and of the face of the same index.", "quantifier": "all boxes with orthonormal axes, all indices and parameters", "why_tests_cant": "Index conventions must agree across functions for every box and parameter.", "anchors": ["src/Geometry/OBB.cpp:OBB::CornerPoint", "src/Geometry/OBB.cpp:OBB::Edge", "src/Geometry/OBB.cpp:OBB::FacePlane", "src/Geometry/OBB.cpp:OBB::FacePoint", "src/Geometry/OBB.cpp:OBB::PointOnEdge"]}
{"id": "C68", "title": "Oriented boxes against boxes", "statement": "OBB::Intersects(OBB), OBB::Intersects(AABB) and AABB::Intersects(OBB) return true exactly when the two boxes have a common point.", "quantifier": "all pairs of boxes with orthonormal axes and non-negative half sizes", "why_tests_cant": "Fifteen axis tests decide a question about two infinite point sets; completeness is the separating axis theorem.", "anchors": ["src/Geometry/OBB.cpp:OBB::Intersects(const OBB &b, float epsilon)", "src/Geometry/OBB.cpp:OBB::Intersects(const AABB&)"]}
{"id": "C69", "title": "Capsules", "statement": "A capsule is the set of points within its radius of its segment. Contains (point, segment, triangle, AABB, OBB, vertices) is true exactly when the object is in that set; Distance (point, sphere, plane, line, ray, segment, capsule) is the smallest distance; Intersects is true exactly when there is a common point; ClosestPoint returns the nearest point; ExtremePoint and ProjectToAxis give the exact extent along a direction; MinimalEnclosingAABB and MinimalEnclosingOBB are tight around it; CrossSection(y) is the cut at relative height y and PointInside runs over exactly the points of the capsule; Translate, Scale and Transform give exactly the image of the capsule.", "quantifier": "all capsules of non-negative radius, all points, query objects, directions, heights and similarity transforms", "why_tests_cant": "Optimality over infinitely many points, equality of infinite point sets, and boundary cases of infinitely many capsules.", "anchors": ["src/Geometry/Capsule.cpp:Capsule::Contains", "src/Geometry/Capsule.cpp:Capsule::Distance", "src/Geometry/Capsule.cpp:Capsule::Intersects", "src/Geometry/Capsule.cpp:Capsule::ClosestPoint", "src/Geometry/Capsule.cpp:Capsule::ExtremePoint", "src/Geometry/Capsule.cpp:Capsule::MinimalEnclosingOBB", "src/Geometry/Capsule.cpp:Capsule::CrossSection", "src/Geometry/Capsule.cpp:Capsule::PointInside", "src/Geometry/Capsule.cpp:Capsule::Transform"]}
{"id": "C70", "title": "Circles and discs", "statement": "GetPoint runs over exactly the points of the circle line (or disc); ContainingPlane is the plane of the circle; ExtremePoint is the farthest point in a direction; ClosestPointToEdge/ToDisc and DistanceToEdge/ToDisc give the nearest point and distance; Translate and Transform give the image of the circle; IntersectsDisc is true exactly when the line, ray or segment meets the disc; Intersects(Plane) returns exactly the common points of the circle line and the plane; IntersectsFaces returns exactly the points of the circle line on the surface of a box.", "quantifier": "all circles with a unit normal and a non-negative radius, all points, directions, lines, planes and similarity transforms", "why_tests_cant": "Optimality over infinitely many points of the circle and equality of infinite point sets under all transforms.", "anchors": ["src/Geometry/Circle.cpp:Circle::GetPoint", "src/Geometry/Circle.cpp:Circle::ExtremePoint", "src/Geometry/Circle.cpp:Circle::ClosestPointToEdge", "src/Geometry/Circle.cpp:Circle::ClosestPointToDisc", "src/Geometry/Circle.cpp:Circle::Transform", "src/Geometry/Circle.cpp:Circle::IntersectsDisc", "src/Geometry/Plane.cpp:Plane::Intersects(const Circle &circle, float3 *pt1, float3 *pt2)", "src/Geometry/Circle.cpp:Circle::IntersectsFaces"]}
{"id": "C71", "title": "The frustum as a solid", "statement": "PointInside maps [-1,1] x [-1,1] x [0,1] onto exactly the points of the frustum; the corner points span it, the edges join corners that differ in one bit, and it is exactly the intersection of the negative half spaces of its six planes; ExtremePoint, ProjectToAxis, MinimalEnclosingAABB and MinimalEnclosingOBB are the exact extents; ClosestPoint is the nearest point; UniqueEdgeDirections and UniqueFaceNormals are complete; Transform maps the frustum onto the image of its points; the aspect ratio is the documented width to height ratio.", "quantifier": "all orthographic and perspective frusta with orthonormal front and up, both hands, positive fields of view below 180 degrees and 0 < near < far; all directions, points and similarity transforms", "why_tests_cant": "Equalities of infinite point sets for every choice of ten continuous parameters.", "anchors": ["src/Geometry/Frustum.cpp:Frustum::PointInside", "src/Geometry/Frustum.cpp:Frustum::CornerPoint", "src/Geometry/Frustum.cpp:Frustum::GetPlane", "src/Geometry/Frustum.cpp:Frustum::ExtremePoint", "src/Geometry/Frustum.cpp:Frustum::MinimalEnclosingOBB", "src/Geometry/Frustum.cpp:Frustum::Transform", "src/Geometry/Frustum.cpp:Frustum::ClosestPoint", "src/Geometry/Frustum.cpp:Frustum::AspectRatio"]}
{"id": "C72", "title": "Projection and unprojection of a frustum", "statement": "The view matrix maps the frustum's frame to the camera axes; Project maps the frustum onto the post-projective box; UnProject(x, y), the near and far plane points and the look-at ray agree with Project; Contains(point) holds exactly for the points of the frustum, up to the tolerance in its comparison, and Contains of a segment, triangle or frustum exactly when all of its corners are inside.", "quantifier": "all valid frusta of both kinds, hands and projective spaces, whose cached matrices are up to date; all points and screen positions", "why_tests_cant": "The projective map and its inverse have to agree on a continuum of points for a continuum of cameras.", "anchors": ["src/Geometry/Frustum.cpp:Frustum::Project", "src/Geometry/Frustum.cpp:Frustum::UnProject", "src/Geometry/Frustum.cpp:Frustum::Contains", "src/Geometry/Frustum.cpp:Frustum::ComputeProjectionMatrix", "src/Geometry/Frustum.h:Frustum::ViewMatrix"]}
{"id": "C73", "title": "Cached matrices of a frustum stay up to date", "statement": "After any sequence of calls that change a frustum, WorldMatrix, ViewMatrix, ProjectionMatrix and ViewProjMatrix, and hence Project and Contains, are those of its current parameters.", "quantifier": "all finite histories of constructor, setter, Translate and Transform calls with arbitrary arguments", "why_tests_cant": "There are infinitely many histories; a cache that is stale after one particular order of calls is missed by tests.", "anchors": ["src/Geometry/Frustum.cpp:Frustum::SetKind", "src/Geometry/Frustum.cpp:Frustum::SetFrame", "src/Geometry/Frustum.cpp:Frustum::WorldMatrixChanged", "src/Geometry/Frustum.cpp:Frustum::ProjectionMatrixChanged", "src/Geometry/Frustum.cpp:Frustum::Translate", "src/Geometry/Frustum.cpp:Frustum::Transform"]}
{"id": "C74", "title": "Planar convex hull", "statement": "float2::ConvexHullInPlace and float2::ConvexHull keep, for every array of points, a counter-clockwise strictly convex polygon of input points whose convex hull is the convex hull of the input (exactly when distinct points are more than 1/1000 apart, within 2/1000 always), and keep exactly the extreme points; no access is outside the arrays.", "quantifier": "all finite arrays of planar points, including empty ones, duplicates and collinear points", "why_tests_cant": "The result depends on the order of directions of arbitrarily many points; degenerate positions such as collinear or repeated extreme points form infinite families.", "anchors": ["src/Math/float2.cpp:float2::ConvexHull", "src/Math/float2.cpp:float2::ConvexHullInPlace", "src/Math/float2.inl:float2_ConvexHullInPlace"]}
{"id": "C75", "title": "Containment in a planar convex hull", "statement": "ConvexHullContains is true for every point of a counter-clockwise convex polygon and false for points outside of it except those within a stated tolerance of an edge.", "quantifier": "all strictly convex counter-clockwise polygons and all points of the plane", "why_tests_cant": "Both polygons and query points form continua, and the claim compares a finite edge test with membership in a convex hull.", "anchors": ["src/Math/float2.cpp:float2::ConvexHullContains", "src/Math/float2.inl:float2_ConvexHullContains"]}
{"id": "C76", "title": "Intersection tests by GJK", "statement": "Intersects between a frustum, capsule, convex polygon and the other convex objects, as decided by the GJK algorithm, is false only if the objects have no point in common and true only if they have one (up to a stated distance); the algorithm never writes outside its array of four points.", "quantifier": "all convex objects with a correct support function, in particular all valid frusta, capsules, boxes, oriented boxes, spheres, segments, triangles and convex polygons", "why_tests_cant": "The answer depends on an unbounded family of iteration histories over a continuum of pairs of objects; a wrong Voronoi region test shows only for some relative positions.", "anchors": ["src/Algorithm/GJK.h:GJKIntersect", "src/Algorithm/GJK.h:FloatingPointOffsetedGJKIntersect", "src/Algorithm/GJK.cpp:UpdateSimplex", "src/Geometry/Frustum.cpp:Frustum::Intersects", "src/Geometry/Capsule.cpp:Capsule::Intersects", "src/Geometry/Polygon.cpp:Polygon::ConvexIntersects"]}
{"id": "C77", "title": "Planar intersection tests by GJK", "statement": "GJKIntersect2D on two convex polygons, GJKContainsPt2D and GJKIntersectOBB2D return false only if the objects have no point in common and true only if they have one (up to a stated distance), and never write outside their array of three points.", "quantifier": "all convex objects of the plane with a correct support function, in particular all convex polygons, points and rectangles", "why_tests_cant": "The answer depends on an unbounded family of iteration histories over a continuum of pairs of polygons.", "anchors": ["src/Algorithm/GJK2D.h:GJKIntersect2D", "src/Algorithm/GJK2D.h:GJKContainsPt2D", "src/Algorithm/GJK2D.h:GJKIntersectOBB2D", "src/Algorithm/GJK2D.cpp:UpdateSimplex2D", "src/Geometry/Polygon2DRef.h:Polygon2DRef"]}
{"id": "C78", "title": "Closedness, edges and adjacency of a polyhedron", "statement": "IsClosed is true exactly when every directed edge of a face occurs once and its reverse occurs too; FaceIndicesValid is true exactly when all faces have three or more different corners that are vertex numbers; EdgeIndices lists every edge once; for closed valid polyhedra NumEdges is the number of edges, so EulerFormulaHolds tests Euler's formula; FlipWindingOrder reverses faces and changes none of this; the vertex adjacency data lists exactly the neighbours of each vertex.", "quantifier": "all polyhedra, with any number of vertices and faces of any size", "why_tests_cant": "There are infinitely many index structures; an edge shared by faces of different sizes, or a vertex where many faces meet, occurs in few tests.", "anchors": ["src/Geometry/Polyhedron.cpp:Polyhedron::IsClosed", "src/Geometry/Polyhedron.cpp:Polyhedron::FaceIndicesValid", "src/Geometry/Polyhedron.cpp:Polyhedron::EdgeIndices", "src/Geometry/Polyhedron.cpp:Polyhedron::NumEdges", "src/Geometry/Polyhedron.cpp:Polyhedron::EulerFormulaHolds", "src/Geometry/Polyhedron.cpp:Polyhedron::FlipWindingOrder", "src/Geometry/Polyhedron.cpp:Polyhedron::GenerateVertexAdjacencyData"]}
{"id": "C79", "title": "Renumbering a polyhedron keeps its surface", "statement": "RemoveRedundantVertices, SwapVertices, RemoveDegenerateFaces and CanonicalizeFaceArray change vertex numbers and the order of faces but not the faces in space, their closedness or validity; the canonical face array is the same for the same faces in any order; ContainsFace finds exactly the faces of the polyhedron, whatever corner they start with.", "quantifier": "all polyhedra whose face indices are vertex numbers", "why_tests_cant": "It must hold for every index structure; the binary search and the in-place swaps can fail for particular sizes and positions only.", "anchors": ["src/Geometry/Polyhedron.cpp:Polyhedron::RemoveRedundantVertices", "src/Geometry/Polyhedron.cpp:Polyhedron::RemoveDegenerateFaces", "src/Geometry/Polyhedron.cpp:Polyhedron::SwapVertices", "src/Geometry/Polyhedron.cpp:Polyhedron::CanonicalizeFaceArray", "src/Geometry/Polyhedron.cpp:Polyhedron::ContainsFace", "src/Geometry/Polyhedron.cpp:ArrayBinarySearch"]}
{"id": "C80", "title": "Equality of polyhedra up to renumbering", "statement": "SetEquals answers true for any two polyhedra that differ only in the numbering of vertices, the order of faces and the corner each face starts with; when it answers true, a bijection of the vertices matches the vertices up to a hundredth and the faces; the operands keep their surfaces.", "quantifier": "all pairs of polyhedra with valid indices", "why_tests_cant": "There are n! numberings for every polyhedron; the greedy matching of vertices must succeed for all of them.", "anchors": ["src/Geometry/Polyhedron.cpp:Polyhedron::SetEquals", "src/Geometry/Polyhedron.cpp:Polyhedron::FindClosestVertex", "src/Geometry/Polyhedron.cpp:Polyhedron::SwapVertices"]}
{"id": "C81", "title": "Polyhedra built by the library are closed solids with consistent normals", "statement": "ToPolyhedron of a box with positive size, of an oriented box with right-handed axes and of a valid frustum of either handedness, the five platonic solids, CreateCapsule and CreateSharpCapsule all give a polyhedron whose faces are proper polygons, that is closed, satisfies Euler's formula, and whose faces lie in a plane with every vertex behind it (normals outwards). Polygon::ToPolyhedron is closed, with the polygon in front and its reverse behind. The platonic solids have equal sides, equal faces and all vertices at the same distance from the centre. The vertices of the capsules lie on the circles around the ends.", "quantifier": "All boxes, oriented boxes and frusta meeting the stated conditions, all centres and positive scales, all capsules with distinct ends, all numbers of vertices per cap from 3 on.", "why_tests_cant": "Orientation and closedness must hold for every box, every handedness, every scale and any number of vertices per cap; the tests build a few of them and only ask whether the centre is contained, which does not depend on the orientation.", "anchors": ["src/Geometry/Polyhedron.cpp:Tetrahedron", "src/Geometry/Polyhedron.cpp:Octahedron", "src/Geometry/Polyhedron.cpp:Hexahedron", "src/Geometry/Polyhedron.cpp:Icosahedron", "src/Geometry/Polyhedron.cpp:Dodecahedron", "src/Geometry/Polyhedron.cpp:CreateCapsule", "src/Geometry/Polyhedron.cpp:CreateSharpCapsule", "src/Geometry/AABB.cpp:AABB::ToPolyhedron", "src/Geometry/OBB.cpp:OBB::ToPolyhedron", "src/Geometry/Frustum.cpp:Frustum::ToPolyhedron", "src/Geometry/Polygon.cpp:Polygon::ToPolyhedron"]}
{"id": "C82", "title": "Merging points into a convex polyhedron computes the convex hull", "statement": "MergeConvex(p) on a closed convex polyhedron with outward faces never reads out of range. If no face has p in front of it, nothing changes. Otherwise p becomes a new vertex, exactly the faces with p in front are removed, and one triangle is added for every silhouette edge. The result is again closed, convex and outward. The region behind all faces of a convex polyhedron is the convex hull of its vertices, and after merging any list of points one after the other it is the convex hull of the old vertices and all the points.", "quantifier": "All convex surfaces (any number of faces with any number of corners, coplanar faces allowed), all points, all lists of points of any length, points in the plane of a face or on the line of an edge included.", "why_tests_cant": "Whether the silhouette is a simple loop and the new faces keep everything behind them depends on the position of the point relative to all faces; degenerate positions (coplanar, collinear) are exactly the ones random tests miss, and the sequence of merges is unbounded.", "anchors": ["src/Geometry/Polyhedron.cpp:Polyhedron::MergeConvex", "src/Geometry/Polyhedron.cpp:Polyhedron::FacePlane"]}
{"id": "C83", "title": "Convex polyhedron queries answer about the convex hull of the vertices", "statement": "On a convex polyhedron (closed, convex faces that look outwards) ContainsConvex(point, 0) is true exactly for the points of the convex hull of the vertices; with a tolerance it is true exactly for the points that are within the tolerance of the inner side of every face plane; for segments and triangles it is true exactly if all their points are contained. ClipLineSegmentToConvexPolyhedron returns exactly the parameters of the given range whose points are in the hull, and IntersectsConvex says whether a segment, ray or line meets the hull. ExtremeVertex, ExtremePoint, ProjectToAxis and the hill climbing ExtremeVertexConvex, from every start vertex, find the extreme vertices. ApproximateConvexCentroid lies inside, and OrientNormalsOutsideConvex turns all faces outwards.", "quantifier": "every convex polyhedron with any number of vertices and faces, every point, segment, ray, line, triangle, direction, tolerance, start vertex and state of the visit marks", "why_tests_cant": "the polyhedra are unbounded in size and the hill climb depends on the whole neighbourhood graph; that a vertex not beaten by its neighbours is not beaten at all is a theorem about convex surfaces", "anchors": ["src/Geometry/Polyhedron.cpp: Polyhedron::ContainsConvex, ClipLineSegmentToConvexPolyhedron, IntersectsConvex, ExtremeVertex, ExtremePoint, ExtremeVertexConvex, ProjectToAxis, ApproximateConvexCentroid, OrientNormalsOutsideConvex"]}
{"id": "C84", "title": "Polygon plane, maps, shape tests and measures are those of the polygon", "statement": "PlaneCCW of a planar polygon is its plane, oriented so that a convex polygon is listed counter-clockwise about the normal; PlaneCW is the reverse. MapTo2D and MapFrom2D are inverse isometries between that plane and the 2D plane. IsPlanar says whether all vertices are near one plane and IsConvex whether the polygon is convex. Intersects(Plane) says whether the hull of the vertices comes within 1e-4 of the plane; ExtremePoint, ProjectToAxis and MinimalEnclosingAABB are extremal. Area is the enclosed area, Perimeter the sum of the edge lengths, PointOnEdge(t) the point at the fraction t of the way around, Centroid the mean of the vertices, and ToPolyhedron is a closed two-sided polyhedron.", "quantifier": "every polygon with any number of vertices, every plane, direction, point and parameter", "why_tests_cant": "polygons are unbounded in size and shape; the normal is searched over all triples of vertices and the tolerances interact with the size and the start vertex of the polygon", "anchors": ["src/Geometry/Polygon.cpp: Polygon::PlaneCCW, PlaneCW, BasisU, BasisV, MapTo2D, MapFrom2D, IsPlanar, IsConvex, Intersects(Plane), ExtremePoint, ProjectToAxis, MinimalEnclosingAABB, Area, Perimeter, PointOnEdge, Centroid, ToPolyhedron"]}
{"id": "C85", "title": "Polygon containment and line tests answer about the polygon", "statement": "Contains(point, thicknessSq) is true only for points off the plane by no more than the thickness and otherwise within 2e-4 of the hull of the vertices, and true for every such point that is more than 2e-4 inside a convex polygon; for a point in the plane with no vertex near the test line it counts the edges met by the half-line along the first edge. A segment, ray or line not parallel to the plane intersects the polygon if it passes more than 2e-4 inside, and only if it comes within 2e-4 of the hull. Segments in the plane are reported whenever they meet the polygon. Two polygons in crossing planes are reported to intersect if an edge of one passes more than 2e-4 inside the other, and only if they come within 0.0032 of each other; polygons in parallel planes farther apart than the thickness are reported not to intersect. Intersects(AABB) and Intersects(OBB) are true if an edge of the polygon meets the box or an edge of the box passes more than 2e-4 inside the polygon, and only if the two come within 2e-4 of each other.", "quantifier": "every planar polygon with any number of vertices, every point, thickness, segment, ray and line", "why_tests_cant": "the crossing count depends on every edge and on the nudging of vertices near the test line; that a convex polygon is crossed exactly once by the half-line from an inner point is a theorem", "anchors": ["src/Geometry/Polygon.cpp: Polygon::Contains(point), Contains(Polygon), Intersects2D, Intersects(Line), Intersects(Ray), Intersects(LineSegment), Intersects(AABB), Intersects(OBB), Intersects(Polygon)"]}
{"id": "C86", "title": "Polygon triangulation covers the polygon", "statement": "Triangulate ends on every input, reads only valid vertices and returns at most n - 2 triangles between vertices of the polygon. The triangles of a convex polygon are n - 2, have its orientation and cover exactly the hull of its vertices; in general position the signed areas of a full triangulation add up to that of the polygon. ClosestPoint returns the nearest point, or the nearest pair of points for a line segment; Intersects(Sphere) and Intersects(Capsule) decide whether the polygon meets the ball or the capsule.", "quantifier": "every polygon with any number of vertices, every point, segment, sphere and capsule", "why_tests_cant": "ear clipping removes vertices in an order that depends on all others, with indices that wrap around shrinking lists; termination and coverage need an invariant over all steps", "anchors": ["src/Geometry/Polygon.cpp: Polygon::Triangulate, IsAnEar, IntersectLineSegmentLineSegment2D, ClosestPoint(point), ClosestPoint(LineSegment), Intersects(Sphere), Intersects(Capsule)", "src/Math/float2.cpp: float2::OrientedCCW"]}
{"id": "C87", "title": "Volume, surface and centre of mass of polyhedra", "statement": "For every closed polyhedron with convex plane faces, Volume() is the volume the surface encloses, independent of where the polyhedron lies relative to the origin; SurfaceArea() is the sum of the areas of its faces; ConvexCentroid() of a convex polyhedron is its centre of mass; MinimalEnclosingAABB() is the smallest box around the vertices.", "quantifier": "every closed polyhedron with any number of vertices and faces, every position in space", "why_tests_cant": "Meshes are unbounded in size and shape; that the sums over faces do not depend on the reference point needs the closedness of the whole surface, and the wrong results appear only for faces with four or more corners or below hidden size thresholds.", "anchors": ["src/Geometry/Polyhedron.cpp: Polyhedron::Volume", "src/Geometry/Polyhedron.cpp: Polyhedron::SurfaceArea", "src/Geometry/Polyhedron.cpp: Polyhedron::ConvexCentroid", "src/Geometry/Polyhedron.cpp: Polyhedron::MinimalEnclosingAABB", "src/Geometry/Polyhedron.cpp: Polyhedron::Translate"]}
{"id": "C88", "title": "ClosestPointConvex returns the closest point of a convex polyhedron", "statement": "For a convex polyhedron and any point, ClosestPointConvex returns the point itself when ContainsConvex accepts it, and otherwise a point of the polyhedron that is at least as close to the given point as every other point of the polyhedron.", "quantifier": "for all convex polyhedra bent at every edge with strictly convex faces of sufficient size, and all points within the range of the floating point numbers", "why_tests_cant": "the claim compares the answer with infinitely many points of the solid, for every shape; tests sample a few shapes and points", "anchors": ["src/Geometry/Polyhedron.cpp: ClosestPointConvex", "src/Geometry/Polyhedron.cpp: ContainsConvex", "src/Geometry/Polygon.cpp: ClosestPoint"]}
{"id": "C89", "title": "The interpolation curves rise from 0 to 1", "statement": "Each of SmoothStart, SmoothStart3..5, SmoothStop, SmoothStop3..5, SharpStep, SmoothStep, SmoothStep5, SmoothStep7 and CosineStep01 maps 0 to 0 and 1 to 1 and rises strictly in between. The start curves are the powers of t; each stop curve is the start curve run backwards; SmoothStep blends linearly from the start to the stop curve and SharpStep the other way round; all step curves are symmetric about their midpoint; each is flat at its ends to the order its name says.", "quantifier": "every real parameter t in [0, 1]", "why_tests_cant": "Monotonicity and staying in range are statements about all parameters of the interval, of which tests sample a few.", "anchors": ["src/Math/Interpolate.h: SmoothStart, SmoothStop, SharpStep, SmoothStep, SmoothStep5, SmoothStep7, CosineStep01"]}
{"id": "C90", "title": "2D circles: queries and the smallest enclosing circle of points", "statement": "Circle2D::Contains tests exactly for the points of the disc, Distance and SignedDistance are the distances to the disc and its edge, RandomPointInside never leaves the disc. Circle2D::OptimalEnclosingCircle of three points, and of any number of points, terminates and returns a circle that has all the points, with a radius at most a small fixed slack above the smallest possible.", "quantifier": "every circle and point; every finite list of points of the plane; every sequence of random numbers", "why_tests_cant": "Termination of the restart loop and minimality against every other circle, for point sets of any size, cannot be sampled.", "anchors": ["src/Geometry/Circle2D.cpp: OptimalEnclosingCircle, MakeCircleSq, SmallestCircleSqEnclosing4Points, Contains, Distance, SignedDistance, RandomPointInside"]}
{"id": "C91", "title": "Ray queries against a triangle mesh give the nearest hit", "statement": "After TriangleMesh::Set (or the SIMD layouts SetSoA4/SetSoA8), IntersectRay_TriangleIndex_UV returns the distance, triangle index and barycentric coordinates of a hit of the ray with a stored triangle that no other hit precedes, or infinity exactly when the ray hits none. The scalar and the SIMD layouts agree on what is stored.", "quantifier": "every triangle array, every vertex size, every ray, every SIMD level", "why_tests_cant": "The index arithmetic of the interleaved layout and the running minimum must be right for every number of triangles and every order of hits.", "anchors": ["src/Geometry/TriangleMesh.cpp: Set, SetAoS, SetSoA4, SetSoA8, IntersectRay_TriangleIndex_UV_CPP", "src/Geometry/TriangleMesh_IntersectRay_SSE.inl", "src/Geometry/TriangleMesh_IntersectRay_AVX.inl"]}
{"id": "C92", "title": "Taking a transform apart and putting it together", "statement": "Decompose (and DecomposeToTRS) of float3x3, float3x4 and float4x4 split a matrix with orthogonal nonzero columns into translation, rotation and positive scale such that FromTRS/FromRS of the parts gives the matrix back; decomposing what FromTRS composed from a rotation and positive scales gives those parts (a quaternion up to sign). ExtractScale returns the same scale.", "quantifier": "every matrix without zero columns; every translation, rotation and positive scale", "why_tests_cant": "It is an identity over all matrices, in both directions, and depends on the quaternion extraction being right for every rotation.", "anchors": ["src/Math/float3x3.cpp: Decompose, FromRS, ExtractScale", "src/Math/float3x4.cpp: Decompose, DecomposeToTRS, FromTRS, ExtractScale", "src/Math/float4x4.cpp: Decompose, FromTRS"]}
{"id": "C93", "title": "Transforming an array equals transforming each element, and touches nothing else", "statement": "The array versions of Transform, TransformPos, TransformDir and BatchTransform* replace each of the given vectors by its image under the matrix (as a point, a direction, or with its own w) and leave all other memory unchanged, for packed and for strided arrays.", "quantifier": "every matrix, array length, memory contents and stride at least the size of an element", "why_tests_cant": "The frame condition (nothing else changes, no element is transformed twice) must hold for every length and stride.", "anchors": ["src/Math/float3x3.cpp: BatchTransform", "src/Math/float3x4.cpp: BatchTransformPos, BatchTransformDir, BatchTransform", "src/Math/float4x4.cpp: TransformPos, TransformDir, Transform (array versions)"]}
{"id": "C94", "title": "Rectangle of smallest area around points of the plane", "statement": "For one or more points, float2::MinAreaRect terminates and returns two perpendicular unit directions and extents along them such that every point lies in the rectangle, the value returned is the area of that rectangle, the centre returned is its centre, and no rectangle in any direction that contains the points has a smaller area.", "quantifier": "all finite non-empty lists of points of the plane and all competing rectangles in all directions", "why_tests_cant": "Minimality is against a continuum of directions, and the claim ranges over point sets of any size; the rotating calipers also have to terminate for each of them.", "anchors": ["src/Math/float2.cpp: float2::MinAreaRectInPlace", "src/Math/float2.h: MinAreaRect, MinAreaRectInPlace", "src/Math/float2.inl: float2_ConvexHullInPlace"]}
{"id": "C95", "title": "float2 vector operations mean what their names say", "statement": "The operations of float2 have their documented meaning: polar coordinates and aimed angle are inverse to FromPolarCoordinates, Normalize and ScaleToLength give vectors of the right length and direction, ProjectTo is the nearest point on the line, Decompose, Reflect and Refract split, mirror and refract, AngleBetween is the angle, Lerp interpolates, Orthogonalize and Orthonormalize give perpendicular (unit) vectors, the quarter turns are rotations, OrientedCCW decides the orientation, Clamp gives the nearest point of the box, the element indices point at the least and greatest element, RandomDir has the given length.", "quantifier": "all vectors of the plane, all angles, weights and lengths, all sequences of random numbers", "why_tests_cant": "Each is an identity or inequality over all real vectors; tests sample a few.", "anchors": ["src/Math/float2.cpp: SetFromPolarCoordinates, ToPolarCoordinates, AimedAngle, Normalize, ScaleToLength, Reflect, Refract, ProjectTo, AngleBetween, Lerp, Decompose, Orthogonalize, Orthonormalize, Rotate90CW, Rotate90CCW, OrientedCCW, Clamp, RandomDir", "src/Math/float2.h"]}
{"id": "C96", "title": "Random points, directions and rotations lie where they are said to", "statement": "RandomPointInside, RandomPointOnSurface, RandomPointOnEdge and RandomCornerPoint of AABB and OBB, RandomPointInside and RandomPointOnSurface of Sphere and Capsule, RandomPointInside, RandomVertex and RandomPointOnEdge of Triangle, RandomPointOnEdge and FastRandomPointInside of Polygon and FastRandomPointInside and UniformRandomPointInside of Frustum return a point of the set they name; float3::RandomDir has the requested length, RandomPerpendicular is a unit vector perpendicular to the vector, Quat::RandomRotation and float3x3::RandomRotation are rotations, and the elements of RandomGeneral matrices are in the requested range. None of them loops forever, also when every sample is rejected.", "quantifier": "all states and parameters of the random number generator with a modulus other than 0, all shapes, all sequences of accepted and rejected samples", "why_tests_cant": "A test runs a few seeds; samples at the ends of the ranges, runs in which all thousand tries are rejected and generators with unusual parameters are practically never met.", "anchors": ["src/Geometry/AABB.cpp: RandomPointInside, RandomPointOnSurface, RandomPointOnEdge, RandomCornerPoint", "src/Geometry/OBB.cpp: RandomPointInside, RandomPointOnSurface, RandomPointOnEdge, RandomCornerPoint", "src/Geometry/Sphere.cpp: RandomPointInside, RandomPointOnSurface", "src/Geometry/Capsule.cpp: RandomPointInside, RandomPointOnSurface", "src/Geometry/Triangle.cpp: RandomPointInside, RandomVertex, RandomPointOnEdge", "src/Geometry/Polygon.cpp: RandomPointOnEdge, FastRandomPointInside", "src/Geometry/Frustum.cpp: FastRandomPointInside, UniformRandomPointInside", "src/Math/float3.cpp: RandomDir, RandomSphere, RandomBox, RandomPerpendicular", "src/Math/Quat.cpp: RandomRotation", "src/Math/float3x3.cpp: RandomRotation, RandomGeneral"]}
{"id": "C97", "title": "Box triangulations cover the surface and face the right way", "statement": "AABB::Triangulate and OBB::Triangulate fill exactly NumVerticesInTriangulation entries; every three entries are a triangle on one face of the box with the outward normal of that face; the triangles cover the whole surface without overlap (their areas add up to SurfaceArea), and they are counterclockwise seen from outside exactly when ccwIsFrontFacing is set; a null normal array is allowed. ToEdgeList lists the end points of the twelve edges in order.", "quantifier": "all boxes, all subdivisions along the three axes, both values of the flag", "why_tests_cant": "unbounded subdivision counts and a continuum of boxes and surface points", "anchors": ["src/Geometry/AABB.cpp: AABB::Triangulate, AABB::ToEdgeList", "src/Geometry/OBB.cpp: OBB::Triangulate, OBB::ToEdgeList", "src/Geometry/AABB.h: NumVerticesInTriangulation"]}
{"id": "C98", "title": "Polyhedron containment by ray casting decides membership", "statement": "Polyhedron::Contains(point) returns true exactly for the points inside the polyhedron; the containment tests for segments, triangles, polygons, polyhedra and boxes hold exactly if all of the object is inside; ClosestPoint(point) and Distance(point) give the nearest point of the polyhedron and its distance; ClosestPoint(LineSegment) gives a nearest pair of points of the polyhedron and the segment, and Intersects(Capsule) tells whether the polyhedron has a point in the capsule.", "quantifier": "every closed polyhedron (any number of faces) and every query point or object", "why_tests_cant": "The answer is a parity over rays chosen from the data; it goes wrong only for points whose ray passes within the tolerance of an edge, a thin set that sampled points do not meet, in an unbounded family of polyhedra.", "anchors": ["src/Geometry/Polyhedron.cpp:Polyhedron::Contains", "src/Geometry/Polyhedron.cpp:Polyhedron::FaceContainmentDistance2D", "src/Geometry/Polyhedron.cpp:Polyhedron::ClosestPoint", "src/Geometry/Polyhedron.cpp:Polyhedron::Distance", "src/Geometry/Polyhedron.cpp:Polyhedron::Intersects(Capsule)"]}
{"id": "C99", "title": "Line segments of the plane: nearest points, distances and intersection", "statement": "LineSegment2D::ClosestPoint(point) returns the point of the segment nearest to the point and its parameter; ClosestPoint(LineSegment2D) a nearest pair of the two segments, with both parameters in [0,1]; Distance and DistanceSq are the smallest distance and its square; Intersects(segment, epsilon) tells whether the segments come within epsilon; Contains(point, threshold) whether the point is within the threshold; extreme points, projections, centre, reversal and translation agree with the set of points; the test of two segments given by point and direction answers whether they meet and at which parameters.", "quantifier": "all segments with different end points, all query points, directions and thresholds", "why_tests_cant": "The pair of nearest points depends on a branch structure over the signs of two parameters; the claim is a minimum over all pairs of points of the two segments.", "anchors": ["src/Geometry/LineSegment2D.cpp: ClosestPoint, Distance, DistanceSq, Contains, Intersects, ExtremePoint, ProjectToAxis, Equals, LineSegment2DLineSegment2DIntersect, RangesOverlap"]}
{"id": "C100", "title": "Triangles of the plane: nearest points, barycentric coordinates and bounds", "statement": "Triangle2D::ClosestPoint(point) returns the point of the filled triangle nearest to the point, and Distance and DistanceSq its distance; BarycentricUVW(point) returns the factors with point == u*a + v*b + w*c, and BarycentricInsideTriangle tells from them whether the point is inside; the bounding rectangle is the smallest one, the extreme point the farthest one, ProjectToAxis the exact interval; IsDegenerate recognizes triangles without area; RandomPointInside is inside and RandomPointOnEdge on the outline.", "quantifier": "all triangles, all query points and directions, all random numbers", "why_tests_cant": "Nearest and farthest are statements about all points of the triangle; barycentric coordinates must be right for every shape and orientation, not only for the unit triangle.", "anchors": ["src/Geometry/Triangle2D.cpp: ClosestPoint, BarycentricUVW, BarycentricInsideTriangle, Point, BoundingAABB, ExtremePoint, ProjectToAxis, IsDegenerate, RandomPointInside, RandomPointOnEdge"]}
{"id": "C101", "title": "Rectangles with sides parallel to the axes (AABB2D)", "statement": "An AABB2D that was reset and then enclosed any sequence of points is the smallest rectangle with these points; Contains, IsDegenerate and HasNegativeVolume agree with the set of points; DistanceSq(point) is the squared distance to the nearest point of the rectangle; the corners come in the documented order; PosInside and ToNormalizedLocalSpace undo each other; adding and subtracting a vector moves the rectangle; TransformAsAABB gives the smallest rectangle around the image of the rectangle.", "quantifier": "all rectangles, points, sequences of enclosed points and matrices", "why_tests_cant": "The claim about enclosing is about histories of any length, the others are about all points of a rectangle and all matrices.", "anchors": ["src/Geometry/AABB2D.h: Enclose, SetNegativeInfinity, Contains, DistanceSq, IsDegenerate, HasNegativeVolume, CornerPoint, PosInside, ToNormalizedLocalSpace, TransformAsAABB, AABB2DTransformAsAABB2D, operator +, operator -"]}
{"id": "C102", "title": "Volumes bounded by planes (PBVolume)", "statement": "PBVolume::Contains decides whether a point is on the inner side of all planes and SetIntersection contains exactly the common points of two volumes. InsideOrIntersects returns TestOutside only for a box or sphere that is disjoint from the volume and TestInside only for one that is contained in it. ToPolyhedron returns a polyhedron whose vertices are exactly the corners of the volume and whose faces are the sides of the volume, each vertex once and consecutive vertices joined by an edge. ToPBVolume of a box or an oriented box contains exactly the points of the box.", "quantifier": "all numbers of planes, all planes, points, boxes and spheres", "why_tests_cant": "The number of planes is arbitrary and the claims are about all points of a box, a ball or the volume; the conversion enumerates all triples of planes, so special positions (more than three planes through a corner, equal normals) have to be excluded by proof.", "anchors": ["src/Geometry/PBVolume.h: PBVolume::Contains, InsideOrIntersects, ContainsExcept, ToPolyhedron, SetIntersection", "src/Geometry/Plane.cpp: Plane::Intersects", "src/Geometry/AABB.cpp: AABB::ToPBVolume; src/Geometry/OBB.cpp: OBB::ToPBVolume"]}
{"id": "C103", "title": "Nearest object query of the kd-tree", "statement": "After any history of AddObjects, Build and Clear that ends with Build, KdTree::NearestObjects(point, callback) ends, calls the callback exactly once for each leaf, with distances that never decrease; the distance given is the distance of the point from the box given; every point of every object lies in the box of some call for a leaf with that object, given with a distance not above that of the point; so when a distance is given, every object that has not come in an earlier leaf is at least that far away, as the documentation of minDistance says. A callback that returns true stops the query.", "quantifier": "all histories, all objects with proper boxes, all query points, all callbacks with any state, and every behaviour of the priority queue on equal keys", "why_tests_cant": "The order of the calls depends on the whole shape of the tree and on the priority queue; a test sees a few trees and one queue.", "anchors": ["src/Geometry/KDTree.inl: KdTree::NearestObjects, NearestObjectsTraversalNode", "src/Geometry/KDTree.h: NearestObjects"]}
{"id": "C104", "title": "Vectors with four elements", "statement": "The operations of float4 do what their names and documentation say: those with suffix 3 act on the first three elements and keep w, those with suffix 4 or none act on all four. Swizzles pick the named elements. Lengths, distances and scalar products are the Euclidean ones. Normalize and ScaleToLength give vectors of the requested length in the same direction. MinElement and MaxElement are the least and greatest element. Perpendicular vectors, orthonormalised triples and projections are perpendicular where they should be. IsPerpendicular3 looks at the first three elements. Reflections preserve length, refraction obeys Snell's law, angles have the right cosine, and spherical coordinates convert back and forth.", "quantifier": "all vectors with four real elements, and all scalars and tolerances", "why_tests_cant": "The unit tests try few or random vectors, mostly with w equal to 0 or 1 and with the SSE build; the wrong scalar paths of the swizzles, of MaxElement and of the functions that mix three and four elements show only for particular vectors.", "anchors": ["src/Math/float4.cpp", "src/Math/float4.h", "float4::Swizzled", "float4::yyyy", "float4::MaxElement", "float4::Normalize3", "float4::IsPerpendicular3", "float4::Perpendicular", "float4::Orthonormalize", "float4::ToSphericalCoordinates"]}
{"id": "C105", "title": "Separating axis test for convex polygons of the plane", "statement": "SATCollide2D(a, b) for two convex polygons given counter-clockwise answers true exactly when the polygons (with their interiors) have a common point. SATCollide2D_CollisionPoint answers a positive number only when they have none, and then they are at least that far apart; otherwise minus the answer is the penetration depth: the normal is a unit vector, moving the first polygon along it by the depth separates the two, no shorter move in any direction does, and the point is a vertex of one polygon that lies deepest in the other along the normal. Polygons listed in the wrong order are rejected by the assertion.", "quantifier": "all pairs of convex polygons with any number of vertices", "why_tests_cant": "The answer false needs one separating edge, but the answer true needs that no line in any direction separates the polygons, and the depth is a minimum over infinitely many moves; tests see a few shapes.", "anchors": ["src/Algorithm/SAT.cpp: HasCcwWindingOrder", "src/Algorithm/SAT.cpp: SATCollide2D", "src/Algorithm/SAT.cpp: SATCollide2D_CollisionPoint", "src/Algorithm/SAT.h"]}
{"id": "C106", "title": "Diagonals, simplicity and contained segments of polygons", "statement": "Polygon::DiagonalExists(i, j) answers true when the segment between the two vertices lies inside the polygon. IsSimple answers true exactly for polygons whose edges meet only in the vertices they share. Contains(LineSegment, thickness) answers true exactly when each point of the segment is within the thickness of the plane of the polygon and projects into the polygon, Contains(Triangle, thickness) when all points of the triangle do, and Contains2D(segment) when the segment given in the local coordinates of the polygon lies in it.", "quantifier": "all planar polygons with any number of vertices, all vertex indices, all segments and triangles of space, all thicknesses", "why_tests_cant": "Each answer is about all points of a segment and all edges of a polygon of any size; tests use a few squares.", "anchors": ["src/Geometry/Polygon.cpp: Polygon::DiagonalExists, Polygon::IsSimple, Polygon::Contains(LineSegment), Polygon::Contains(Triangle), Polygon::Contains2D"]}
{"id": "C107", "title": "Inverses of affine matrices with and without scale", "statement": "InverseAffineMatrixNoScale, InverseAffineMatrixUniformScale and InverseAffineMatrixNonuniformScale replace an affine matrix whose axes are orthonormal, orthogonal of one common length, or orthogonal of any lengths by its inverse: transforming the image of a point by the result gives the point back.", "quantifier": "all orthogonal bases, all positive scales, all translations and all points", "why_tests_cant": "The equation has to hold for each rotation, scale and translation; tests with rotations and translations alone pass although the functions with scale are wrong.", "anchors": ["src/Math/Matrix.inl: InverseAffineMatrixNoScale, InverseAffineMatrixUniformScale, InverseAffineMatrixNonuniformScale"]}
{"id": "C108", "title": "Intersection of polyhedra with segments, lines and rays", "statement": "Intersects(LineSegment), Intersects(Ray) and Intersects(Line) of a convex polyhedron return true exactly if the segment, ray or line has a point in common with the solid; a segment, ray or line that begins inside counts.", "quantifier": "all convex polyhedra with any number of faces and vertices, and all segments, rays and lines", "why_tests_cant": "The answer has to be right for every position of the line with respect to every face, and a segment that passes through without an end inside is found only through the faces; tests try a few positions.", "anchors": ["src/Geometry/Polyhedron.cpp: Polyhedron::Intersects(const LineSegment &), Polyhedron::Intersects(const Line &), Polyhedron::Intersects(const Ray &)"]}
{"id": "C109", "title": "Intersection of two polyhedra", "statement": "Intersects(Polyhedron) of two convex polyhedra returns true exactly if the two solids have a point in common; this includes one inside the other and solids of which no vertex lies in the other.", "quantifier": "all pairs of convex polyhedra with any numbers of faces and vertices, in any position", "why_tests_cant": "The code looks only at two centroids and at the edges; that this suffices for all shapes and positions is a geometric theorem, and tests try a few pairs.", "anchors": ["src/Geometry/Polyhedron.cpp: Polyhedron::Intersects(const Polyhedron &)"]}
{"id": "C110", "title": "Projections of rays, lines and polygons; containment of polygons in planes; equality of lines", "statement": "Ray::ProjectToAxis reports exactly the range of the scalar product over the ray. Plane::Project(Polygon) replaces each vertex by the nearest point of the plane; Plane::Project(Line) and Project(Ray) return the image of the line or ray. Plane::Contains(Polygon) is true exactly if all of the polygon is in the plane up to the tolerance. Line::Equals is true exactly if the two lines have the same points up to the tolerance.", "quantifier": "all rays, lines, planes, polygons of any number of vertices, axes and tolerances", "why_tests_cant": "A test looks at a few directions; whether the result is the exact range for each direction, and whether it depends on memory that was never written, cannot be seen from samples.", "anchors": ["src/Geometry/Ray.cpp: Ray::ProjectToAxis", "src/Geometry/Line.cpp: Line::Equals", "src/Geometry/Plane.cpp: Plane::Project(const Line &), Plane::Project(const Ray &), Plane::Project(const Polygon &), Plane::Contains(const Polygon &)"]}
{"id": "C111", "title": "Intersection of polyhedra with boxes and spheres", "statement": "Intersects(AABB), Intersects(OBB) and Intersects(Sphere) of a convex polyhedron return true exactly if the object and the polyhedron have a point in common; this includes one inside the other and objects that pierce the polyhedron without a corner of one in the other.", "quantifier": "all convex polyhedra with any numbers of faces and vertices, all boxes, oriented boxes and spheres", "why_tests_cant": "The code looks only at two centres and at the edges; that this suffices for all shapes and positions is a geometric theorem, and tests try a few pairs.", "anchors": ["src/Geometry/Polyhedron.cpp: PolyhedronIntersectsAABB_OBB, Polyhedron::Intersects(const AABB &), Polyhedron::Intersects(const OBB &), Polyhedron::Intersects(const Sphere &)"]}
{"id": "C112", "title": "Normals of faces, convexity and planarity of polyhedra", "statement": "FaceNormal of a planar face with at least three corners, convex or not, is the unit vector perpendicular to the face against which its corners run counterclockwise. IsConvex returns true for every convex polyhedron and false for every polyhedron one of whose vertices is in front of one of its faces. FacesAreNondegeneratePlanar returns true exactly for polyhedra whose faces have at least three corners, enclose an area and are planar within the tolerance. TriangulateConvex returns triangles that together are the faces, with the same winding.", "quantifier": "all polyhedra, faces of any number of corners and any shape, all tolerances", "why_tests_cant": "The number and the positions of the corners are unbounded; a wrong sign or a missing closing edge of the sum over the corners can cancel on symmetric faces that tests use.", "anchors": ["src/Geometry/Polyhedron.cpp: Polyhedron::FaceNormal, PolyFaceNormal, Polyhedron::IsConvex, Polyhedron::FacesAreNondegeneratePlanar, Polyhedron::TriangulateConvex", "src/Math/float4d.h: float4d::Normalize4"]}
{"id": "C113", "title": "Counts and height of quadtrees", "statement": "After any sequence of clears, additions and removals, NumNodes, NumLeaves and NumInnerNodes of a quadtree are the numbers of all nodes, of the nodes without children and of those with children that can be reached from its root; the number of leaves is three times the number of inner nodes plus one; and TreeHeight is the number of nodes on the longest path from the root to a leaf. A tree that was never cleared reports zero for all of them.", "quantifier": "all valid histories of operations, all objects and rectangles", "why_tests_cant": "The unused places in the node array move with every growth of the root, so a wrong count may show only after a particular sequence of growths and splits.", "anchors": ["src/Geometry/QuadTree.inl: QuadTree::NumNodes, QuadTree::NumLeaves, QuadTree::NumInnerNodes, QuadTree::TreeHeight"]}
{"id": "C114", "title": "Tests that prune the search for the smallest enclosing oriented box", "statement": "The search for the smallest oriented box around a convex hull discards no candidate wrongly and accepts none wrongly. Two edges count as compatible exactly if a normal between the faces at the one is perpendicular to a normal between the faces at the other. Two edges count as opposing exactly if a normal at the one is opposite to a normal at the other. A vertex counts as antipodal to an edge exactly if for some normal at the edge no neighbour of the vertex lies farther against the normal. A step of the search with three perpendicular directions keeps the smaller of the old box and the smallest box in the three directions that contains all points, and records its volume. The search in a sorted array ends, and answers true exactly for the elements of the array.", "quantifier": "all face normals, vertices, lists of neighbours of any length, hulls with any number of vertices, and all sorted arrays and numbers", "why_tests_cant": "A candidate that is wrongly discarded only makes the box a little too large for some hulls, which no test that checks enclosure notices; the normals and the hulls are not bounded in number.", "anchors": ["src/Geometry/OBB.cpp: AreEdgesCompatibleForOBB, AreCompatibleOpposingEdges, IsVertexAntipodalToEdge, TestThreeAdjacentFaces, SortedArrayContains"]}
{"id": "C115", "title": "Enclosing oriented boxes by trial of orientations, and of one or two points", "statement": "Whatever orientations Brute3EnclosingOBB tries, and in whatever order, the box it returns contains all points and has the least volume of all boxes around the points in the orientations tried. OptimalEnclosingOBB of one point is the point; of two points it is the segment between them, with perpendicular directions of unit length.", "quantifier": "all hulls with any number of points, all finite sequences of orientations tried, all points", "why_tests_cant": "The orientations are random, so each run tries others; a wrong measure of the volume only shows for shapes in which its minimum is at another orientation.", "anchors": ["src/Geometry/OBB.cpp: OBB::Brute2EnclosingOBB, OBB::Brute3EnclosingOBB, OBB::OptimalEnclosingOBB(const vec *, int)"]}
{"id": "C116", "title": "Sphere triangulations are complete meshes on the sphere", "statement": "Sphere::Triangulate writes nothing into arrays with fewer than 24 entries and otherwise writes whole triangles within the arrays, leaving fewer than nine entries unused; all vertices lie on the sphere and the normals are the unit vectors from the centre to the vertices; the triangles have area, leave no hole in any direction from the centre, share their edges with their neighbours, and are counterclockwise seen from outside exactly when ccwIsFrontFacing is set.", "quantifier": "all spheres, all array sizes, both values of the flag, all directions", "why_tests_cant": "unbounded subdivision depth, a continuum of spheres and directions; the order of the vertices is invisible in the positions, and meshes of small spheres collapse only below a radius", "anchors": ["src/Geometry/Sphere.cpp: Sphere::Triangulate", "src/Geometry/Sphere.h: Sphere::Triangulate"]}
