import Verif.Model.AABB
import Verif.Model.AABB2D
import Verif.Model.AABB2DMore
import Verif.Model.AABBEnclose
import Verif.Model.AABBTransform
import Verif.Model.Batch
import Verif.Model.Bits
import Verif.Model.BoxMesh
import Verif.Model.CArith
import Verif.Model.Capsule
import Verif.Model.Circle
import Verif.Model.Circle2D
import Verif.Model.CircleFaces
import Verif.Model.CornerContains
import Verif.Model.Decompose
import Verif.Model.Euler
import Verif.Model.FixedPoint
import Verif.Model.Float2
import Verif.Model.Float3
import Verif.Model.Float3R
import Verif.Model.Float4
import Verif.Model.FloatX
import Verif.Model.Frustum
import Verif.Model.GJK
import Verif.Model.GJK2D
import Verif.Model.GJKShapes
import Verif.Model.Hull2D
import Verif.Model.Interpolate
import Verif.Model.KdTree
import Verif.Model.KdTreeNN
import Verif.Model.KdTreePart
import Verif.Model.KdTreeRay
import Verif.Model.LCG
import Verif.Model.Line
import Verif.Model.Mat
import Verif.Model.MatAffine
import Verif.Model.MatGen
import Verif.Model.MinAreaRect
import Verif.Model.MiniFloat
import Verif.Model.OBB
import Verif.Model.OBBBrute
import Verif.Model.OBBSearch
import Verif.Model.PBVolume
import Verif.Model.PBVolumeOf
import Verif.Model.PQueue
import Verif.Model.Plane
import Verif.Model.PlaneMore
import Verif.Model.Polygon
import Verif.Model.Polygon2D
import Verif.Model.PolygonBox
import Verif.Model.PolygonMore
import Verif.Model.PolygonPolygon
import Verif.Model.PolygonSeg
import Verif.Model.Polyhedron
import Verif.Model.PolyhedronBox
import Verif.Model.PolyhedronContains
import Verif.Model.PolyhedronConvex
import Verif.Model.PolyhedronEq
import Verif.Model.PolyhedronFaces
import Verif.Model.PolyhedronIntersect
import Verif.Model.PolyhedronMake
import Verif.Model.PolyhedronMeasure
import Verif.Model.PolyhedronMerge
import Verif.Model.PolyhedronPair
import Verif.Model.PolyhedronQuery
import Verif.Model.PolyhedronSeg
import Verif.Model.QuadTree
import Verif.Model.QuadTreeCount
import Verif.Model.QuadTreeNN
import Verif.Model.Quadratic
import Verif.Model.Quat
import Verif.Model.Random
import Verif.Model.SAT
import Verif.Model.SAT2D
import Verif.Model.Scalar
import Verif.Model.Seg2D
import Verif.Model.Serialize
import Verif.Model.SinTable
import Verif.Model.Sphere
import Verif.Model.SphereMesh
import Verif.Model.SphereOptimal
import Verif.Model.TriDef
import Verif.Model.TriTri
import Verif.Model.Triangle
import Verif.Model.Triangle2D
import Verif.Model.TriangleMesh
import Verif.Model.Ulps
import Verif.Proofs.AABBEnclose
import Verif.Proofs.AABBTransform
import Verif.Proofs.Bits
import Verif.Proofs.BoxMesh
import Verif.Proofs.Circle2D
import Verif.Proofs.Circle2DLoop
import Verif.Proofs.ConvexLocalMax
import Verif.Proofs.ConvexSurface
import Verif.Proofs.Dist
import Verif.Proofs.Euler
import Verif.Proofs.Exit
import Verif.Proofs.ExtremeIndex
import Verif.Proofs.Farkas
import Verif.Proofs.Float32
import Verif.Proofs.Float3R
import Verif.Proofs.Float4
import Verif.Proofs.Frustum
import Verif.Proofs.FrustumProj
import Verif.Proofs.GJK
import Verif.Proofs.GJK2D
import Verif.Proofs.GJKRun
import Verif.Proofs.Hull2D
import Verif.Proofs.Hull2DChains
import Verif.Proofs.Hull2DResult
import Verif.Proofs.KdTree
import Verif.Proofs.KdTreeHit
import Verif.Proofs.KdTreeNN
import Verif.Proofs.KdTreeQuery
import Verif.Proofs.KdTreeRay
import Verif.Proofs.KdTreeRaySim
import Verif.Proofs.LCG
import Verif.Proofs.LU
import Verif.Proofs.Line
import Verif.Proofs.LinePair
import Verif.Proofs.Mat3
import Verif.Proofs.Mat4
import Verif.Proofs.MatGen
import Verif.Proofs.MatInverse
import Verif.Proofs.MinAreaRect
import Verif.Proofs.MinAreaRectHull
import Verif.Proofs.MinAreaRectLoop
import Verif.Proofs.MiniFloat
import Verif.Proofs.OBB
import Verif.Proofs.PBVolume
import Verif.Proofs.Pivot
import Verif.Proofs.Plane
import Verif.Proofs.Plane2
import Verif.Proofs.Polygon
import Verif.Proofs.Polygon2D
import Verif.Proofs.PolygonEars
import Verif.Proofs.PolygonMore
import Verif.Proofs.Polyhedron
import Verif.Proofs.PolyhedronBox
import Verif.Proofs.PolyhedronCanon
import Verif.Proofs.PolyhedronCapsule
import Verif.Proofs.PolyhedronClosest
import Verif.Proofs.PolyhedronContains
import Verif.Proofs.PolyhedronConvex
import Verif.Proofs.PolyhedronEdit
import Verif.Proofs.PolyhedronFaces
import Verif.Proofs.PolyhedronMake
import Verif.Proofs.PolyhedronMeasure
import Verif.Proofs.PolyhedronMerge
import Verif.Proofs.PolyhedronMergeGeo
import Verif.Proofs.PolyhedronPair
import Verif.Proofs.PolyhedronSolids
import Verif.Proofs.QuadTree
import Verif.Proofs.QuadTreeAdd
import Verif.Proofs.QuadTreeGrow
import Verif.Proofs.QuadTreeNN
import Verif.Proofs.QuadTreePairs
import Verif.Proofs.QuadTreeQuery
import Verif.Proofs.QuadTreeRun
import Verif.Proofs.QuadTreeTotal
import Verif.Proofs.Quat
import Verif.Proofs.QuatRot
import Verif.Proofs.Random
import Verif.Proofs.SAT2D
import Verif.Proofs.Scalar
import Verif.Proofs.Serialize
import Verif.Proofs.SetDist
import Verif.Proofs.Similarity
import Verif.Proofs.Sphere
import Verif.Proofs.TriTri
import Verif.Proofs.TriTriPlane
import Verif.Proofs.Ulps
import Verif.Proofs.Vec3
import Verif.Props.AABB
import Verif.Props.AABB2D
import Verif.Props.AABBEnclose
import Verif.Props.AABBLine
import Verif.Props.AABBTransform
import Verif.Props.Batch
import Verif.Props.Bits
import Verif.Props.BoxMesh
import Verif.Props.CArith
import Verif.Props.Capsule
import Verif.Props.Circle
import Verif.Props.Circle2D
import Verif.Props.CircleFaces
import Verif.Props.CornerContains
import Verif.Props.Decompose
import Verif.Props.Euler
import Verif.Props.FixedPoint
import Verif.Props.Float2
import Verif.Props.Float3
import Verif.Props.Float4
import Verif.Props.Frustum
import Verif.Props.FrustumHistory
import Verif.Props.FrustumMore
import Verif.Props.FrustumProject
import Verif.Props.GJK
import Verif.Props.GJK2D
import Verif.Props.Hull2D
import Verif.Props.Hull2DContains
import Verif.Props.Interpolate
import Verif.Props.KdTree
import Verif.Props.KdTreeNN
import Verif.Props.KdTreePart
import Verif.Props.KdTreeRay
import Verif.Props.LCG
import Verif.Props.Line
import Verif.Props.LineMisc
import Verif.Props.Mat3
import Verif.Props.Mat34
import Verif.Props.Mat3Solve
import Verif.Props.Mat4
import Verif.Props.MatAffine
import Verif.Props.MatGen
import Verif.Props.MatInverse
import Verif.Props.MinAreaRect
import Verif.Props.MiniFloat
import Verif.Props.OBB
import Verif.Props.OBBBrute
import Verif.Props.OBBLine
import Verif.Props.OBBMore
import Verif.Props.OBBReal
import Verif.Props.OBBSearch
import Verif.Props.PBVolume
import Verif.Props.PBVolumeMesh
import Verif.Props.PBVolumeOf
import Verif.Props.Plane
import Verif.Props.PlaneClip
import Verif.Props.PlaneIntersect
import Verif.Props.PlaneMore
import Verif.Props.Polygon
import Verif.Props.PolygonBox
import Verif.Props.PolygonContains
import Verif.Props.PolygonMore
import Verif.Props.PolygonPolygon
import Verif.Props.PolygonSeg
import Verif.Props.PolygonTriangulate
import Verif.Props.Polyhedron
import Verif.Props.PolyhedronBox
import Verif.Props.PolyhedronClosest
import Verif.Props.PolyhedronContains
import Verif.Props.PolyhedronConvex
import Verif.Props.PolyhedronEq
import Verif.Props.PolyhedronFaces
import Verif.Props.PolyhedronIntersect
import Verif.Props.PolyhedronMake
import Verif.Props.PolyhedronMeasure
import Verif.Props.PolyhedronMerge
import Verif.Props.PolyhedronPair
import Verif.Props.PolyhedronSeg
import Verif.Props.Projection
import Verif.Props.QuadTree
import Verif.Props.QuadTreeCount
import Verif.Props.QuadTreeNN
import Verif.Props.QuadTreeQuery
import Verif.Props.Quadratic
import Verif.Props.Quat
import Verif.Props.QuatInterp
import Verif.Props.Random
import Verif.Props.RotateFromTo
import Verif.Props.SAT
import Verif.Props.SAT2D
import Verif.Props.Scalar
import Verif.Props.Seg2D
import Verif.Props.Serialize
import Verif.Props.SinTable
import Verif.Props.Sphere
import Verif.Props.SphereEnclose
import Verif.Props.SphereFit
import Verif.Props.SphereLine
import Verif.Props.SphereMesh
import Verif.Props.SphereOptimal
import Verif.Props.TransformOps
import Verif.Props.TriTri
import Verif.Props.Triangle
import Verif.Props.Triangle2D
import Verif.Props.TriangleAABB
import Verif.Props.TriangleLine
import Verif.Props.TriangleMesh
import Verif.Props.Ulps
import Verif.Spec.Affine
import Verif.Spec.Bits
import Verif.Spec.BoxMesh
import Verif.Spec.CArith
import Verif.Spec.Circle
import Verif.Spec.ClearRay
import Verif.Spec.Clip
import Verif.Spec.Convex3
import Verif.Spec.ConvexSurface
import Verif.Spec.Disc
import Verif.Spec.Dist
import Verif.Spec.Easing
import Verif.Spec.Echelon
import Verif.Spec.FaceNormal
import Verif.Spec.FixedPoint
import Verif.Spec.Float32
import Verif.Spec.Frustum
import Verif.Spec.HalfSpaces
import Verif.Spec.Hull2D
import Verif.Spec.Ieee
import Verif.Spec.KdTree
import Verif.Spec.KdTreeNN
import Verif.Spec.Mat
import Verif.Spec.Mesh
import Verif.Spec.MeshGeom
import Verif.Spec.MeshMeasure
import Verif.Spec.OBB
import Verif.Spec.Plane2
import Verif.Spec.Polygon
import Verif.Spec.PolygonEdge
import Verif.Spec.QuadTree
import Verif.Spec.Quat
import Verif.Spec.Query
import Verif.Spec.RayMesh
import Verif.Spec.Rect2
import Verif.Spec.SharpEdges
import Verif.Spec.SphereMesh
import Verif.Spec.SteepLine
import Verif.Spec.TRS
import Verif.Spec.TriTri
import Verif.Spec.Ulps
import Verif.Spec.Vec2
import Verif.Spec.Vec2Alg
import Verif.Spec.Vec3
import Verif.Spec.Vec4
