import Verif.Props.KdTree
import Verif.Props.KdTreeMore
import Verif.Props.Interval
import Verif.Props.AABB
import Verif.Props.Distance
import Verif.Props.Intersect
import Verif.Props.Sphere
import Verif.Props.RayBox
import Verif.Props.Mesh
import Verif.Props.MeshLines
import Verif.Props.MeshOpposite
import Verif.Props.MeshNormals
import Verif.Props.MeshMove
import Verif.Props.Handle
import Verif.Props.Transform
import Verif.Props.Solids
import Verif.Props.Builder
import Verif.Props.Circle
import Verif.Props.Cone
import Verif.Props.Cylinder
import Verif.Props.SphereMesh
import Verif.Props.CuboidMesh
import Verif.Model.BentleyOttmann
import Verif.Props.BentleyOttmann
import Verif.Model.Equality
import Verif.Spec.Equality
import Verif.Props.Equality
import Verif.Model.Setters
import Verif.Props.Setters
import Verif.Props.BoxParts
import Verif.Model.Facade
import Verif.Props.Facade
import Verif.Spec.Convex
import Verif.Spec.Volume
import Verif.Proofs.Convex
import Verif.Proofs.Volume
import Verif.Props.Convex
import Verif.Props.Outward
import Verif.Props.Volume
import Verif.Props.Sweep
import Verif.Spec.Inscribed
import Verif.Proofs.Inscribed
import Verif.Props.Inscribed
import Verif.Spec.Manifold
import Verif.Proofs.Manifold
import Verif.Props.Manifold
import Verif.Spec.Float
import Verif.Model.Float
import Verif.Proofs.Float
import Verif.Proofs.FloatKdTree
import Verif.Proofs.FloatMesh
import Verif.Props.FloatKdTree
import Verif.Props.FloatMesh
import Verif.Props.FloatCuboid
import Verif.Props.FloatCuboidGrid
import Verif.Props.FloatSphere
import Verif.Props.FloatSegment
import Verif.Props.FloatSolid
import Verif.Props.FloatCross
import Verif.Props.FloatCrossGrid
import Verif.Props.Invariance
import Verif.Proofs.FloatSum
import Verif.Props.FloatBox
import Verif.Proofs.FloatVec
import Verif.Props.FloatDistance
import Verif.Props.FloatPlane
import Verif.Props.FloatTransform
import Verif.Proofs.FloatQuadratic
import Verif.Props.FloatSphereHit
import Verif.Props.Scale
import Verif.Props.RoundTrip
import Verif.Spec.Area
import Verif.Proofs.FloatNormal
import Verif.Props.FloatNormal
import Verif.Proofs.FloatAxis
import Verif.Proofs.FloatFlat
import Verif.Props.FloatFlat
import Verif.Props.FloatLine
import Verif.Proofs.FloatClosest
import Verif.Props.FloatSkew
import Verif.Model.Ieee
import Verif.Proofs.Ieee
import Verif.Proofs.IeeeKdTree
import Verif.Props.IeeeKdTree
import Verif.Props.IeeeBox
import Verif.Props.IeeeNan
import Verif.Props.IeeeFinite
import Verif.Model.RayBoxIeee
import Verif.Props.IeeeRayBox
import Verif.Props.DebugPrint
import Verif.Props.Agree
import Verif.Props.Area
import Verif.Props.EmptyBox
import Verif.Props.Moved
import Verif.Props.Culling
import Verif.Props.MeshAnyCoord
import Verif.Props.IeeeMesh
import Verif.Model.CylinderUnused
import Verif.Props.CylinderUnused
import Verif.Props.NormalsNear
import Verif.Proofs.ExactNormals
import Verif.Props.ExactNormals
import Verif.Spec.Watertight
import Verif.Proofs.Watertight
import Verif.Props.Watertight
import Verif.Proofs.Swap
import Verif.Props.Swap
import Verif.Props.Represent
import Verif.Props.Parts
import Verif.Props.Stable
import Verif.Props.Extend
import Verif.Props.FloatSegmentDistance
import Verif.Props.TolerantMesh
import Verif.Props.TolerantTree
import Verif.Conformance.Tests
import Verif.Props.TolerantSolid
import Verif.Props.FloatSegment3
import Verif.Props.FloatSweep
import Verif.Props.FloatMeasure
import Verif.Props.IeeeCross
import Verif.Props.IeeeSegment3
import Verif.Props.Capacity
import Verif.Props.Narrow
import Verif.Props.IeeeSphere
import Verif.Props.IeeeLine
import Verif.Props.IeeeDistance
import Verif.Props.Exact
import Verif.Props.ExactDistance
import Verif.Props.ScaleDistance
import Verif.Props.Builds
import Verif.Props.FloatKdGrid
import Verif.Props.FloatExact
import Verif.Props.FloatLengthGrid
import Verif.Props.FloatCuboidOutward
import Verif.Props.FloatAxis
import Verif.Props.FloatAxisDist
import Verif.Props.FloatKeep
import Verif.Props.FloatAxisPlane
import Verif.Props.FloatAxisLine
import Verif.Props.FloatAxisBox
import Verif.Props.FloatAxisLines
import Verif.Props.IeeeCenter
import Verif.Props.IeeeBoxBox
