import Verif.Model
import Verif.IEEE.Ideal
import Verif.Lemmas.Float
import Verif.Props.Structural
import Verif.Props.MatrixStore
import Verif.Props.FloatVector
import Verif.Props.FloatComponent
import Verif.Props.FloatBox
import Verif.Props.FloatBoxMeasure
import Verif.Props.FloatMatrix
import Verif.Props.FloatEq
import Verif.Lemmas.RealMat
import Verif.Props.RealVector
import Verif.Props.RealMatrix
import Verif.Props.RealRotation
import Verif.Lemmas.LookAt
import Verif.Props.RealTransform
import Verif.Lemmas.Slab
import Verif.Props.RealBox
import Verif.IEEE.Binary
import Verif.IEEE.Fl
import Verif.Spec.Round
import Verif.Lemmas.Round
import Verif.Props.FloatError
import Verif.Props.FloatErrorMat
import Verif.Lemmas.Fl
import Verif.Props.FloatLimits
import Verif.Props.FloatWitness
import Verif.Props.FloatRay
import Verif.Spec.Ray
import Verif.Lemmas.FloatSlab
import Verif.Props.FloatRayAcc
import Verif.Props.FloatBoxTr
import Verif.Props.FloatZero
import Verif.Lemmas.Approx
import Verif.Spec.Det
import Verif.Lemmas.Permanent
import Verif.Props.FloatInverse
import Verif.Props.FloatMeasure
import Verif.Spec.Grid
import Verif.Lemmas.Grid
import Verif.Props.FloatExact
import Verif.Props.FloatExamples
import Verif.Lemmas.Mono
import Verif.Props.FloatMono
import Verif.Spec.Tree
import Verif.Spec.Side
import Verif.Props.FloatCull
import Verif.Props.FloatExamples2
import Verif.IEEE.Bits
import Verif.Lemmas.Chain
import Verif.Props.FloatChain
import Verif.Props.FloatExamples3
import Verif.Spec.Trig
import Verif.Lemmas.Frob
import Verif.Lemmas.Frob2
import Verif.Lemmas.FinBound
import Verif.Props.FloatDrift
import Verif.Props.FloatRotate
import Verif.Props.FloatTurns
import Verif.Props.FloatExamples4
import Verif.Spec.Symmetry
import Verif.Lemmas.Symm
import Verif.Props.FloatSymmetry
import Verif.Props.FloatExamples5
import Verif.Spec.Scaling
import Verif.Lemmas.Scale
import Verif.Props.FloatScale
import Verif.Props.FloatExamples6
import Verif.Props.FloatNaN
import Verif.Props.FloatExamples7
import Verif.Spec.LookAt
import Verif.Lemmas.Perturb
import Verif.Props.FloatLookAt
import Verif.Lemmas.Affine4
import Verif.Props.FloatLookAt2
import Verif.Props.FloatExamples8
import Verif.Spec.BoxImage
import Verif.Props.FloatBoxImage
import Verif.Props.FloatExactBox
import Verif.Props.FloatExamples9
import Verif.Spec.Reduce
import Verif.Props.FloatReduce
import Verif.Props.FloatTournament
import Verif.Spec.Kd
import Verif.Props.FloatKd
import Verif.Props.FloatFace
import Verif.Rust.Ast
import Verif.Rust.Parse
import Verif.Rust.Tactic
import Verif.Rust.Quote
import Verif.Rust.Source
import Verif.Rust.Sem
import Verif.Rust.Rep
import Verif.Rust.Access
import Verif.Rust.Derive
import Verif.Props.SourceText
import Verif.Props.SourceEq
import Verif.Props.Source1
import Verif.Props.Source2
import Verif.Props.Source3
import Verif.Props.SourceT2
import Verif.Props.SourceT3
import Verif.Rust.Typing
import Verif.Rust.Inhabit
import Verif.Rust.Total
import Verif.Props.SourceValues
import Verif.Props.SourceTotal
import Verif.Props.SourceExamples
import Verif.Spec.Hit
import Verif.Lemmas.Hit
import Verif.Props.FloatHit
import Verif.Spec.RoundTrip
import Verif.Spec.RayImage
import Verif.Props.FloatTrip
import Verif.Props.FloatRayImage
import Verif.Props.FloatExamples10
import Verif.Spec.Range
import Verif.Lemmas.Range
import Verif.Props.FloatRange
import Verif.Props.FloatRangeAcc
import Verif.Props.FloatRangeFmt
import Verif.Spec.Near
import Verif.Lemmas.Near
import Verif.Props.FloatRayMono
import Verif.Props.FloatRayMonoEx
import Verif.Props.FloatMeasureAny
import Verif.Props.MatrixStoreMut
import Verif.Props.RealTransformRay
import Verif.Props.FloatMonoInt
import Verif.Props.FloatChainInv
import Verif.Props.RealBoxRot
import Verif.Lemmas.Exec
import Verif.Props.FloatLaws
import Verif.Props.FloatCosine
import Verif.Props.FloatRangeFmt2
import Verif.Lemmas.Walk
import Verif.Props.FloatWalk
import Verif.Spec.Octree
import Verif.Lemmas.Bisect
import Verif.Lemmas.Octree
import Verif.Props.FloatOctree
import Verif.Spec.Instance
import Verif.Props.RealInstance
import Verif.Props.FloatInstance
import Verif.Props.FloatExamples11
import Verif.Spec.Sort
import Verif.Lemmas.Sort
import Verif.Props.FloatSort
import Verif.Spec.Corners
import Verif.Lemmas.Enc
import Verif.Props.FloatCorners
import Verif.Props.FloatAim
import Verif.Props.FloatAimEx
import Verif.Props.FloatExamples12
import Verif.Props.FloatExactPoint
import Verif.Spec.Clamp
import Verif.Props.FloatClamp
import Verif.Props.FloatClampEx
import Verif.Lemmas.Cells
import Verif.Lemmas.SqrtSq
import Verif.Spec.Cells
import Verif.Props.FloatAxis
import Verif.Props.FloatCells
import Verif.Props.FloatCellsEx
import Verif.Spec.Damp
import Verif.Lemmas.Damp
import Verif.Props.FloatDamp
import Verif.Props.FloatDampEx
import Verif.Props.FloatNear2
import Verif.Spec.Axes
import Verif.Props.FloatBasis
import Verif.Props.FloatBasisEx
import Verif.Props.FloatChain2
import Verif.Props.FloatChain2Ex
import Verif.Spec.FirstHit
import Verif.Props.FloatFirstHit
import Verif.Props.FloatFirstHitFlat
import Verif.Props.FloatFirstHitEx
import Verif.Spec.Broad
import Verif.Props.FloatBroad
import Verif.Props.FloatBroadEx
import Verif.Spec.Moving
import Verif.Props.FloatMoving
import Verif.Props.FloatMovingEx
import Verif.Props.RealNormal
import Verif.Props.FloatSide
import Verif.Props.FloatSideEx
import Verif.Spec.InvAffine
import Verif.Props.FloatInvAffine
import Verif.Props.FloatInvAffineEx
import Verif.Spec.Reflect
import Verif.Props.RealReflect
import Verif.Props.FloatReflect
import Verif.Props.FloatReflectEx
import Verif.Props.FloatNormal
import Verif.Spec.Plane
import Verif.Props.FloatPlane
import Verif.Props.RealPlane
import Verif.Props.FloatPlaneEx
import Verif.Spec.Pivot
import Verif.Props.RealPivot
import Verif.Props.FloatPivot
import Verif.Props.FloatPivotEx
import Verif.Spec.Foot
import Verif.Props.RealFoot
import Verif.Props.FloatFoot
import Verif.Props.FloatFootEx
import Verif.Spec.Triangle
import Verif.Props.RealTriangle
import Verif.Props.FloatTriangle
import Verif.Props.FloatTriangleEx
import Verif.Props.FloatFrame
import Verif.Props.RealFrame
import Verif.Props.FloatFrameEx
import Verif.Spec.Param
import Verif.Spec.Platform
import Verif.Lemmas.Param
import Verif.Props.Param2
import Verif.Props.Param3
import Verif.Props.ParamAll
import Verif.Props.FloatPlatform
import Verif.Props.FloatPlatformEx
import Verif.Props.FloatZeroSign
import Verif.Props.FloatZeroSignEx
import Verif.Props.FloatFlat
import Verif.Props.FloatFlatMat
import Verif.Props.FloatFlatInv
import Verif.Props.RealFlat
import Verif.Props.FloatFlatEx
import Verif.Spec.Curve
import Verif.Lemmas.CurveReal
import Verif.Props.FloatCurve
import Verif.Props.RealCurve
import Verif.Props.FloatCurveEx
import Verif.Spec.Sphere
import Verif.Props.RealSphere
import Verif.Props.FloatSphere
import Verif.Props.FloatBall
import Verif.Props.FloatBallEx
import Verif.Spec.Persp
import Verif.Props.RealPersp
import Verif.Props.FloatPersp
import Verif.Props.PerspEx
import Verif.Props.FloatBallErr
import Verif.Props.FloatBallErrEx
import Verif.Spec.Ball
import Verif.Props.FloatEnclose
import Verif.Props.RealEnclose
import Verif.Props.EncloseEx
import Verif.Spec.Path
import Verif.Props.RealPath
import Verif.Props.FloatPath
import Verif.Props.PathEx
import Verif.Spec.Step
import Verif.Props.FloatStep
import Verif.Props.RealStep
import Verif.Props.StepEx
import Verif.Spec.Area
import Verif.Props.RealArea
import Verif.Props.FloatArea
import Verif.Props.AreaEx
import Verif.Spec.Shadow
import Verif.Props.FloatShadow
import Verif.Props.RealShadow
import Verif.Props.ShadowEx
import Verif.Props.RealEdges
import Verif.Spec.Clip
import Verif.Props.RealClip
import Verif.Props.FloatClip
import Verif.Props.FloatClipAcc
import Verif.Props.ClipEx
import Verif.Spec.March
import Verif.Props.RealMarch
import Verif.Props.FloatMarch
import Verif.Props.MarchEx
import Verif.Spec.Mesh
import Verif.Props.RealMesh
import Verif.Props.FloatMesh
import Verif.Props.MeshEx
import Verif.Spec.Motion
import Verif.Props.RealMotion
import Verif.Props.FloatMotion
import Verif.Props.MotionEx
import Verif.Props.MotionGrid
import Verif.Props.MotionOrbit
