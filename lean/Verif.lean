import Verif.B64
import Verif.Fl
import Verif.FloatData
import Verif.FloatTests
import Verif.FloatTests2
import Verif.Lemmas.B64
import Verif.Lemmas.B64Sub
import Verif.Lemmas.Basic
import Verif.Lemmas.Complete
import Verif.Lemmas.Count
import Verif.Lemmas.Deriv
import Verif.Lemmas.Distinct
import Verif.Lemmas.Eigen
import Verif.Lemmas.Empty
import Verif.Lemmas.Equiv
import Verif.Lemmas.EquivTurns
import Verif.Lemmas.Fl
import Verif.Lemmas.FlAux
import Verif.Lemmas.FlAxis
import Verif.Lemmas.FlData
import Verif.Lemmas.FlDataAux
import Verif.Lemmas.FlEps
import Verif.Lemmas.FlEquiv
import Verif.Lemmas.FlIk
import Verif.Lemmas.FlIkRun
import Verif.Lemmas.FlInertia
import Verif.Lemmas.FlIter
import Verif.Lemmas.FlJac
import Verif.Lemmas.FlKeeps
import Verif.Lemmas.FlKin
import Verif.Lemmas.FlMat
import Verif.Lemmas.FlNorm
import Verif.Lemmas.FlQprod
import Verif.Lemmas.FlQuat
import Verif.Lemmas.FlR2rot
import Verif.Lemmas.FlRR
import Verif.Lemmas.FlRot
import Verif.Lemmas.FlRpy
import Verif.Lemmas.FlSlerp
import Verif.Lemmas.FlSub
import Verif.Lemmas.FlSub2
import Verif.Lemmas.FlSub3
import Verif.Lemmas.FlSub4
import Verif.Lemmas.FlSubE
import Verif.Lemmas.FlTrack
import Verif.Lemmas.FlTrackCall
import Verif.Lemmas.FlTrackSort
import Verif.Lemmas.FlTrans
import Verif.Lemmas.FlUr
import Verif.Lemmas.FlUrdf
import Verif.Lemmas.Geom
import Verif.Lemmas.IkParts
import Verif.Lemmas.Invkin
import Verif.Lemmas.IterConv
import Verif.Lemmas.JacDet
import Verif.Lemmas.Kanto
import Verif.Lemmas.Kin
import Verif.Lemmas.Lip
import Verif.Lemmas.ListM
import Verif.Lemmas.Names
import Verif.Lemmas.Norm
import Verif.Lemmas.Normalize
import Verif.Lemmas.Opw
import Verif.Lemmas.Perturb
import Verif.Lemmas.PinvMat
import Verif.Lemmas.Quat
import Verif.Lemmas.R2rot
import Verif.Lemmas.Relay
import Verif.Lemmas.RelayNeg
import Verif.Lemmas.Robot6
import Verif.Lemmas.RobotUp
import Verif.Lemmas.Rot
import Verif.Lemmas.SO3
import Verif.Lemmas.Scale
import Verif.Lemmas.SceneGraph
import Verif.Lemmas.SceneGraph2
import Verif.Lemmas.SceneGraph3
import Verif.Lemmas.Smooth
import Verif.Lemmas.Sub
import Verif.Lemmas.Taylor
import Verif.Lemmas.Track
import Verif.Lemmas.TrackNear
import Verif.Lemmas.Trig
import Verif.Lemmas.Twice
import Verif.Lemmas.Up
import Verif.Lemmas.Ur
import Verif.Lemmas.Urdf
import Verif.Lemmas.UrdfSame
import Verif.Lemmas.UrdfTree
import Verif.Lemmas.UrdfZero
import Verif.Lemmas.Warnings
import Verif.Lemmas.WarningsIk
import Verif.Lemmas.WarningsReal
import Verif.Model.Core
import Verif.Model.IntArrays
import Verif.Model.Invkin
import Verif.Model.Printing
import Verif.Model.Random
import Verif.Model.Robot
import Verif.Model.RobotRaconteur
import Verif.Model.RosMsg
import Verif.Model.Shared
import Verif.Model.Subproblems
import Verif.Model.Tesseract
import Verif.Model.TesseractText
import Verif.Model.TesseractWrap
import Verif.Model.Urdf
import Verif.Model.UrdfFile
import Verif.Model.Warnings
import Verif.Num
import Verif.Props.AllConfigs
import Verif.Props.AxisAngle
import Verif.Props.AxisSign
import Verif.Props.Convergence
import Verif.Props.Count
import Verif.Props.Empty
import Verif.Props.Equiv
import Verif.Props.FrameIds
import Verif.Props.Geometry
import Verif.Props.IntArrays
import Verif.Props.Interp
import Verif.Props.InvkinMisc
import Verif.Props.Iter
import Verif.Props.Jacobian
import Verif.Props.JacobianAux
import Verif.Props.Kantorovich
import Verif.Props.Kinematics
import Verif.Props.Lipschitz
import Verif.Props.Lock
import Verif.Props.Mount
import Verif.Props.Normalize
import Verif.Props.OpwNear
import Verif.Props.Perturb
import Verif.Props.Placement
import Verif.Props.Printing
import Verif.Props.Quaternion
import Verif.Props.Random
import Verif.Props.Reframe
import Verif.Props.Relay
import Verif.Props.Rezero
import Verif.Props.RezeroIter
import Verif.Props.Robot6
import Verif.Props.RobotCtor
import Verif.Props.RobotRaconteur
import Verif.Props.RobotRaconteurFrames
import Verif.Props.RobotRaconteurWell
import Verif.Props.Ros
import Verif.Props.Rotation
import Verif.Props.Rounding
import Verif.Props.RoundingAxes
import Verif.Props.RoundingAxis
import Verif.Props.RoundingEquiv
import Verif.Props.RoundingIk
import Verif.Props.RoundingIkAll
import Verif.Props.RoundingInertia
import Verif.Props.RoundingIter
import Verif.Props.RoundingJac
import Verif.Props.RoundingQprod
import Verif.Props.RoundingQuat
import Verif.Props.RoundingRR
import Verif.Props.RoundingRandom
import Verif.Props.RoundingRpy
import Verif.Props.RoundingSub
import Verif.Props.RoundingSub4
import Verif.Props.RoundingSubE
import Verif.Props.RoundingTrack
import Verif.Props.RoundingTransform
import Verif.Props.RoundingUr
import Verif.Props.RoundingUrTrack
import Verif.Props.RoundingUrdf
import Verif.Props.Rpy
import Verif.Props.SameAxis
import Verif.Props.SelfMotion
import Verif.Props.Shared
import Verif.Props.Singular
import Verif.Props.Slide
import Verif.Props.SolverOutcome
import Verif.Props.Subproblems
import Verif.Props.Taylor
import Verif.Props.Tesseract
import Verif.Props.TesseractCell
import Verif.Props.TesseractEnv
import Verif.Props.TesseractMisc
import Verif.Props.TesseractOutcome
import Verif.Props.TesseractParams
import Verif.Props.TesseractRobot
import Verif.Props.TesseractText
import Verif.Props.TesseractWrap
import Verif.Props.Track
import Verif.Props.TrackNear
import Verif.Props.TrackPath
import Verif.Props.TransformProps
import Verif.Props.TurnRound
import Verif.Props.Units
import Verif.Props.Ur
import Verif.Props.UrNear
import Verif.Props.Urdf
import Verif.Props.UrdfBodies
import Verif.Props.UrdfFile
import Verif.Props.UrdfFixed
import Verif.Props.UrdfInertia
import Verif.Props.UrdfInvkin
import Verif.Props.UrdfWell
import Verif.Props.Warnings
import Verif.Props.WrongLength
import Verif.Spec
import Verif.Vec
import Verif.XReal
