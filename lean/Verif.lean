import Verif.Model.ADLinearizer
import Verif.Model.Activation
import Verif.Model.Actuator
import Verif.Model.AdaptiveIntegration
import Verif.Model.Arrays
import Verif.Model.Articulated
import Verif.Model.Care
import Verif.Model.CodeGen
import Verif.Model.CodeText
import Verif.Model.ConstraintAD
import Verif.Model.Constraints
import Verif.Model.Contact
import Verif.Model.ContactDynamics
import Verif.Model.ControlledSystem
import Verif.Model.Cost
import Verif.Model.CostLoad
import Verif.Model.CppadParallel
import Verif.Model.Discretizer
import Verif.Model.DmsConstraints
import Verif.Model.DmsCost
import Verif.Model.DmsProblem
import Verif.Model.DmsSettingsLoad
import Verif.Model.DmsShot
import Verif.Model.DmsVector
import Verif.Model.Fhdtlqr
import Verif.Model.Filter
import Verif.Model.FilterModels
import Verif.Model.FilterSharing
import Verif.Model.Fl
import Verif.Model.FloatingSystem
import Verif.Model.ForceMapping
import Verif.Model.FrameJac
import Verif.Model.GenKin
import Verif.Model.Geometry
import Verif.Model.HessianSource
import Verif.Model.Hpipm
import Verif.Model.HpipmFeedback
import Verif.Model.IK
import Verif.Model.IdFb
import Verif.Model.IkFast
import Verif.Model.IkProblem
import Verif.Model.Integration
import Verif.Model.IntegratorCopy
import Verif.Model.Interpolation
import Verif.Model.Inverses
import Verif.Model.InvertedPendulumLinearized
import Verif.Model.Jacobi
import Verif.Model.JointState
import Verif.Model.JsimFactor
import Verif.Model.LTI
import Verif.Model.LinearFunctionSwap
import Verif.Model.Lookup
import Verif.Model.LqApprox
import Verif.Model.Lqoc
import Verif.Model.Lqr
import Verif.Model.LqrId
import Verif.Model.Mpc
import Verif.Model.MpcForward
import Verif.Model.NlocBuffers
import Verif.Model.NlocLineSearch
import Verif.Model.NlocNorm
import Verif.Model.NlocParallel
import Verif.Model.NlocParallelData
import Verif.Model.NlocParallelSearch
import Verif.Model.NlocRollout
import Verif.Model.NlocSolve
import Verif.Model.NlocSummary
import Verif.Model.Nlp
import Verif.Model.NlpSolver
import Verif.Model.NumDiff
import Verif.Model.OpJacobian
import Verif.Model.OpModel
import Verif.Model.OptCon
import Verif.Model.PID
import Verif.Model.PointToPoint
import Verif.Model.PolicyHandler
import Verif.Model.ProjectedSystem
import Verif.Model.Quadrotor
import Verif.Model.Quantization
import Verif.Model.RbdLinearizer
import Verif.Model.Res
import Verif.Model.Riccati
import Verif.Model.RknDeriv
import Verif.Model.RobotLookups
import Verif.Model.RobotNloc
import Verif.Model.RobotState
import Verif.Model.Robots.DoubleInvertedPendulum
import Verif.Model.Robots.DoubleInvertedPendulumKin
import Verif.Model.Robots.Factor
import Verif.Model.Robots.HyA
import Verif.Model.Robots.HyAHessian
import Verif.Model.Robots.HyAKin
import Verif.Model.Robots.HyQ
import Verif.Model.Robots.HyQFoot
import Verif.Model.Robots.HyQFootJacForward
import Verif.Model.Robots.HyQFootJacReverse
import Verif.Model.Robots.HyQForwardZero
import Verif.Model.Robots.HyQKin
import Verif.Model.Robots.InvertedPendulum
import Verif.Model.Robots.InvertedPendulumKin
import Verif.Model.Robots.QuadrotorWithLoad
import Verif.Model.Robots.QuadrotorWithLoadKin
import Verif.Model.Robots.QuadrotorWithLoadSystem
import Verif.Model.Robots.Systems
import Verif.Model.Robots.WholeBody
import Verif.Model.Rti
import Verif.Model.SecondOrder
import Verif.Model.Sensitivity
import Verif.Model.SettingsLoad
import Verif.Model.Simulation
import Verif.Model.SolverSensitivity
import Verif.Model.Spatial
import Verif.Model.StateFeedback
import Verif.Model.SwitchedConstraint
import Verif.Model.Switching
import Verif.Model.Symplectic
import Verif.Model.SystemInterface
import Verif.Model.SystemLinearizer
import Verif.Model.Taskspace
import Verif.Model.TaskspaceCG
import Verif.Model.Templates
import Verif.Model.Timer
import Verif.Proof.Interpolation
import Verif.Proof.Inverses
import Verif.Proof.Sensitivity
import Verif.Props.ADLinearizer
import Verif.Props.Activation
import Verif.Props.Actuator
import Verif.Props.AdaptiveIntegration
import Verif.Props.Arrays
import Verif.Props.Articulated
import Verif.Props.ArticulatedEnergy
import Verif.Props.ArticulatedFloat
import Verif.Props.ArticulatedJsim
import Verif.Props.ArticulatedPower
import Verif.Props.ArticulatedRegular
import Verif.Props.ArticulatedRegularId
import Verif.Props.ArticulatedTerms
import Verif.Props.CareDirect
import Verif.Props.CareExist
import Verif.Props.CareIterative
import Verif.Props.CareOptimal
import Verif.Props.CareSign
import Verif.Props.CareStable
import Verif.Props.CodeGen
import Verif.Props.CodeText
import Verif.Props.ConstraintAD
import Verif.Props.ConstraintJac
import Verif.Props.Constraints
import Verif.Props.Contact
import Verif.Props.ContactDynamics
import Verif.Props.ControlledSystem
import Verif.Props.Cost
import Verif.Props.CostAD
import Verif.Props.CostLoad
import Verif.Props.CppadParallel
import Verif.Props.DareConvergence
import Verif.Props.Descent
import Verif.Props.DescentMs
import Verif.Props.DescribedInertia
import Verif.Props.Discretizer
import Verif.Props.DmsConstraints
import Verif.Props.DmsCost
import Verif.Props.DmsGrid
import Verif.Props.DmsPath
import Verif.Props.DmsProblem
import Verif.Props.DmsSettingsLoad
import Verif.Props.DmsShot
import Verif.Props.DmsShotDeriv
import Verif.Props.DmsVector
import Verif.Props.Fhdtlqr
import Verif.Props.Filter
import Verif.Props.FilterModels
import Verif.Props.FilterSharing
import Verif.Props.FloatingSystem
import Verif.Props.ForceMapping
import Verif.Props.FrameJac
import Verif.Props.GenKinBase
import Verif.Props.GenKinDescr
import Verif.Props.GenKinJac
import Verif.Props.GenKinPoly
import Verif.Props.Geometry
import Verif.Props.HessianSource
import Verif.Props.Hpipm
import Verif.Props.HpipmFeedback
import Verif.Props.HyQInertia
import Verif.Props.IK
import Verif.Props.IdFb
import Verif.Props.IkFast
import Verif.Props.IkProblem
import Verif.Props.InertiaMatrix
import Verif.Props.Integration
import Verif.Props.IntegratorCopy
import Verif.Props.Inverses
import Verif.Props.InvertedPendulumLinearized
import Verif.Props.Jacobi
import Verif.Props.JointPid
import Verif.Props.JointState
import Verif.Props.JsimBlocks
import Verif.Props.JsimFactor
import Verif.Props.JsimFactorBase
import Verif.Props.JsimInverseBase
import Verif.Props.Kinematics
import Verif.Props.LTI
import Verif.Props.LinearFunctionSwap
import Verif.Props.LinearOde
import Verif.Props.Lookup
import Verif.Props.LqApprox
import Verif.Props.Lqoc
import Verif.Props.Lqr
import Verif.Props.LqrId
import Verif.Props.LqrIdRobots
import Verif.Props.MatrixExp
import Verif.Props.Mpc
import Verif.Props.MpcForward
import Verif.Props.NlocBuffers
import Verif.Props.NlocLineSearch
import Verif.Props.NlocParallel
import Verif.Props.NlocParallelData
import Verif.Props.NlocParallelLive
import Verif.Props.NlocParallelSearch
import Verif.Props.NlocParallelStale
import Verif.Props.NlocRollout
import Verif.Props.NlocSolve
import Verif.Props.NlocSummary
import Verif.Props.Nlp
import Verif.Props.NlpIpopt
import Verif.Props.NlpSnopt
import Verif.Props.NlpSolver
import Verif.Props.NumDiff
import Verif.Props.OpJacobian
import Verif.Props.OpModel
import Verif.Props.OptCon
import Verif.Props.PID
import Verif.Props.ParallelData
import Verif.Props.PointToPoint
import Verif.Props.PolicyHandler
import Verif.Props.ProjectedSystem
import Verif.Props.Quadrotor
import Verif.Props.Quantization
import Verif.Props.RbdLinearizer
import Verif.Props.Riccati
import Verif.Props.RknDeriv
import Verif.Props.RobotLookups
import Verif.Props.RobotNloc
import Verif.Props.RobotState
import Verif.Props.Robots.DoubleInvertedPendulum
import Verif.Props.Robots.DoubleInvertedPendulumFrames
import Verif.Props.Robots.DoubleInvertedPendulumKin
import Verif.Props.Robots.DoubleInvertedPendulumMount
import Verif.Props.Robots.DoubleInvertedPendulumPower
import Verif.Props.Robots.HyA
import Verif.Props.Robots.HyAFrames
import Verif.Props.Robots.HyAKin
import Verif.Props.Robots.HyAMount
import Verif.Props.Robots.HyAPower
import Verif.Props.Robots.HyQ
import Verif.Props.Robots.HyQFoot
import Verif.Props.Robots.HyQFootJac
import Verif.Props.Robots.HyQFootJacForward0
import Verif.Props.Robots.HyQFootJacForward1
import Verif.Props.Robots.HyQFootJacForward2
import Verif.Props.Robots.HyQFootJacForward3
import Verif.Props.Robots.HyQFootJacReverse0
import Verif.Props.Robots.HyQFootJacReverse1
import Verif.Props.Robots.HyQFootJacReverse2
import Verif.Props.Robots.HyQFootJacReverse3
import Verif.Props.Robots.HyQForwardZero
import Verif.Props.Robots.HyQFrames
import Verif.Props.Robots.HyQKin
import Verif.Props.Robots.HyQMount
import Verif.Props.Robots.HyQPower
import Verif.Props.Robots.HyQUrdf
import Verif.Props.Robots.InvertedPendulum
import Verif.Props.Robots.InvertedPendulumFrames
import Verif.Props.Robots.InvertedPendulumKin
import Verif.Props.Robots.InvertedPendulumMount
import Verif.Props.Robots.InvertedPendulumPower
import Verif.Props.Robots.QuadrotorWithLoad
import Verif.Props.Robots.QuadrotorWithLoadFd
import Verif.Props.Robots.QuadrotorWithLoadFrames
import Verif.Props.Robots.QuadrotorWithLoadId
import Verif.Props.Robots.QuadrotorWithLoadInvertible
import Verif.Props.Robots.QuadrotorWithLoadKin
import Verif.Props.Robots.QuadrotorWithLoadMount
import Verif.Props.Robots.QuadrotorWithLoadPower
import Verif.Props.Robots.QuadrotorWithLoadSystem
import Verif.Props.Robots.Systems
import Verif.Props.Robots.WholeBody
import Verif.Props.RobotsBase
import Verif.Props.RobotsInertia
import Verif.Props.RobotsPossible
import Verif.Props.Rti
import Verif.Props.SecondOrder
import Verif.Props.Sensitivity
import Verif.Props.SettingsLoad
import Verif.Props.Simulation
import Verif.Props.SolverSensitivity
import Verif.Props.Spatial
import Verif.Props.StateFeedback
import Verif.Props.SwitchedConstraint
import Verif.Props.Switching
import Verif.Props.Symplectic
import Verif.Props.SystemInterface
import Verif.Props.SystemLinearizer
import Verif.Props.Taskspace
import Verif.Props.TaskspaceCG
import Verif.Props.TaskspaceRobots
import Verif.Props.TaskspaceSmooth
import Verif.Props.TaskspaceTerms
import Verif.Props.Timer
import Verif.Props.Trajectory
import Verif.Spec.Trajectory
