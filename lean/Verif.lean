import Verif.Base
import Verif.Model.Geometry
import Verif.Model.Contacts
import Verif.Model.Layout
import Verif.Proofs.Layout
import Verif.Props.Layout
import Verif.Model.Registry
import Verif.Proofs.Registry
import Verif.Props.Registry
import Verif.Model.Fill
import Verif.Proofs.Fill
import Verif.Proofs.Mimic
import Verif.Proofs.Assembly
import Verif.Proofs.Psd
import Verif.Props.Fill
import Verif.Model.Diag
import Verif.Props.Diag
import Verif.Props.Mimic
import Verif.Model.NormalAcc
import Verif.Model.Solver
import Verif.Proofs.Sizes
import Verif.Proofs.Robots
import Verif.Proofs.NormalAcc
import Verif.Proofs.Solver
import Verif.Props.NormalAcc
import Verif.Props.Solver
import Verif.Model.Utils
import Verif.Props.Utils
import Verif.Proofs.Geometry
import Verif.Proofs.Contacts
import Verif.Props.Contacts
import Verif.Model.Jacobian
import Verif.Proofs.Jacobian
import Verif.Model.Motion
import Verif.Proofs.Motion
import Verif.Proofs.MotionRun
import Verif.Proofs.MotionPoly
import Verif.Props.Motion
import Verif.Model.Limits
import Verif.Proofs.Limits
import Verif.Proofs.LimitsRun
import Verif.Props.Limits
import Verif.Model.Collision
import Verif.Proofs.Collision
import Verif.Proofs.CollisionRun
import Verif.Proofs.CollisionReach
import Verif.Proofs.ComPlane
import Verif.Props.Collision
import Verif.Props.CollisionEx
import Verif.Props.ComPlane
import Verif.Model.Gripper
import Verif.Proofs.Gripper
import Verif.Props.Gripper
import Verif.Model.BoundedSpeed
import Verif.Proofs.BoundedSpeed
import Verif.Props.BoundedSpeed
import Verif.Model.Image
import Verif.Proofs.Image
import Verif.Props.Image
import Verif.Model.ContactConstr
import Verif.Proofs.ContactConstr
import Verif.Proofs.ContactRun
import Verif.Props.ContactConstr
import Verif.Model.SetPoint
import Verif.Proofs.SetPoint
import Verif.Props.SetPoint
import Verif.Props.TargetObj
import Verif.Model.Selector
import Verif.Props.Selector
import Verif.Model.Posture
import Verif.Proofs.Posture
import Verif.Props.Posture
import Verif.Model.Torque
import Verif.Props.Torque
import Verif.Model.Multi
import Verif.Proofs.Multi
import Verif.Props.Multi
import Verif.Model.ForceTask
import Verif.Proofs.ForceTask
import Verif.Props.ForceTask
import Verif.Model.Kine
import Verif.Proofs.Kine
import Verif.Props.Kine
import Verif.Props.Track
import Verif.Proofs.Deriv
import Verif.Proofs.Drift
import Verif.Props.Drift
import Verif.Model.RelDist
import Verif.Props.RelDist
import Verif.Model.CoM
import Verif.Props.CoM
import Verif.Props.Converge
import Verif.Props.NoSlip
import Verif.Model.Momentum
import Verif.Proofs.Momentum
import Verif.Props.Momentum
import Verif.Model.Visual
import Verif.Props.Visual
import Verif.Props.TrackQP
import Verif.Props.Setters
import Verif.Props.ContactMatrix
import Verif.Props.Desc
import Verif.Props.TargetLoop
import Verif.Props.SelectorQP
import Verif.Props.MultiLoop
import Verif.Props.Construct
import Verif.Props.Weights
import Verif.Props.Realise
import Verif.Props.Safety
import Verif.Props.Together
import Verif.Props.Physical
import Verif.Model.Rotation
import Verif.Proofs.Rotation
import Verif.Proofs.RotLoop
import Verif.Props.Rotation
import Verif.Props.SetPointSizes
import Verif.Props.VisualRot
import Verif.Model.JacDot
import Verif.Proofs.JacDot
import Verif.Props.JacDot
import Verif.Proofs.Barrier
import Verif.Props.Barrier
import Verif.Proofs.PosLoop
import Verif.Props.ContactPos
import Verif.Props.Integrators
import Verif.Props.Feasible
import Verif.Proofs.Tolerance
import Verif.Props.Inexact
import Verif.Model.SvaRot
import Verif.Props.ContactFree
import Verif.Proofs.FrameDrift
import Verif.Props.ContactNear
import Verif.Props.PhysicalNear
import Verif.Proofs.Perturbed
import Verif.Props.Priority
import Verif.Proofs.Balls
import Verif.Props.CollisionLoop
import Verif.Props.CollisionLoopEx
import Verif.Proofs.BarrierNear
import Verif.Props.BarrierNear
import Verif.Props.SolverReg
import Verif.Proofs.Copy
import Verif.Props.Rounding
import Verif.Model.Forward
import Verif.Model.NoAcc
import Verif.Proofs.Forward
import Verif.Props.Forward
import Verif.Props.NoAcc
import Verif.Proofs.Dynamics
import Verif.Props.Dynamics
import Verif.Props.DynamicsEx
import Verif.Model.Heap
import Verif.Proofs.Heap
import Verif.Proofs.Copies
import Verif.Props.Copies
import Verif.Props.Lifetime
import Verif.Props.ConvexMimic
import Verif.Props.Separate
import Verif.Props.Footprint
import Verif.Model.Wrappers
import Verif.Props.Wrappers
import Verif.Props.WorldConstr
import Verif.Props.Order
import Verif.Props.Extra
import Verif.Props.Response
import Verif.Props.Ratio
import Verif.Props.Silent
import Verif.Props.Agree
import Verif.Props.Wider
import Verif.Props.WorldFrame
import Verif.Model.TrackErr
import Verif.Props.TrackErr
import Verif.Props.Notify
import Verif.Model.Throwing
import Verif.Props.Throwing
import Verif.Model.Binding
import Verif.Props.Binding
import Verif.Props.Targets
import Verif.Model.PyLife
import Verif.Props.PyLife
import Verif.Model.Getters
import Verif.Props.Getters
import Verif.Model.PyExc
import Verif.Props.PyExc
import Verif.Model.PyCtor
import Verif.Model.PyValue
import Verif.Props.PyCtor
import Verif.Props.PyValue
import Verif.Model.PyAcc
import Verif.Props.PyAcc
import Verif.Model.PyId
import Verif.Model.PyPosture
import Verif.Props.PyId
import Verif.Props.PyPosture
