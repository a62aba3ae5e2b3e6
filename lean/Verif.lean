import Verif.Lemmas.AbortCall
import Verif.Lemmas.ApiSteps
import Verif.Lemmas.Bounded
import Verif.Lemmas.Calls
import Verif.Lemmas.Cartesian
import Verif.Lemmas.CartesianErrors
import Verif.Lemmas.Codec
import Verif.Lemmas.Commands
import Verif.Lemmas.Control
import Verif.Lemmas.Convert
import Verif.Lemmas.Coop
import Verif.Lemmas.CoopCall
import Verif.Lemmas.CoopLoop
import Verif.Lemmas.CoopSession
import Verif.Lemmas.Deliver
import Verif.Lemmas.Exchange
import Verif.Lemmas.Filter
import Verif.Lemmas.FinalAnswer
import Verif.Lemmas.Follow
import Verif.Lemmas.GripperRead
import Verif.Lemmas.GripperSession
import Verif.Lemmas.History
import Verif.Lemmas.Hold
import Verif.Lemmas.Impedance
import Verif.Lemmas.Jerk
import Verif.Lemmas.Keep
import Verif.Lemmas.Layout
import Verif.Lemmas.Limits
import Verif.Lemmas.LogSession
import Verif.Lemmas.Logger
import Verif.Lemmas.Motion
import Verif.Lemmas.NearCartesian
import Verif.Lemmas.NearPose
import Verif.Lemmas.Next
import Verif.Lemmas.Plan
import Verif.Lemmas.Planned
import Verif.Lemmas.PlannedCartesian
import Verif.Lemmas.PlannedJoints
import Verif.Lemmas.PlannedPose
import Verif.Lemmas.PlannedSession
import Verif.Lemmas.PlannedTorques
import Verif.Lemmas.Prog
import Verif.Lemmas.Progress
import Verif.Lemmas.Protocol
import Verif.Lemmas.Quaternion
import Verif.Lemmas.Ramp
import Verif.Lemmas.Reach
import Verif.Lemmas.Real
import Verif.Lemmas.Realize
import Verif.Lemmas.Relative
import Verif.Lemmas.Requests
import Verif.Lemmas.Rotation
import Verif.Lemmas.RoundedCall
import Verif.Lemmas.RoundedCalls
import Verif.Lemmas.RoundedCartesian
import Verif.Lemmas.RoundedCartesianFollow
import Verif.Lemmas.RoundedExample
import Verif.Lemmas.RoundedFilter
import Verif.Lemmas.RoundedFirst
import Verif.Lemmas.RoundedFollow
import Verif.Lemmas.RoundedNorm
import Verif.Lemmas.RoundedPath
import Verif.Lemmas.RoundedPlan
import Verif.Lemmas.RoundedRun
import Verif.Lemmas.RoundedShape
import Verif.Lemmas.RoundedSync
import Verif.Lemmas.RoundedTransparent
import Verif.Lemmas.RoundedTwist
import Verif.Lemmas.RoundedVelocity
import Verif.Lemmas.Rounding
import Verif.Lemmas.Rpc
import Verif.Lemmas.Safe
import Verif.Lemmas.SafeCalls
import Verif.Lemmas.SafeControl
import Verif.Lemmas.Setup
import Verif.Lemmas.SlowPose
import Verif.Lemmas.Smooth
import Verif.Lemmas.StartAnswer
import Verif.Lemmas.States
import Verif.Lemmas.Steps
import Verif.Lemmas.Tcp
import Verif.Lemmas.Threads
import Verif.Lemmas.Toy
import Verif.Lemmas.ToyMotion
import Verif.Lemmas.ToyRun
import Verif.Lemmas.ToyStream
import Verif.Lemmas.Turns
import Verif.Lemmas.Udp
import Verif.Lemmas.Version
import Verif.Lemmas.Wait
import Verif.Lemmas.Waves
import Verif.Lemmas.Wire
import Verif.Model.Codec
import Verif.Model.ControlLoop
import Verif.Model.ControlTypes
import Verif.Model.Conversions
import Verif.Model.Errors
import Verif.Model.Examples
import Verif.Model.Filters
import Verif.Model.Float
import Verif.Model.Geometry
import Verif.Model.Gripper
import Verif.Model.GripperTypes
import Verif.Model.Impedance
import Verif.Model.LogText
import Verif.Model.Logger
import Verif.Model.Mirror
import Verif.Model.MirrorProgram
import Verif.Model.ModelLib
import Verif.Model.ModelPrograms
import Verif.Model.MotionGen
import Verif.Model.Network
import Verif.Model.Robot
import Verif.Model.RobotImpl
import Verif.Model.RobotState
import Verif.Model.ServiceTypes
import Verif.Model.Types
import Verif.Model.World
import Verif.Props.Abort
import Verif.Props.Api
import Verif.Props.Body
import Verif.Props.Bounded
import Verif.Props.Cartesian
import Verif.Props.CartesianErrors
import Verif.Props.CartesianPrograms
import Verif.Props.CartesianVelocityProgram
import Verif.Props.CommandSize
import Verif.Props.Complete
import Verif.Props.Connect
import Verif.Props.ConsecutiveProgram
import Verif.Props.ConsecutiveProgramHappens
import Verif.Props.Control
import Verif.Props.Conversions
import Verif.Props.CoopSession
import Verif.Props.ErrorText
import Verif.Props.ExampleCartesianVelocity
import Verif.Props.ExampleCommunication
import Verif.Props.ExampleElbow
import Verif.Props.ExamplePose
import Verif.Props.ExamplePosition
import Verif.Props.ExampleVelocity
import Verif.Props.Exchange
import Verif.Props.ExchangeExample
import Verif.Props.Filter
import Verif.Props.Follow
import Verif.Props.FollowHappens
import Verif.Props.Grasping
import Verif.Props.GripperSession
import Verif.Props.GripperState
import Verif.Props.Homogeneous
import Verif.Props.Impedance
import Verif.Props.ImpedanceExample
import Verif.Props.JointMotion
import Verif.Props.Kinematics
import Verif.Props.Limits
import Verif.Props.Log
import Verif.Props.LogText
import Verif.Props.Mirror
import Verif.Props.MirrorProgram
import Verif.Props.MirrorProgramExample
import Verif.Props.ModelFile
import Verif.Props.ModelPrograms
import Verif.Props.ModelProgramsExample
import Verif.Props.Network
import Verif.Props.Panic
import Verif.Props.Pose
import Verif.Props.PoseFilter
import Verif.Props.ProgramMotions
import Verif.Props.ProgramMotionsHappen
import Verif.Props.Programs
import Verif.Props.ProgramsExample
import Verif.Props.Reading
import Verif.Props.RoundedCall
import Verif.Props.RoundedCallExample
import Verif.Props.RoundedCartesian
import Verif.Props.RoundedCartesianFollow
import Verif.Props.RoundedCartesianFollowExample
import Verif.Props.RoundedExample
import Verif.Props.RoundedExampleHappens
import Verif.Props.RoundedFilter
import Verif.Props.RoundedFilterExample
import Verif.Props.RoundedFollows
import Verif.Props.RoundedFollowsHappen
import Verif.Props.RoundedMotion
import Verif.Props.RoundedPositionAll
import Verif.Props.RoundedProgram
import Verif.Props.RoundedProgramHappens
import Verif.Props.RoundedTorqueAll
import Verif.Props.RoundedTransparent
import Verif.Props.RoundedTransparentExample
import Verif.Props.RoundedTwist
import Verif.Props.RoundedTwistAll
import Verif.Props.RoundedTwistHappens
import Verif.Props.RoundedVelocity
import Verif.Props.RoundedVelocityAll
import Verif.Props.RoundedVelocityHappens
import Verif.Props.Rounding
import Verif.Props.Smooth
import Verif.Props.SmoothCartesian
import Verif.Props.SmoothJointsHappen
import Verif.Props.SmoothPose
import Verif.Props.SmoothTorques
import Verif.Props.SmoothTwistsHappen
import Verif.Props.Start
import Verif.Props.State
import Verif.Props.Stream
import Verif.Props.Transparent
import Verif.Props.Version
import Verif.Props.Wire
import Verif.Spec.Abort
import Verif.Spec.Api
import Verif.Spec.Body
import Verif.Spec.Bounded
import Verif.Spec.Cartesian
import Verif.Spec.CartesianExamples
import Verif.Spec.Connect
import Verif.Spec.ConsecutiveMotions
import Verif.Spec.Control
import Verif.Spec.Coop
import Verif.Spec.CoopSession
import Verif.Spec.ErrorText
import Verif.Spec.Examples
import Verif.Spec.Exchange
import Verif.Spec.Follow
import Verif.Spec.Frames
import Verif.Spec.Grasping
import Verif.Spec.GripperSession
import Verif.Spec.History
import Verif.Spec.Impedance
import Verif.Spec.JointMotion
import Verif.Spec.Kinematics
import Verif.Spec.Limits
import Verif.Spec.LogText
import Verif.Spec.Logger
import Verif.Spec.Mirror
import Verif.Spec.MirrorProgram
import Verif.Spec.ModelPrograms
import Verif.Spec.Motion
import Verif.Spec.Nalgebra
import Verif.Spec.NearLimits
import Verif.Spec.Panic
import Verif.Spec.ProgramMotions
import Verif.Spec.Programs
import Verif.Spec.Reading
import Verif.Spec.Real
import Verif.Spec.Rotation
import Verif.Spec.RoundedExamples
import Verif.Spec.RoundedFollow
import Verif.Spec.RoundedProgram
import Verif.Spec.RoundedTwist
import Verif.Spec.RoundedVelocity
import Verif.Spec.Rounding
import Verif.Spec.Session
import Verif.Spec.Smooth
import Verif.Spec.SmoothCartesian
import Verif.Spec.State
import Verif.Spec.Trace
import Verif.Spec.Transparent
import Verif.Spec.Turns
import Verif.Spec.Udp
import Verif.Spec.Version
import Verif.Spec.Wire
