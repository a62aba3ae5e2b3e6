import Verif.Model.Examples
import Verif.Spec.Api
import Verif.Spec.Control
/-!
# Whole programs: what the examples ask the robot for
-/
namespace Verif.Spec
open Fl
variable {F : Type}

/-- What the robot was asked for, in the order of sending. -/
def asked (tr : List (Ev F)) : List (RobotBody F) := (requests tr).map (·.request)

variable [Fl F] [Wire F] [Geo F]

/-- The calls are made one after the other. The first one that does not return Ok is the last one, and its result is the result of all. -/
inductive InTurn : List (RobotCall F) → World F → Res F Unit → World F → Prop where
  | done (w) : InTurn [] w (.ok ()) w
  | next {c : RobotCall F} {cs w w1 r w2} : c.run w = (.ok (), w1) → InTurn cs w1 r w2 → InTurn (c :: cs) w r w2
  | last {c : RobotCall F} {cs w r w1} : c.run w = (r, w1) → r ≠ .ok () → InTurn (c :: cs) w r w1

/-- A program that connects to the robot, and then goes on as described by `then_`; if the connection fails it ends with that result. -/
def Connects (p : Prog F Unit) (then_ : World F → Res F Unit → World F → Prop) (w : World F) : Prop :=
  match Robot.new none none w with
  | (.ok _, w1) => then_ w1 (p w).1 (p w).2
  | (r, w1) => p w = (r, w1)

/-- What is asked for, `new`, is `bs` if all goes well. If something goes wrong it is the first few of `bs`, and if the last of them is a motion there may
be a request to stop it behind it. -/
structure Asks (bs : List (RobotBody F)) (r : Res F Unit) (new : List (RobotBody F)) : Prop where
  all : r = .ok () → new = bs
  some : ∃ l, l <+: bs ∧ (new = l ∨ new = l ++ [.StopMove] ∧ ∃ m, l.getLast? = some (.Move m))

/-- Collisions: one set of thresholds for torques and one for forces. -/
def thresholds (torques : Arr F 7) (forces : Arr F 6) : RobotCall F := .set_collision_behavior torques torques torques torques forces forces forces forces

/-- The request of that. -/
def thresholdsBody (torques : Arr F 7) (forces : Arr F 6) : RobotBody F := .SetCollisionBehavior {
  lower_torque_thresholds_acceleration := torques, upper_torque_thresholds_acceleration := torques
  lower_torque_thresholds_nominal := torques, upper_torque_thresholds_nominal := torques
  lower_force_thresholds_acceleration := forces, upper_force_thresholds_acceleration := forces
  lower_force_thresholds_nominal := forces, upper_force_thresholds_nominal := forces }

/-- The position in which the examples start, in rad. -/
def startPosition : Arr F 7 := ![lit 0, -pi / lit 4, lit 0, -lit 3 * pi / lit 4, lit 0, pi / lit 2, pi / lit 4]

/-- The thresholds of most examples. -/
def usualTorques : Arr F 7 := ![lit 20, lit 20, lit 18, lit 18, lit 16, lit 14, lit 12]

/-- The thresholds of most examples. -/
def usualForces : Arr F 6 := ![lit 20, lit 20, lit 20, lit 25, lit 25, lit 25]

/-- Most examples: the defaults are set, then the thresholds, the robot moves to the start position with half the speed, and then it is controlled. -/
def usual (control : RobotCall F) : List (RobotCall F) := [.set_default_behavior, thresholds usualTorques usualForces, .joint_motion (lit (1 / 2)) startPosition, control]

/-- What the robot is asked for by them. -/
def usualBodies (move : RobotBody F) : List (RobotBody F) :=
  defaultBehavior ++ [thresholdsBody usualTorques usualForces, moveBody .JointPositions .JointImpedance, move]

/-- The examples that make one call after the other, with the calls they make and what they ask the robot for after connecting. -/
inductive Example [FlExtra F] : Prog F Unit → List (RobotCall F) → List (RobotBody F) → Prop where
  | jointPosition : Example Examples.generate_joint_position_motion
      (usual (.control_motion _ .JointPositions Examples.position_callback none none none Examples.PositionState.new))
      (usualBodies (moveBody .JointPositions .JointImpedance))
  | jointVelocity : Example Examples.generate_joint_velocity_motion
      (usual (.control_motion _ .JointVelocities (Examples.velocity_callback (lit 1) (lit 1)) none none none (lit 0)))
      (usualBodies (moveBody .JointVelocities .JointImpedance))
  | pose : Example Examples.generate_cartesian_pose_motion
      (usual (.control_motion _ .CartesianPose Examples.pose_callback none none none Examples.PoseState.new))
      (usualBodies (moveBody .CartesianPose .JointImpedance))
  | elbow : Example Examples.generate_elbow_motion
      (usual (.control_motion _ .CartesianPose Examples.elbow_callback none none none Examples.ElbowState.new))
      (usualBodies (moveBody .CartesianPose .JointImpedance))
  | communication : Example Examples.communication_test
      (usual (.control_torques _ Examples.communication_callback (some false) (some (lit 1000)) Examples.CommunicationState.new))
      (usualBodies (moveBody .JointVelocities .ExternalController))
  | cartesianVelocity : Example Examples.generate_cartesian_velocity_motion
      [.set_default_behavior, .set_joint_impedance ![lit 3000, lit 3000, lit 3000, lit 2500, lit 2500, lit 2000, lit 2000],
        .set_collision_behavior ![lit 25, lit 25, lit 22, lit 20, lit 19, lit 17, lit 14] ![lit 35, lit 35, lit 32, lit 30, lit 29, lit 27, lit 24]
          ![lit 25, lit 25, lit 22, lit 20, lit 19, lit 17, lit 14] ![lit 35, lit 35, lit 32, lit 30, lit 29, lit 27, lit 24]
          ![lit 30, lit 30, lit 30, lit 25, lit 25, lit 25] ![lit 40, lit 40, lit 40, lit 35, lit 35, lit 35]
          ![lit 30, lit 30, lit 30, lit 25, lit 25, lit 25] ![lit 40, lit 40, lit 40, lit 35, lit 35, lit 35],
        .joint_motion (lit (1 / 2)) startPosition, .control_motion _ .CartesianVelocities Examples.cartesian_velocity_callback none none none (lit 0)]
      (defaultBehavior ++ [.SetJointImpedance { K_theta := ![lit 3000, lit 3000, lit 3000, lit 2500, lit 2500, lit 2000, lit 2000] },
        .SetCollisionBehavior {
          lower_torque_thresholds_acceleration := ![lit 25, lit 25, lit 22, lit 20, lit 19, lit 17, lit 14]
          upper_torque_thresholds_acceleration := ![lit 35, lit 35, lit 32, lit 30, lit 29, lit 27, lit 24]
          lower_torque_thresholds_nominal := ![lit 25, lit 25, lit 22, lit 20, lit 19, lit 17, lit 14]
          upper_torque_thresholds_nominal := ![lit 35, lit 35, lit 32, lit 30, lit 29, lit 27, lit 24]
          lower_force_thresholds_acceleration := ![lit 30, lit 30, lit 30, lit 25, lit 25, lit 25]
          upper_force_thresholds_acceleration := ![lit 40, lit 40, lit 40, lit 35, lit 35, lit 35]
          lower_force_thresholds_nominal := ![lit 30, lit 30, lit 30, lit 25, lit 25, lit 25]
          upper_force_thresholds_nominal := ![lit 40, lit 40, lit 40, lit 35, lit 35, lit 35] },
        moveBody .JointPositions .JointImpedance, moveBody .CartesianVelocities .JointImpedance])

/-! ## generate_consecutive_motions -/

/-- What the program does before its motions. -/
def consecutiveStart : List (RobotCall F) := [.set_default_behavior,
  thresholds ![lit 10, lit 10, lit 9, lit 9, lit 6, lit 7, lit 6] ![lit 10, lit 10, lit 10, lit (25 / 2), lit (25 / 2), lit (25 / 2)],
  .joint_motion (lit (1 / 2)) startPosition]

/-- What the robot is asked for by that. -/
def consecutiveStartBodies : List (RobotBody F) := defaultBehavior ++
  [thresholdsBody ![lit 10, lit 10, lit 9, lit 9, lit 6, lit 7, lit 6] ![lit 10, lit 10, lit 10, lit (25 / 2), lit (25 / 2), lit (25 / 2)],
    moveBody .JointPositions .JointImpedance]

/-- One of its motions. -/
def consecutiveMotion [FlExtra F] : RobotCall F :=
  .control_motion _ .JointVelocities (Examples.velocity_callback (lit (1 / 5)) (lit 4)) none none none (lit 0)

/-- `n` motions in turn. If one ends with a ControlException the robot is asked to recover, and it goes on with the next motion; everything else ends the program
with that result. -/
inductive Motions [FlExtra F] : Nat → World F → Res F Unit → World F → Prop where
  | done (w) : Motions 0 w (.ok ()) w
  | fine {n w w1 r w2} : consecutiveMotion.run w = (.ok (), w1) → Motions n w1 r w2 → Motions (n + 1) w r w2
  | recovered {n w l m w1 w2 r w3} : consecutiveMotion.run w = (.err (.ControlException l m), w1) →
      RobotCall.automatic_error_recovery.run w1 = (.ok (), w2) → Motions n w2 r w3 → Motions (n + 1) w r w3
  | lost {n w l m w1 r w2} : consecutiveMotion.run w = (.err (.ControlException l m), w1) →
      RobotCall.automatic_error_recovery.run w1 = (r, w2) → r ≠ .ok () → Motions (n + 1) w r w2
  | failed {n w r w1} : consecutiveMotion.run w = (r, w1) → r ≠ .ok () → (∀ l m, r ≠ .err (.ControlException l m)) → Motions (n + 1) w r w1

/-- What the robot is asked for by `n` motions: a motion, and, if it ended with a ControlException, perhaps a request to stop it, and to recover. -/
inductive MotionBodies : Nat → List (RobotBody F) → Prop where
  | nil : MotionBodies 0 []
  | fine {n l} : MotionBodies n l → MotionBodies (n + 1) (moveBody .JointVelocities .JointImpedance :: l)
  | recovered {n l} : MotionBodies n l → MotionBodies (n + 1) (moveBody .JointVelocities .JointImpedance :: .AutomaticErrorRecovery :: l)
  | stopped {n l} : MotionBodies n l → MotionBodies (n + 1) (moveBody .JointVelocities .JointImpedance :: .StopMove :: .AutomaticErrorRecovery :: l)

end Verif.Spec
