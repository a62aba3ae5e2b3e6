import Verif.Model.Robot
import Verif.Model.Gripper
import Verif.Model.Conversions
/-!
The example programs in `/repo/examples`: what they do with a robot. Parsing the command line, printing and waiting for the user are left out.
-/
namespace Verif

/-- Operations on doubles that only the examples use: `f64::floor`, `float_extras::f64::fmod`, `f64::powf`. -/
class FlExtra (F : Type) where
  ffloor : F → F
  fmod : F → F → F
  powf : F → F → F

namespace Examples
open Fl FlExtra
variable {F : Type} [Fl F]

/-- The joint configuration at which the examples start
(`/repo/examples/generate_joint_position_motion.rs:40`, `/repo/examples/generate_joint_velocity_motion.rs:43`, `/repo/examples/communication_test.rs:24` and others). -/
def q_goal : Arr F 7 := ![lit 0, -pi / lit 4, lit 0, -lit 3 * pi / lit 4, lit 0, pi / lit 2, pi / lit 4]

/-- The torque thresholds of most examples (`/repo/examples/generate_joint_position_motion.rs:30-33`). -/
def torques : Arr F 7 := ![lit 20, lit 20, lit 18, lit 18, lit 16, lit 14, lit 12]

/-- The force thresholds of most examples (`/repo/examples/generate_joint_position_motion.rs:34-37`). -/
def forces : Arr F 6 := ![lit 20, lit 20, lit 20, lit 25, lit 25, lit 25]

/-- What most examples do first (`/repo/examples/generate_joint_position_motion.rs:21-41`, `/repo/examples/generate_joint_velocity_motion.rs:24-44`,
`/repo/examples/generate_elbow_motion.rs:21-40`, `/repo/examples/generate_cartesian_pose_motion.rs:24-43`). -/
def prepare [Wire F] [Geo F] : Prog F Unit := do
  Robot.new none none
  Robot.set_default_behavior
  Robot.set_collision_behavior torques torques torques torques forces forces forces forces
  Robot.joint_motion (lit (1 / 2)) q_goal

/-! ## generate_joint_position_motion -/

/-- What the callback captures (`/repo/examples/generate_joint_position_motion.rs:43-44`). -/
structure PositionState (F : Type) where
  initial_position : Arr F 7
  time : F

/-- `/repo/examples/generate_joint_position_motion.rs:43-44` -/
def PositionState.new : PositionState F := ⟨![lit 0, lit 1, lit 2, lit 3, lit 4, lit 5, lit 6], lit 0⟩

/-- The callback (`/repo/examples/generate_joint_position_motion.rs:45-60`). -/
def position_callback (c : PositionState F) (state : RobotState F) (time_step : Nat) : PositionState F × JointPositions F :=
  let time := c.time + secs time_step
  let initial_position := if feq time (lit 0) then state.q_d else c.initial_position
  let delta_angle := pi / lit 8 * (lit 1 - fcos (pi / lit (5 / 2) * time))
  let out : JointPositions F := .new fun i => if i = 3 ∨ i = 4 ∨ i = 6 then initial_position i + delta_angle else initial_position i
  (⟨initial_position, time⟩, if fle (lit 5) time then Motion.motion_finished (k := .JointPositions) out else out)

/-- The program (`/repo/examples/generate_joint_position_motion.rs:19-62`). -/
def generate_joint_position_motion [Wire F] [Geo F] : Prog F Unit := do
  prepare
  Robot.control_motion .JointPositions position_callback none none none PositionState.new

/-! ## generate_joint_velocity_motion and generate_consecutive_motions -/

/-- The callback, with the time that it captures; `omega_max` and `time_max` are different in the two programs
(`/repo/examples/generate_joint_velocity_motion.rs:49-64`, `/repo/examples/generate_consecutive_motions.rs:48-63`). -/
def velocity_callback [FlExtra F] (omega_max time_max : F) (time : F) (_state : RobotState F) (time_step : Nat) : F × JointVelocities F :=
  let time := time + secs time_step
  let cycle := ffloor (powf (-lit 1) ((time - fmod time time_max) / time_max))
  let omega := cycle * omega_max / lit 2 * (lit 1 - fcos (lit 2 * pi / time_max * time))
  let out : JointVelocities F := .new ![lit 0, lit 0, lit 0, omega, omega, omega, omega]
  (time, if fle (lit 2 * time_max) time then Motion.motion_finished (k := .JointVelocities) out else out)

/-- The program (`/repo/examples/generate_joint_velocity_motion.rs:22-66`). -/
def generate_joint_velocity_motion [FlExtra F] [Wire F] [Geo F] : Prog F Unit := do
  prepare
  Robot.control_motion .JointVelocities (velocity_callback (lit 1) (lit 1)) none none none (lit 0)

/-- The loop of the second program; the closure is copied, so that every motion starts at time zero (`/repo/examples/generate_consecutive_motions.rs:64-79`). -/
def consecutive [FlExtra F] [Wire F] [Geo F] : Nat → Prog F Unit
  | 0 => pure ()
  | n + 1 => do
    let result ← Prog.attempt (Robot.control_motion .JointVelocities (velocity_callback (lit (1 / 5)) (lit 4)) none none none (lit 0))
    match result with
    | .ok _ => pure ()
    | .error (.ControlException _ _) => Robot.automatic_error_recovery
    | .error e => Prog.err e
    consecutive n

/-- The program (`/repo/examples/generate_consecutive_motions.rs:21-81`). -/
def generate_consecutive_motions [FlExtra F] [Wire F] [Geo F] : Prog F Unit := do
  Robot.new none none
  Robot.set_default_behavior
  let torques := ![lit 10, lit 10, lit 9, lit 9, lit 6, lit 7, lit 6]
  let forces := ![lit 10, lit 10, lit 10, lit (25 / 2), lit (25 / 2), lit (25 / 2)]
  Robot.set_collision_behavior torques torques torques torques forces forces forces forces
  Robot.joint_motion (lit (1 / 2)) q_goal
  consecutive 5

/-! ## generate_cartesian_velocity_motion -/

/-- The callback, with the time that it captures (`/repo/examples/generate_cartesian_velocity_motion.rs:53-74`). -/
def cartesian_velocity_callback [FlExtra F] (time : F) (_state : RobotState F) (period : Nat) : F × CartesianVelocities F :=
  let time_max := lit 4
  let v_max := lit (1 / 10)
  let angle := pi / lit 4
  let time := time + secs period
  let cycle := ffloor (powf (-lit 1) ((time - fmod time time_max) / time_max))
  let v := cycle * v_max / lit 2 * (lit 1 - fcos (lit 2 * pi / time_max * time))
  let v_x := fcos angle * v
  let v_z := -fsin angle * v
  let output : CartesianVelocities F := .new ![v_x, lit 0, v_z, lit 0, lit 0, lit 0] none
  (time, if fle (lit 2 * time_max) time then Motion.motion_finished (k := .CartesianVelocities) output else output)

/-- The program (`/repo/examples/generate_cartesian_velocity_motion.rs:19-76`). -/
def generate_cartesian_velocity_motion [FlExtra F] [Wire F] [Geo F] : Prog F Unit := do
  Robot.new none none
  Robot.set_default_behavior
  Robot.set_joint_impedance ![lit 3000, lit 3000, lit 3000, lit 2500, lit 2500, lit 2000, lit 2000]
  let lower_torque := ![lit 25, lit 25, lit 22, lit 20, lit 19, lit 17, lit 14]
  let upper_torque := ![lit 35, lit 35, lit 32, lit 30, lit 29, lit 27, lit 24]
  let lower_force := ![lit 30, lit 30, lit 30, lit 25, lit 25, lit 25]
  let upper_force := ![lit 40, lit 40, lit 40, lit 35, lit 35, lit 35]
  Robot.set_collision_behavior lower_torque upper_torque lower_torque upper_torque lower_force upper_force lower_force upper_force
  Robot.joint_motion (lit (1 / 2)) q_goal
  Robot.control_motion .CartesianVelocities cartesian_velocity_callback none none none (lit 0)

/-! ## generate_cartesian_pose_motion -/

/-- What the callback captures (`/repo/examples/generate_cartesian_pose_motion.rs:45-46`). -/
structure PoseState (F : Type) where
  initial_pose : CartesianPose F
  time : F

/-- `/repo/examples/generate_cartesian_pose_motion.rs:45-46` -/
def PoseState.new : PoseState F := ⟨.new (fun _ => lit 0) none, lit 0⟩

/-- The callback (`/repo/examples/generate_cartesian_pose_motion.rs:47-65`). -/
def pose_callback (c : PoseState F) (state : RobotState F) (time_step : Nat) : PoseState F × CartesianPose F :=
  let time := c.time + secs time_step
  let initial_pose := if feq time (lit 0) then { c.initial_pose with O_T_EE := state.O_T_EE_c } else c.initial_pose
  let radius := lit (3 / 10)
  let angle := pi / lit 4 * (lit 1 - fcos (pi / lit 5 * time))
  let delta_x := radius * fsin angle
  let delta_z := radius * (fcos angle - lit 1)
  let out : CartesianPose F := .new (fun i => if i = 12 then initial_pose.O_T_EE i + delta_x else if i = 14 then initial_pose.O_T_EE i + delta_z
    else initial_pose.O_T_EE i) none
  (⟨initial_pose, time⟩, if fle (lit 10) time then Motion.motion_finished (k := .CartesianPose) out else out)

/-- The program (`/repo/examples/generate_cartesian_pose_motion.rs:22-67`). -/
def generate_cartesian_pose_motion [Wire F] [Geo F] : Prog F Unit := do
  prepare
  Robot.control_motion .CartesianPose pose_callback none none none PoseState.new

/-! ## generate_elbow_motion -/

/-- What the callback captures (`/repo/examples/generate_elbow_motion.rs:42-44`). -/
structure ElbowState (F : Type) where
  initial_pose : Arr F 16
  initial_elbow : Arr F 2
  time : F

/-- `/repo/examples/generate_elbow_motion.rs:42-44` -/
def ElbowState.new : ElbowState F := ⟨fun _ => lit 0, fun _ => lit 0, lit 0⟩

/-- The callback (`/repo/examples/generate_elbow_motion.rs:45-60`). -/
def elbow_callback (c : ElbowState F) (state : RobotState F) (time_step : Nat) : ElbowState F × CartesianPose F :=
  let time := c.time + secs time_step
  let initial_pose := if feq time (lit 0) then state.O_T_EE_c else c.initial_pose
  let initial_elbow := if feq time (lit 0) then state.elbow_c else c.initial_elbow
  let angle := pi / lit 10 * (lit 1 - fcos (pi / lit 5 * time))
  let elbow : Arr F 2 := ![initial_elbow 0 + angle, initial_elbow 1]
  let out : CartesianPose F := .new initial_pose (some elbow)
  (⟨initial_pose, initial_elbow, time⟩, if fle (lit 10) time then Motion.motion_finished (k := .CartesianPose) out else out)

/-- The program (`/repo/examples/generate_elbow_motion.rs:19-62`). -/
def generate_elbow_motion [Wire F] [Geo F] : Prog F Unit := do
  prepare
  Robot.control_motion .CartesianPose elbow_callback none none none ElbowState.new

/-! ## communication_test -/

/-- What the callback captures (`/repo/examples/communication_test.rs:44-48`). The counters are `u64` there. -/
structure CommunicationState (F : Type) where
  time : Nat
  counter : Nat
  avg_success_rate : F
  min_success_rate : F
  max_success_rate : F

/-- `/repo/examples/communication_test.rs:44-48` -/
def CommunicationState.new : CommunicationState F := ⟨0, 0, lit 0, lit 1, lit 0⟩

/-- The callback (`/repo/examples/communication_test.rs:43,50-74`). -/
def communication_callback (c : CommunicationState F) (state : RobotState F) (time_step : Nat) : CommunicationState F × Torques F :=
  let zero_torques : Torques F := .new fun _ => lit 0
  let time := c.time + time_step
  if time = 0 then ({ c with time := time }, zero_torques) else
  let rate := state.control_command_success_rate
  ({ time := time
     counter := c.counter + 1
     avg_success_rate := c.avg_success_rate + rate
     max_success_rate := if flt c.max_success_rate rate then rate else c.max_success_rate
     min_success_rate := if flt rate c.min_success_rate then rate else c.min_success_rate },
    if 10000 ≤ time then zero_torques.with_motion_finished else zero_torques)

/-- The average that is printed (`/repo/examples/communication_test.rs:77,93`). -/
def CommunicationState.average (c : CommunicationState F) : F := c.avg_success_rate / ofNat c.counter

/-- The number of lost states that is printed; `none`: the subtraction overflows (`/repo/examples/communication_test.rs:78-89`). -/
def CommunicationState.lost_robot_states (c : CommunicationState F) : Option Nat := if c.counter ≤ c.time then some (c.time - c.counter) else none

/-- The part of the program that talks to the robot (`/repo/examples/communication_test.rs:23-75`). -/
def communication_test [Wire F] [Geo F] : Prog F Unit := do
  prepare
  Robot.control_torques communication_callback (some false) (some (lit 1000)) CommunicationState.new

/-! ## echo_robot_state -/

/-- The callback; the printing is the event of the callback (`/repo/examples/echo_robot_state.rs:20-26`). -/
def echo_callback (count : Nat) (_robot_state : RobotState F) : Nat × Bool := (count + 1, count + 1 ≤ 100)

/-- The program (`/repo/examples/echo_robot_state.rs:17-30`). -/
def echo_robot_state [Wire F] : Prog F Unit := do
  Robot.new none none
  Robot.read echo_callback 0

/-! ## grasp_object -/

/-- How the program ends (`/repo/examples/grasp_object.rs:27-41`). -/
inductive GraspResult where
  | tooLarge
  | lost
  | grasped
  deriving DecidableEq

/-- The program, with its command line arguments (`/repo/examples/grasp_object.rs:20-41`). It waits three seconds after grasping, which is left out. -/
def grasp_object [Wire F] (homing : Bool) (object_width : F) : Prog F GraspResult := do
  Gripper.new
  if homing then
    let _ ← (Gripper.homing : Prog F Bool)
  let state ← (Gripper.read_once : Prog F (Gripper.GripperState F))
  if flt state.max_width object_width then return .tooLarge
  let _ ← Gripper.grasp object_width (lit (1 / 10)) (lit 60) none none
  let state ← (Gripper.read_once : Prog F (Gripper.GripperState F))
  if !state.is_grasped then return .lost
  let _ ← (Gripper.stop : Prog F Bool)
  return .grasped

end Examples
end Verif
