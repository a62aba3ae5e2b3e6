import Verif.Model.Robot
import Verif.Model.Gripper
/-!
# Histories of API calls

A history of one connection is the constructor followed by any list of method calls. The user goes on after a call returned
`Err`; a panic or a call that does not return ends the history. Since a list is arbitrary, it also covers users who choose the next
call depending on earlier results.
-/
namespace Verif.Spec
open Prog
variable {F : Type} [Fl F] [Wire F]

/-- One method call on a `Robot`, with its arguments (and what its callbacks captured). -/
inductive RobotCall (F : Type) : Type 1 where
  | read (σ : Type) (cb : σ → RobotState F → σ × Bool) (c : σ)
  | read_once
  | set_collision_behavior (a b c d : Arr F 7) (e f g h : Arr F 6)
  | set_joint_impedance (K_theta : Arr F 7)
  | set_cartesian_impedance (K_x : Arr F 6)
  | set_guiding_mode (guiding_mode : Arr Bool 6) (elbow : Bool)
  | set_K (EE_T_K : Arr F 16)
  | set_EE (NE_T_EE : Arr F 16)
  | set_load (mass : F) (F_x_Cload : Arr F 3) (inertia : Arr F 9)
  | set_filters (a b c d e : F)
  | automatic_error_recovery
  | stop
  | get_virtual_wall (id : Int32)
  | control_motion (σ : Type) (k : MotionKind) (cb : σ → RobotState F → Nat → σ × Motion F k)
      (mode : Option ControllerModeArg) (limit_rate : Option Bool) (cutoff : Option F) (c : σ)
  | control_torques_and_motion (σ : Type) (k : MotionKind) (tcb : σ → RobotState F → Nat → σ × Torques F)
      (cb : σ → RobotState F → Nat → σ × Motion F k) (limit_rate : Option Bool) (cutoff : Option F) (c : σ)
  | control_torques (σ : Type) (tcb : σ → RobotState F → Nat → σ × Torques F) (limit_rate : Option Bool)
      (cutoff : Option F) (c : σ)
  | set_default_behavior
  | joint_motion (speed_factor : F) (q_goal : Arr F 7)
  | load_model (persistent : Bool)
  | server_version

/-- The effect of a call; the value it returns is dropped. -/
def RobotCall.run [Geo F] : RobotCall F → Prog F Unit
  | .read _ cb c => Robot.read cb c
  | .read_once => do let _ ← Robot.read_once; pure ()
  | .set_collision_behavior a b c d e f g h => Robot.set_collision_behavior a b c d e f g h
  | .set_joint_impedance k => Robot.set_joint_impedance k
  | .set_cartesian_impedance k => Robot.set_cartesian_impedance k
  | .set_guiding_mode m e => Robot.set_guiding_mode m e
  | .set_K t => Robot.set_K t
  | .set_EE t => Robot.set_EE t
  | .set_load m x i => Robot.set_load m x i
  | .set_filters a b c d e => Robot.set_filters a b c d e
  | .automatic_error_recovery => Robot.automatic_error_recovery
  | .stop => Robot.stop
  | .get_virtual_wall id => do let _ ← Robot.get_virtual_wall id; pure ()
  | .control_motion _ k cb mode l f c => Robot.control_motion k cb mode l f c
  | .control_torques_and_motion _ k tcb cb l f c => Robot.control_torques_and_motion k tcb cb l f c
  | .control_torques _ tcb l f c => Robot.control_torques tcb l f c
  | .set_default_behavior => Robot.set_default_behavior
  | .joint_motion s q => Robot.joint_motion s q
  | .load_model p => do let _ ← Robot.load_model p; pure ()
  | .server_version => do let _ ← (Robot.server_version : Prog F UInt16); pure ()

/-- A list of calls, continuing after errors. -/
def robotCalls [Geo F] : List (RobotCall F) → Prog F Unit
  | [] => pure ()
  | c :: cs => do
    let _ ← attempt c.run
    robotCalls cs

/-- A whole history of one `Robot`. -/
def robotSession [Geo F] (rc : Option RealtimeConfig) (log_size : Option Nat) (cs : List (RobotCall F)) : Prog F Unit := do
  Robot.new rc log_size
  robotCalls cs

/-- One method call on a `Gripper`. -/
inductive GripperCall (F : Type) : Type where
  | move_gripper (width speed : F)
  | homing
  | stop
  | grasp (width speed force : F) (epsilon_inner epsilon_outer : Option F)
  | read_once
  | server_version

/-- The effect of a call; the value it returns is dropped. -/
def GripperCall.run : GripperCall F → Prog F Unit
  | .move_gripper w s => do let _ ← Gripper.move_gripper w s; pure ()
  | .homing => do let _ ← (Gripper.homing : Prog F Bool); pure ()
  | .stop => do let _ ← (Gripper.stop : Prog F Bool); pure ()
  | .grasp w s f i o => do let _ ← Gripper.grasp w s f i o; pure ()
  | .read_once => do let _ ← (Gripper.read_once : Prog F _); pure ()
  | .server_version => do let _ ← (Gripper.server_version : Prog F UInt16); pure ()

/-- A list of calls, continuing after errors. -/
def gripperCalls : List (GripperCall F) → Prog F Unit
  | [] => pure ()
  | c :: cs => do
    let _ ← attempt c.run
    gripperCalls cs

/-- A whole history of one `Gripper`. -/
def gripperSession (cs : List (GripperCall F)) : Prog F Unit := do
  Gripper.new
  gripperCalls cs

/-- A world before a connection is made: nothing has happened yet, nothing is in the socket buffers.
Configuration, script, file system and the (unused) fields of the robot object are arbitrary. -/
def Fresh (w : World F) : Prop := w.trace = [] ∧ w.ker = {}

end Verif.Spec
