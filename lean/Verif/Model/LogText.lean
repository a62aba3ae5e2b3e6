import Verif.Model.Logger
/-!
The text of a log record: `Record::log` in `/repo/src/robot/logger.rs`. It is made by derived implementations of `Debug`, which write a struct as
`Name { field: value, field: value }`, an array or `Vec` as `[value, value]`, an `Option` as `None` or `Some(value)` and a variant without fields as its name.
-/
namespace Verif

/-- How `Debug` writes an `f64` (the standard library; uninterpreted). -/
class FloatText (F : Type) where
  text : F → List Char

variable {F : Type}

/-- The rest of a list after an element, as written by the derived `Debug` of arrays and `Vec` (`/repo/src/robot/logger.rs:44`). -/
def restText {α : Type} (T : α → List Char) : List α → List Char
  | [] => [']']
  | x :: l => [',', ' '] ++ T x ++ restText T l

/-- A list, as written by the derived `Debug` of arrays and `Vec` (`/repo/src/robot/logger.rs:44`). -/
def listText {α : Type} (T : α → List Char) : List α → List Char
  | [] => ['[', ']']
  | x :: l => ['['] ++ T x ++ restText T l

/-- The rest of a struct after a field, as written by a derived `Debug` (`/repo/src/robot/logger.rs:44`). -/
def moreText {α : Type} : List (String × (α → List Char)) → α → List Char
  | [], _ => [' ', '}']
  | f :: l, x => ([',', ' '] ++ f.1.toList ++ [':', ' ']) ++ f.2 x ++ moreText l x

/-- A struct, as written by a derived `Debug` (`/repo/src/robot/logger.rs:44`). A struct here has fields. -/
def structText {α : Type} (name : String) : List (String × (α → List Char)) → α → List Char
  | [], _ => name.toList
  | f :: l, x => (name.toList ++ [' ', '{', ' '] ++ f.1.toList ++ [':', ' ']) ++ f.2 x ++ moreText l x

/-- An `Option`, as written by its derived `Debug` (`/repo/src/robot/logger.rs:44`). -/
def optionText {α : Type} (T : α → List Char) : Option α → List Char
  | none => "None".toList
  | some x => "Some(".toList ++ T x ++ [')']

/-- `Debug` of a `bool` (`/repo/src/robot/logger.rs:44`). -/
def boolText (b : Bool) : List Char := if b then "true".toList else "false".toList

/-- The derived `Debug` of `FrankaError` is its name, which is also its `Display` (`/repo/src/robot/error.rs:10,101-105`). -/
def errorText (e : FrankaError) : List Char := e.fmt.toList

/-- The derived `Debug` of `FrankaErrors` (`/repo/src/robot/errors.rs:12-16`). -/
def errorsText (e : FrankaErrors) : List Char := structText "FrankaErrors" [("franka_errors", fun e => listText errorText e.franka_errors)] e

/-- The derived `Debug` of `RobotMode` (`/repo/src/robot/types.rs:29-39`). -/
def modeText : RobotMode → List Char
  | .Other => "Other".toList
  | .Idle => "Idle".toList
  | .Move => "Move".toList
  | .Guiding => "Guiding".toList
  | .Reflex => "Reflex".toList
  | .UserStopped => "UserStopped".toList
  | .AutomaticErrorRecovery => "AutomaticErrorRecovery".toList

/-- The digits after the point, without zeros at the end, of a part of less than a second in milliseconds: `Debug` of `Duration` (the field `time` at
`/repo/src/robot/robot_state.rs:255`). -/
def fractionText (ms : Nat) : List Char :=
  if ms = 0 then []
  else if ms % 100 = 0 then ['.', Nat.digitChar (ms / 100)]
  else if ms % 10 = 0 then ['.', Nat.digitChar (ms / 100), Nat.digitChar (ms / 10 % 10)]
  else ['.', Nat.digitChar (ms / 100), Nat.digitChar (ms / 10 % 10), Nat.digitChar (ms % 10)]

/-- `Debug` of a `Duration` of whole milliseconds (the field `time` at `/repo/src/robot/robot_state.rs:255`): seconds with a fraction, or milliseconds, or `0ns`. -/
def durationText (ms : Nat) : List Char :=
  if 1000 ≤ ms then (ms / 1000).repr.toList ++ fractionText (ms % 1000) ++ ['s'] else if 0 < ms then ms.repr.toList ++ ['m', 's'] else ['0', 'n', 's']

section
variable [FloatText F]

/-- A number in the text (`/repo/src/robot/logger.rs:44`). -/
def floatText (x : F) : List Char := FloatText.text x

/-- An array of numbers in the text (`/repo/src/robot/logger.rs:44`). -/
def arrText {n : Nat} (v : Arr F n) : List Char := listText floatText (List.ofFn v)

/-- The derived `Debug` of `RobotState` (`/repo/src/robot/robot_state.rs:13-256`). -/
def stateText : RobotState F → List Char := structText "RobotState"
  [("O_T_EE", fun s => arrText s.O_T_EE), ("O_T_EE_d", fun s => arrText s.O_T_EE_d), ("F_T_EE", fun s => arrText s.F_T_EE),
    ("F_T_NE", fun s => arrText s.F_T_NE), ("NE_T_EE", fun s => arrText s.NE_T_EE), ("EE_T_K", fun s => arrText s.EE_T_K),
    ("m_ee", fun s => floatText s.m_ee), ("I_ee", fun s => arrText s.I_ee), ("F_x_Cee", fun s => arrText s.F_x_Cee),
    ("m_load", fun s => floatText s.m_load), ("I_load", fun s => arrText s.I_load), ("F_x_Cload", fun s => arrText s.F_x_Cload),
    ("m_total", fun s => floatText s.m_total), ("I_total", fun s => arrText s.I_total), ("F_x_Ctotal", fun s => arrText s.F_x_Ctotal),
    ("elbow", fun s => arrText s.elbow), ("elbow_d", fun s => arrText s.elbow_d), ("elbow_c", fun s => arrText s.elbow_c),
    ("delbow_c", fun s => arrText s.delbow_c), ("ddelbow_c", fun s => arrText s.ddelbow_c), ("tau_J", fun s => arrText s.tau_J),
    ("tau_J_d", fun s => arrText s.tau_J_d), ("dtau_J", fun s => arrText s.dtau_J), ("q", fun s => arrText s.q),
    ("q_d", fun s => arrText s.q_d), ("dq", fun s => arrText s.dq), ("dq_d", fun s => arrText s.dq_d),
    ("ddq_d", fun s => arrText s.ddq_d), ("joint_contact", fun s => arrText s.joint_contact), ("cartesian_contact", fun s => arrText s.cartesian_contact),
    ("joint_collision", fun s => arrText s.joint_collision), ("cartesian_collision", fun s => arrText s.cartesian_collision), ("tau_ext_hat_filtered", fun s => arrText s.tau_ext_hat_filtered),
    ("O_F_ext_hat_K", fun s => arrText s.O_F_ext_hat_K), ("K_F_ext_hat_K", fun s => arrText s.K_F_ext_hat_K), ("O_dP_EE_d", fun s => arrText s.O_dP_EE_d),
    ("O_ddP_O", fun s => arrText s.O_ddP_O), ("O_T_EE_c", fun s => arrText s.O_T_EE_c), ("O_dP_EE_c", fun s => arrText s.O_dP_EE_c),
    ("O_ddP_EE_c", fun s => arrText s.O_ddP_EE_c), ("theta", fun s => arrText s.theta), ("dtheta", fun s => arrText s.dtheta),
    ("current_errors", fun s => errorsText s.current_errors), ("last_motion_errors", fun s => errorsText s.last_motion_errors), ("control_command_success_rate", fun s => floatText s.control_command_success_rate),
    ("robot_mode", fun s => modeText s.robot_mode), ("time", fun s => durationText s.time)]

/-- The derived `Debug` of `JointPositions` (`/repo/src/robot/control_types.rs:120-126`). -/
def jointPositionsText : JointPositions F → List Char := structText "JointPositions" [("motion_finished", fun x => boolText x.motion_finished), ("q", fun x => arrText x.q)]

/-- The derived `Debug` of `JointVelocities` (`/repo/src/robot/control_types.rs:194-200`). -/
def jointVelocitiesText : JointVelocities F → List Char := structText "JointVelocities" [("motion_finished", fun x => boolText x.motion_finished), ("dq", fun x => arrText x.dq)]

/-- The derived `Debug` of `CartesianPose` (`/repo/src/robot/control_types.rs:267-283`). -/
def cartesianPoseText : CartesianPose F → List Char := structText "CartesianPose"
  [("motion_finished", fun x => boolText x.motion_finished), ("O_T_EE", fun x => arrText x.O_T_EE), ("elbow", fun x => optionText arrText x.elbow)]

/-- The derived `Debug` of `CartesianVelocities` (`/repo/src/robot/control_types.rs:411-426`). -/
def cartesianVelocitiesText : CartesianVelocities F → List Char := structText "CartesianVelocities"
  [("motion_finished", fun x => boolText x.motion_finished), ("O_dP_EE", fun x => arrText x.O_dP_EE), ("elbow", fun x => optionText arrText x.elbow)]

/-- The derived `Debug` of `Torques` (`/repo/src/robot/control_types.rs:73-79`). -/
def torquesText : Torques F → List Char := structText "Torques" [("motion_finished", fun x => boolText x.motion_finished), ("tau_J", fun x => arrText x.tau_J)]

/-- The derived `Debug` of `RobotCommandLog` (`/repo/src/robot/logger.rs:13-29`). -/
def commandText : RobotCommandLog F → List Char := structText "RobotCommandLog"
  [("joint_positions", fun x => jointPositionsText x.joint_positions), ("joint_velocities", fun x => jointVelocitiesText x.joint_velocities),
    ("cartesian_pose", fun x => cartesianPoseText x.cartesian_pose), ("cartesian_velocities", fun x => cartesianVelocitiesText x.cartesian_velocities),
    ("torques", fun x => torquesText x.torques)]

/-- `Record::log` (`/repo/src/robot/logger.rs:42-46`). -/
def Record.log (r : Record F) : String :=
  String.ofList (structText "Record" [("state", fun x => stateText x.state), ("command", fun x => commandText x.command)] r)

end
end Verif
