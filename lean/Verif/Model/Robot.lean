import Verif.Model.ControlLoop
import Verif.Model.MotionGen
/-! The public API of the robot, `/repo/src/robot.rs`, and model loading of `/repo/src/robot/robot_impl.rs:233-244`. -/
namespace Verif
open Prog Fl
variable {F : Type} [Fl F] [Wire F]

/-- `handle_getter_setter_status` (`/repo/src/robot.rs:1069-1079`). -/
def handle_getter_setter_status (status : GetterSetterStatus) : Prog F Unit :=
  match status with
  | .Success => pure ()
  | .CommandNotPossibleRejected =>
    err (create_command_exception "libfranka-rs: command rejected: command not possible in current mode")
  | .InvalidArgumentRejected => err (create_command_exception "libfranka-rs: command rejected: invalid argument!")

/-- `LibraryDownloader::download` (`/repo/src/model/library_downloader.rs:21-52`). `File::create` and `write` are system calls; `write` accepts
at most `accept` bytes and the code does not look at the number. -/
def download : Prog F Unit := do
  let supported ← gets fun w => w.cfg.x86_64_linux
  if supported then do
    let header ← create_header_for_robot .LoadModelLibrary RobotCommandEnum.LoadModelLibrary.size_of_request
    let command_id ← tcp_send_request ⟨header, .LoadModelLibrary { architecture := .X64, system := .Linux }⟩
    let buffer ← tcp_blocking_receive_load_library_response command_id
    let t ← sys
    if t.fail then err (.ModelException "Error writing model to disk:")
    else do
      modify fun w => { w with model_file := some [] }
      let t ← sys
      if t.fail then err (.ModelException "Error writing model to disk:")
      else modify fun w => { w with model_file := some (buffer.take t.accept) }
  else err (.ModelException "Your platform is not yet supported for Downloading models. Please use Linux onx86_64 for now")

/-- `Model::new(model_file, None)` (`/repo/src/model.rs:102-109`): the loaded library is represented by the content of the file. A file which
disappeared can not be opened. -/
def model_new : Prog F Bytes := do
  let file ← gets fun w => w.model_file
  let model_error ← gets fun w => w.cfg.model_error
  match file with
  | none => err (.ModelException "lifbranka-rs: Can not open model library")
  | some content =>
    match model_error content with
    | some m => err (.ModelException m)
    | none => pure content

namespace Robot

/-- `Network::new` for a robot (`/repo/src/network.rs:66-120`): one system call stands for connecting; name resolution and the
other socket calls are not modelled. -/
def network_new (network_type : NetworkType) : Prog F Bool := do
  let t ← sys
  if t.fail then pure false
  else do
    modify fun w => { w with cfg := { w.cfg with network_type := network_type }, net := {} }
    pure true

/-- `Robot::new` (`/repo/src/robot.rs:135-153`). -/
def new (realtime_config : Option RealtimeConfig) (log_size : Option Nat) : Prog F Unit := do
  let realtime_config := realtime_config.getD .Enforce
  let log_size := log_size.getD 50
  if ← network_new .Robot then RobotImpl.new log_size realtime_config
  else err (.NetworkException "Connection could not be established")

/-- `Robot::read` (`/repo/src/robot.rs:176-187`); the callback may change what it captured. -/
def read {σ : Type} (read_callback : σ → RobotState F → σ × Bool) (c : σ) : Prog F Unit :=
  loop (fun c : σ => do
    let state ← update none none
    let (c, cont) := read_callback c state
    emit (.readCb state cont)
    if cont then pure (.inl c) else pure (.inr ())) c

/-- `Robot::read_once` (`/repo/src/robot.rs:196-198`). -/
def read_once : Prog F (RobotState F) := RobotImpl.read_once

/-- `set_collision_behavior` (`/repo/src/robot.rs:232-265`). -/
def set_collision_behavior (lower_torque_thresholds_acceleration upper_torque_thresholds_acceleration
    lower_torque_thresholds_nominal upper_torque_thresholds_nominal : Arr F 7)
    (lower_force_thresholds_acceleration upper_force_thresholds_acceleration
    lower_force_thresholds_nominal upper_force_thresholds_nominal : Arr F 6) : Prog F Unit := do
  let header ← create_header_for_robot .SetCollisionBehavior RobotCommandEnum.SetCollisionBehavior.size_of_request
  let command_id ← tcp_send_request ⟨header, .SetCollisionBehavior
    ⟨lower_torque_thresholds_acceleration, upper_torque_thresholds_acceleration,
      lower_torque_thresholds_nominal, upper_torque_thresholds_nominal,
      lower_force_thresholds_acceleration, upper_force_thresholds_acceleration,
      lower_force_thresholds_nominal, upper_force_thresholds_nominal⟩⟩
  let response ← tcp_blocking_receive_response SetterResponse.codec command_id
  handle_getter_setter_status response.status

/-- `set_joint_impedance` (`/repo/src/robot.rs:276-290`). -/
def set_joint_impedance (K_theta : Arr F 7) : Prog F Unit := do
  let header ← create_header_for_robot .SetJointImpedance RobotCommandEnum.SetJointImpedance.size_of_request
  let command_id ← tcp_send_request ⟨header, .SetJointImpedance ⟨K_theta⟩⟩
  let response ← tcp_blocking_receive_response SetterResponse.codec command_id
  handle_getter_setter_status response.status

/-- `set_cartesian_impedance` (`/repo/src/robot.rs:303-317`). -/
def set_cartesian_impedance (K_x : Arr F 6) : Prog F Unit := do
  let header ← create_header_for_robot .SetCartesianImpedance RobotCommandEnum.SetCartesianImpedance.size_of_request
  let command_id ← tcp_send_request ⟨header, .SetCartesianImpedance ⟨K_x⟩⟩
  let response ← tcp_blocking_receive_response SetterResponse.codec command_id
  handle_getter_setter_status response.status

/-- `set_guiding_mode` (`/repo/src/robot.rs:329-343`). -/
def set_guiding_mode (guiding_mode : Arr Bool 6) (elbow : Bool) : Prog F Unit := do
  let header ← create_header_for_robot .SetGuidingMode RobotCommandEnum.SetGuidingMode.size_of_request
  let command_id ← tcp_send_request ⟨header, .SetGuidingMode ⟨guiding_mode, elbow⟩⟩
  let response ← tcp_blocking_receive_response SetterResponse.codec command_id
  handle_getter_setter_status response.status

/-- `set_K` (`/repo/src/robot.rs:356-370`). -/
def set_K (EE_T_K : Arr F 16) : Prog F Unit := do
  let header ← create_header_for_robot .SetEeToK RobotCommandEnum.SetEeToK.size_of_request
  let command_id ← tcp_send_request ⟨header, .SetEeToK ⟨EE_T_K⟩⟩
  let response ← tcp_blocking_receive_response SetterResponse.codec command_id
  handle_getter_setter_status response.status

/-- `set_EE` (`/repo/src/robot.rs:387-401`). -/
def set_EE (NE_T_EE : Arr F 16) : Prog F Unit := do
  let header ← create_header_for_robot .SetNeToEe RobotCommandEnum.SetNeToEe.size_of_request
  let command_id ← tcp_send_request ⟨header, .SetNeToEe ⟨NE_T_EE⟩⟩
  let response ← tcp_blocking_receive_response SetterResponse.codec command_id
  handle_getter_setter_status response.status

/-- `set_load` (`/repo/src/robot.rs:417-436`). -/
def set_load (load_mass : F) (F_x_Cload : Arr F 3) (load_inertia : Arr F 9) : Prog F Unit := do
  let header ← create_header_for_robot .SetLoad RobotCommandEnum.SetLoad.size_of_request
  let command_id ← tcp_send_request ⟨header, .SetLoad ⟨load_mass, F_x_Cload, load_inertia⟩⟩
  let response ← tcp_blocking_receive_response SetterResponse.codec command_id
  handle_getter_setter_status response.status

/-- `set_filters` (`/repo/src/robot.rs:455-482`). -/
def set_filters (joint_position_filter_frequency joint_velocity_filter_frequency cartesian_position_filter_frequency
    cartesian_velocity_filter_frequency controller_filter_frequency : F) : Prog F Unit := do
  let header ← create_header_for_robot .SetFilters RobotCommandEnum.SetFilters.size_of_request
  let command_id ← tcp_send_request ⟨header, .SetFilters
    ⟨joint_position_filter_frequency, joint_velocity_filter_frequency, cartesian_position_filter_frequency,
      cartesian_velocity_filter_frequency, controller_filter_frequency⟩⟩
  let response ← tcp_blocking_receive_response SetterResponse.codec command_id
  handle_getter_setter_status response.status

/-- `automatic_error_recovery` (`/repo/src/robot.rs:490-522`). -/
def automatic_error_recovery : Prog F Unit := do
  let header ← create_header_for_robot .AutomaticErrorRecovery RobotCommandEnum.AutomaticErrorRecovery.size_of_request
  let command_id ← tcp_send_request ⟨header, .AutomaticErrorRecovery⟩
  let response ← tcp_blocking_receive_response AutomaticErrorRecoveryResponse.codec command_id
  match response.status with
  | .Success => pure ()
  | .EmergencyAborted => err (create_command_exception "libfranka-rs: command aborted: User Stop pressed!")
  | .ReflexAborted => err (create_command_exception "libfranka-rs: command aborted: motion aborted by reflex!")
  | .CommandNotPossibleRejected =>
    err (create_command_exception "libfranka-rs: command rejected: command not possible in current mode")
  | .ManualErrorRecoveryRequiredRejected =>
    err (create_command_exception "libfranka-rs: command rejected: manual error recovery required!")
  | .Aborted => err (create_command_exception "libfranka-rs: command aborted!")

/-- `Robot::stop` (`/repo/src/robot.rs:531-557`). -/
def stop : Prog F Unit := do
  let header ← create_header_for_robot .StopMove RobotCommandEnum.StopMove.size_of_request
  let command_id ← tcp_send_request ⟨header, .StopMove⟩
  let response ← tcp_blocking_receive_response StopMoveResponse.codec command_id
  match response.status with
  | .Success => pure ()
  | .CommandNotPossibleRejected | .Aborted =>
    err (create_command_exception "libfranka-rs: command rejected: command not possible in current mode")
  | .EmergencyAborted => err (create_command_exception "libfranka-rs: command aborted: User Stop pressed!")
  | .ReflexAborted => err (create_command_exception "libfranka-rs: command aborted: motion aborted by reflex!")

/-- `VirtualWallCuboid` (`/repo/src/robot/virtual_wall_cuboid.rs:8-17`). -/
structure VirtualWallCuboid (F : Type) where
  id : Int32
  object_world_size : Arr F 3
  p_frame : Arr F 16
  active : Bool

/-- `VirtualWallCuboid::new` (`/repo/src/robot/virtual_wall_cuboid.rs:20-27`). -/
def VirtualWallCuboid.new (id : Int32) (response : GetCartesianLimitResponse F) : VirtualWallCuboid F where
  id := id
  object_world_size := response.object_world_size
  p_frame := response.object_frame
  active := response.object_activation

/-- `get_virtual_wall` (`/repo/src/robot.rs:566-588`). -/
def get_virtual_wall (id : Int32) : Prog F (VirtualWallCuboid F) := do
  let header ← create_header_for_robot .GetCartesianLimit RobotCommandEnum.GetCartesianLimit.size_of_request
  let command_id ← tcp_send_request ⟨header, .GetCartesianLimit ⟨id⟩⟩
  let response ← tcp_blocking_receive_response (GetCartesianLimitResponse.codec F) command_id
  match response.status with
  | .Success => pure (VirtualWallCuboid.new id response)
  | .CommandNotPossibleRejected =>
    err (create_command_exception "libfranka-rs: command rejected: command not possible in current mode")
  | .InvalidArgumentRejected => err (create_command_exception "libfranka-rs: command rejected: invalid argument!")

variable {σ : Type} {k : MotionKind}

/-- `control_torques_intern` (`/repo/src/robot.rs:979-999`). -/
def control_torques_intern [Geo F] (motion_generator_callback : σ → RobotState F → Nat → σ × Motion F k)
    (control_callback : σ → RobotState F → Nat → σ × Torques F) (limit_rate : Option Bool) (cutoff_frequency : Option F)
    (c : σ) : Prog F Unit := do
  let limit_rate := limit_rate.getD true
  let cutoff_frequency := cutoff_frequency.getD DEFAULT_CUTOFF_FREQUENCY
  let control_loop ← ControlLoop.new control_callback motion_generator_callback limit_rate cutoff_frequency
  control_loop.run c

/-- `control_motion_intern` (`/repo/src/robot.rs:1000-1021`). -/
def control_motion_intern [Geo F] (motion_generator_callback : σ → RobotState F → Nat → σ × Motion F k)
    (controller_mode : Option ControllerModeArg) (limit_rate : Option Bool) (cutoff_frequency : Option F) (c : σ) :
    Prog F Unit := do
  let controller_mode := controller_mode.getD .JointImpedance
  let limit_rate := limit_rate.getD true
  let cutoff_frequency := cutoff_frequency.getD DEFAULT_CUTOFF_FREQUENCY
  let control_loop ← ControlLoop.from_control_mode controller_mode motion_generator_callback limit_rate cutoff_frequency
  control_loop.run c

/-- `control_joint_positions` (`/repo/src/robot.rs:613-631`), `control_joint_velocities` (655-673), `control_cartesian_pose` (698-716),
`control_cartesian_velocities` (741-759): the kind of motion is the argument `k`. -/
def control_motion [Geo F] (k : MotionKind) (motion_generator_callback : σ → RobotState F → Nat → σ × Motion F k)
    (controller_mode : Option ControllerModeArg) (limit_rate : Option Bool) (cutoff_frequency : Option F) (c : σ) :
    Prog F Unit :=
  control_motion_intern motion_generator_callback controller_mode limit_rate cutoff_frequency c

/-- `control_torques_and_joint_velocities` (`/repo/src/robot.rs:784-802`), `control_torques_and_joint_positions` (827-845),
`control_torques_and_cartesian_pose` (871-889), `control_torques_and_cartesian_velocities` (915-933): the kind of motion is the argument `k`. -/
def control_torques_and_motion [Geo F] (k : MotionKind) (control_callback : σ → RobotState F → Nat → σ × Torques F)
    (motion_generator_callback : σ → RobotState F → Nat → σ × Motion F k) (limit_rate : Option Bool)
    (cutoff_frequency : Option F) (c : σ) : Prog F Unit :=
  control_torques_intern motion_generator_callback control_callback limit_rate cutoff_frequency c

/-- `control_torques` (`/repo/src/robot.rs:960-978`). -/
def control_torques [Geo F] (control_callback : σ → RobotState F → Nat → σ × Torques F) (limit_rate : Option Bool)
    (cutoff_frequency : Option F) (c : σ) : Prog F Unit :=
  control_torques_intern (k := .JointVelocities)
    (fun c _ _ => (c, (JointVelocities.new (fun _ => lit 0) : JointVelocities F))) control_callback limit_rate cutoff_frequency c

/-- `set_default_behavior` (`/repo/src/robot.rs:1026-1033`). -/
def set_default_behavior : Prog F Unit := do
  set_collision_behavior (fun _ => lit 20) (fun _ => lit 20) (fun _ => lit 10) (fun _ => lit 10)
    (fun _ => lit 20) (fun _ => lit 20) (fun _ => lit 10) (fun _ => lit 10)
  set_joint_impedance ![lit 3000, lit 3000, lit 3000, lit 2500, lit 2500, lit 2000, lit 2000]
  set_cartesian_impedance ![lit 3000, lit 3000, lit 3000, lit 300, lit 300, lit 300]

/-- `joint_motion` (`/repo/src/robot.rs:1040-1048`). -/
def joint_motion [Geo F] (speed_factor : F) (q_goal : Arr F 7) : Prog F Unit :=
  control_motion .JointPositions (fun g state time => MotionGenerator.generate_motion g state time)
    (some .JointImpedance) (some true) (some MAX_CUTOFF_FREQUENCY) (MotionGenerator.new speed_factor q_goal)

/-- `load_model` (`/repo/src/robot.rs:1057-1059`, `/repo/src/robot/robot_impl.rs:233-244`). -/
def load_model (persistent : Bool) : Prog F Bytes := do
  let file ← gets fun w => w.model_file
  let model_already_downloaded := file.isSome
  if model_already_downloaded then pure () else download
  let model ← model_new
  if !persistent && model_already_downloaded then do
    let t ← sys
    if t.fail then Prog.panic "Could not delete file"
    else do
      modify fun w => { w with model_file := none }
      pure model
  else pure model

/-- `server_version` (`/repo/src/robot.rs:1064-1066`). -/
def server_version : Prog F UInt16 := Verif.server_version

end Robot
end Verif
