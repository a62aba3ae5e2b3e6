import Verif.Model.Network
/-! Connection state, state reception and motion handling of the robot, `/repo/src/robot/robot_impl.rs`. -/
namespace Verif
open Prog Fl
variable {F : Type} [Fl F] [Wire F]

/-- `Display` of `FrankaException` (`/repo/src/exception.rs:10-58`). `{message:?}` prints the message between quotes. Simplification:
characters which Rust would escape inside the quotes are left as they are (no message of the code contains one). -/
def FrankaException.to_string : FrankaException F → String
  | .ControlException _ error => error
  | .IncompatibleLibraryVersionError s l =>
    s!"Incompatible library version: Robot has version {s} and libfranka-rs has {l}"
  | .NoMotionGeneratorRunningError => "Trying to send motion command, but no motion generator running!"
  | .NoControllerRunningError => "Trying to send control command, but no controller generator running!"
  | .PartialCommandError => "Trying to send partial command!"
  | .NetworkException m => "\"" ++ m ++ "\""
  | .CommandException m => "\"" ++ m ++ "\""
  | .ModelException m => "\"" ++ m ++ "\""
  | .RealTimeException m => "\"" ++ m ++ "\""

/-- `handle_command_response_move` (`/repo/src/robot/robot_impl.rs:40-72`). -/
def handle_command_response_move (response : MoveResponse) : Except (FrankaException F) Unit :=
  match response.status with
  | .Success => .ok ()
  | .MotionStarted => .ok ()
  | .EmergencyAborted => .error (create_command_exception "libfranka-rs: Move command aborted: User Stop pressed!")
  | .ReflexAborted => .error (create_command_exception "libfranka-rs: Move command aborted: motion aborted by reflex!")
  | .InputErrorAborted => .error (create_command_exception "libfranka-rs: Move command aborted: invalid input provided!")
  | .CommandNotPossibleRejected =>
    .error (create_command_exception "libfranka-rs: Move command rejected: command not possible in the current mode!")
  | .StartAtSingularPoseRejected =>
    .error (create_command_exception "libfranka-rs: Move command rejected: cannot start at singular pose!")
  | .InvalidArgumentRejected =>
    .error (create_command_exception "libfranka-rs: Move command rejected: maximum path deviation out of range!")
  | .Preempted => .error (create_command_exception "libfranka-rs: Move command preempted!")
  | .Aborted => .error (create_command_exception "libfranka-rs: Move command aborted!")

/-- `handle_command_response_stop` (`/repo/src/robot/robot_impl.rs:74-90`). -/
def handle_command_response_stop (response : StopMoveResponse) : Except (FrankaException F) Unit :=
  match response.status with
  | .Success => .ok ()
  | .EmergencyAborted => .error (create_command_exception "libfranka-rs: Stop command aborted: User Stop pressed!")
  | .ReflexAborted => .error (create_command_exception "libfranka-rs: Stop command aborted: motion aborted by reflex!")
  | .CommandNotPossibleRejected =>
    .error (create_command_exception "libfranka-rs: Stop command rejected: command not possible in the current mode!")
  | .Aborted => .error (create_command_exception "libfranka-rs: Stop command aborted!")

/-- A `Result` as the end of a function or with `?` (e.g. `/repo/src/robot/robot_impl.rs:269`). -/
def ofExcept {α : Type} : Except (FrankaException F) α → Prog F α
  | .ok a => pure a
  | .error e => err e

/-- `Option::unwrap` (e.g. `/repo/src/robot/robot_impl.rs:228`). -/
def unwrapOpt {α : Type} : Option α → Prog F α
  | some a => pure a
  | none => Prog.panic "called `Option::unwrap()` on a `None` value"

/-- The fields `RobotImpl::new` starts with (`/repo/src/robot/robot_impl.rs:98-111`). -/
def RobotImpl.init (log_size : Nat) (realtime_config : RealtimeConfig) : RobotImpl F where
  logger := Logger.new log_size
  realtime_config := realtime_config
  ri_version := none
  motion_generator_mode := none
  current_move_motion_generator_mode := .Idle
  controller_mode := .Other
  current_move_controller_mode := none
  message_id := 0

/-- `connect_robot` (`/repo/src/robot/robot_impl.rs:120-141`). -/
def connect_robot : Prog F Unit := do
  let header ← create_header_for_robot .Connect RobotCommandEnum.Connect.size_of_request
  let port ← gets fun w => w.cfg.udp_port
  let command_id ← tcp_send_request ⟨header, .Connect (ConnectRequest.new port)⟩
  let connect_response ← tcp_blocking_receive_response ConnectResponse.codec command_id
  match connect_response.status with
  | .Success => modify fun w => { w with rob := { w.rob with ri_version := some connect_response.version } }
  | _ => err (.IncompatibleLibraryVersionError connect_response.version VERSION)

/-- `update_state_with` (`/repo/src/robot/robot_impl.rs:142-146`), with the ghost event `accepted`. -/
def update_state_with (s : RobotStateIntern F) : Prog F Unit := do
  modify fun w => { w with rob := { w.rob with
    motion_generator_mode := some s.motion_generator_mode
    controller_mode := s.controller_mode
    message_id := s.message_id } }
  emit (.accepted s)

/-- `RobotImpl::new` after the network is connected (`/repo/src/robot/robot_impl.rs:93-119`). -/
def RobotImpl.new (log_size : Nat) (realtime_config : RealtimeConfig) : Prog F Unit := do
  modify fun w => { w with rob := RobotImpl.init log_size realtime_config }
  connect_robot
  match ← attempt (udp_blocking_receive (RobotStateIntern.codec F) size_of_RobotStateIntern) with
  | .error _ => Prog.panic "called `Result::unwrap()` on an `Err` value: NetworkException"
  | .ok state => update_state_with state

/-- The first `while` of `receive_robot_state` (`/repo/src/robot/robot_impl.rs:152-164`): everything that is already there. -/
def receive_available : Prog F (Option (RobotStateIntern F)) :=
  loop (fun latest : Option (RobotStateIntern F) => do
    match ← udp_receive (RobotStateIntern.codec F) size_of_RobotStateIntern with
    | none => pure (.inr latest)
    | some s => do
      let own ← gets fun w => w.rob.message_id
      let bound := match latest with
        | some l => l.message_id
        | none => own
      if bound < s.message_id then pure (.inl (some s)) else pure (.inl latest)) none

/-- The second `while` of `receive_robot_state` (`/repo/src/robot/robot_impl.rs:165-170`): wait for a newer state. -/
def receive_newer (latest : Option (RobotStateIntern F)) : Prog F (RobotStateIntern F) :=
  loop (fun latest : Option (RobotStateIntern F) =>
    match latest with
    | some s => pure (.inr s)
    | none => do
      let s ← udp_blocking_receive (RobotStateIntern.codec F) size_of_RobotStateIntern
      let own ← gets fun w => w.rob.message_id
      if own < s.message_id then pure (.inl (some s)) else pure (.inl none)) latest

/-- `receive_robot_state` (`/repo/src/robot/robot_impl.rs:151-173`). -/
def receive_robot_state : Prog F (RobotStateIntern F) := do
  let latest ← receive_available
  let state ← receive_newer latest
  update_state_with state
  pure state

/-- `while udp_receive::<RobotStateIntern>().is_some() {}` (`/repo/src/robot/robot_impl.rs:148`). -/
def discard_available : Prog F Unit :=
  loop (fun _ : Unit => do
    match ← udp_receive (RobotStateIntern.codec F) size_of_RobotStateIntern with
    | some _ => pure (.inl ())
    | none => pure (.inr ())) ()

/-- `RobotImpl::read_once` (`/repo/src/robot/robot_impl.rs:147-150`). -/
def RobotImpl.read_once : Prog F (RobotState F) := do
  discard_available
  let s ← receive_robot_state
  pure (RobotState.ofIntern s)

/-- `udp_send` with the change of the error in `send_robot_command` (`/repo/src/robot/robot_impl.rs:204-209,216-221`). -/
def send_command_or_wrap (command : RobotCommand F) : Prog F (Option (RobotCommand F)) := do
  match ← attempt (udp_send command) with
  | .ok _ => pure (some command)
  | .error e => err (.NetworkException ("libfranka-rs: UDP send: " ++ e.to_string))

/-- `send_robot_command` (`/repo/src/robot/robot_impl.rs:174-226`). -/
def send_robot_command (motion_command : Option (MotionGeneratorCommand F)) (control_command : Option (ControllerCommand F)) :
    Prog F (Option (RobotCommand F)) := do
  let rob ← gets fun w => w.rob
  if motion_command.isSome || control_command.isSome then do
    if motion_command.isSome && decide (rob.current_move_motion_generator_mode = .Idle) then
      err .NoMotionGeneratorRunningError
    else do
      let controller_missing ← if control_command.isSome then do
          let m ← unwrapOpt rob.current_move_controller_mode
          pure (decide (m ≠ .ExternalController))
        else pure false
      if controller_missing then err .NoControllerRunningError
      else do
        let partial_command ← if rob.current_move_motion_generator_mode ≠ .Idle then do
            let m ← unwrapOpt rob.current_move_controller_mode
            pure (decide (m = .ExternalController) && (!motion_command.isSome || !control_command.isSome))
          else pure false
        if partial_command then err .PartialCommandError
        else
          match motion_command, control_command with
          | some m, some c => send_command_or_wrap { message_id := rob.message_id, motion := m, control := c }
          | some m, none =>
            send_command_or_wrap { message_id := rob.message_id, motion := m, control := { tau_J_d := fun _ => lit 0 } }
          | none, _ => pure none
  else pure none

/-- `motion_generator_running` (`/repo/src/robot/robot_impl.rs:227-229`). -/
def motion_generator_running : Prog F Bool := do
  let m ← gets fun w => w.rob.motion_generator_mode
  let m ← unwrapOpt m
  pure (decide (m ≠ .Idle))

/-- `controller_running` (`/repo/src/robot/robot_impl.rs:230-232`). -/
def controller_running : Prog F Bool := gets fun w => decide (w.rob.controller_mode = .ExternalController)

/-- `motion_generator_running() || controller_running()` (`/repo/src/robot/robot_impl.rs:294,350,364,401`). -/
def something_running : Prog F Bool := do
  let a ← motion_generator_running
  if a then pure true else controller_running

/-- `server_version` (`/repo/src/robot/robot_impl.rs:245-247`, also `/repo/src/gripper.rs:176-178`). -/
def server_version : Prog F UInt16 := do
  let v ← gets fun w => w.rob.ri_version
  unwrapOpt v

/-- `execute_move_command` (`/repo/src/robot/robot_impl.rs:248-271`). -/
def execute_move_command (controller_mode : MoveControllerMode) (motion_generator_mode : MoveMotionGeneratorMode)
    (maximum_path_deviation maximum_goal_deviation : MoveDeviation F) : Prog F UInt32 := do
  let header ← create_header_for_robot .Move RobotCommandEnum.Move.size_of_request
  let command_id ← tcp_send_request ⟨header, .Move
    { controller_mode, motion_generator_mode, maximum_path_deviation, maximum_goal_deviation }⟩
  let response ← tcp_blocking_receive_response MoveResponse.codec command_id
  ofExcept (handle_command_response_move response)
  pure command_id

/-- `execute_stop_command` (`/repo/src/robot/robot_impl.rs:272-283`). -/
def execute_stop_command : Prog F UInt32 := do
  let header ← create_header_for_robot .StopMove RobotCommandEnum.StopMove.size_of_request
  let command_id ← tcp_send_request ⟨header, .StopMove⟩
  let response ← tcp_blocking_receive_response StopMoveResponse.codec command_id
  ofExcept (handle_command_response_stop response)
  pure command_id

/-- `Duration - Duration` in milliseconds, panics on underflow (`/repo/src/robot/robot_impl.rs:476`,
`/repo/src/robot/control_loop.rs:142,146,164`). -/
def durSub (a b : Nat) : P Nat :=
  if b ≤ a then .ok (a - b) else .error "overflow when subtracting durations"

/-- `update` (`/repo/src/robot/robot_impl.rs:416-427`). -/
def update (motion_command : Option (MotionGeneratorCommand F)) (control_command : Option (ControllerCommand F)) :
    Prog F (RobotState F) := do
  let robot_command ← send_robot_command motion_command control_command
  let s ← receive_robot_state
  let state := RobotState.ofIntern s
  match robot_command with
  | some command => do
    let l ← gets fun w => w.rob.logger
    let l' ← liftP (l.log state command)
    modify fun w => { w with rob := { w.rob with logger := l' } }
    pure state
  | none => pure state

/-- `self.logger.flush()` (`/repo/src/robot/robot_impl.rs:340,374,384,449`). -/
def flush_logger : Prog F (List (Record F)) := do
  let l ← gets fun w => w.rob.logger
  let (records, l') ← liftP l.flush
  modify fun w => { w with rob := { w.rob with logger := l' } }
  pure records

/-- The mode the robot reports while this motion runs (`/repo/src/robot/robot_impl.rs:297-302`). -/
def MoveMotionGeneratorMode.reported : MoveMotionGeneratorMode → MotionGeneratorMode
  | .JointPosition => .JointPosition
  | .JointVelocity => .JointVelocity
  | .CartesianPosition => .CartesianPosition
  | .CartesianVelocity => .CartesianVelocity

/-- The mode the robot reports while this controller runs (`/repo/src/robot/robot_impl.rs:303-307`). -/
def MoveControllerMode.reported : MoveControllerMode → ControllerMode
  | .JointImpedance => .JointImpedance
  | .ExternalController => .ExternalController
  | .CartesianImpedance => .CartesianImpedance

/-- Is the commanded mode not yet reported (`/repo/src/robot/robot_impl.rs:315-316`). -/
def modes_differ : Prog F Bool := do
  let rob ← gets fun w => w.rob
  let m ← unwrapOpt rob.motion_generator_mode
  pure (decide (m ≠ rob.current_move_motion_generator_mode)
    || decide (some rob.controller_mode ≠ rob.current_move_controller_mode))

/-- The `while` of `start_motion` (`/repo/src/robot/robot_impl.rs:315-339`). -/
def wait_for_motion_start (move_command_id : UInt32) : Prog F Unit :=
  loop (fun _ : Unit => do
    if ← modes_differ then do
      match ← attempt (tcp_receive_response move_command_id handle_command_response_move) with
      | .ok true => pure (.inr ())
      | .ok false => do
        let _ ← update none none
        pure (.inl ())
      | .error (.CommandException message) => err (.ControlException none message)
      | .error _ => Prog.panic "this should be an command exception but it is not"
    else pure (.inr ())) ()

/-- `start_motion` (`/repo/src/robot/robot_impl.rs:287-342`). -/
def start_motion (controller_mode : MoveControllerMode) (motion_generator_mode : MoveMotionGeneratorMode)
    (maximum_path_deviation maximum_goal_deviation : MoveDeviation F) : Prog F UInt32 := do
  if ← something_running then Prog.panic "libfranka-rs robot: Attempted to start multiple motions!"
  else do
    modify fun w => { w with rob := { w.rob with
      current_move_motion_generator_mode := motion_generator_mode.reported
      current_move_controller_mode := some controller_mode.reported } }
    let move_command_id ← execute_move_command controller_mode motion_generator_mode maximum_path_deviation
      maximum_goal_deviation
    wait_for_motion_start move_command_id
    let _ ← flush_logger
    pure move_command_id

/-- `lost_packets` of `create_control_exception` (`/repo/src/robot/robot_impl.rs:475-476`): `u128` subtraction. -/
def lost_packets_of (checks : Bool) (last previous : Nat) : P Nat := do
  let d ← durSub last previous
  if d = 0 then if checks then throw "attempt to subtract with overflow" else return 2 ^ 128 - 1
  else return d - 1

/-- The part of `create_control_exception` for a log of at least two records (`/repo/src/robot/robot_impl.rs:475-489`); the last two
records are given oldest first. -/
def success_rate_text (checks : Bool) (previous last : Record F) : P String := do
  let lost_packets ← lost_packets_of checks last.state.time previous.state.time
  let rate := previous.state.control_command_success_rate * (lit 1 - ofNat lost_packets / lit 100)
  let text := "\ncontrol_command_success_rate: " ++ fmt rate
  return if 0 < lost_packets then text ++ s!" packets lost in a row in the last sample: {lost_packets}" else text

/-- `create_control_exception` (`/repo/src/robot/robot_impl.rs:464-496`). -/
def create_control_exception (checks : Bool) (message : String) (move_status : MoveStatus) (reflex_reasons : FrankaErrors)
    (log : List (Record F)) : P (FrankaException F) := do
  if move_status = .ReflexAborted then
    let s := message ++ " " ++ reflex_reasons.fmt
    match log.reverse with
    | last :: previous :: _ =>
      let text ← success_rate_text checks previous last
      return .ControlException (some log) (s ++ text)
    | _ => return .ControlException (some log) s
  else return .ControlException (some log) message

/-- `return Err(create_control_exception(.., self.logger.flush()))` (`/repo/src/robot/robot_impl.rs:370-375,380-385,445-450`). -/
def fail_with_log {α : Type} (message : String) (status : MoveStatus) (reasons : FrankaErrors) : Prog F α := do
  let records ← flush_logger
  let checks ← gets fun w => w.cfg.overflow_checks
  let e ← liftP (create_control_exception checks message status reasons records)
  err e

/-- `current_move_* = Idle / Some(Other)` (`/repo/src/robot/robot_impl.rs:351-352,391-392,412-413`). -/
def forget_motion : Prog F Unit := modify fun w => { w with rob := { w.rob with
  current_move_motion_generator_mode := .Idle
  current_move_controller_mode := some .Other } }

/-- The `while` of `finish_motion` (`/repo/src/robot/robot_impl.rs:363-366`). -/
def finish_loop (motion_finished_command : MotionGeneratorCommand F) (control_command : Option (ControllerCommand F)) :
    Prog F (Option (RobotState F)) :=
  loop (fun robot_state : Option (RobotState F) => do
    if ← something_running then do
      let s ← update (some motion_finished_command) control_command
      pure (.inl (some s))
    else pure (.inr robot_state)) none

/-- `finish_motion` (`/repo/src/robot/robot_impl.rs:344-394`). -/
def finish_motion (motion_id : UInt32) (motion_command : Option (MotionGeneratorCommand F))
    (control_command : Option (ControllerCommand F)) : Prog F Unit := do
  if ← something_running then
    match motion_command with
    | none => err (.ControlException none "libfranka-rs robot: No motion generator command given!")
    | some motion_command => do
      let robot_state ← finish_loop { motion_command with motion_generation_finished := true } control_command
      let robot_state ← unwrapOpt robot_state
      let response ← tcp_blocking_receive_response MoveResponse.codec motion_id
      if response.status = .ReflexAborted then
        fail_with_log "Motion finished commanded, but the robot is still moving!" response.status
          robot_state.last_motion_errors
      else
        match (handle_command_response_move response : Except (FrankaException F) Unit) with
        | .ok _ => forget_motion
        | .error (.CommandException message) => fail_with_log message response.status robot_state.last_motion_errors
        | .error _ => Prog.panic "this should be an command exception but it is not"
  else forget_motion

/-- The `while` of `cancel_motion` (`/repo/src/robot/robot_impl.rs:401-403`); errors of `receive_robot_state` are ignored. -/
def cancel_loop : Prog F Unit :=
  loop (fun _ : Unit => do
    if ← something_running then do
      let _ ← attempt receive_robot_state
      pure (.inl ())
    else pure (.inr ())) ()

/-- `cancel_motion` (`/repo/src/robot/robot_impl.rs:397-414`). -/
def cancel_motion (motion_id : UInt32) : Prog F Unit := do
  match ← attempt execute_stop_command with
  | .error _ => Prog.panic "error while canceling motion"
  | .ok _ => do
    let _ ← attempt receive_robot_state
    cancel_loop
    match ← attempt (tcp_receive_response motion_id fun _ => .ok ()) with
    | .error _ => Prog.panic "This should be impossible as the handler always returns Ok(())"
    | .ok _ => forget_motion

/-- The condition of `throw_on_motion_error` (`/repo/src/robot/robot_impl.rs:438-440`). -/
def motion_error (robot_state : RobotState F) : Prog F Bool := do
  let rob ← gets fun w => w.rob
  if robot_state.robot_mode ≠ .Move then pure true
  else do
    let m ← unwrapOpt rob.motion_generator_mode
    if m ≠ rob.current_move_motion_generator_mode then pure true
    else do
      let c ← unwrapOpt rob.current_move_controller_mode
      pure (decide (rob.controller_mode ≠ c))

/-- `throw_on_motion_error` (`/repo/src/robot/robot_impl.rs:433-455`). -/
def throw_on_motion_error (robot_state : RobotState F) (motion_id : UInt32) : Prog F Unit := do
  if ← motion_error robot_state then do
    let response ← tcp_blocking_receive_response MoveResponse.codec motion_id
    match (handle_command_response_move response : Except (FrankaException F) Unit) with
    | .error error => fail_with_log error.to_string response.status robot_state.last_motion_errors
    | .ok _ => Prog.panic "Unexpected reply to a Move command"
  else pure ()

end Verif
