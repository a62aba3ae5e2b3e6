import Verif.Model.RobotImpl
/-! The control loop, `/repo/src/robot/control_loop.rs`, and the real-time setup of `/repo/src/robot/control_tools.rs`. -/
namespace Verif
open Prog Fl
variable {F : Type} [Fl F] [Wire F]

/-- `set_current_thread_to_highest_scheduler_priority` (`/repo/src/robot/control_tools.rs:25-53`). -/
def set_current_thread_to_highest_scheduler_priority : Prog F Unit := do
  let cfg ← gets fun w => w.cfg
  if !cfg.priority_max_ok then err (.RealTimeException "libfranka-rs: unable to get maximum possible thread priority")
  else if !cfg.setsched_ok then err (.RealTimeException "libfranka-rs: unable to set realtime scheduling")
  else if !cfg.mlock_ok then err (.RealTimeException "libfranka-rs: unable to lock memory")
  else pure ()

/-- `ControlLoop` without the borrowed robot (`/repo/src/robot/control_loop.rs:20-34`). The callbacks are deterministic
functions of their captured state `σ` (shared by both) and their arguments; a time step is in milliseconds. Callbacks which panic or do not
return are not modelled. -/
structure ControlLoop (F : Type) (σ : Type) (k : MotionKind) where
  default_deviation : MoveDeviation F
  motion_callback : σ → RobotState F → Nat → σ × Motion F k
  control_callback : Option (σ → RobotState F → Nat → σ × Torques F)
  limit_rate : Bool
  cutoff_frequency : F
  motion_id : UInt32

namespace ControlLoop
variable {σ : Type} {k : MotionKind}

/-- `new_intern` (`/repo/src/robot/control_loop.rs:87-119`). -/
def new_intern (motion_callback : σ → RobotState F → Nat → σ × Motion F k)
    (control_callback : Option (σ → RobotState F → Nat → σ × Torques F)) (limit_rate : Bool) (cutoff_frequency : F) :
    Prog F (ControlLoop F σ k) := do
  let control_loop : ControlLoop F σ k :=
    { default_deviation := { translation := lit 10, rotation := lit (312 / 100), elbow := lit 2 * pi }
      motion_callback, control_callback, limit_rate, cutoff_frequency, motion_id := 0 }
  let realtime_config ← gets fun w => w.rob.realtime_config
  if realtime_config = .Enforce then do
    let realtime_kernel ← gets fun w => w.cfg.realtime_kernel
    if realtime_kernel then do
      set_current_thread_to_highest_scheduler_priority
      pure control_loop
    else err (.RealTimeException "libfranka-rs: Running kernel does not have realtime capabilities.")
  else pure control_loop

/-- `ControlLoop::new` (`/repo/src/robot/control_loop.rs:44-65`). -/
def new (control_callback : σ → RobotState F → Nat → σ × Torques F)
    (motion_callback : σ → RobotState F → Nat → σ × Motion F k) (limit_rate : Bool) (cutoff_frequency : F) :
    Prog F (ControlLoop F σ k) := do
  let control_loop ← new_intern motion_callback (some control_callback) limit_rate cutoff_frequency
  let motion_id ← start_motion .ExternalController k.get_motion_generator_mode control_loop.default_deviation
    control_loop.default_deviation
  pure { control_loop with motion_id := motion_id }

/-- `ControlLoop::from_control_mode` (`/repo/src/robot/control_loop.rs:66-86`). -/
def from_control_mode (control_mode : ControllerModeArg)
    (motion_callback : σ → RobotState F → Nat → σ × Motion F k) (limit_rate : Bool) (cutoff_frequency : F) :
    Prog F (ControlLoop F σ k) := do
  let mode : MoveControllerMode := match control_mode with
    | .JointImpedance => .JointImpedance
    | .CartesianImpedance => .CartesianImpedance
  let control_loop ← new_intern motion_callback none limit_rate cutoff_frequency
  let motion_id ← start_motion mode k.get_motion_generator_mode control_loop.default_deviation
    control_loop.default_deviation
  pure { control_loop with motion_id := motion_id }

/-- The conversions of `spin_control` (`/repo/src/robot/control_loop.rs:186-204`). -/
def convert_torques (limit_rate : Bool) (cutoff_frequency : F) (robot_state : RobotState F) (tau_J : Arr F 7) : P (Arr F 7) := do
  let tau_J ← if flt cutoff_frequency MAX_CUTOFF_FREQUENCY then
      Arr.tabulateP fun i => low_pass_filter DELTA_T (tau_J i) (robot_state.tau_J_d i) cutoff_frequency
    else pure tau_J
  let tau_J ← if limit_rate then limit_rate_torques MAX_TORQUE_RATE tau_J robot_state.tau_J_d else pure tau_J
  assertFinite tau_J
  return tau_J

/-- `spin_control` (`/repo/src/robot/control_loop.rs:178-206`): new closure state, new command, continue. -/
def spin_control (l : ControlLoop F σ k) (control_callback : σ → RobotState F → Nat → σ × Torques F) (c : σ)
    (robot_state : RobotState F) (time_step : Nat) : Prog F (σ × ControllerCommand F × Bool) := do
  let (c, control_output) := control_callback c robot_state time_step
  emit (.controlCb robot_state time_step control_output)
  let tau_J ← liftP (convert_torques l.limit_rate l.cutoff_frequency robot_state control_output.tau_J)
  pure (c, { tau_J_d := tau_J }, !control_output.is_finished)

/-- `spin_motion` (`/repo/src/robot/control_loop.rs:207-216`): new closure state, new command, continue. -/
def spin_motion [Geo F] (l : ControlLoop F σ k) (c : σ) (robot_state : RobotState F) (time_step : Nat)
    (command : MotionGeneratorCommand F) : Prog F (σ × MotionGeneratorCommand F × Bool) := do
  let (c, motion_output) := l.motion_callback c robot_state time_step
  emit (.motionCb k robot_state time_step motion_output)
  let command ← liftP (motion_output.convert_motion robot_state command l.cutoff_frequency l.limit_rate)
  pure (c, command, !motion_output.is_finished)

/-- The local variables of `do_loop` (`/repo/src/robot/control_loop.rs:132-139`). -/
structure Locals (F : Type) (σ : Type) where
  closure : σ
  robot_state : RobotState F
  previous_time : Nat
  motion_command : MotionGeneratorCommand F
  control_command : ControllerCommand F

/-- The `while` of `do_loop` with a torque callback (`/repo/src/robot/control_loop.rs:140-155`): the commands at its end. -/
def torque_loop [Geo F] (l : ControlLoop F σ k) (control_callback : σ → RobotState F → Nat → σ × Torques F)
    (v : Locals F σ) : Prog F (MotionGeneratorCommand F × ControllerCommand F) :=
  loop (fun v : Locals F σ => do
    let dt ← liftP (durSub v.robot_state.time v.previous_time)
    let (c, motion_command, go) ← l.spin_motion v.closure v.robot_state dt v.motion_command
    if go then do
      let dt ← liftP (durSub v.robot_state.time v.previous_time)
      let (c, control_command, go) ← l.spin_control control_callback c v.robot_state dt
      if go then do
        let robot_state ← update (some motion_command) (some control_command)
        throw_on_motion_error robot_state l.motion_id
        pure (.inl { closure := c, robot_state, previous_time := v.robot_state.time, motion_command, control_command })
      else pure (.inr (motion_command, control_command))
    else pure (.inr (motion_command, v.control_command))) v

/-- The `while` of `do_loop` without a torque callback (`/repo/src/robot/control_loop.rs:162-171`). -/
def motion_loop [Geo F] (l : ControlLoop F σ k) (v : Locals F σ) : Prog F (MotionGeneratorCommand F) :=
  loop (fun v : Locals F σ => do
    let dt ← liftP (durSub v.robot_state.time v.previous_time)
    let (c, motion_command, go) ← l.spin_motion v.closure v.robot_state dt v.motion_command
    if go then do
      let robot_state ← update (some motion_command) none
      throw_on_motion_error robot_state l.motion_id
      pure (.inl { v with closure := c, robot_state := robot_state, previous_time := v.robot_state.time, motion_command := motion_command })
    else pure (.inr motion_command)) v

/-- `do_loop` (`/repo/src/robot/control_loop.rs:131-176`); `c` is what the callbacks captured. -/
def do_loop [Geo F] (l : ControlLoop F σ k) (c : σ) : Prog F Unit := do
  let robot_state ← update none none
  throw_on_motion_error robot_state l.motion_id
  let v : Locals F σ :=
    { closure := c
      robot_state := robot_state
      previous_time := robot_state.time
      motion_command := MotionGeneratorCommand.new (fun _ => lit 0) (fun _ => lit 0) (fun _ => lit 0) (fun _ => lit 0) (fun _ => lit 0)
      control_command := { tau_J_d := fun _ => lit 0 } }
  match l.control_callback with
  | some control_callback => do
    let (motion_command, control_command) ← l.torque_loop control_callback v
    finish_motion l.motion_id (some motion_command) (some control_command)
  | none => do
    let motion_command ← l.motion_loop v
    finish_motion l.motion_id (some motion_command) none

/-- `run` (`/repo/src/robot/control_loop.rs:121-129`). -/
def run [Geo F] (l : ControlLoop F σ k) (c : σ) : Prog F Unit := do
  match ← attempt (l.do_loop c) with
  | .ok _ => pure ()
  | .error error => do
    cancel_motion l.motion_id
    err error

end ControlLoop
end Verif
