import Verif.Model.ControlTypes
/-! The ring of logged states and commands, and the error type: `/repo/src/robot/logger.rs`, `/repo/src/exception.rs`. -/
namespace Verif

/-- `RobotCommandLog` (`/repo/src/robot/logger.rs:14-29`). -/
structure RobotCommandLog (F : Type) where
  joint_positions : JointPositions F
  joint_velocities : JointVelocities F
  cartesian_pose : CartesianPose F
  cartesian_velocities : CartesianVelocities F
  torques : Torques F

/-- `Record` (`/repo/src/robot/logger.rs:35-40`). -/
structure Record (F : Type) where
  state : RobotState F
  command : RobotCommandLog F

/-- `Logger` (`/repo/src/robot/logger.rs:49-55`); a `VecDeque` is a list whose head is the front. `usize` is `Nat`:
no count here reaches `2^64`. -/
structure Logger (F : Type) where
  states : List (RobotState F)
  commands : List (RobotCommand F)
  ring_front : Nat
  ring_size : Nat
  log_size : Nat

namespace Logger
variable {F : Type}

/-- `Logger::new` (`/repo/src/robot/logger.rs:58-66`). -/
def new (log_size : Nat) : Logger F := ⟨[], [], 0, 0, log_size⟩

/-- `Logger::log` (`/repo/src/robot/logger.rs:67-76`). -/
def log (l : Logger F) (state : RobotState F) (command : RobotCommand F) : P (Logger F) :=
  let states := l.states ++ [state]
  let commands := l.commands ++ [command]
  if l.log_size = 0 then .error "attempt to calculate the remainder with a divisor of zero"
  else
    let ring_front := (l.ring_front + 1) % l.log_size
    let full := l.ring_size = l.log_size
    .ok { states := if full then states.tail else states
          commands := if full then commands.tail else commands
          ring_front := ring_front
          ring_size := min l.log_size (l.ring_size + 1)
          log_size := l.log_size }

/-- The record built by `flush` from a state and a command (`/repo/src/robot/logger.rs:81-92`). -/
def record (state : RobotState F) (cmd : RobotCommand F) : Record F where
  state := state
  command :=
    { joint_positions := JointPositions.new cmd.motion.q_c
      joint_velocities := JointVelocities.new cmd.motion.dq_c
      cartesian_pose := CartesianPose.new cmd.motion.O_T_EE_c none
      cartesian_velocities := CartesianVelocities.new cmd.motion.O_dP_EE_c none
      torques := Torques.new cmd.control.tau_J_d }

/-- The loop of `flush` (`/repo/src/robot/logger.rs:79-94`), from the list of loop indices. -/
def flushLoop (l : Logger F) : List Nat → P (List (Record F))
  | [] => .ok []
  | i :: is => do
    let index := (l.ring_front + i) % l.ring_size
    match l.commands[index]?, l.states[index]? with
    | some cmd, some state =>
      let out ← flushLoop l is
      return record state cmd :: out
    | _, _ => throw "called `Option::unwrap()` on a `None` value"

/-- `Logger::flush` (`/repo/src/robot/logger.rs:77-98`): the records and the changed logger (the queues are not cleared). -/
def flush (l : Logger F) : P (List (Record F) × Logger F) := do
  let out ← l.flushLoop (List.range l.ring_size)
  return (out, { l with ring_front := 0, ring_size := 0 })

end Logger

/-- `FrankaException` (`/repo/src/exception.rs:11-58`). -/
inductive FrankaException (F : Type) where
  | ControlException (log : Option (List (Record F))) (error : String)
  | IncompatibleLibraryVersionError (server_version library_version : UInt16)
  | NoMotionGeneratorRunningError
  | NoControllerRunningError
  | PartialCommandError
  | NetworkException (message : String)
  | CommandException (message : String)
  | ModelException (message : String)
  | RealTimeException (message : String)

/-- `create_command_exception` (`/repo/src/exception.rs:61-65`). -/
def create_command_exception {F : Type} (message : String) : FrankaException F := .CommandException message

end Verif
