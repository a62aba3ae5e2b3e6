import Verif.Model.Impedance
import Verif.Model.Robot
/-!
The program `/repo/examples/mirror_robot.rs` from its start to its end, with its two robots and its threads.
-/
namespace Verif
open Prog Fl
variable {F : Type}

namespace Examples

/-- The connections to the two robots (`/repo/examples/mirror_robot.rs:53-54`). Each of them has its own part of the world; the robot of the user has no use for the model file. -/
structure Pair (F : Type) where
  user : World F
  mirror : World F

/-- What the main thread does with both robots (`/repo/examples/mirror_robot.rs:53-67`). -/
def Duo (F α : Type) := Pair F → Res F α × Pair F

namespace Duo
/-- A value (`/repo/examples/mirror_robot.rs:67`). -/
def pure {α : Type} (a : α) : Duo F α := fun p => (.ok a, p)
/-- One thing after the other; `?` ends the program (`/repo/examples/mirror_robot.rs:53-67`). -/
def bind {α β : Type} (a : Duo F α) (f : α → Duo F β) : Duo F β := fun p =>
  match a p with
  | (.ok x, p) => f x p
  | (.err e, p) => (.err e, p)
  | (.panic m, p) => (.panic m, p)
  | (.blocked, p) => (.blocked, p)
instance : Monad (Duo F) where
  pure := Duo.pure
  bind := Duo.bind
end Duo

/-- A call for `robot_user` (`/repo/examples/mirror_robot.rs:53`). -/
def onUser {α : Type} (c : Prog F α) : Duo F α := fun p => ((c p.user).1, { p with user := (c p.user).2 })

/-- A call for `robot_mirror` (`/repo/examples/mirror_robot.rs:54`). -/
def onMirror {α : Type} (c : Prog F α) : Duo F α := fun p => ((c p.mirror).1, { p with mirror := (c p.mirror).2 })

variable [Fl F] [Wire F] [Geo F]

/-- What happens before the program waits for Enter: the result is `initial_state` (`/repo/examples/mirror_robot.rs:53-67`). -/
def mirror_prepare : Duo F (RobotState F) := do
  onUser (Robot.new none none)
  onMirror (Robot.new none none)
  let _ ← onMirror (Robot.load_model true)
  onMirror (Robot.set_collision_behavior (fun _ => lit 100) (fun _ => lit 100) (fun _ => lit 100) (fun _ => lit 100) (fun _ => lit 100) (fun _ => lit 100)
    (fun _ => lit 100) (fun _ => lit 100))
  onMirror (Robot.set_joint_impedance ![lit 3000, lit 3000, lit 3000, lit 2500, lit 2500, lit 2000, lit 2000])
  onMirror (Robot.set_cartesian_impedance ![lit 3000, lit 3000, lit 3000, lit 300, lit 300, lit 300])
  onUser (Robot.set_collision_behavior (fun _ => lit 100) (fun _ => lit 100) (fun _ => lit 100) (fun _ => lit 100) (fun _ => lit 100) (fun _ => lit 100)
    (fun _ => lit 100) (fun _ => lit 100))
  onUser (Robot.set_joint_impedance ![lit 3000, lit 3000, lit 3000, lit 2500, lit 2500, lit 2000, lit 2000])
  onUser (Robot.set_cartesian_impedance ![lit 3000, lit 3000, lit 3000, lit 300, lit 300, lit 300])
  let initial_state ← onUser Robot.read_once
  pure initial_state

/-- `std::io::stdin().read_line(..).unwrap()` (`/repo/examples/mirror_robot.rs:79`): Enter is pressed, or standard input fails, or nothing ever happens. -/
inductive Keyboard where
  | enter
  | fails
  | silence

/-- How the program has ended, or hangs: the result of the main thread, and what has happened on the two connections by then. -/
structure MirrorEnd (F : Type) where
  result : Res F Unit
  user : List (Ev F)
  mirror : List (Ev F)

/-- What has happened on the connection of a thread when the process ends: the thread is at its `cut`-th event since `from_` (`/repo/examples/mirror_robot.rs:81,90`: the threads
end with the process). -/
def cutOff (cut : Nat) (from_ to_ : World F) : List (Ev F) := to_.trace.take (from_.trace.length + cut)

variable [GeoExtra F]

/-- The callback of the mirror with its captured pose and the number of its calls; `received n` is what the n-th call takes from the channel within 100 microseconds
(`/repo/examples/mirror_robot.rs:102-153`). -/
def mirror_controller (model : ModelLibrary F) (received : Nat → Option (Arr F 16)) (c : Nat × Arr F 16) (state : RobotState F) (step : Nat) : (Nat × Arr F 16) × Torques F :=
  let (desired_state, torques) := mirror_callback model c.2 (received c.1) state step
  ((c.1 + 1, desired_state), torques)

/-- The callback for the user's robot (`/repo/examples/mirror_robot.rs:92-95`); what it sends is in `received` of the other one. -/
def user_controller (c : Unit) (state : RobotState F) (step : Nat) : Unit × Torques F := (c, (user_callback state step).2)

/-- From Enter to the end (`/repo/examples/mirror_robot.rs:80-157`). Simplification: a thread that fails to start is not modelled. -/
def mirror_run (model : ModelLibrary F) (received : Nat → Option (Arr F 16)) (cut : Nat) (initial_state : RobotState F) (p : Pair F) : MirrorEnd F :=
  let (joined, user) := Robot.joint_motion (lit (1 / 10)) q_goal p.user
  let (moved, mirror) := Robot.joint_motion (lit (1 / 10)) q_goal p.mirror
  match moved with
  | .err e => ⟨.err e, cutOff cut p.user user, mirror.trace⟩
  | .panic m => ⟨.panic m, cutOff cut p.user user, mirror.trace⟩
  | .blocked => ⟨.blocked, user.trace, mirror.trace⟩
  | .ok _ =>
    match joined with
    | .err _ => ⟨.panic "called `Result::unwrap()` on an `Err` value: Any { .. }", user.trace, mirror.trace⟩
    | .panic _ => ⟨.panic "called `Result::unwrap()` on an `Err` value: Any { .. }", user.trace, mirror.trace⟩
    | .blocked => ⟨.blocked, user.trace, mirror.trace⟩
    | .ok _ =>
      let (_, user') := Robot.control_torques user_controller none none () user
      let (result, mirror') := Robot.control_torques (mirror_controller model received) none none (0, initial_state.O_T_EE) mirror
      match result with
      | .blocked => ⟨.blocked, user'.trace, mirror'.trace⟩
      | result => ⟨result, cutOff cut user user', mirror'.trace⟩

/-- The program (`/repo/examples/mirror_robot.rs:33-157`). `model` is the library that `load_model` has loaded from the file. Simplification: the command line and what is
printed are left out. -/
def mirror_robot (model : ModelLibrary F) (keyboard : Keyboard) (received : Nat → Option (Arr F 16)) (cut : Nat) (p : Pair F) : MirrorEnd F :=
  match mirror_prepare p with
  | (.err e, p) => ⟨.err e, p.user.trace, p.mirror.trace⟩
  | (.panic m, p) => ⟨.panic m, p.user.trace, p.mirror.trace⟩
  | (.blocked, p) => ⟨.blocked, p.user.trace, p.mirror.trace⟩
  | (.ok initial_state, p) =>
    match keyboard with
    | .silence => ⟨.blocked, p.user.trace, p.mirror.trace⟩
    | .fails => ⟨.panic "called `Result::unwrap()` on an `Err` value", p.user.trace, p.mirror.trace⟩
    | .enter => mirror_run model received cut initial_state p

end Examples
end Verif
