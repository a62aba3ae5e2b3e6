import Verif.Model.Impedance
/-!
The two threads of `/repo/examples/mirror_robot.rs`.
-/
namespace Verif
open Fl
variable {F : Type} [Fl F] [Geo F] [GeoExtra F]

namespace Examples

/-- What the two closures share: the channel, oldest pose first, and the pose that the closure of the mirror captures (`/repo/examples/mirror_robot.rs:68,71`). -/
structure MirrorState (F : Type) where
  channel : List (Arr F 16)
  desired_state : Arr F 16

/-- A call of one of the closures, with its arguments. -/
inductive MirrorTurn (F : Type) where
  | user (state : RobotState F) (step : Nat)
  | mirror (state : RobotState F) (step : Nat)

/-- One call: `sender.send(..)` appends a pose, `receiver.recv_timeout(..)` takes the oldest one (`/repo/examples/mirror_robot.rs:90-100,102-156`). Simplifications: the sender
still exists while the mirror runs; a call of the user's closure during which the mirror waits comes before the call of the mirror's closure. -/
def mirror_turn (model : ModelLibrary F) (c : MirrorState F) : MirrorTurn F → MirrorState F × Torques F
  | .user state step =>
    let (pose, torques) := user_callback state step
    ({ c with channel := c.channel ++ [pose] }, torques)
  | .mirror state step =>
    let (desired_state, torques) := mirror_callback model c.desired_state c.channel.head? state step
    (⟨c.channel.tail, desired_state⟩, torques)

/-- Calls in the order in which they happen, with the torques they return (`/repo/examples/mirror_robot.rs:88-156`). -/
def mirror_turns (model : ModelLibrary F) (c : MirrorState F) : List (MirrorTurn F) → MirrorState F × List (Torques F)
  | [] => (c, [])
  | t :: ts =>
    let (c, torques) := mirror_turn model c t
    let (c, rest) := mirror_turns model c ts
    (c, torques :: rest)

end Examples
end Verif
