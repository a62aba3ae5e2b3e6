import Verif.Spec.Control
/-!
# States and the commands that answer them

In every cycle of a motion a state is passed to the motion callback and then a command is sent.
-/
namespace Verif.Spec
variable {F : Type}

/-- `p.1` is a state that was passed to the motion callback and not answered yet, `p.2` are the answered ones. -/
def exchangeStep (p : Option (RobotState F) × List (RobotState F × RobotCommand F)) : Ev F → Option (RobotState F) × List (RobotState F × RobotCommand F)
  | .motionCb _ st _ _ => (some st, p.2)
  | .udpSend _ x =>
    match p.1 with
    | some st => (none, p.2 ++ [(st, x)])
    | none => p
  | _ => p

/-- The states that were passed to the motion callback, each with the first command that was sent after that. (When a callback has ended the motion the
last command is sent again and again until the robot stands still; these repetitions are not in this list.) -/
def exchanges (tr : List (Ev F)) : List (RobotState F × RobotCommand F) := (tr.foldl exchangeStep (none, [])).2

end Verif.Spec
