import Verif.Spec.Exchange
/-!
# What the callbacks returned in a control call
-/
namespace Verif.Spec
variable {F : Type}

/-- What the motion callback returned, call by call. -/
def motionOutputs (k : MotionKind) (tr : List (Ev F)) : List (Motion F k) := tr.filterMap fun
  | .motionCb k' _ _ out => if h : k' = k then some (h ▸ out) else none
  | _ => none

/-- What the torque callback returned, call by call. -/
def torqueOutputs (tr : List (Ev F)) : List (Torques F) := tr.filterMap fun
  | .controlCb _ _ out => some out
  | _ => none

/-- The calls of the torque callback: the states and durations it was called with, and what it returned. -/
def torqueRecords (tr : List (Ev F)) : List ((RobotState F × Nat) × Torques F) := tr.filterMap fun
  | .controlCb st dt out => some ((st, dt), out)
  | _ => none

/-- What the callback `f` has captured after calls with these states and durations, if it had captured `c0` at first. -/
def capturedAfter {σ α : Type} (f : σ → RobotState F → Nat → σ × α) (c0 : σ) (calls : List (RobotState F × Nat)) : σ := calls.foldl (fun c x => (f c x.1 x.2).1) c0

end Verif.Spec
