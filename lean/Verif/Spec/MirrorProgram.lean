import Verif.Model.MirrorProgram
import Verif.Spec.ModelPrograms
/-!
# The mirror example from its start to its end
-/
namespace Verif.Spec
open Fl Examples
variable {F : Type}

/-- One of the two robots. -/
inductive Side where
  | user
  | mirror
deriving DecidableEq

/-- The robot is asked for the first few of `bs`. If the last of them is a motion there may be a request to stop it behind it. -/
def AtMost (bs new : List (RobotBody F)) : Prop := ∃ l, l <+: bs ∧ (new = l ∨ new = l ++ [.StopMove] ∧ ∃ m, l.getLast? = some (.Move m))

/-- How often the robot is asked to move. -/
def moves (bs : List (RobotBody F)) : ℕ := bs.countP fun
  | .Move _ => true
  | _ => false

variable [Fl F] [Wire F] [Geo F]

/-- Calls for the one or the other robot are made one after the other. The first one that does not return Ok is the last one, and its result is the result of all. -/
inductive PairTurn : List (Side × RobotCall F) → Pair F → Res F Unit → Pair F → Prop where
  | done (p) : PairTurn [] p (.ok ()) p
  | user {c : RobotCall F} {cs u m u1 r p2} : c.run u = (.ok (), u1) → PairTurn cs ⟨u1, m⟩ r p2 → PairTurn ((.user, c) :: cs) ⟨u, m⟩ r p2
  | userLast {c : RobotCall F} {cs u m r u1} : c.run u = (r, u1) → r ≠ .ok () → PairTurn ((.user, c) :: cs) ⟨u, m⟩ r ⟨u1, m⟩
  | mirror {c : RobotCall F} {cs u m m1 r p2} : c.run m = (.ok (), m1) → PairTurn cs ⟨u, m1⟩ r p2 → PairTurn ((.mirror, c) :: cs) ⟨u, m⟩ r p2
  | mirrorLast {c : RobotCall F} {cs u m r m1} : c.run m = (r, m1) → r ≠ .ok () → PairTurn ((.mirror, c) :: cs) ⟨u, m⟩ r ⟨u, m1⟩

/-- The settings for a robot. -/
def impedanceCalls : List (RobotCall F) := [thresholds (fun _ => lit 100) (fun _ => lit 100),
  .set_joint_impedance ![lit 3000, lit 3000, lit 3000, lit 2500, lit 2500, lit 2000, lit 2000],
  .set_cartesian_impedance ![lit 3000, lit 3000, lit 3000, lit 300, lit 300, lit 300]]

/-- What happens to the connected robots before anyone presses Enter, except that at the end the state of the user's robot is read. -/
def settingUp : List (Side × RobotCall F) := (.mirror, .load_model true) :: impedanceCalls.map (Prod.mk .mirror) ++ impedanceCalls.map (Prod.mk .user)

/-- All of it. -/
def preparation : List (Side × RobotCall F) := settingUp ++ [(.user, .read_once)]

/-- Both robots go to the start position with a tenth of the speed. -/
def toStart : RobotCall F := .joint_motion (lit (1 / 10)) startPosition

/-- The user's robot follows the hand: no torques except those against gravity. -/
def followHand : RobotCall F := .control_torques Unit (fun c _ _ => (c, .new fun _ => lit 0)) none none ()

/-- The control call of the mirror: before the first pose arrives it holds the mirror image of `pose`; `received n` is what the n-th call of the callback finds in the channel. -/
def followUser [GeoExtra F] (model : ModelLibrary F) (received : ℕ → Option (Arr F 16)) (pose : Arr F 16) : RobotCall F :=
  .control_torques (ℕ × Arr F 16) (fun c st dt => ((c.1 + 1, (mirror_callback model c.2 (received c.1) st dt).1), (mirror_callback model c.2 (received c.1) st dt).2)) none none (0, pose)

/-- What the user's robot is asked for before it moves. -/
def userStart (w : World F) : List (RobotBody F) := robotHello w :: impedanceBodies

/-- What the mirror is asked for before it moves. -/
def mirrorStart (w : World F) : List (RobotBody F) := robotHello w :: (modelBodies w ++ impedanceBodies)

/-- The two motions. -/
def twoMoves : List (RobotBody F) := [moveBody .JointPositions .JointImpedance, moveBody .JointVelocities .ExternalController]

/-- Both robots are connected and prepared, from the worlds `u` and `m` to `u'` and `m'`; at the end the state `st` of the user's robot was read. -/
def BothReady (u m : World F) (st : RobotState F) (u' m' : World F) : Prop := ∃ u1 m1 u2, Robot.new none none u = (.ok (), u1) ∧ Robot.new none none m = (.ok (), m1) ∧
  PairTurn settingUp ⟨u1, m1⟩ (.ok ()) ⟨u2, m'⟩ ∧ Robot.read_once u2 = (.ok st, u')

end Verif.Spec
