import Verif.Spec.Api
import Verif.Spec.Control
/-!
# What a whole history of a robot may look like

The visible events of a history are those of its calls, one after the other. A control call follows the automaton of `Spec/Control.lean`.
-/
namespace Verif.Spec
variable {F : Type} [Fl F]

/-- The controller a user asked for; joint impedance if they did not say. -/
def requestedController : Option ControllerModeArg → MoveControllerMode
  | none => .JointImpedance
  | some .JointImpedance => .JointImpedance
  | some .CartesianImpedance => .CartesianImpedance

/-- `call` and the initial captured state `c0` are what the user passed to the control method `c`. Rate limiting is on and the cutoff
frequency is 100 Hz unless the user says otherwise. -/
inductive IsControl : RobotCall F → {σ : Type} → {k : MotionKind} → ControlCall F σ k → σ → Prop where
  /-- control_joint_positions, control_joint_velocities, control_cartesian_pose, control_cartesian_velocities -/
  | motion (σ k cb mode l f) (c : σ) : IsControl (.control_motion σ k cb mode l f c)
      { motion := cb, torque := none, controller := requestedController mode, limit_rate := l.getD true, cutoff := f.getD (Fl.lit 100) } c
  /-- control_torques_and_joint_positions and so on -/
  | torquesAndMotion (σ k tcb cb l f) (c : σ) : IsControl (.control_torques_and_motion σ k tcb cb l f c)
      { motion := cb, torque := some tcb, controller := .ExternalController, limit_rate := l.getD true, cutoff := f.getD (Fl.lit 100) } c
  /-- control_torques: the motion part is standing still -/
  | torques (σ tcb l f) (c : σ) : IsControl (.control_torques σ tcb l f c) (k := .JointVelocities)
      { motion := fun c _ _ => (c, ({ dq := fun _ => Fl.lit 0, motion_finished := false } : JointVelocities F))
        torque := some tcb, controller := .ExternalController, limit_rate := l.getD true, cutoff := f.getD (Fl.lit 100) } c
  /-- joint_motion: a joint position motion with the built-in generator -/
  | jointMotion (speed q) : IsControl (.joint_motion speed q) (k := .JointPositions)
      { motion := (fun g state time => MotionGenerator.generate_motion g state time : MotionGenerator F → RobotState F → Nat → MotionGenerator F × Motion F .JointPositions)
        torque := none, controller := .JointImpedance, limit_rate := true, cutoff := Fl.lit 1000 } (MotionGenerator.new speed q)

/-- There are torques exactly if the external controller is asked for. -/
def Fits {σ : Type} {k : MotionKind} (call : ControlCall F σ k) : Prop :=
  call.torque.isSome = true ↔ call.controller = .ExternalController

variable [Geo F]

/-- A piece of a history. It starts with `s` and ends with `s'` as the last accepted state. -/
inductive Piece : RobotStateIntern F → List (Ev F) → RobotStateIntern F → Prop where
  /-- a request that does not start a motion -/
  | request (s r) : (∀ m, r.request ≠ .Move m) → Piece s [.robotReq r] s
  /-- a state outside of control calls; states are strictly newer -/
  | state (s s') : s.message_id < s'.message_id → Piece s [.accepted s'] s'
  /-- a state is received and shown to the callback of `read` -/
  | shown (s s' b) : s.message_id < s'.message_id → Piece s [.accepted s', .readCb (RobotState.ofIntern s') b] s'
  /-- a control call, maybe an unfinished one -/
  | control {σ k} (call : ControlCall F σ k) (c0 s tr ph) : Fits call → Run call c0 (.before s) tr ph → Piece s tr ph.last

/-- The events of a history after its first state. -/
inductive Pieces : RobotStateIntern F → List (Ev F) → RobotStateIntern F → Prop where
  | nil (s) : Pieces s [] s
  | snoc {s tr s1 tr' s2} : Pieces s tr s1 → Piece s1 tr' s2 → Pieces s (tr ++ tr') s2

/-- The visible events of a history with the last state `s`: requests of the constructor, a first state, pieces. -/
def HistoryOf (tr : List (Ev F)) (s : RobotStateIntern F) : Prop :=
  ∃ (rs : List (RobotReq F)) (s0 : RobotStateIntern F) (tr' : List (Ev F)), (∀ r ∈ rs, ∀ m, r.request ≠ .Move m) ∧
    tr = rs.map .robotReq ++ [.accepted s0] ++ tr' ∧ Pieces s0 tr' s

end Verif.Spec
