import Verif.Spec.History
import Verif.Spec.Udp
/-!
# Vocabulary for what a control call shows to the robot and to the callbacks

Everything here is a predicate on lists of events and does not refer to the automaton of `Spec/Control.lean`.
-/
namespace Verif.Spec
variable {F : Type}

/-- What is seen between the worlds `w` and `w'`: requests, accepted states, callbacks and commands, in order. -/
def newEvents (w w' : World F) : List (Ev F) := visible (w'.trace.drop w.trace.length)

/-- The state accepted last. -/
def lastAccepted (tr : List (Ev F)) : Option (RobotStateIntern F) := (accepted tr).getLast?

/-- A Move request. -/
def IsMove (e : Ev F) : Prop := ∃ h m, e = .robotReq ⟨h, .Move m⟩

/-- A StopMove request. -/
def IsStop (e : Ev F) : Prop := ∃ h, e = .robotReq ⟨h, .StopMove⟩

/-- A call of a control callback of the user. -/
def IsCallback : Ev F → Prop
  | .motionCb .. => True
  | .controlCb .. => True
  | _ => False

/-- A real-time command. -/
def IsCommand : Ev F → Prop
  | .udpSend .. => True
  | _ => False

/-- A real-time command without the flag that ends the motion. -/
def IsOpenCommand : Ev F → Prop
  | .udpSend _ c => c.motion.motion_generation_finished = false
  | _ => False

/-- A call of a callback that returned "finished". -/
def EndsMotion : Ev F → Prop
  | .motionCb _ _ _ out => out.is_finished = true
  | .controlCb _ _ out => out.is_finished = true
  | _ => False

/-- The states and durations the motion callback was called with. -/
def motionCalls (tr : List (Ev F)) : List (RobotState F × Nat) := tr.filterMap fun
  | .motionCb _ s dt _ => some (s, dt)
  | _ => none

/-- The states and durations the torque callback was called with. -/
def torqueCalls (tr : List (Ev F)) : List (RobotState F × Nat) := tr.filterMap fun
  | .controlCb s dt _ => some (s, dt)
  | _ => none

/-- The calls of a callback in one motion: the first one has duration zero, each later one the difference of the time stamps of its state
and the state of the call before, which is positive. -/
def Timed (calls : List (RobotState F × Nat)) : Prop :=
  (∀ x ∈ calls.head?, x.2 = 0) ∧ calls.IsChain fun a b => a.1.time < b.1.time ∧ b.2 = b.1.time - a.1.time

/-- `P` holds of any two events of which the second follows directly after the first. -/
def Adjacent (P : Ev F → Ev F → Prop) (tr : List (Ev F)) : Prop := ∀ pre e f post, tr = pre ++ e :: f :: post → P e f

/-- The methods that start a motion. -/
def IsControlMethod : RobotCall F → Prop
  | .control_motion .. => True
  | .control_torques_and_motion .. => True
  | .control_torques .. => True
  | .joint_motion .. => True
  | _ => False

/-- Every component is a finite number. -/
def AllFinite [Fl F] {n : Nat} (a : Arr F n) : Prop := ∀ i, Fl.isFinite (a i) = true

/-- The joints, the pose, the velocities and the torques of a command are finite numbers. -/
structure FiniteCommand [Fl F] (c : RobotCommand F) : Prop where
  q : AllFinite c.motion.q_c
  dq : AllFinite c.motion.dq_c
  pose : AllFinite c.motion.O_T_EE_c
  twist : AllFinite c.motion.O_dP_EE_c
  elbow : AllFinite c.motion.elbow_c
  torques : AllFinite c.control.tau_J_d

/-- Every component is zero. -/
def Zero [Fl F] {n : Nat} (a : Arr F n) : Prop := ∀ i, a i = Fl.lit 0

/-- All motion fields but the one of this kind of motion are zero. -/
structure OnlyKind [Fl F] (k : MotionKind) (m : MotionGeneratorCommand F) : Prop where
  q : k ≠ .JointPositions → Zero m.q_c
  dq : k ≠ .JointVelocities → Zero m.dq_c
  pose : k ≠ .CartesianPose → Zero m.O_T_EE_c
  twist : k ≠ .CartesianVelocities → Zero m.O_dP_EE_c
  elbow : m.valid_elbow = false → Zero m.elbow_c

/-- The elbow a callback gave, if the motion is Cartesian. -/
def elbowOf : {k : MotionKind} → Motion F k → Option (Arr F 2)
  | .JointPositions, _ => none
  | .JointVelocities, _ => none
  | .CartesianPose, m => CartesianPose.elbow m
  | .CartesianVelocities, m => CartesianVelocities.elbow m

/-- The command has exactly the values the motion callback returned. -/
def Carries : {k : MotionKind} → Motion F k → MotionGeneratorCommand F → Prop
  | .JointPositions, out, m => m.q_c = JointPositions.q out
  | .JointVelocities, out, m => m.dq_c = JointVelocities.dq out
  | .CartesianPose, out, m => m.O_T_EE_c = CartesianPose.O_T_EE out ∧ ∀ e, CartesianPose.elbow out = some e → m.elbow_c = e
  | .CartesianVelocities, out, m => m.O_dP_EE_c = CartesianVelocities.O_dP_EE out ∧ ∀ e, CartesianVelocities.elbow out = some e → m.elbow_c = e

/-- The output of the motion callback that was called last. -/
def LastOutput (tr : List (Ev F)) (k : MotionKind) (out : Motion F k) : Prop :=
  ∃ pre st dt post, tr = pre ++ .motionCb k st dt out :: post ∧ ∀ e ∈ post, ∀ k' st' dt' out', e ≠ .motionCb k' st' dt' out'

end Verif.Spec
