import Verif.Spec.Session
import Verif.Spec.Trace
/-!
# What a control call may do, event by event

An automaton over the visible events of one control call: requests written, states accepted, callbacks called, commands sent. It is
written from the documentation of the control functions and does not refer to the code of the control loop; only the conversion of a
callback's output into a command (`convert_motion`, `convert_torques`) is taken from the model.
-/
namespace Verif.Spec
variable {F : Type}

/-- What the user passes to a control function. -/
structure ControlCall (F σ : Type) (k : MotionKind) where
  /-- the motion callback, with what it captured -/
  motion : σ → RobotState F → Nat → σ × Motion F k
  /-- the torque callback, if there is one -/
  torque : Option (σ → RobotState F → Nat → σ × Torques F)
  /-- the requested controller -/
  controller : MoveControllerMode
  limit_rate : Bool
  cutoff : F

/-- The motion generator the robot reports while it executes a motion of this kind. -/
def generatorOf : MotionKind → MotionGeneratorMode
  | .JointPositions => .JointPosition
  | .JointVelocities => .JointVelocity
  | .CartesianPose => .CartesianPosition
  | .CartesianVelocities => .CartesianVelocity

/-- The motion generator a Move request asks for. -/
def generatorRequested : MotionKind → MoveMotionGeneratorMode
  | .JointPositions => .JointPosition
  | .JointVelocities => .JointVelocity
  | .CartesianPose => .CartesianPosition
  | .CartesianVelocities => .CartesianVelocity

/-- The controller the robot reports while this controller was requested. -/
def controllerOf : MoveControllerMode → ControllerMode
  | .JointImpedance => .JointImpedance
  | .CartesianImpedance => .CartesianImpedance
  | .ExternalController => .ExternalController

/-- The state shows a running motion or a running external controller. -/
def Running (s : RobotStateIntern F) : Prop := s.motion_generator_mode ≠ .Idle ∨ s.controller_mode = .ExternalController

/-- The state shows the requested motion generator and controller. -/
def ShowsModes (k : MotionKind) (m : MoveControllerMode) (s : RobotStateIntern F) : Prop :=
  s.motion_generator_mode = generatorOf k ∧ s.controller_mode = controllerOf m

/-- The state shows that the requested motion is executed. -/
def Healthy (k : MotionKind) (m : MoveControllerMode) (s : RobotStateIntern F) : Prop :=
  s.robot_mode = .Move ∧ ShowsModes k m s

/-- The last known robot state of an object, as far as it is stored. -/
def LastState (w : World F) (s : RobotStateIntern F) : Prop :=
  w.rob.motion_generator_mode = some s.motion_generator_mode ∧ w.rob.controller_mode = s.controller_mode ∧
    w.rob.message_id = s.message_id

variable [Fl F]

/-- The default deviations: 10 m, 3.12 rad, 2π rad. -/
def defaultDeviation : MoveDeviation F := { translation := Fl.lit 10, rotation := Fl.lit (312 / 100), elbow := Fl.lit 2 * Fl.pi }

/-- The Move request of a control call. -/
def moveBody (k : MotionKind) (m : MoveControllerMode) : RobotBody F := .Move
  { controller_mode := m
    motion_generator_mode := generatorRequested k
    maximum_path_deviation := defaultDeviation
    maximum_goal_deviation := defaultDeviation }

/-- No torques. -/
def noTorques : ControllerCommand F := { tau_J_d := fun _ => Fl.lit 0 }

/-- No motion values. -/
def noMotion : MotionGeneratorCommand F where
  q_c := fun _ => Fl.lit 0
  dq_c := fun _ => Fl.lit 0
  O_T_EE_c := fun _ => Fl.lit 0
  O_dP_EE_c := fun _ => Fl.lit 0
  elbow_c := fun _ => Fl.lit 0
  valid_elbow := false
  motion_generation_finished := false

/-- How far a control call is. `s` is always the last accepted state, `c` what the callbacks captured, `m` and `t` the last motion and
torque values. -/
inductive Phase (F σ : Type) where
  /-- nothing has happened yet -/
  | before (s : RobotStateIntern F)
  /-- the Move request is written -/
  | starting (s : RobotStateIntern F)
  /-- the motion callback is called next; `prev` is the time of the state before -/
  | ready (c : σ) (s : RobotStateIntern F) (prev : Nat) (m : MotionGeneratorCommand F) (t : ControllerCommand F)
  /-- the torque callback is called next -/
  | moved (c : σ) (s : RobotStateIntern F) (prev : Nat) (m : MotionGeneratorCommand F) (t : ControllerCommand F)
  /-- the command is sent next -/
  | decided (c : σ) (s : RobotStateIntern F) (m : MotionGeneratorCommand F) (t : ControllerCommand F)
  /-- the next state is awaited -/
  | sent (c : σ) (s : RobotStateIntern F) (m : MotionGeneratorCommand F) (t : ControllerCommand F)
  /-- the state shows that the motion is not executed any more -/
  | broken (s : RobotStateIntern F)
  /-- a callback said that the motion is finished -/
  | finishing (s : RobotStateIntern F) (m : MotionGeneratorCommand F) (t : ControllerCommand F)
  /-- the finishing command was sent -/
  | finishSent (s : RobotStateIntern F) (m : MotionGeneratorCommand F) (t : ControllerCommand F)
  /-- StopMove was written -/
  | stopping (s : RobotStateIntern F)
  /-- the output of a callback was refused by a panic -/
  | refused (s : RobotStateIntern F)

variable {σ : Type}

/-- The last accepted state. -/
def Phase.last : Phase F σ → RobotStateIntern F
  | .before s | .starting s | .ready _ s _ _ _ | .moved _ s _ _ _ | .decided _ s _ _ | .sent _ s _ _ | .broken s
  | .finishing s _ _ | .finishSent s _ _ | .stopping s | .refused s => s

/-- An error may occur here, and is answered with StopMove. -/
def Phase.MayStop : Phase F σ → Prop
  | .starting _ | .decided _ _ _ _ | .sent _ _ _ _ | .broken _ | .finishing _ _ _ | .finishSent _ _ _ => True
  | _ => False

/-- The last state shows that the robot does not execute the motion any more. -/
def Phase.Over : Phase F σ → Prop
  | .broken _ => True
  | .finishing s _ _ => ¬ Running s
  | _ => False

variable {k : MotionKind} [Geo F]

/-- The next event of a control call. -/
inductive Step (call : ControlCall F σ k) (c0 : σ) : Phase F σ → Ev F → Phase F σ → Prop where
  /-- The Move request, only if the last known state shows no motion. -/
  | move (s h) : ¬ Running s → h.command = .Move → Step call c0 (.before s) (.robotReq ⟨h, moveBody k call.controller⟩) (.starting s)
  /-- States received while waiting for the start of the motion. -/
  | wait (s s') : ¬ ShowsModes k call.controller s → s.message_id < s'.message_id → Step call c0 (.starting s) (.accepted s') (.starting s')
  /-- The first state of the motion. -/
  | first (s s') : s.message_id < s'.message_id → Healthy k call.controller s' →
      Step call c0 (.starting s) (.accepted s') (.ready c0 s' (RobotState.ofIntern s').time noMotion noTorques)
  /-- The first state after the start shows no motion. -/
  | firstBroken (s s') : s.message_id < s'.message_id → ¬ Healthy k call.controller s' →
      Step call c0 (.starting s) (.accepted s') (.broken s')
  /-- The motion callback, when there is no torque callback. -/
  | motion (c s prev m t dt c' out m') : call.torque = none → prev ≤ (RobotState.ofIntern s).time →
      dt = (RobotState.ofIntern s).time - prev → call.motion c (RobotState.ofIntern s) dt = (c', out) →
      out.convert_motion (RobotState.ofIntern s) m call.cutoff call.limit_rate = .ok m' → out.is_finished = false →
      Step call c0 (.ready c s prev m t) (.motionCb k (RobotState.ofIntern s) dt out) (.decided c' s m' t)
  /-- The motion callback, when there is a torque callback. -/
  | motionFirst (c s prev m t dt c' out m') : call.torque ≠ none → prev ≤ (RobotState.ofIntern s).time →
      dt = (RobotState.ofIntern s).time - prev → call.motion c (RobotState.ofIntern s) dt = (c', out) →
      out.convert_motion (RobotState.ofIntern s) m call.cutoff call.limit_rate = .ok m' → out.is_finished = false →
      Step call c0 (.ready c s prev m t) (.motionCb k (RobotState.ofIntern s) dt out) (.moved c' s prev m' t)
  /-- The motion callback ends the motion. -/
  | motionEnd (c s prev m t dt c' out m') : prev ≤ (RobotState.ofIntern s).time →
      dt = (RobotState.ofIntern s).time - prev → call.motion c (RobotState.ofIntern s) dt = (c', out) →
      out.convert_motion (RobotState.ofIntern s) m call.cutoff call.limit_rate = .ok m' → out.is_finished = true →
      Step call c0 (.ready c s prev m t) (.motionCb k (RobotState.ofIntern s) dt out) (.finishing s m' t)
  /-- The output of the motion callback can not be sent. -/
  | motionRefused (c s prev m t dt c' out e) : prev ≤ (RobotState.ofIntern s).time →
      dt = (RobotState.ofIntern s).time - prev → call.motion c (RobotState.ofIntern s) dt = (c', out) →
      out.convert_motion (RobotState.ofIntern s) m call.cutoff call.limit_rate = .error e →
      Step call c0 (.ready c s prev m t) (.motionCb k (RobotState.ofIntern s) dt out) (.refused s)
  /-- The torque callback. -/
  | torque (f c s prev m t dt c' out τ) : call.torque = some f → prev ≤ (RobotState.ofIntern s).time →
      dt = (RobotState.ofIntern s).time - prev → f c (RobotState.ofIntern s) dt = (c', out) →
      ControlLoop.convert_torques call.limit_rate call.cutoff (RobotState.ofIntern s) out.tau_J = .ok τ → out.is_finished = false →
      Step call c0 (.moved c s prev m t) (.controlCb (RobotState.ofIntern s) dt out) (.decided c' s m { tau_J_d := τ })
  /-- The torque callback ends the motion. -/
  | torqueEnd (f c s prev m t dt c' out τ) : call.torque = some f → prev ≤ (RobotState.ofIntern s).time →
      dt = (RobotState.ofIntern s).time - prev → f c (RobotState.ofIntern s) dt = (c', out) →
      ControlLoop.convert_torques call.limit_rate call.cutoff (RobotState.ofIntern s) out.tau_J = .ok τ → out.is_finished = true →
      Step call c0 (.moved c s prev m t) (.controlCb (RobotState.ofIntern s) dt out) (.finishing s m { tau_J_d := τ })
  /-- The output of the torque callback can not be sent. -/
  | torqueRefused (f c s prev m t dt c' out e) : call.torque = some f → prev ≤ (RobotState.ofIntern s).time →
      dt = (RobotState.ofIntern s).time - prev → f c (RobotState.ofIntern s) dt = (c', out) →
      ControlLoop.convert_torques call.limit_rate call.cutoff (RobotState.ofIntern s) out.tau_J = .error e →
      Step call c0 (.moved c s prev m t) (.controlCb (RobotState.ofIntern s) dt out) (.refused s)
  /-- The command answers the state the callbacks saw. -/
  | send (c s m t a) :
      Step call c0 (.decided c s m t) (.udpSend a { message_id := s.message_id, motion := m, control := t }) (.sent c s m t)
  /-- The next state. -/
  | next (c s m t s') : s.message_id < s'.message_id → Healthy k call.controller s' →
      Step call c0 (.sent c s m t) (.accepted s') (.ready c s' (RobotState.ofIntern s).time m t)
  /-- The next state shows that the motion is not executed any more. -/
  | nextBroken (c s m t s') : s.message_id < s'.message_id → ¬ Healthy k call.controller s' →
      Step call c0 (.sent c s m t) (.accepted s') (.broken s')
  /-- The final command is sent with the finished flag as long as the robot moves. -/
  | finish (s m t a) : Running s → Step call c0 (.finishing s m t)
      (.udpSend a { message_id := s.message_id, motion := { m with motion_generation_finished := true }, control := t }) (.finishSent s m t)
  /-- The next state while finishing. -/
  | finishNext (s m t s') : s.message_id < s'.message_id → Step call c0 (.finishSent s m t) (.accepted s') (.finishing s' m t)
  /-- An error: the robot is told to stop. -/
  | stop (ph : Phase F σ) (h) : ph.MayStop → h.command = .StopMove → Step call c0 ph (.robotReq ⟨h, .StopMove⟩) (.stopping ph.last)
  /-- Waiting for the robot to stop. -/
  | stopped (s s') : s.message_id < s'.message_id → Step call c0 (.stopping s) (.accepted s') (.stopping s')

/-- The events of a control call, from one phase to another. -/
inductive Run (call : ControlCall F σ k) (c0 : σ) : Phase F σ → List (Ev F) → Phase F σ → Prop where
  | nil (ph) : Run call c0 ph [] ph
  | snoc {ph tr ph' e ph''} : Run call c0 ph tr ph' → Step call c0 ph' e ph'' → Run call c0 ph (tr ++ [e]) ph''

end Verif.Spec

namespace Verif.Spec
variable {F : Type} [Fl F]

/-- The state and command pairs of the control cycles: a command and the state received after it. -/
def cycles : List (Ev F) → List (RobotState F × RobotCommand F)
  | .udpSend _ c :: .accepted s :: tr => (RobotState.ofIntern s, c) :: cycles tr
  | _ :: tr => cycles tr
  | [] => []

/-- The documented text for an answer to a Move request, if it is not a success. -/
def abortMessage : MoveStatus → Option String
  | .Success => none
  | .MotionStarted => none
  | .EmergencyAborted => some "libfranka-rs: Move command aborted: User Stop pressed!"
  | .ReflexAborted => some "libfranka-rs: Move command aborted: motion aborted by reflex!"
  | .InputErrorAborted => some "libfranka-rs: Move command aborted: invalid input provided!"
  | .CommandNotPossibleRejected => some "libfranka-rs: Move command rejected: command not possible in the current mode!"
  | .StartAtSingularPoseRejected => some "libfranka-rs: Move command rejected: cannot start at singular pose!"
  | .InvalidArgumentRejected => some "libfranka-rs: Move command rejected: maximum path deviation out of range!"
  | .Preempted => some "libfranka-rs: Move command preempted!"
  | .Aborted => some "libfranka-rs: Move command aborted!"

/-- What a control exception says about the connection, if its log has two records: the success rate of the last but one, less one per cent for each millisecond that is
missing between the two, and how many are missing. (If the two have the same time, the number of missing milliseconds wraps around.) -/
def RateText (log : List (Record F)) (text : String) : Prop :=
  match log.reverse with
  | last :: previous :: _ => ∃ lost : ℕ, (previous.state.time + lost + 1 = last.state.time ∨ (previous.state.time = last.state.time ∧ lost = 2 ^ 128 - 1)) ∧
      text = "\ncontrol_command_success_rate: " ++ Fl.fmt (previous.state.control_command_success_rate * (Fl.lit 1 - Fl.ofNat lost / Fl.lit 100)) ++
        if lost = 0 then "" else " packets lost in a row in the last sample: " ++ toString lost
  | _ => text = ""

/-- The text of a control exception for an aborted motion: the message for the status, and after a reflex also the errors reported in the
last state and what the log says about the connection. -/
def AbortText (status : MoveStatus) (reasons : FrankaErrors) (log : List (Record F)) (text : String) : Prop :=
  ∃ msg head tail, abortMessage status = some msg ∧ text = head ++ tail ∧
    if status = .ReflexAborted then
      RateText log tail ∧ (head = "\"" ++ msg ++ "\" " ++ reasons.fmt ∨ head = "Motion finished commanded, but the robot is still moving! " ++ reasons.fmt)
    else tail = "" ∧ (head = "\"" ++ msg ++ "\"" ∨ head = msg)

/-- `log` are the records of a logger that was flushed before the cycles `ps` and then took them. -/
def LoggedBy (l : Logger F) (ps : List (RobotState F × RobotCommand F)) (log : List (Record F)) : Prop :=
  ∃ old l0 l1 l2, l.flush = .ok (old, l0) ∧ ps.foldlM (fun l p => l.log p.1 p.2) l0 = .ok l1 ∧ l1.flush = .ok (log, l2)

/-- Why a motion that was started ends with the error `e`: the connection failed while the robot was still executing it, or the robot
does not execute it any more and answered the Move request with something else than a success. `ph` is how far the call was at that moment. -/
inductive Failure {σ : Type} (w : World F) (tr : List (Ev F)) (ph : Phase F σ) (w' : World F) (e : FrankaException F) : Prop where
  | network (m) : ¬ ph.Over → e = .NetworkException m → Failure w tr ph w' e
  | aborted (bs status rest log text) : ph.Over → (w.net.command_id, bs) ∈ responses w'.trace →
      MoveResponse.codec.dec bs = some (status, rest) →
      e = .ControlException (some log) text → AbortText status.status (RobotState.ofIntern ph.last).last_motion_errors log text →
      LoggedBy w.rob.logger (cycles tr) log → Failure w tr ph w' e

/-- Why a motion could not be started: the connection failed, or the robot answered the Move request with something else than a success. -/
inductive StartFailure (w w' : World F) (e : FrankaException F) : Prop where
  | network (m) : e = .NetworkException m → StartFailure w w' e
  | rejected (bs status rest msg) : (w.net.command_id, bs) ∈ responses w'.trace → MoveResponse.codec.dec bs = some (status, rest) →
      abortMessage status.status = some msg → e = .CommandException msg ∨ e = .ControlException none msg → StartFailure w w' e

/-- The robot accepted the Move request with the number `id`: the request with these contents was written after `w`, nothing else is seen
since, and a positive answer with its number was received. -/
structure MoveAccepted (k : MotionKind) (controller : MoveControllerMode) (w wa : World F) : Prop where
  request : ∃ h : RobotCommandHeader, h.command = .Move ∧ h.command_id = w.net.command_id ∧
    visible wa.trace = visible w.trace ++ [.robotReq ⟨h, moveBody k controller⟩]
  answer : ∃ bs status rest, (w.net.command_id, bs) ∈ responses wa.trace ∧ MoveResponse.codec.dec bs = some (status, rest) ∧
    abortMessage status.status = none

/-- A motion that ended well: the robot stands still, it accepted the Move request, and after that it answered the request a second time with a
success. -/
structure Finished (k : MotionKind) (controller : MoveControllerMode) (w w' : World F) (s : RobotStateIntern F) : Prop where
  still : ¬ Running s
  answer : ∃ wa es bs status rest, MoveAccepted k controller w wa ∧ w'.trace = wa.trace ++ es ∧ (w.net.command_id, bs) ∈ responses es ∧
    MoveResponse.codec.dec bs = some (status, rest) ∧ abortMessage status.status = none

/-- A motion that was stopped: after the events `tr1` there was a failure, StopMove was written, and then states were received until one
shows that the robot stands still. -/
structure Stopped {σ : Type} {k : MotionKind} [Geo F] (call : ControlCall F σ k) (c0 : σ) (w : World F) (s0 : RobotStateIntern F)
    (tr : List (Ev F)) (w' : World F) (s : RobotStateIntern F) (e : FrankaException F) : Prop where
  still : ¬ Running s
  events : ∃ tr1 ph1 h tr2, tr = tr1 ++ .robotReq ⟨h, .StopMove⟩ :: tr2 ∧ Run call c0 (.before s0) tr1 ph1 ∧ ph1.MayStop ∧
    h.command = .StopMove ∧ Run call c0 (.stopping ph1.last) tr2 (.stopping s) ∧ Failure w tr1 ph1 w' e

/-- Real-time scheduling is demanded and can not be had. -/
def RealTimeMissing (w : World F) : Prop :=
  w.rob.realtime_config = .Enforce ∧
    ¬ (w.cfg.realtime_kernel = true ∧ w.cfg.priority_max_ok = true ∧ w.cfg.setsched_ok = true ∧ w.cfg.mlock_ok = true)

/-- What a control call does between the worlds `w` and `w'`: `s0` is the last state known before. -/
def ControlOutcome {σ : Type} {k : MotionKind} [Geo F] (call : ControlCall F σ k) (c0 : σ) (w : World F) (s0 : RobotStateIntern F)
    (r : Res F Unit) (w' : World F) : Prop :=
  (RealTimeMissing w → w' = w ∧ ∃ m, r = .err (.RealTimeException m)) ∧
  ∃ tr ph, visible w'.trace = visible w.trace ++ tr ∧ Run call c0 (.before s0) tr ph ∧
    match r with
    | .ok _ => LastState w' ph.last ∧ ∃ s m t, ph = .finishing s m t ∧ Finished k call.controller w w' s
    | .err e => LastState w' ph.last ∧ ((tr = [] ∧ RealTimeMissing w ∧ ∃ m, e = .RealTimeException m) ∨
        (∃ s, ph = .starting s ∧ ¬ ShowsModes k call.controller s ∧ StartFailure w w' e) ∨
        (∃ s, ph = .stopping s ∧ Stopped call c0 w s0 tr w' s e))
    | .panic _ => True
    | .blocked => ∀ s, ph ≠ .refused s

end Verif.Spec
