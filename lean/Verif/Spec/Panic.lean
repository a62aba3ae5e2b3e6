import Verif.Spec.Motion
import Verif.Spec.Frames
/-!
# When a call may panic

A connection is orderly if the operating system and the other side do their part. In an orderly connection a call panics only for the
reasons listed here.
-/
namespace Verif.Spec
variable {F : Type}

/-- One whole message of the protocol. -/
def IsMessage (nt : NetworkType) (m : Bytes) : Prop := KnownCommand nt m ∧ ∃ id, IsFrame nt id m

/-- Whole messages, one after the other. -/
inductive Messages (nt : NetworkType) : Bytes → Prop where
  | nil : Messages nt []
  | cons {m bs} : IsMessage nt m → Messages nt bs → Messages nt (m ++ bs)

/-- The datagram is a state of the robot, or of the gripper. -/
def IsState (F : Type) [Wire F] : NetworkType → Datagram → Prop
  | .Robot, d => ∃ s : RobotStateIntern F, d.data = (RobotStateIntern.codec F).enc s
  | .Gripper, d => ∃ s : Gripper.GripperStateIntern F, d.data = (Gripper.GripperStateIntern.codec F).enc s

/-- What happens in one system call of an orderly connection: it does not fail, what arrives on the TCP stream are whole messages, and
datagrams are states. The connection may be closed. -/
structure Orderly (F : Type) [Wire F] (nt : NetworkType) (t : Tick) : Prop where
  works : t.fail = false
  stream : Messages nt t.tcpIn
  states : ∀ d ∈ t.udpIn, IsState F nt d

/-- `w` is a state between two calls of an orderly connection to a robot whose log was made for `L` records. -/
def OrderlyRobot [Fl F] [Wire F] [Geo F] (L : Nat) (w : World F) : Prop :=
  ∃ (rc : Option RealtimeConfig) (ls : Option Nat) (cs : List (RobotCall F)) (w0 : World F), Fresh w0 ∧ (∀ t ∈ w0.script, Orderly F .Robot t) ∧
    L = ls.getD 50 ∧ robotSession rc ls cs w0 = (.ok (), w)

/-- `w` is a state between two calls of an orderly connection to a gripper. -/
def OrderlyGripper [Fl F] [Wire F] (w : World F) : Prop :=
  ∃ (cs : List (GripperCall F)) (w0 : World F), Fresh w0 ∧ (∀ t ∈ w0.script, Orderly F .Gripper t) ∧ gripperSession cs w0 = (.ok (), w)

/-- The message is an answer to this request. The answer to a request for the model library contains a library if it reports success. -/
def Answers [Wire F] (b : RobotBody F) (m : Bytes) : Prop :=
  match b with
  | .Connect _ => ∃ a, m = ConnectResponse.codec.enc a
  | .Move _ => ∃ a, m = MoveResponse.codec.enc a
  | .StopMove => ∃ a, m = StopMoveResponse.codec.enc a
  | .GetCartesianLimit _ => ∃ a, m = (GetCartesianLimitResponse.codec F).enc a
  | .AutomaticErrorRecovery => ∃ a, m = AutomaticErrorRecoveryResponse.codec.enc a
  | .LoadModelLibrary _ => ∃ a lib, m = LoadModelLibraryResponse.codec.enc a ++ lib ∧ (a.status = .Success → lib ≠ [])
  | _ => ∃ a, m = SetterResponse.codec.enc a

/-- The message is an answer to this request of a gripper. -/
def GripperAnswers (b : Gripper.Body F) (m : Bytes) : Prop :=
  match b with
  | .Connect _ => ∃ a, m = Gripper.ConnectResponse.codec.enc a
  | _ => ∃ a, m = Gripper.MoveResponse.codec.enc a

/-- Reasons for which any call of a robot may panic. `w` is the world before the call, `w'` at the panic. With overflow checks, all
2³² - 1 numbers of requests are used up. Or something came as an answer to a request of this call that is none. -/
inductive RequestFault [Wire F] (w w' : World F) : Prop where
  | numbers : w'.cfg.overflow_checks = true → (requestIds w'.trace).length = 4294967295 → RequestFault w w'
  | answer (r m) : .robotReq r ∈ newEvents w w' → (r.header.command_id, m) ∈ responses w'.trace → ¬ Answers r.request m → RequestFault w w'

/-- The same for a gripper. -/
inductive GripperFault (w w' : World F) : Prop where
  | numbers : w'.cfg.overflow_checks = true → (requestIds w'.trace).length = 4294967295 → GripperFault w w'
  | answer (r m) : .gripperReq r ∈ newEvents w w' → (r.header.command_id, m) ∈ responses w'.trace → ¬ GripperAnswers r.request m →
      GripperFault w w'

/-- The output of a callback can not be made into a command. -/
def Unsendable [Fl F] [Geo F] {σ : Type} {k : MotionKind} (call : ControlCall F σ k) : Ev F → Prop
  | .motionCb _ s _ out => ∃ m e, out.convert_motion s m call.cutoff call.limit_rate = .error e
  | .controlCb s _ out => ∃ e, ControlLoop.convert_torques call.limit_rate call.cutoff s out.tau_J = .error e
  | _ => False

/-- The robot answered the request `b`, made between `w` and `w'`, with `m`. -/
def AnsweredWith (b : RobotBody F → Prop) (w w' : World F) (m : Bytes) : Prop :=
  ∃ h body, b body ∧ .robotReq ⟨h, body⟩ ∈ newEvents w w' ∧ (h.command_id, m) ∈ responses w'.trace

/-- Further reasons for which a control call may panic. `w` is the world before the call, `w'` at the panic. -/
inductive ControlFault [Fl F] [Geo F] {σ : Type} {k : MotionKind} (L : Nat) (call : ControlCall F σ k) (w w' : World F) : Prop where
  /-- the robot moves already -/
  | busy (s) : lastAccepted w.trace = some s → Running s → newEvents w w' = [] → ControlFault L call w w'
  /-- a callback has just returned something that can not be sent -/
  | refused (pre e) : newEvents w w' = pre ++ [e] → Unsendable call e → ControlFault L call w w'
  /-- the robot was made with a log of size zero and a command was sent -/
  | noLog : L = 0 → commands (newEvents w w') ≠ [] → ControlFault L call w w'
  /-- the robot stopped executing the motion and says that all is well -/
  | unexpected (s a) : lastAccepted w'.trace = some s → ¬ Healthy k call.controller s →
      AnsweredWith (fun b => b = moveBody k call.controller) w w' (MoveResponse.codec.enc a) → abortMessage a.status = none → ControlFault L call w w'
  /-- an error is to be reported and the robot refuses to stop -/
  | stop (a) : AnsweredWith (fun b => b = .StopMove) w w' (StopMoveResponse.codec.enc a) → a.status ≠ .Success → ControlFault L call w w'
  /-- a reflex is to be reported; the number of commands that were followed by a state is greater than the size of the log and one more
  than a multiple of it -/
  | reflex (a n) : AnsweredWith (fun b => b = moveBody k call.controller) w w' (MoveResponse.codec.enc a) → a.status = .ReflexAborted →
      2 ≤ L → L < n → n % L = 1 → n = (cycles (newEvents w w')).length → ControlFault L call w w'

end Verif.Spec
