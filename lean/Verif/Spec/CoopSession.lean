import Verif.Spec.Connect
import Verif.Spec.Abort
import Verif.Spec.History
/-!
# A session with a robot that does its part

Schedules of whole sessions: the robot accepts the connection and answers every request - positively or not -, sends the states that are awaited,
executes motions, aborts them or refuses them. For every call it is said what the user is told.
-/
namespace Verif.Spec
open Prog
variable {F : Type}

/-- The calls, one after the other, also after errors, with what each of them returned (without its value). -/
def robotHistory [Fl F] [Wire F] [Geo F] : List (RobotCall F) → Prog F (List (Outcome F Unit))
  | [] => pure []
  | c :: cs => do
    let o ← attempt c.run
    let os ← robotHistory cs
    pure (o :: os)

/-- The same after the constructor. -/
def robotStory [Fl F] [Wire F] [Geo F] (rc : Option RealtimeConfig) (log_size : Option Nat) (cs : List (RobotCall F)) : Prog F (List (Outcome F Unit)) := do
  Robot.new rc log_size
  robotHistory cs

/-- The user does not insist on real time scheduling, or it can be had on this computer. -/
def RealTimeGranted (rc : Option RealtimeConfig) (w : World F) : Prop :=
  rc.getD .Enforce = .Ignore ∨ (w.cfg.realtime_kernel = true ∧ w.cfg.priority_max_ok = true ∧ w.cfg.setsched_ok = true ∧ w.cfg.mlock_ok = true)

/-- The system calls of a request and its answer. -/
structure Asking where
  /-- the request is written -/
  write : Tick
  /-- the library looks in vain for an answer -/
  ask : List Tick
  /-- the answer is there (`a1`) and is read -/
  a1 : Tick
  a2 : Tick
  a3 : Tick
  a4 : Tick

/-- The whole schedule. -/
def Asking.script (p : Asking) : List Tick := p.write :: p.ask ++ [p.a1, p.a2, p.a3, p.a4]

/-- No system call fails, and the bytes `m` are all that arrives on the TCP stream. Datagrams may arrive at any time. -/
structure Asking.Brings (p : Asking) (m : Bytes) : Prop where
  fine : Fine p.script
  bytes : p.a1.tcpIn = m
  silent : TcpSilent (p.write :: p.ask ++ [p.a2, p.a3, p.a4])

/-- An answer to the request with this number that consists of a header and a status. -/
structure IsAnswer (id : UInt32) (m : Bytes) : Prop where
  frame : IsFrame .Robot id m
  size : m.length = 13
  known : KnownCommand .Robot m

/-- The call `c` sends the request `b`; when its number is `id` and `m` is the answer, then the user is told `o`. -/
inductive Told [Wire F] (id : UInt32) : RobotCall F → RobotBody F → Bytes → Outcome F Unit → Prop where
  | setter {c b m o} : setterRequest c = some b → IsAnswer id m → setterVerdict m o → Told id c b m o
  | recovery {m o} : IsAnswer id m → recoveryVerdict m o → Told id .automatic_error_recovery .AutomaticErrorRecovery m o
  | stop {m o} : IsAnswer id m → stopVerdict m o → Told id .stop .StopMove m o
  | wall {n m o} (a : GetCartesianLimitResponse F) : m = (GetCartesianLimitResponse.codec F).enc a → a.header.command_id = id → a.header.size = 166 →
      setterVerdict m o → Told id (.get_virtual_wall n) (.GetCartesianLimit ⟨n⟩) m o

/-- Setter requests one after the other, up to the first that is not accepted: numbers from `id` up to `id'`, the schedule, what the user is told, and
what is sent. -/
inductive Setting : UInt32 → List (RobotBody F) → List Tick → Outcome F Unit → List (Ev F) → UInt32 → Prop where
  | nil (id) : Setting id [] [] (.ok ()) [] id
  | next {id m p bs ts o tr id'} (b h) : id ≠ 0xffffffff → h.command = kind b → IsAnswer id m → setterVerdict (F := F) m (.ok ()) → p.Brings m →
      Setting (id + 1) bs ts o tr id' → Setting id (b :: bs) (Asking.script p ++ ts) o (.robotReq ⟨h, b⟩ :: tr) id'
  | fail {id m p bs e} (b h) : id ≠ 0xffffffff → h.command = kind b → IsAnswer id m → setterVerdict m (.error e) → p.Brings m →
      Setting id (b :: bs) (Asking.script p) (.error e) [.robotReq ⟨h, b⟩] (id + 1)

/-- `read_once` first takes the datagrams `q`, and those that have arrived meanwhile, from the socket; the last of them has to hold a state. -/
inductive Discards (F : Type) [Wire F] (q : List Datagram) : List Tick → Prop where
  | nothing (t) : q ++ t.udpIn = [] → Fine [t] → Discards F q [t]
  | all (s : RobotStateIntern F) (ds src data t ts) : HoldsState s data → q ++ t.udpIn = ds ++ [⟨src, data⟩] → StateSized ds → Fine (t :: ts) →
      NoDatagram ts → ts.length = ds.length + 4 → Discards F q (t :: ts)

/-- States arrive and are shown to the callback of `read`, which remembers `c`, until it does not want to go on. `s` is the last state before. -/
inductive Reads [Fl F] [Wire F] {σ : Type} (cb : σ → RobotState F → σ × Bool) : σ → RobotStateIntern F → List Datagram → List Tick → List (Ev F) →
    RobotStateIntern F → Prop where
  | last {c s q ts s'} : StateArrives s' q ts → TcpSilent ts → s.message_id < s'.message_id → (cb c (RobotState.ofIntern s')).2 = false →
      Reads cb c s q ts [.accepted s', .readCb (RobotState.ofIntern s') false] s'
  | more {c s q ts s' ts' tr sE} : StateArrives s' q ts → TcpSilent ts → s.message_id < s'.message_id → (cb c (RobotState.ofIntern s')).2 = true →
      Reads cb (cb c (RobotState.ofIntern s')).1 s' [] ts' tr sE →
      Reads cb c s q (ts ++ ts') (.accepted s' :: .readCb (RobotState.ofIntern s') true :: tr) sE

/-- `Goes L rt id s q ts cs tr`: in the schedule `ts` the robot does its part for the calls in `cs`. Beside each call is what the user has to be told, and
`tr` is what happens. `id` is the number of the next request, `s` the last known state, `q` the datagrams in the socket. `L` is the size of
the log, `rt` says that motions may be started. -/
inductive Goes [Fl F] [Wire F] [Geo F] (L : Nat) (rt : Prop) : UInt32 → RobotStateIntern F → List Datagram → List Tick →
    List (RobotCall F × (Outcome F Unit → Prop)) → List (Ev F) → Prop where
  /-- no further call -/
  | done (id s q ts) : Goes L rt id s q ts [] []
  /-- asking for the version of the server -/
  | version {id s q ts cs tr} : Goes L rt id s q ts cs tr → Goes L rt id s q ts ((.server_version, (· = .ok ())) :: cs) tr
  /-- a request that is answered -/
  | request {id s q ts cs tr c b m o} {p : Asking} (h) : id ≠ 0xffffffff → h.command = kind b → Told id c b m o → p.Brings m →
      Goes L rt (id + 1) s (q ++ udpArrived p.script) ts cs tr →
      Goes L rt id s q (p.script ++ ts) ((c, (· = o)) :: cs) (.robotReq ⟨h, b⟩ :: tr)
  /-- `set_default_behavior` -/
  | defaults {id s q ts cs tr o id' ts0 tr0} : Setting id defaultBehavior ts0 o tr0 id' → Goes L rt id' s (q ++ udpArrived ts0) ts cs tr →
      Goes L rt id s q (ts0 ++ ts) ((.set_default_behavior, (· = o)) :: cs) (tr0 ++ tr)
  /-- `read_once` -/
  | read_once {id s q ts cs tr s' ts0 ts1} : Discards F q ts0 → StateArrives s' [] ts1 → TcpSilent (ts0 ++ ts1) → s.message_id < s'.message_id →
      Goes L rt id s' [] ts cs tr → Goes L rt id s q (ts0 ++ (ts1 ++ ts)) ((.read_once, (· = .ok ())) :: cs) (.accepted s' :: tr)
  /-- `read` -/
  | read {id s q ts cs tr s' ts0 tr0 σ cb} (c : σ) : Reads cb c s q ts0 tr0 s' → Goes L rt id s' [] ts cs tr →
      Goes L rt id s q (ts0 ++ ts) ((.read σ cb c, (· = .ok ())) :: cs) (tr0 ++ tr)
  /-- a motion that the robot executes to its end, as in C65 -/
  | motion {id s q cs tr c σ k} {call : ControlCall F σ k} {c0 : σ} {r waiting first tr0 sF mF tF} {p : Plan} : rt → id ≠ 0xffffffff → IsControl c call c0 →
      Run call c0 (.before s) (.robotReq r :: (waiting.map .accepted ++ .accepted first :: tr0)) (.finishing sF mF tF) → ¬ Running sF →
      (∀ r, .robotReq r ∉ tr0) → (∃ s1, waiting.getLast? = some s1 ∧ ShowsModes k call.controller s1) → Cooperates id q waiting (.accepted first :: tr0) p →
      Goes L rt (id + 1) sF (udpArrived p.closing) p.rest cs tr →
      Goes L rt id s q p.script ((c, (· = .ok ())) :: cs) ((.robotReq r :: (waiting.map .accepted ++ .accepted first :: tr0)) ++ tr)
  /-- a motion that the robot aborts, as in C73 -/
  | aborted {id s q cs tr c σ k} {call : ControlCall F σ k} {c0 : σ} {r waiting first tr0 sB stop halting sE status} {p : Plan} {sp : StopPlan} :
      rt → id ≠ 0xffffffff → id + 1 ≠ 0xffffffff → IsControl c call c0 →
      Run call c0 (.before s) (.robotReq r :: (waiting.map .accepted ++ .accepted first :: tr0)) (.broken sB) → (∀ r, .robotReq r ∉ tr0) →
      (∃ s1, waiting.getLast? = some s1 ∧ ShowsModes k call.controller s1) →
      Run call c0 (.broken sB) (.robotReq stop :: halting.map .accepted) (.stopping sE) → Halts halting → abortMessage status ≠ none →
      ¬ (status = .ReflexAborted ∧ LogWraps L (cycles tr0).length) → Aborts id status q waiting (.accepted first :: tr0) halting p sp →
      Goes L rt (id + 1 + 1) sE sp.look.udpIn sp.rest cs tr →
      Goes L rt id s q p.script ((c, fun o => ∃ log text, o = .error (.ControlException (some log) text) ∧
          AbortText status (RobotState.ofIntern sB : RobotState F).last_motion_errors log text) :: cs)
        (((.robotReq r :: (waiting.map .accepted ++ .accepted first :: tr0)) ++ .robotReq stop :: halting.map .accepted) ++ tr)
  /-- a motion that the robot refuses to start -/
  | refused {id s q ts cs tr c σ k} {call : ControlCall F σ k} {c0 : σ} {m status msg} {p : Asking} (h) : rt → id ≠ 0xffffffff → IsControl c call c0 → ¬ Running s →
      h.command = .Move → IsMoveReply id status m → abortMessage status = some msg → p.Brings m →
      Goes L rt (id + 1) s (q ++ udpArrived p.script) ts cs tr →
      Goes L rt id s q (p.script ++ ts) ((c, (· = .error (.CommandException msg))) :: cs) (.robotReq ⟨h, moveBody k call.controller⟩ :: tr)
  /-- a motion that is not started because there is no real time scheduling -/
  | unscheduled {id s q ts cs tr c σ k} {call : ControlCall F σ k} {c0 : σ} : ¬ rt → IsControl c call c0 → Goes L rt id s q ts cs tr →
      Goes L rt id s q ts ((c, fun o => ∃ text, o = .error (.RealTimeException text)) :: cs) tr

end Verif.Spec
