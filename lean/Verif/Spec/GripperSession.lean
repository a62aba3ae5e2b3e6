import Verif.Spec.CoopSession
import Verif.Spec.Api
/-!
# A session with a gripper that does its part

As `Spec/CoopSession.lean`, with the values that the calls return.
-/
namespace Verif.Spec
open Prog
variable {F : Type}

/-- What a call of the gripper returns when it succeeds. -/
inductive GripperReply (F : Type) where
  | flag (b : Bool)
  | state (s : Gripper.GripperState F)
  | version (v : UInt16)

/-- A call with its value. -/
def GripperCall.value [Fl F] [Wire F] : GripperCall F → Prog F (GripperReply F)
  | .move_gripper w s => do let b ← Gripper.move_gripper w s; pure (.flag b)
  | .homing => do let b ← Gripper.homing; pure (.flag b)
  | .stop => do let b ← Gripper.stop; pure (.flag b)
  | .grasp w s f i o => do let b ← Gripper.grasp w s f i o; pure (.flag b)
  | .read_once => do let s ← Gripper.read_once; pure (.state s)
  | .server_version => do let v ← Gripper.server_version; pure (.version v)

/-- The calls, one after the other, also after errors, with what each of them returned. -/
def gripperHistory [Fl F] [Wire F] : List (GripperCall F) → Prog F (List (Outcome F (GripperReply F)))
  | [] => pure []
  | c :: cs => do
    let o ← attempt c.value
    let os ← gripperHistory cs
    pure (o :: os)

/-- The same after the constructor. -/
def gripperStory [Fl F] [Wire F] (cs : List (GripperCall F)) : Prog F (List (Outcome F (GripperReply F))) := do
  Gripper.new
  gripperHistory cs

/-- The 23 bytes in which a gripper sends the state `s`: the time in milliseconds, the widths, whether something is grasped, the temperature. -/
structure SendsGripperState [Wire F] (s : Gripper.GripperState F) (data : Bytes) : Prop where
  size : data.length = 23
  time : natAt data 0 4 = s.time
  width : floatAt data 4 s.width
  max_width : floatAt data 12 s.max_width
  is_grasped : boolAt data 20 s.is_grasped
  temperature : natAt data 21 2 = s.temperature.toNat

/-- Datagrams of the length of a gripper state. -/
def GripperSized (ds : List Datagram) : Prop := ∀ d ∈ ds, d.data.length = 23

/-- `read_once` first takes the datagrams `q`, and those that have arrived meanwhile, from the socket; the last of them has to hold a state. -/
inductive GripperDiscards (F : Type) [Wire F] (q : List Datagram) : List Tick → Prop where
  | nothing (t) : q ++ t.udpIn = [] → Fine [t] → GripperDiscards F q [t]
  | all (s : Gripper.GripperState F) (ds src data t ts) : SendsGripperState s data → q ++ t.udpIn = ds ++ [⟨src, data⟩] → GripperSized ds → Fine (t :: ts) →
      NoDatagram ts → ts.length = ds.length + 4 → GripperDiscards F q (t :: ts)

/-- The gripper sends the state `s` while the library waits. Other states may arrive at the same time; `s` is the last of them. -/
inductive GripperSends [Wire F] (s : Gripper.GripperState F) : List Tick → Prop where
  | arrives (ds src data t ts) : SendsGripperState s data → t.udpIn = ds ++ [⟨src, data⟩] → GripperSized ds → Fine (t :: ts) → NoDatagram ts →
      ts.length = ds.length + 2 → GripperSends s (t :: ts)

/-- `GripperGoes v id q ts cs reqs`: in the schedule `ts` a gripper with the version `v` does its part for the calls in `cs`. Beside each call is what the user
has to be told; `reqs` are the requests with their numbers. `id` is the number of the next request, `q` are the datagrams in the socket. -/
inductive GripperGoes [Fl F] [Wire F] (v : UInt16) : UInt32 → List Datagram → List Tick → List (GripperCall F × Outcome F (GripperReply F)) →
    List (UInt32 × Gripper.Body F) → Prop where
  /-- no further call -/
  | done (id q ts) : GripperGoes v id q ts [] []
  /-- asking for the version of the server -/
  | version {id q ts cs reqs} : GripperGoes v id q ts cs reqs → GripperGoes v id q ts ((.server_version, .ok (.version v)) :: cs) reqs
  /-- a command that is answered -/
  | command {id q ts cs reqs c b m o} {p : Asking} : id ≠ 0xffffffff → gripperRequest c = some b → IsFrame .Gripper id m → m.length = 12 → KnownCommand .Gripper m →
      gripperVerdict m o → p.Brings m → GripperGoes v (id + 1) (q ++ udpArrived p.script) ts cs reqs →
      GripperGoes v id q (p.script ++ ts) ((c, o.map .flag) :: cs) ((id, b) :: reqs)
  /-- `read_once` -/
  | read_once {id q ts cs reqs s ts0 ts1} : GripperDiscards F q ts0 → GripperSends s ts1 → TcpSilent (ts0 ++ ts1) → GripperGoes v id [] ts cs reqs →
      GripperGoes v id q (ts0 ++ (ts1 ++ ts)) ((.read_once, .ok (.state s)) :: cs) reqs

/-- The event is the sending of this request with this number. -/
def SentAs (r : UInt32 × Gripper.Body F) (e : Ev F) : Prop :=
  ∃ h : Gripper.CommandHeader, h.command = gripperKind r.2 ∧ h.command_id = r.1 ∧ e = .gripperReq ⟨h, r.2⟩

end Verif.Spec
