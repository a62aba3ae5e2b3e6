import Verif.Spec.Motion
import Verif.Spec.Frames
/-!
# A robot that cooperates

Schedules in which the robot does what it should: it accepts the Move request, sends a state for every step of the motion, and
confirms the end of the motion. A tick is one system call of the library (`Model/World.lean`), so a schedule says in which of the calls
of the library something arrives.
-/
namespace Verif.Spec
variable {F : Type}

/-- No system call fails and the connection is not closed. -/
def Fine (ts : List Tick) : Prop := ∀ t ∈ ts, t.fail = false ∧ t.eof = false

/-- No datagram arrives. -/
def NoDatagram (ts : List Tick) : Prop := ∀ t ∈ ts, t.udpIn = []

/-- Datagrams of the length of a state. -/
def StateSized (ds : List Datagram) : Prop := ∀ d ∈ ds, d.data.length = 2373

/-- The data of a datagram that holds the state `s`. -/
structure HoldsState [Wire F] (s : RobotStateIntern F) (data : Bytes) : Prop where
  size : data.length = 2373
  contents : (RobotStateIntern.codec F).dec data = some (s, [])

/-- The robot sends the state `s`: in these system calls the library receives it, when `q` are the datagrams that were there before. Older
datagrams that were not read yet are taken from the socket together with it. -/
inductive StateArrives [Wire F] (s : RobotStateIntern F) : List Datagram → List Tick → Prop where
  /-- it is there when the library looks for the first time -/
  | there (q ds src data t ts) : HoldsState s data → q ++ t.udpIn = ds ++ [⟨src, data⟩] → StateSized ds → Fine (t :: ts) →
      NoDatagram ts → ts.length = ds.length + 4 → StateArrives s q (t :: ts)
  /-- it arrives while the library waits -/
  | later (ds src data t0 t ts) : HoldsState s data → t0.udpIn = [] → t.udpIn = ds ++ [⟨src, data⟩] → StateSized ds → Fine (t0 :: t :: ts) →
      NoDatagram ts → ts.length = ds.length + 2 → StateArrives s [] (t0 :: t :: ts)

/-- The robot sends the states of these events when they are awaited. Sending a command is one system call, calling a callback none. -/
inductive Supplies [Wire F] : List Datagram → List (Ev F) → List Tick → Prop where
  | nil (q) : Supplies q [] []
  | state {q s ts tr ts'} : StateArrives s q ts → Supplies [] tr ts' → Supplies q (.accepted s :: tr) (ts ++ ts')
  | command {q a c tr t ts} : Fine [t] → Supplies (q ++ t.udpIn) tr ts → Supplies q (.udpSend a c :: tr) (t :: ts)
  | callback {q e tr ts} : IsCallback e → Supplies q tr ts → Supplies q (e :: tr) ts

/-- The robot sends these states while the library waits for the start of the motion. It looks for an answer before each of them; there is
none. -/
inductive SuppliesStart [Wire F] : List Datagram → List (RobotStateIntern F) → List Tick → Prop where
  | nil (q) : SuppliesStart q [] []
  | state {q s t ts ss ts'} : Fine [t] → StateArrives s (q ++ t.udpIn) ts → SuppliesStart [] ss ts' → SuppliesStart q (s :: ss) (t :: ts ++ ts')

/-- A positive answer to the Move request with this number. -/
def IsMoveAnswer (id : UInt32) (m : Bytes) : Prop :=
  ∃ a : MoveResponse, m = MoveResponse.codec.enc a ∧ a.header.command_id = id ∧ a.header.size = 13 ∧ abortMessage a.status = none

/-- The bytes `m` arrive in one piece in one of these system calls, and nothing else arrives on the TCP stream. -/
def ArrivesOnce (m : Bytes) (ts : List Tick) : Prop :=
  ∃ pre t post, ts = pre ++ t :: post ∧ t.tcpIn = m ∧ ∀ x ∈ pre ++ post, x.tcpIn = []

/-- Nothing arrives on the TCP stream. -/
def TcpSilent (ts : List Tick) : Prop := ∀ t ∈ ts, t.tcpIn = []

/-- The system calls of a motion that goes well. -/
structure Plan where
  /-- the Move request is written -/
  write : Tick
  /-- the library looks in vain for an answer -/
  ask : List Tick
  /-- the answer is there (`a1`) and is read -/
  a1 : Tick
  a2 : Tick
  a3 : Tick
  a4 : Tick
  /-- the library waits for the start of the motion -/
  start : List Tick
  /-- the motion -/
  motion : List Tick
  /-- the library looks in vain for the last answer -/
  await : List Tick
  /-- the last answer is read -/
  l1 : Tick
  l2 : Tick
  l3 : Tick
  l4 : Tick
  /-- after the motion -/
  rest : List Tick

/-- The system calls up to the first answer. -/
def Plan.opening (p : Plan) : List Tick := p.write :: p.ask ++ [p.a1, p.a2, p.a3, p.a4]

/-- The system calls of the last answer. -/
def Plan.closing (p : Plan) : List Tick := p.await ++ [p.l1, p.l2, p.l3, p.l4]

/-- The whole schedule. -/
def Plan.script (p : Plan) : List Tick := p.opening ++ (p.start ++ (p.motion ++ (p.closing ++ p.rest)))

/-- The robot accepts the Move request with this number, sends the states `waiting` until the motion starts and then the states of the
events `tr`, and confirms the end of the motion, at the latest while the library waits for it. `q` are the datagrams that were in the socket
before; more may arrive until the first answer is read. -/
structure Cooperates [Wire F] (id : UInt32) (q : List Datagram) (waiting : List (RobotStateIntern F)) (tr : List (Ev F)) (p : Plan) : Prop where
  fine : Fine p.opening ∧ Fine p.closing
  accepts : ∃ m, IsMoveAnswer id m ∧ p.a1.tcpIn = m ∧ TcpSilent (p.write :: p.ask ++ [p.a2, p.a3, p.a4])
  starts : SuppliesStart (q ++ udpArrived p.opening) waiting p.start ∧ TcpSilent p.start
  moves : Supplies [] tr p.motion
  confirms : ∃ m, IsMoveAnswer id m ∧ TcpSilent [p.l2, p.l3, p.l4] ∧
    (TcpSilent (p.motion ++ p.await) ∧ p.l1.tcpIn = m ∨ ArrivesOnce m p.motion ∧ p.await = [] ∧ p.l1.tcpIn = [])

/-- Between two calls: every byte of the TCP stream is read and no message is incomplete, the connection is open, the number of the next request
was never used in an answer and is not the last one, and a waiting datagram will be reported. -/
structure Idle (w : World F) : Prop where
  rx : w.ker.tcpRx = []
  eof : w.ker.tcpEof = false
  pending : w.net.pending_response = []
  absent : ∀ bs, (w.net.command_id, bs) ∉ responses w.trace
  ids : w.net.command_id ≠ 0xffffffff
  ready : w.ker.udpRx ≠ [] → w.ker.udpEdge = true

/-- The same event, except for the number of a request and the address of a datagram. -/
def Alike : Ev F → Ev F → Prop
  | .robotReq r, e => ∃ h, e = .robotReq ⟨h, r.request⟩ ∧ h.command = r.header.command
  | .udpSend _ c, e => ∃ a, e = .udpSend a c
  | e, e' => e = e'

end Verif.Spec
