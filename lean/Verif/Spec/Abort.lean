import Verif.Spec.Coop
/-!
# A robot that aborts a motion

Schedules in which the robot accepts a Move request, executes the motion for a while, and then aborts it: a state shows that the motion is not executed any
more, the Move request is answered with the reason, and the StopMove request of the library is answered.
-/
namespace Verif.Spec
variable {F : Type}

/-- The answer with this status to the Move request with this number. -/
def IsMoveReply (id : UInt32) (status : MoveStatus) (m : Bytes) : Prop :=
  m = MoveResponse.codec.enc ⟨⟨.Move, id, 13⟩, status⟩

/-- A positive answer to the StopMove request with this number. -/
def IsStopAnswer (id : UInt32) (m : Bytes) : Prop :=
  m = StopMoveResponse.codec.enc ⟨⟨.StopMove, id, 13⟩, .Success⟩

/-- The system calls after the answer that reports the end of the motion. -/
structure StopPlan where
  /-- the StopMove request is written -/
  write : Tick
  /-- the library looks in vain for an answer -/
  ask : List Tick
  /-- the answer is there (`b1`) and is read -/
  b1 : Tick
  b2 : Tick
  b3 : Tick
  b4 : Tick
  /-- the library waits for the robot to stand still -/
  halt : List Tick
  /-- the library looks for a further answer to the Move request -/
  look : Tick
  /-- after the call -/
  rest : List Tick

/-- The system calls up to the answer. -/
def StopPlan.opening (p : StopPlan) : List Tick := p.write :: p.ask ++ [p.b1, p.b2, p.b3, p.b4]

/-- The whole schedule. -/
def StopPlan.script (p : StopPlan) : List Tick := p.opening ++ (p.halt ++ p.look :: p.rest)

/-- States until the robot stands still: all but the last show a motion, the last shows none. -/
structure Halts (ss : List (RobotStateIntern F)) : Prop where
  moving : ∀ s ∈ ss.dropLast, Running s
  still : ∃ s, ss.getLast? = some s ∧ ¬ Running s

/-- The robot accepts the Move request with the number `id`, sends the states `waiting` until the motion starts and then the states of the
events `tr`. It answers the Move request with `status`, at the latest while the library waits for it. It obeys the StopMove request, which has the
next number, and sends the states `halting`. `q` are the datagrams that were in the socket before. -/
structure Aborts [Wire F] (id : UInt32) (status : MoveStatus) (q : List Datagram) (waiting : List (RobotStateIntern F)) (tr : List (Ev F))
    (halting : List (RobotStateIntern F)) (p : Plan) (sp : StopPlan) : Prop where
  rest : p.rest = sp.script
  fine : Fine p.opening ∧ Fine p.closing ∧ Fine sp.opening ∧ Fine [sp.look]
  accepts : ∃ m, IsMoveAnswer id m ∧ p.a1.tcpIn = m ∧ TcpSilent (p.write :: p.ask ++ [p.a2, p.a3, p.a4])
  starts : SuppliesStart (q ++ udpArrived p.opening) waiting p.start ∧ TcpSilent p.start
  moves : Supplies [] tr p.motion
  aborts : ∃ m, IsMoveReply id status m ∧ TcpSilent [p.l2, p.l3, p.l4] ∧
    (TcpSilent (p.motion ++ p.await) ∧ p.l1.tcpIn = m ∨ ArrivesOnce m p.motion ∧ p.await = [] ∧ p.l1.tcpIn = [])
  obeys : ∃ m, IsStopAnswer (id + 1) m ∧ sp.b1.tcpIn = m ∧ TcpSilent (sp.write :: sp.ask ++ [sp.b2, sp.b3, sp.b4])
  halts : Supplies (udpArrived p.closing ++ udpArrived sp.opening) (halting.map .accepted) sp.halt ∧ TcpSilent (sp.halt ++ [sp.look])

/-- The number of cycles of the motion is one for which the last two records of the log are not the last two cycles: greater than the size of the
log and one more than a multiple of it. -/
def LogWraps (L n : Nat) : Prop := 2 ≤ L ∧ L < n ∧ n % L = 1

end Verif.Spec
