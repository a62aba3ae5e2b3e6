import Verif.Spec.Coop
import Verif.Spec.Version
/-!
# A server that answers
-/
namespace Verif.Spec
variable {F : Type}

/-- The first system calls of a connection. -/
structure Greeting where
  /-- the connection is made -/
  connect : Tick
  /-- the first request is written -/
  write : Tick
  /-- the library looks in vain for an answer -/
  ask : List Tick
  /-- the answer is there and is read -/
  a1 : Tick
  a2 : Tick
  a3 : Tick
  a4 : Tick

/-- The whole schedule. -/
def Greeting.script (g : Greeting) : List Tick := g.connect :: g.write :: g.ask ++ [g.a1, g.a2, g.a3, g.a4]

/-- No system call fails, and the bytes `m` are all that arrives: they begin to arrive when the library finds something (`a1`), and all of them are there
when it looks how much there is (`a2`). Datagrams may arrive at any time. -/
structure Greeting.Brings (g : Greeting) (m : Bytes) : Prop where
  fine : Fine g.script
  start : g.a1.tcpIn ≠ []
  bytes : g.a1.tcpIn ++ g.a2.tcpIn = m
  silent : TcpSilent (g.connect :: g.write :: g.ask ++ [g.a3, g.a4])

/-- The answer of a robot to the first request (number 0), with its true length. -/
def RobotAnswer (a : ConnectResponse) (m : Bytes) : Prop := m = ConnectResponse.codec.enc a ∧ a.header.command_id = 0 ∧ a.header.size = 15

/-- The answer of a gripper to the first request (number 0), with its true length. -/
def GripperAnswer (a : Gripper.ConnectResponse) (m : Bytes) : Prop :=
  m = Gripper.ConnectResponse.codec.enc a ∧ a.header.command_id = 0 ∧ a.header.size = 14

/-- The first state `s` arrives: it is the last of the datagrams `q`, which were there before, and of those that arrive while the library waits. -/
inductive FirstState [Wire F] (s : RobotStateIntern F) (q : List Datagram) : List Tick → Prop where
  | arrives (ds src data t ts) : HoldsState s data → q ++ t.udpIn = ds ++ [⟨src, data⟩] → StateSized ds → Fine (t :: ts) → NoDatagram ts →
      ts.length = ds.length + 2 → FirstState s q (t :: ts)

end Verif.Spec
