import Verif.Spec.Trace
/-!
# How many system calls a call needs
-/
namespace Verif.Spec
variable {F : Type}

/-- The number of system calls between the worlds `w` and `w'`: one tick of the schedule for each (`Model/World.lean`). -/
def systemCalls (w w' : World F) : Nat := w.script.length - w'.script.length

/-- The number of datagrams read from the socket between the worlds `w` and `w'`. -/
def datagramsRead (w w' : World F) : Nat := (datagrams w'.trace).length - (datagrams w.trace).length

/-- The datagrams that wait in the socket or arrive in the rest of the schedule. -/
def datagramsAhead (w : World F) : Nat := w.ker.udpRx.length + (udpArrived w.script).length

end Verif.Spec
