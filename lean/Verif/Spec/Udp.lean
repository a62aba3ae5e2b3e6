import Verif.Spec.Trace
import Verif.Spec.Wire
/-!
# Vocabulary for the state stream
-/
namespace Verif.Spec
variable {F : Type}

/-- No system call fails during these ticks. -/
def NoFail (s : List Tick) : Prop := ∀ t ∈ s, t.fail = false

/-- The time stamp a datagram with a robot state carries: its first eight bytes. -/
def stamp (d : Datagram) : Nat := natAt d.data 0 8

/-- Every datagram has the size of a robot state. -/
def ExactSize (ds : List Datagram) : Prop := ∀ d ∈ ds, d.data.length = 2373

/-- The datagrams come in the order of their time stamps (some may be lost, some may come twice in a row). -/
def InOrder (ds : List Datagram) : Prop := ds.Pairwise fun d e => stamp d ≤ stamp e

/-- Every datagram comes from this address. -/
def OneSource (a : Addr) (ds : List Datagram) : Prop := ∀ d ∈ ds, d.src = a

/-- Every event of the trace stands in the relation `P` to the events before it. -/
def Before (P : List (Ev F) → Ev F → Prop) (tr : List (Ev F)) : Prop := ∀ pre e post, tr = pre ++ e :: post → P pre e

/-- The socket tells that it is readable whenever a datagram waits in it. -/
def Ready (w : World F) : Prop := w.ker.udpRx ≠ [] → w.ker.udpEdge = true

end Verif.Spec
