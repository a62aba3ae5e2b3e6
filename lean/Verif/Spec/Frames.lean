import Verif.Spec.Trace
import Verif.Spec.Wire
/-!
# Messages on the TCP stream

A message starts with a header that contains its total length and a command id. These definitions refer to byte offsets only.
-/
namespace Verif.Spec

/-- Length of the header. -/
def headerLength : NetworkType → Nat
  | .Robot => 12
  | .Gripper => 10

/-- The command id in the header at the front of these bytes. -/
def idAt : NetworkType → Bytes → Nat
  | .Robot, bs => natAt bs 4 4
  | .Gripper, bs => natAt bs 2 4

/-- The length given in the header at the front of these bytes. -/
def sizeAt : NetworkType → Bytes → Nat
  | .Robot, bs => natAt bs 8 4
  | .Gripper, bs => natAt bs 6 4

/-- `m` is one complete message with this id. -/
structure IsFrame (nt : NetworkType) (id : UInt32) (m : Bytes) : Prop where
  long : headerLength nt ≤ m.length
  size : sizeAt nt m = m.length
  id : idAt nt m = id.toNat

/-- The number at the front of the message is a command of the protocol: 14 for the robot, 5 for the gripper. -/
def KnownCommand : NetworkType → Bytes → Prop
  | .Robot, bs => natAt bs 0 4 < 14
  | .Gripper, bs => natAt bs 0 2 < 5

instance : (nt : NetworkType) → (bs : Bytes) → Decidable (KnownCommand nt bs)
  | .Robot, _ => inferInstanceAs (Decidable (_ < _))
  | .Gripper, _ => inferInstanceAs (Decidable (_ < _))

/-- The bytes `bs` are the messages `ms`, one after the other, followed by `rest`. -/
def Frames (nt : NetworkType) (bs : Bytes) (ms : List (UInt32 × Bytes)) (rest : Bytes) : Prop :=
  bs = (ms.map (·.2)).flatten ++ rest ∧ ∀ m ∈ ms, IsFrame nt m.1 m.2

/-- During these ticks no bytes arrive on the TCP stream, the connection stays open and no system call fails. -/
def TcpQuiet (s : List Tick) : Prop := ∀ t ∈ s, t.tcpIn = [] ∧ t.eof = false ∧ t.fail = false

end Verif.Spec
