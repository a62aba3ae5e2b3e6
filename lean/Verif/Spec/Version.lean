import Verif.Spec.Api
/-!
# The version of the server
-/
namespace Verif.Spec
variable {F : Type}

/-- The events `tr` begin with the handshake of a robot, which was answered with success and version `v`: the answer has 12 bytes of
header, one byte of status and two bytes of version, the low byte first. -/
def RobotReported (w0 : World F) (tr : List (Ev F)) (v : UInt16) : Prop :=
  ∃ (h : RobotCommandHeader) (s : RobotStateIntern F) (m : Bytes),
    visible tr = [.robotReq ⟨h, .Connect { version := 5, udp_port := w0.cfg.udp_port }⟩, .accepted s] ∧
    (h.command_id, m) ∈ responses tr ∧ IsFrame .Robot h.command_id m ∧ natAt m 12 1 = 0 ∧ natAt m 13 2 = v.toNat

/-- The same for a gripper, whose answers have 10 bytes of header and two bytes of status. -/
def GripperReported (w0 : World F) (tr : List (Ev F)) (v : UInt16) : Prop :=
  ∃ (h : Gripper.CommandHeader) (m : Bytes),
    visible tr = [.gripperReq ⟨h, .Connect { version := 3, udp_port := w0.cfg.udp_port }⟩] ∧
    (h.command_id, m) ∈ responses tr ∧ IsFrame .Gripper h.command_id m ∧ natAt m 10 2 = 0 ∧ natAt m 12 2 = v.toNat

end Verif.Spec
