import Verif.Model.Types
import Verif.Model.GripperTypes
/-!
# Specification of the wire format by byte offsets

Nothing here refers to the encoders or decoders of the model: a field is described by the bytes at its offset.
-/
namespace Verif.Spec

/-- The number formed by `k` bytes starting at offset `off`, least significant byte first. -/
def natAt (bs : Bytes) (off : Nat) : Nat → Nat
  | 0 => 0
  | k + 1 => natAt bs off k + 256 ^ k * ((bs[off + k]?).getD 0).toNat

/-- The double `x` is stored (by its bit pattern) at offset `off`. -/
def floatAt {F : Type} [Wire F] (bs : Bytes) (off : Nat) (x : F) : Prop := natAt bs off 8 = (Wire.toBits x).toNat

/-- The Boolean `b` is stored at offset `off` as a byte 0 or 1. -/
def boolAt (bs : Bytes) (off : Nat) (b : Bool) : Prop := natAt bs off 1 = if b then 1 else 0

/-- Where the fields of a RobotStateIntern are in the datagram. -/
structure StateLayout {F : Type} [Wire F] (bs : Bytes) (s : RobotStateIntern F) : Prop where
  message_id : natAt bs 0 8 = s.message_id.toNat
  O_T_EE : ∀ i, floatAt bs (8 + 8 * i.val) (s.O_T_EE i)
  O_T_EE_d : ∀ i, floatAt bs (136 + 8 * i.val) (s.O_T_EE_d i)
  F_T_EE : ∀ i, floatAt bs (264 + 8 * i.val) (s.F_T_EE i)
  EE_T_K : ∀ i, floatAt bs (392 + 8 * i.val) (s.EE_T_K i)
  F_T_NE : ∀ i, floatAt bs (520 + 8 * i.val) (s.F_T_NE i)
  NE_T_EE : ∀ i, floatAt bs (648 + 8 * i.val) (s.NE_T_EE i)
  m_ee : floatAt bs 776 s.m_ee
  I_ee : ∀ i, floatAt bs (784 + 8 * i.val) (s.I_ee i)
  F_x_Cee : ∀ i, floatAt bs (856 + 8 * i.val) (s.F_x_Cee i)
  m_load : floatAt bs 880 s.m_load
  I_load : ∀ i, floatAt bs (888 + 8 * i.val) (s.I_load i)
  F_x_Cload : ∀ i, floatAt bs (960 + 8 * i.val) (s.F_x_Cload i)
  elbow : ∀ i, floatAt bs (984 + 8 * i.val) (s.elbow i)
  elbow_d : ∀ i, floatAt bs (1000 + 8 * i.val) (s.elbow_d i)
  tau_J : ∀ i, floatAt bs (1016 + 8 * i.val) (s.tau_J i)
  tau_J_d : ∀ i, floatAt bs (1072 + 8 * i.val) (s.tau_J_d i)
  dtau_J : ∀ i, floatAt bs (1128 + 8 * i.val) (s.dtau_J i)
  q : ∀ i, floatAt bs (1184 + 8 * i.val) (s.q i)
  q_d : ∀ i, floatAt bs (1240 + 8 * i.val) (s.q_d i)
  dq : ∀ i, floatAt bs (1296 + 8 * i.val) (s.dq i)
  dq_d : ∀ i, floatAt bs (1352 + 8 * i.val) (s.dq_d i)
  ddq_d : ∀ i, floatAt bs (1408 + 8 * i.val) (s.ddq_d i)
  joint_contact : ∀ i, floatAt bs (1464 + 8 * i.val) (s.joint_contact i)
  cartesian_contact : ∀ i, floatAt bs (1520 + 8 * i.val) (s.cartesian_contact i)
  joint_collision : ∀ i, floatAt bs (1568 + 8 * i.val) (s.joint_collision i)
  cartesian_collision : ∀ i, floatAt bs (1624 + 8 * i.val) (s.cartesian_collision i)
  tau_ext_hat_filtered : ∀ i, floatAt bs (1672 + 8 * i.val) (s.tau_ext_hat_filtered i)
  O_F_ext_hat_K : ∀ i, floatAt bs (1728 + 8 * i.val) (s.O_F_ext_hat_K i)
  K_F_ext_hat_K : ∀ i, floatAt bs (1776 + 8 * i.val) (s.K_F_ext_hat_K i)
  O_dP_EE_d : ∀ i, floatAt bs (1824 + 8 * i.val) (s.O_dP_EE_d i)
  O_ddP_O : ∀ i, floatAt bs (1872 + 8 * i.val) (s.O_ddP_O i)
  elbow_c : ∀ i, floatAt bs (1896 + 8 * i.val) (s.elbow_c i)
  delbow_c : ∀ i, floatAt bs (1912 + 8 * i.val) (s.delbow_c i)
  ddelbow_c : ∀ i, floatAt bs (1928 + 8 * i.val) (s.ddelbow_c i)
  O_T_EE_c : ∀ i, floatAt bs (1944 + 8 * i.val) (s.O_T_EE_c i)
  O_dP_EE_c : ∀ i, floatAt bs (2072 + 8 * i.val) (s.O_dP_EE_c i)
  O_ddP_EE_c : ∀ i, floatAt bs (2120 + 8 * i.val) (s.O_ddP_EE_c i)
  theta : ∀ i, floatAt bs (2168 + 8 * i.val) (s.theta i)
  dtheta : ∀ i, floatAt bs (2224 + 8 * i.val) (s.dtheta i)
  motion_generator_mode : natAt bs 2280 1 = s.motion_generator_mode.toTag.toNat
  controller_mode : natAt bs 2281 1 = s.controller_mode.toTag.toNat
  errors_errors1 : ∀ i, boolAt bs (2282 + i.val) (s.errors.errors1 i)
  errors_errors2 : ∀ i, boolAt bs (2314 + i.val) (s.errors.errors2 i)
  errors_reflex_reason1 : ∀ i, boolAt bs (2323 + i.val) (s.errors.reflex_reason1 i)
  errors_reflex_reason2 : ∀ i, boolAt bs (2355 + i.val) (s.errors.reflex_reason2 i)
  robot_mode : natAt bs 2364 1 = s.robot_mode.toTag.toNat
  control_command_success_rate : floatAt bs 2365 s.control_command_success_rate

/-- Where the fields of a RobotCommand are in the datagram. -/
structure CommandLayout {F : Type} [Wire F] (bs : Bytes) (s : RobotCommand F) : Prop where
  message_id : natAt bs 0 8 = s.message_id.toNat
  motion_q_c : ∀ i, floatAt bs (8 + 8 * i.val) (s.motion.q_c i)
  motion_dq_c : ∀ i, floatAt bs (64 + 8 * i.val) (s.motion.dq_c i)
  motion_O_T_EE_c : ∀ i, floatAt bs (120 + 8 * i.val) (s.motion.O_T_EE_c i)
  motion_O_dP_EE_c : ∀ i, floatAt bs (248 + 8 * i.val) (s.motion.O_dP_EE_c i)
  motion_elbow_c : ∀ i, floatAt bs (296 + 8 * i.val) (s.motion.elbow_c i)
  motion_valid_elbow : boolAt bs 312 s.motion.valid_elbow
  motion_motion_generation_finished : boolAt bs 313 s.motion.motion_generation_finished
  control_tau_J_d : ∀ i, floatAt bs (314 + 8 * i.val) (s.control.tau_J_d i)

/-- Where the fields of a Gripper.GripperStateIntern are in the datagram. -/
structure GripperStateLayout {F : Type} [Wire F] (bs : Bytes) (s : Gripper.GripperStateIntern F) : Prop where
  message_id : natAt bs 0 4 = s.message_id.toNat
  width : floatAt bs 4 s.width
  max_width : floatAt bs 12 s.max_width
  is_grasped : boolAt bs 20 s.is_grasped
  temperature : natAt bs 21 2 = s.temperature.toNat

/-- What a robot controller reads from the stream: a header, then the arguments that belong to the command in the header. -/
def robotPeer {F : Type} [Wire F] (bs : Bytes) : Option (RobotReq F × Bytes) :=
  match RobotCommandHeader.codec.dec bs with
  | none => none
  | some (h, r) =>
    let body {α : Type} (c : Codec α) (f : α → RobotBody F) := (c.dec r).map fun p => (⟨h, f p.1⟩, p.2)
    match h.command with
    | .Connect => body ConnectRequest.codec .Connect
    | .Move => body (MoveRequest.codec F) .Move
    | .StopMove => body Codec.unit fun _ => .StopMove
    | .GetCartesianLimit => body GetCartesianLimitRequest.codec .GetCartesianLimit
    | .SetCollisionBehavior => body (SetCollisionBehaviorRequest.codec F) .SetCollisionBehavior
    | .SetJointImpedance => body (SetJointImpedanceRequest.codec F) .SetJointImpedance
    | .SetCartesianImpedance => body (SetCartesianImpedanceRequest.codec F) .SetCartesianImpedance
    | .SetGuidingMode => body SetGuidingModeRequest.codec .SetGuidingMode
    | .SetEeToK => body (SetEeToKRequest.codec F) .SetEeToK
    | .SetNeToEe => body (SetNeToEeRequest.codec F) .SetNeToEe
    | .SetLoad => body (SetLoadRequest.codec F) .SetLoad
    | .SetFilters => body (SetFiltersRequest.codec F) .SetFilters
    | .AutomaticErrorRecovery => body Codec.unit fun _ => .AutomaticErrorRecovery
    | .LoadModelLibrary => body LoadModelLibraryRequest.codec .LoadModelLibrary

/-- What a gripper controller reads from the stream. -/
def gripperPeer {F : Type} [Wire F] (bs : Bytes) : Option (Gripper.Req F × Bytes) :=
  match Gripper.CommandHeader.codec.dec bs with
  | none => none
  | some (h, r) =>
    let body {α : Type} (c : Codec α) (f : α → Gripper.Body F) := (c.dec r).map fun p => (⟨h, f p.1⟩, p.2)
    match h.command with
    | .Connect => body Gripper.ConnectRequest.codec .Connect
    | .Homing => body Codec.unit fun _ => .Homing
    | .Grasp => body (Gripper.GraspRequest.codec F) .Grasp
    | .Move => body (Gripper.MoveRequest.codec F) .Move
    | .Stop => body Codec.unit fun _ => .Stop

/-- The command kind that belongs to the arguments of a robot request. -/
def kind {F : Type} : RobotBody F → RobotCommandEnum
  | .Connect _ => .Connect
  | .Move _ => .Move
  | .StopMove => .StopMove
  | .GetCartesianLimit _ => .GetCartesianLimit
  | .SetCollisionBehavior _ => .SetCollisionBehavior
  | .SetJointImpedance _ => .SetJointImpedance
  | .SetCartesianImpedance _ => .SetCartesianImpedance
  | .SetGuidingMode _ => .SetGuidingMode
  | .SetEeToK _ => .SetEeToK
  | .SetNeToEe _ => .SetNeToEe
  | .SetLoad _ => .SetLoad
  | .SetFilters _ => .SetFilters
  | .AutomaticErrorRecovery => .AutomaticErrorRecovery
  | .LoadModelLibrary _ => .LoadModelLibrary

/-- The command kind that belongs to the arguments of a gripper request. -/
def gripperKind {F : Type} : Gripper.Body F → Gripper.Command
  | .Connect _ => .Connect
  | .Homing => .Homing
  | .Grasp _ => .Grasp
  | .Move _ => .Move
  | .Stop => .Stop

end Verif.Spec
