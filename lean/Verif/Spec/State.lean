import Verif.Spec.Udp
import Verif.Model.RobotState
/-!
# What a robot state says about the datagram it came from
-/
namespace Verif.Spec
variable {F : Type}

/-- The error kinds in the order of their flags in a datagram. -/
def flagOrder : List FrankaError := [
  .JointPositionLimitsViolation,
  .CartesianPositionLimitsViolation,
  .SelfCollisionAvoidanceViolation,
  .JointVelocityViolation,
  .CartesianVelocityViolation,
  .ForceControlSafetyViolation,
  .JointReflex,
  .CartesianReflex,
  .MaxGoalPoseDeviationViolation,
  .MaxPathPoseDeviationViolation,
  .CartesianVelocityProfileSafetyViolation,
  .JointPositionMotionGeneratorStartPoseInvalid,
  .JointMotionGeneratorPositionLimitsViolation,
  .JointMotionGeneratorVelocityLimitsViolation,
  .JointMotionGeneratorVelocityDiscontinuity,
  .JointMotionGeneratorAccelerationDiscontinuity,
  .CartesianPositionMotionGeneratorStartPoseInvalid,
  .CartesianMotionGeneratorElbowLimitViolation,
  .CartesianMotionGeneratorVelocityLimitsViolation,
  .CartesianMotionGeneratorVelocityDiscontinuity,
  .CartesianMotionGeneratorAccelerationDiscontinuity,
  .CartesianMotionGeneratorElbowSignInconsistent,
  .CartesianMotionGeneratorStartElbowInvalid,
  .ForceControllerDesiredForceToleranceViolation,
  .StartElbowSignInconsistent,
  .CommunicationConstraintsViolation,
  .PowerLimitViolation,
  .CartesianMotionGeneratorJointPositionLimitsViolation,
  .CartesianMotionGeneratorJointVelocityLimitsViolation,
  .CartesianMotionGeneratorJointVelocityDiscontinuity,
  .CartesianMotionGeneratorJointAccelerationDiscontinuity,
  .CartesianPositionMotionGeneratorInvalidFrame,
  .ControllerTorqueDiscontinuity,
  .JointP2PInsufficientTorqueForPlanning,
  .TauJRangeViolation,
  .InstabilityDetection,
  .JointMoveInWrongDirection,
  .CartesianSplineViolation,
  .JointViaPlanLimitViolation,
  .BaseAccelerationInitializationTimeout,
  .BaseAccelerationInvalidReading]

/-- A list of errors tells which of the 41 flags at offset `off` are set: an error is in the list iff its flag is set, and the list has the
order of the flags and no duplicates. -/
structure Flags (bs : Bytes) (off : Nat) (errors : FrankaErrors) : Prop where
  exact : ∀ i e, flagOrder[i]? = some e → (e ∈ errors.franka_errors ↔ natAt bs (off + i) 1 = 1)
  ordered : errors.franka_errors.Sublist flagOrder

/-- The documented fields of a robot state and where they are in the datagram. The time is the message id, in milliseconds. The totals
`m_total`, `F_x_Ctotal` and `I_total` are not in the datagram but computed, see C49. -/
structure StateFields [Wire F] (bs : Bytes) (s : RobotState F) : Prop where
  time : s.time = natAt bs 0 8
  O_T_EE : ∀ i, floatAt bs (8 + 8 * i.val) (s.O_T_EE i)
  O_T_EE_d : ∀ i, floatAt bs (136 + 8 * i.val) (s.O_T_EE_d i)
  F_T_EE : ∀ i, floatAt bs (264 + 8 * i.val) (s.F_T_EE i)
  F_T_NE : ∀ i, floatAt bs (520 + 8 * i.val) (s.F_T_NE i)
  NE_T_EE : ∀ i, floatAt bs (648 + 8 * i.val) (s.NE_T_EE i)
  EE_T_K : ∀ i, floatAt bs (392 + 8 * i.val) (s.EE_T_K i)
  m_ee : floatAt bs 776 s.m_ee
  I_ee : ∀ i, floatAt bs (784 + 8 * i.val) (s.I_ee i)
  F_x_Cee : ∀ i, floatAt bs (856 + 8 * i.val) (s.F_x_Cee i)
  m_load : floatAt bs 880 s.m_load
  I_load : ∀ i, floatAt bs (888 + 8 * i.val) (s.I_load i)
  F_x_Cload : ∀ i, floatAt bs (960 + 8 * i.val) (s.F_x_Cload i)
  elbow : ∀ i, floatAt bs (984 + 8 * i.val) (s.elbow i)
  elbow_d : ∀ i, floatAt bs (1000 + 8 * i.val) (s.elbow_d i)
  elbow_c : ∀ i, floatAt bs (1896 + 8 * i.val) (s.elbow_c i)
  delbow_c : ∀ i, floatAt bs (1912 + 8 * i.val) (s.delbow_c i)
  ddelbow_c : ∀ i, floatAt bs (1928 + 8 * i.val) (s.ddelbow_c i)
  tau_J : ∀ i, floatAt bs (1016 + 8 * i.val) (s.tau_J i)
  tau_J_d : ∀ i, floatAt bs (1072 + 8 * i.val) (s.tau_J_d i)
  dtau_J : ∀ i, floatAt bs (1128 + 8 * i.val) (s.dtau_J i)
  q : ∀ i, floatAt bs (1184 + 8 * i.val) (s.q i)
  q_d : ∀ i, floatAt bs (1240 + 8 * i.val) (s.q_d i)
  dq : ∀ i, floatAt bs (1296 + 8 * i.val) (s.dq i)
  dq_d : ∀ i, floatAt bs (1352 + 8 * i.val) (s.dq_d i)
  ddq_d : ∀ i, floatAt bs (1408 + 8 * i.val) (s.ddq_d i)
  joint_contact : ∀ i, floatAt bs (1464 + 8 * i.val) (s.joint_contact i)
  cartesian_contact : ∀ i, floatAt bs (1520 + 8 * i.val) (s.cartesian_contact i)
  joint_collision : ∀ i, floatAt bs (1568 + 8 * i.val) (s.joint_collision i)
  cartesian_collision : ∀ i, floatAt bs (1624 + 8 * i.val) (s.cartesian_collision i)
  tau_ext_hat_filtered : ∀ i, floatAt bs (1672 + 8 * i.val) (s.tau_ext_hat_filtered i)
  O_F_ext_hat_K : ∀ i, floatAt bs (1728 + 8 * i.val) (s.O_F_ext_hat_K i)
  K_F_ext_hat_K : ∀ i, floatAt bs (1776 + 8 * i.val) (s.K_F_ext_hat_K i)
  O_dP_EE_d : ∀ i, floatAt bs (1824 + 8 * i.val) (s.O_dP_EE_d i)
  O_ddP_O : ∀ i, floatAt bs (1872 + 8 * i.val) (s.O_ddP_O i)
  O_T_EE_c : ∀ i, floatAt bs (1944 + 8 * i.val) (s.O_T_EE_c i)
  O_dP_EE_c : ∀ i, floatAt bs (2072 + 8 * i.val) (s.O_dP_EE_c i)
  O_ddP_EE_c : ∀ i, floatAt bs (2120 + 8 * i.val) (s.O_ddP_EE_c i)
  theta : ∀ i, floatAt bs (2168 + 8 * i.val) (s.theta i)
  dtheta : ∀ i, floatAt bs (2224 + 8 * i.val) (s.dtheta i)
  current_errors : Flags bs 2282 s.current_errors
  last_motion_errors : Flags bs 2323 s.last_motion_errors
  control_command_success_rate : floatAt bs 2365 s.control_command_success_rate
  robot_mode : natAt bs 2364 1 = s.robot_mode.toTag.toNat

/-- The robot states an event shows to a callback of the user. -/
def shownBy : Ev F → List (RobotState F)
  | .readCb s _ | .motionCb _ s _ _ | .controlCb s _ _ => [s]
  | _ => []

end Verif.Spec
