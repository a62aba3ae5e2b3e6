import Verif.Model.Errors
import Verif.Model.Geometry
/-! The user facing robot state, `/repo/src/robot/robot_state.rs`. -/
namespace Verif
open Fl
variable {F : Type} [Fl F]

/-- `skew_symmetric_matrix_from_vector` (`/repo/src/robot/robot_state.rs:435-439`); column major, while `Matrix3::new` takes rows. -/
def skew_symmetric_matrix_from_vector (v : Arr F 3) : Arr F 9 :=
  ![lit 0, v 2, - v 1,  - v 2, lit 0, v 0,  v 1, - v 0, lit 0]

/-- `combine_center_of_mass` (`/repo/src/robot/robot_state.rs:420-433`). -/
def combine_center_of_mass (m_ee : F) (F_x_Cee : Arr F 3) (m_load : F) (F_x_Cload : Arr F 3) : Arr F 3 :=
  if flt (lit 0) (m_ee + m_load) then
    fun i => (m_ee * F_x_Cee i + m_load * F_x_Cload i) / (m_ee + m_load)
  else fun _ => lit 0

/-- `combine_inertia_tensor` (`/repo/src/robot/robot_state.rs:375-417`). -/
def combine_inertia_tensor (m_ee : F) (F_x_Cee : Arr F 3) (I_ee : Arr F 9) (m_load : F) (F_x_Cload : Arr F 3)
    (I_load : Arr F 9) (m_total : F) (F_x_Ctotal : Arr F 3) : Arr F 9 :=
  let inertia_ee : Arr F 9 := if feq m_ee (lit 0) then fun _ => lit 0 else I_ee
  let inertia_load : Arr F 9 := if feq m_load (lit 0) then fun _ => lit 0 else I_load
  let S := fun v : Arr F 3 => Mat3.mul (skew_symmetric_matrix_from_vector v) (skew_symmetric_matrix_from_vector v)
  let inertia_ee_flange := Arr.sub inertia_ee (Arr.lmul m_ee (S F_x_Cee))
  let inertia_load_flange := Arr.sub inertia_load (Arr.lmul m_load (S F_x_Cload))
  let inertia_total_flange := Arr.add inertia_ee_flange inertia_load_flange
  Arr.add inertia_total_flange (Arr.lmul m_total (S F_x_Ctotal))

/-- `RobotState` (`/repo/src/robot/robot_state.rs:14-256`). `time` is a `Duration` of whole milliseconds. -/
structure RobotState (F : Type) where
  O_T_EE : Arr F 16
  O_T_EE_d : Arr F 16
  F_T_EE : Arr F 16
  F_T_NE : Arr F 16
  NE_T_EE : Arr F 16
  EE_T_K : Arr F 16
  m_ee : F
  I_ee : Arr F 9
  F_x_Cee : Arr F 3
  m_load : F
  I_load : Arr F 9
  F_x_Cload : Arr F 3
  m_total : F
  I_total : Arr F 9
  F_x_Ctotal : Arr F 3
  elbow : Arr F 2
  elbow_d : Arr F 2
  elbow_c : Arr F 2
  delbow_c : Arr F 2
  ddelbow_c : Arr F 2
  tau_J : Arr F 7
  tau_J_d : Arr F 7
  dtau_J : Arr F 7
  q : Arr F 7
  q_d : Arr F 7
  dq : Arr F 7
  dq_d : Arr F 7
  ddq_d : Arr F 7
  joint_contact : Arr F 7
  cartesian_contact : Arr F 6
  joint_collision : Arr F 7
  cartesian_collision : Arr F 6
  tau_ext_hat_filtered : Arr F 7
  O_F_ext_hat_K : Arr F 6
  K_F_ext_hat_K : Arr F 6
  O_dP_EE_d : Arr F 6
  O_ddP_O : Arr F 3
  O_T_EE_c : Arr F 16
  O_dP_EE_c : Arr F 6
  O_ddP_EE_c : Arr F 6
  theta : Arr F 7
  dtheta : Arr F 7
  current_errors : FrankaErrors
  last_motion_errors : FrankaErrors
  control_command_success_rate : F
  robot_mode : RobotMode
  time : Nat

/-- `RobotState::from` (`/repo/src/robot/robot_state.rs:257-372`). -/
def RobotState.ofIntern (s : RobotStateIntern F) : RobotState F where
  O_T_EE := s.O_T_EE
  O_T_EE_d := s.O_T_EE_d
  F_T_EE := s.F_T_EE
  F_T_NE := s.F_T_NE
  NE_T_EE := s.NE_T_EE
  EE_T_K := s.EE_T_K
  m_ee := s.m_ee
  I_ee := s.I_ee
  F_x_Cee := s.F_x_Cee
  m_load := s.m_load
  I_load := s.I_load
  F_x_Cload := s.F_x_Cload
  m_total := s.m_ee + s.m_load
  I_total := combine_inertia_tensor s.m_ee s.F_x_Cee s.I_ee s.m_load s.F_x_Cload s.I_load (s.m_ee + s.m_load)
      (combine_center_of_mass s.m_ee s.F_x_Cee s.m_load s.F_x_Cload)
  F_x_Ctotal := combine_center_of_mass s.m_ee s.F_x_Cee s.m_load s.F_x_Cload
  elbow := s.elbow
  elbow_d := s.elbow_d
  elbow_c := s.elbow_c
  delbow_c := s.delbow_c
  ddelbow_c := s.ddelbow_c
  tau_J := s.tau_J
  tau_J_d := s.tau_J_d
  dtau_J := s.dtau_J
  q := s.q
  q_d := s.q_d
  dq := s.dq
  dq_d := s.dq_d
  ddq_d := s.ddq_d
  joint_contact := s.joint_contact
  cartesian_contact := s.cartesian_contact
  joint_collision := s.joint_collision
  cartesian_collision := s.cartesian_collision
  tau_ext_hat_filtered := s.tau_ext_hat_filtered
  O_F_ext_hat_K := s.O_F_ext_hat_K
  K_F_ext_hat_K := s.K_F_ext_hat_K
  O_dP_EE_d := s.O_dP_EE_d
  O_ddP_O := s.O_ddP_O
  O_T_EE_c := s.O_T_EE_c
  O_dP_EE_c := s.O_dP_EE_c
  O_ddP_EE_c := s.O_ddP_EE_c
  theta := s.theta
  dtheta := s.dtheta
  current_errors := FrankaErrors.new s.errors .Error
  last_motion_errors := FrankaErrors.new s.errors .ReflexReason
  control_command_success_rate := s.control_command_success_rate
  robot_mode := s.robot_mode
  time := s.message_id.toNat

end Verif
