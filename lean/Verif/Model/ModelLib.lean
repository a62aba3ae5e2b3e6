import Verif.Model.RobotState
/-! Kinematics and dynamics queries, `/repo/src/model.rs` and `/repo/src/model/model_library.rs`. The functions of the downloaded shared
library are uninterpreted: a `ModelLibrary` is any choice of functions for its symbols. -/
namespace Verif
open Fl
variable {F : Type} [Fl F]

/-- `Frame` (`/repo/src/model.rs:17-28`). -/
inductive Frame where
  | Joint1 | Joint2 | Joint3 | Joint4 | Joint5 | Joint6 | Joint7 | Flange | EndEffector | Stiffness
  deriving DecidableEq, Repr

/-- The symbols of the shared library (`/repo/src/model/model_library.rs:13-74`); an output array is a result. -/
structure ModelLibrary (F : Type) where
  M_NE : Arr F 7 → Arr F 9 → F → Arr F 3 → Arr F 49
  Ji_J_J1 : Arr F 42
  Ji_J_J2 : Arr F 7 → Arr F 42
  Ji_J_J3 : Arr F 7 → Arr F 42
  Ji_J_J4 : Arr F 7 → Arr F 42
  Ji_J_J5 : Arr F 7 → Arr F 42
  Ji_J_J6 : Arr F 7 → Arr F 42
  Ji_J_J7 : Arr F 7 → Arr F 42
  Ji_J_J8 : Arr F 7 → Arr F 42
  Ji_J_J9 : Arr F 7 → Arr F 16 → Arr F 42
  O_J_J1 : Arr F 42
  O_J_J2 : Arr F 7 → Arr F 42
  O_J_J3 : Arr F 7 → Arr F 42
  O_J_J4 : Arr F 7 → Arr F 42
  O_J_J5 : Arr F 7 → Arr F 42
  O_J_J6 : Arr F 7 → Arr F 42
  O_J_J7 : Arr F 7 → Arr F 42
  O_J_J8 : Arr F 7 → Arr F 42
  O_J_J9 : Arr F 7 → Arr F 16 → Arr F 42
  O_T_J1 : Arr F 7 → Arr F 16
  O_T_J2 : Arr F 7 → Arr F 16
  O_T_J3 : Arr F 7 → Arr F 16
  O_T_J4 : Arr F 7 → Arr F 16
  O_T_J5 : Arr F 7 → Arr F 16
  O_T_J6 : Arr F 7 → Arr F 16
  O_T_J7 : Arr F 7 → Arr F 16
  O_T_J8 : Arr F 7 → Arr F 16
  O_T_J9 : Arr F 7 → Arr F 16 → Arr F 16
  c_NE : Arr F 7 → Arr F 7 → Arr F 9 → F → Arr F 3 → Arr F 7
  g_NE : Arr F 7 → Arr F 3 → F → Arr F 3 → Arr F 7

/-- Product of two column major 4x4 matrices (`Matrix4 * Matrix4`, `/repo/src/model.rs:139-144,195-200,253-258`). -/
def Mat4.mul (a b : Arr F 16) : Arr F 16 := fun i =>
  let r : Nat := i.val % 4
  let c : Nat := i.val / 4
  have hr : r < 4 := Nat.mod_lt _ (by omega)
  have hc : c < 4 := by have := i.isLt; omega
  a ⟨r, by omega⟩ * b ⟨4 * c, by omega⟩ + a ⟨r + 4, by omega⟩ * b ⟨4 * c + 1, by omega⟩
    + a ⟨r + 8, by omega⟩ * b ⟨4 * c + 2, by omega⟩ + a ⟨r + 12, by omega⟩ * b ⟨4 * c + 3, by omega⟩

namespace Model

/-- `pose` (`/repo/src/model.rs:120-149`, `/repo/src/model/model_library.rs:243-269`). -/
def pose (l : ModelLibrary F) (frame : Frame) (q : Arr F 7) (F_T_EE EE_T_K : Arr F 16) : Arr F 16 :=
  match frame with
  | .Joint1 => l.O_T_J1 q
  | .Joint2 => l.O_T_J2 q
  | .Joint3 => l.O_T_J3 q
  | .Joint4 => l.O_T_J4 q
  | .Joint5 => l.O_T_J5 q
  | .Joint6 => l.O_T_J6 q
  | .Joint7 => l.O_T_J7 q
  | .Flange => l.O_T_J8 q
  | .EndEffector => l.O_T_J9 q F_T_EE
  | .Stiffness => l.O_T_J9 q (Mat4.mul F_T_EE EE_T_K)

/-- `pose_from_state` (`/repo/src/model.rs:158-165`). -/
def pose_from_state (l : ModelLibrary F) (frame : Frame) (robot_state : RobotState F) : Arr F 16 :=
  pose l frame robot_state.q robot_state.F_T_EE robot_state.EE_T_K

/-- `body_jacobian` (`/repo/src/model.rs:176-206`, `/repo/src/model/model_library.rs:187-213`). -/
def body_jacobian (l : ModelLibrary F) (frame : Frame) (q : Arr F 7) (F_T_EE EE_T_K : Arr F 16) : Arr F 42 :=
  match frame with
  | .Joint1 => l.Ji_J_J1
  | .Joint2 => l.Ji_J_J2 q
  | .Joint3 => l.Ji_J_J3 q
  | .Joint4 => l.Ji_J_J4 q
  | .Joint5 => l.Ji_J_J5 q
  | .Joint6 => l.Ji_J_J6 q
  | .Joint7 => l.Ji_J_J7 q
  | .Flange => l.Ji_J_J8 q
  | .EndEffector => l.Ji_J_J9 q F_T_EE
  | .Stiffness => l.Ji_J_J9 q (Mat4.mul F_T_EE EE_T_K)

/-- `body_jacobian_from_state` (`/repo/src/model.rs:216-223`). -/
def body_jacobian_from_state (l : ModelLibrary F) (frame : Frame) (robot_state : RobotState F) : Arr F 42 :=
  body_jacobian l frame robot_state.q robot_state.F_T_EE robot_state.EE_T_K

/-- `zero_jacobian` (`/repo/src/model.rs:234-264`, `/repo/src/model/model_library.rs:215-241`). -/
def zero_jacobian (l : ModelLibrary F) (frame : Frame) (q : Arr F 7) (F_T_EE EE_T_K : Arr F 16) : Arr F 42 :=
  match frame with
  | .Joint1 => l.O_J_J1
  | .Joint2 => l.O_J_J2 q
  | .Joint3 => l.O_J_J3 q
  | .Joint4 => l.O_J_J4 q
  | .Joint5 => l.O_J_J5 q
  | .Joint6 => l.O_J_J6 q
  | .Joint7 => l.O_J_J7 q
  | .Flange => l.O_J_J8 q
  | .EndEffector => l.O_J_J9 q F_T_EE
  | .Stiffness => l.O_J_J9 q (Mat4.mul F_T_EE EE_T_K)

/-- `zero_jacobian_from_state` (`/repo/src/model.rs:273-280`). -/
def zero_jacobian_from_state (l : ModelLibrary F) (frame : Frame) (robot_state : RobotState F) : Arr F 42 :=
  zero_jacobian l frame robot_state.q robot_state.F_T_EE robot_state.EE_T_K

/-- `mass` (`/repo/src/model.rs:290-301`, `/repo/src/model/model_library.rs:169-186`). -/
def mass (l : ModelLibrary F) (q : Arr F 7) (I_total : Arr F 9) (m_total : F) (F_x_Ctotal : Arr F 3) : Arr F 49 :=
  l.M_NE q I_total m_total F_x_Ctotal

/-- `mass_from_state` (`/repo/src/model.rs:307-314`). -/
def mass_from_state (l : ModelLibrary F) (robot_state : RobotState F) : Arr F 49 :=
  mass l robot_state.q robot_state.I_total robot_state.m_total robot_state.F_x_Ctotal

/-- `coriolis` (`/repo/src/model.rs:326-338`, `/repo/src/model/model_library.rs:271-290`). -/
def coriolis (l : ModelLibrary F) (q dq : Arr F 7) (I_total : Arr F 9) (m_total : F) (F_x_Ctotal : Arr F 3) : Arr F 7 :=
  l.c_NE q dq I_total m_total F_x_Ctotal

/-- `coriolis_from_state` (`/repo/src/model.rs:346-354`). -/
def coriolis_from_state (l : ModelLibrary F) (robot_state : RobotState F) : Arr F 7 :=
  coriolis l robot_state.q robot_state.dq robot_state.I_load robot_state.m_total robot_state.F_x_Ctotal

/-- `gravity` (`/repo/src/model.rs:364-376`, `/repo/src/model/model_library.rs:291-308`). -/
def gravity (l : ModelLibrary F) (q : Arr F 7) (m_total : F) (F_x_Ctotal : Arr F 3) (gravity_earth : Option (Arr F 3)) :
    Arr F 7 :=
  l.g_NE q (gravity_earth.getD ![lit 0, lit 0, -(lit (981 / 100))]) m_total F_x_Ctotal

/-- `gravity_from_state` (`/repo/src/model.rs:384-395`). -/
def gravity_from_state (l : ModelLibrary F) (robot_state : RobotState F) (gravity_earth : Option (Arr F 3)) : Arr F 7 :=
  gravity l robot_state.q robot_state.m_total robot_state.F_x_Ctotal (some (gravity_earth.getD robot_state.O_ddP_O))

end Model
end Verif
