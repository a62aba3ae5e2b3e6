import Verif.Model.LogText
/-! What is assumed about the text of a number (C107). -/
namespace Verif.Spec

/-- The characters with which something that follows a number in the text of a record begins. -/
def separators : List Char := [',', ' ', ']', ')', '}']

/-- Different numbers are written differently, with at least one character, and without separators. This is so for the shortest decimal number that is
read back as the same number, and for `NaN` and `inf`, which is what `Debug` writes for an `f64`. -/
structure NumbersReadable (F : Type) [FloatText F] : Prop where
  different : ∀ x y : F, FloatText.text x = FloatText.text y → x = y
  some_text : ∀ x : F, FloatText.text x ≠ []
  plain : ∀ x : F, ∀ c ∈ FloatText.text x, c ∉ separators

section
variable {F : Type}

/-- The arrays of a state with the names under which a user knows them. -/
def stateArrays : List (String × (RobotState F → List F)) :=
  [("O_T_EE", fun s => List.ofFn s.O_T_EE), ("O_T_EE_d", fun s => List.ofFn s.O_T_EE_d), ("F_T_EE", fun s => List.ofFn s.F_T_EE), ("F_T_NE", fun s => List.ofFn s.F_T_NE),
    ("NE_T_EE", fun s => List.ofFn s.NE_T_EE), ("EE_T_K", fun s => List.ofFn s.EE_T_K), ("I_ee", fun s => List.ofFn s.I_ee), ("F_x_Cee", fun s => List.ofFn s.F_x_Cee),
    ("I_load", fun s => List.ofFn s.I_load), ("F_x_Cload", fun s => List.ofFn s.F_x_Cload), ("I_total", fun s => List.ofFn s.I_total), ("F_x_Ctotal", fun s => List.ofFn s.F_x_Ctotal),
    ("elbow", fun s => List.ofFn s.elbow), ("elbow_d", fun s => List.ofFn s.elbow_d), ("elbow_c", fun s => List.ofFn s.elbow_c), ("delbow_c", fun s => List.ofFn s.delbow_c),
    ("ddelbow_c", fun s => List.ofFn s.ddelbow_c), ("tau_J", fun s => List.ofFn s.tau_J), ("tau_J_d", fun s => List.ofFn s.tau_J_d), ("dtau_J", fun s => List.ofFn s.dtau_J),
    ("q", fun s => List.ofFn s.q), ("q_d", fun s => List.ofFn s.q_d), ("dq", fun s => List.ofFn s.dq), ("dq_d", fun s => List.ofFn s.dq_d),
    ("ddq_d", fun s => List.ofFn s.ddq_d), ("joint_contact", fun s => List.ofFn s.joint_contact), ("cartesian_contact", fun s => List.ofFn s.cartesian_contact), ("joint_collision", fun s => List.ofFn s.joint_collision),
    ("cartesian_collision", fun s => List.ofFn s.cartesian_collision), ("tau_ext_hat_filtered", fun s => List.ofFn s.tau_ext_hat_filtered), ("O_F_ext_hat_K", fun s => List.ofFn s.O_F_ext_hat_K), ("K_F_ext_hat_K", fun s => List.ofFn s.K_F_ext_hat_K),
    ("O_dP_EE_d", fun s => List.ofFn s.O_dP_EE_d), ("O_ddP_O", fun s => List.ofFn s.O_ddP_O), ("O_T_EE_c", fun s => List.ofFn s.O_T_EE_c), ("O_dP_EE_c", fun s => List.ofFn s.O_dP_EE_c),
    ("O_ddP_EE_c", fun s => List.ofFn s.O_ddP_EE_c), ("theta", fun s => List.ofFn s.theta), ("dtheta", fun s => List.ofFn s.dtheta)]

/-- The arrays of a command with the names of their kinds and their own names. -/
def commandArrays : List (String × String × (RobotCommandLog F → Bool × List F)) :=
  [("JointPositions", "q", fun c => (c.joint_positions.motion_finished, List.ofFn c.joint_positions.q)),
    ("JointVelocities", "dq", fun c => (c.joint_velocities.motion_finished, List.ofFn c.joint_velocities.dq)),
    ("CartesianPose", "O_T_EE", fun c => (c.cartesian_pose.motion_finished, List.ofFn c.cartesian_pose.O_T_EE)),
    ("CartesianVelocities", "O_dP_EE", fun c => (c.cartesian_velocities.motion_finished, List.ofFn c.cartesian_velocities.O_dP_EE)),
    ("Torques", "tau_J", fun c => (c.torques.motion_finished, List.ofFn c.torques.tau_J))]

/-- Numbers in brackets, separated by commas. -/
def bracketed [FloatText F] (l : List F) : List Char := "[".toList ++ ", ".toList.intercalate (l.map FloatText.text) ++ "]".toList

end
end Verif.Spec
