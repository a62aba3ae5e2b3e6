import Verif.Model.ServiceTypes
/-! State and command datagrams of the robot, `/repo/src/robot/types.rs`. -/
namespace Verif

/-- `MotionGeneratorMode`, `repr(u8)` (/repo/src/robot/types.rs:10-18). -/
inductive MotionGeneratorMode where
  | Idle
  | JointPosition
  | JointVelocity
  | CartesianPosition
  | CartesianVelocity
  deriving DecidableEq, Repr

/-- Integer representation (/repo/src/robot/types.rs:10-18, `Serialize_repr`). -/
def MotionGeneratorMode.toTag : MotionGeneratorMode → UInt8
  | .Idle => 0
  | .JointPosition => 1
  | .JointVelocity => 2
  | .CartesianPosition => 3
  | .CartesianVelocity => 4

/-- Inverse of the integer representation, unknown integers are an error (/repo/src/robot/types.rs:10-18, `Deserialize_repr`). -/
def MotionGeneratorMode.ofTag (x : UInt8) : Option MotionGeneratorMode :=
  if x = 0 then some .Idle
  else if x = 1 then some .JointPosition
  else if x = 2 then some .JointVelocity
  else if x = 3 then some .CartesianPosition
  else if x = 4 then some .CartesianVelocity
  else none

/-- Wire form (/repo/src/robot/types.rs:10-18). -/
def MotionGeneratorMode.codec : Codec MotionGeneratorMode := Codec.enum Codec.u8 toTag ofTag

/-- `ControllerMode`, `repr(u8)` (/repo/src/robot/types.rs:20-27). -/
inductive ControllerMode where
  | JointImpedance
  | CartesianImpedance
  | ExternalController
  | Other
  deriving DecidableEq, Repr

/-- Integer representation (/repo/src/robot/types.rs:20-27, `Serialize_repr`). -/
def ControllerMode.toTag : ControllerMode → UInt8
  | .JointImpedance => 0
  | .CartesianImpedance => 1
  | .ExternalController => 2
  | .Other => 3

/-- Inverse of the integer representation, unknown integers are an error (/repo/src/robot/types.rs:20-27, `Deserialize_repr`). -/
def ControllerMode.ofTag (x : UInt8) : Option ControllerMode :=
  if x = 0 then some .JointImpedance
  else if x = 1 then some .CartesianImpedance
  else if x = 2 then some .ExternalController
  else if x = 3 then some .Other
  else none

/-- Wire form (/repo/src/robot/types.rs:20-27). -/
def ControllerMode.codec : Codec ControllerMode := Codec.enum Codec.u8 toTag ofTag

/-- `RobotMode`, `repr(u8)` (/repo/src/robot/types.rs:29-39). -/
inductive RobotMode where
  | Other
  | Idle
  | Move
  | Guiding
  | Reflex
  | UserStopped
  | AutomaticErrorRecovery
  deriving DecidableEq, Repr

/-- Integer representation (/repo/src/robot/types.rs:29-39, `Serialize_repr`). -/
def RobotMode.toTag : RobotMode → UInt8
  | .Other => 0
  | .Idle => 1
  | .Move => 2
  | .Guiding => 3
  | .Reflex => 4
  | .UserStopped => 5
  | .AutomaticErrorRecovery => 6

/-- Inverse of the integer representation, unknown integers are an error (/repo/src/robot/types.rs:29-39, `Deserialize_repr`). -/
def RobotMode.ofTag (x : UInt8) : Option RobotMode :=
  if x = 0 then some .Other
  else if x = 1 then some .Idle
  else if x = 2 then some .Move
  else if x = 3 then some .Guiding
  else if x = 4 then some .Reflex
  else if x = 5 then some .UserStopped
  else if x = 6 then some .AutomaticErrorRecovery
  else none

/-- Wire form (/repo/src/robot/types.rs:29-39). -/
def RobotMode.codec : Codec RobotMode := Codec.enum Codec.u8 toTag ofTag

/-- `RoboErrorHelperStruct` (/repo/src/robot/types.rs:160-167). -/
structure RoboErrorHelperStruct where
  errors1 : Arr Bool 32
  errors2 : Arr Bool 9
  reflex_reason1 : Arr Bool 32
  reflex_reason2 : Arr Bool 9

/-- Wire form: the fields in order of declaration (/repo/src/robot/types.rs:160-167). -/
def RoboErrorHelperStruct.codec : Codec (RoboErrorHelperStruct) :=
  Codec.iso
    (Codec.seq (Codec.arr Codec.bool 32) <|
    Codec.seq (Codec.arr Codec.bool 9) <|
    Codec.seq (Codec.arr Codec.bool 32) <|
    (Codec.arr Codec.bool 9))
    (fun s => (s.errors1, s.errors2, s.reflex_reason1, s.reflex_reason2))
    (fun (errors1, errors2, reflex_reason1, reflex_reason2) =>
      ⟨errors1, errors2, reflex_reason1, reflex_reason2⟩)

/-- `RobotStateIntern` (/repo/src/robot/types.rs:46-97). -/
structure RobotStateIntern (F : Type) where
  message_id : UInt64
  O_T_EE : Arr F 16
  O_T_EE_d : Arr F 16
  F_T_EE : Arr F 16
  EE_T_K : Arr F 16
  F_T_NE : Arr F 16
  NE_T_EE : Arr F 16
  m_ee : F
  I_ee : Arr F 9
  F_x_Cee : Arr F 3
  m_load : F
  I_load : Arr F 9
  F_x_Cload : Arr F 3
  elbow : Arr F 2
  elbow_d : Arr F 2
  tau_J : Arr F 7
  tau_J_d : Arr F 7
  dtau_J : Arr F 7
  q : Arr F 7
  q_d : Arr F 7
  dq : Arr F 7
  dq_d : Arr F 7
  ddq_d : Arr F 7
  joint_contact : Arr F 7
  cartesian_contact : Arr F 6
  joint_collision : Arr F 7
  cartesian_collision : Arr F 6
  tau_ext_hat_filtered : Arr F 7
  O_F_ext_hat_K : Arr F 6
  K_F_ext_hat_K : Arr F 6
  O_dP_EE_d : Arr F 6
  O_ddP_O : Arr F 3
  elbow_c : Arr F 2
  delbow_c : Arr F 2
  ddelbow_c : Arr F 2
  O_T_EE_c : Arr F 16
  O_dP_EE_c : Arr F 6
  O_ddP_EE_c : Arr F 6
  theta : Arr F 7
  dtheta : Arr F 7
  motion_generator_mode : MotionGeneratorMode
  controller_mode : ControllerMode
  errors : RoboErrorHelperStruct
  robot_mode : RobotMode
  control_command_success_rate : F

/-- Wire form: the fields in order of declaration (/repo/src/robot/types.rs:46-97). -/
def RobotStateIntern.codec (F : Type) [Wire F] : Codec (RobotStateIntern F) :=
  Codec.iso
    (Codec.seq Codec.u64 <|
    Codec.seq (Codec.arr (Codec.f64 F) 16) <|
    Codec.seq (Codec.arr (Codec.f64 F) 16) <|
    Codec.seq (Codec.arr (Codec.f64 F) 16) <|
    Codec.seq (Codec.arr (Codec.f64 F) 16) <|
    Codec.seq (Codec.arr (Codec.f64 F) 16) <|
    Codec.seq (Codec.arr (Codec.f64 F) 16) <|
    Codec.seq (Codec.f64 F) <|
    Codec.seq (Codec.arr (Codec.f64 F) 9) <|
    Codec.seq (Codec.arr (Codec.f64 F) 3) <|
    Codec.seq (Codec.f64 F) <|
    Codec.seq (Codec.arr (Codec.f64 F) 9) <|
    Codec.seq (Codec.arr (Codec.f64 F) 3) <|
    Codec.seq (Codec.arr (Codec.f64 F) 2) <|
    Codec.seq (Codec.arr (Codec.f64 F) 2) <|
    Codec.seq (Codec.arr (Codec.f64 F) 7) <|
    Codec.seq (Codec.arr (Codec.f64 F) 7) <|
    Codec.seq (Codec.arr (Codec.f64 F) 7) <|
    Codec.seq (Codec.arr (Codec.f64 F) 7) <|
    Codec.seq (Codec.arr (Codec.f64 F) 7) <|
    Codec.seq (Codec.arr (Codec.f64 F) 7) <|
    Codec.seq (Codec.arr (Codec.f64 F) 7) <|
    Codec.seq (Codec.arr (Codec.f64 F) 7) <|
    Codec.seq (Codec.arr (Codec.f64 F) 7) <|
    Codec.seq (Codec.arr (Codec.f64 F) 6) <|
    Codec.seq (Codec.arr (Codec.f64 F) 7) <|
    Codec.seq (Codec.arr (Codec.f64 F) 6) <|
    Codec.seq (Codec.arr (Codec.f64 F) 7) <|
    Codec.seq (Codec.arr (Codec.f64 F) 6) <|
    Codec.seq (Codec.arr (Codec.f64 F) 6) <|
    Codec.seq (Codec.arr (Codec.f64 F) 6) <|
    Codec.seq (Codec.arr (Codec.f64 F) 3) <|
    Codec.seq (Codec.arr (Codec.f64 F) 2) <|
    Codec.seq (Codec.arr (Codec.f64 F) 2) <|
    Codec.seq (Codec.arr (Codec.f64 F) 2) <|
    Codec.seq (Codec.arr (Codec.f64 F) 16) <|
    Codec.seq (Codec.arr (Codec.f64 F) 6) <|
    Codec.seq (Codec.arr (Codec.f64 F) 6) <|
    Codec.seq (Codec.arr (Codec.f64 F) 7) <|
    Codec.seq (Codec.arr (Codec.f64 F) 7) <|
    Codec.seq MotionGeneratorMode.codec <|
    Codec.seq ControllerMode.codec <|
    Codec.seq RoboErrorHelperStruct.codec <|
    Codec.seq RobotMode.codec <|
    (Codec.f64 F))
    (fun s => (s.message_id, s.O_T_EE, s.O_T_EE_d, s.F_T_EE, s.EE_T_K, s.F_T_NE, s.NE_T_EE, s.m_ee, s.I_ee, s.F_x_Cee,
      s.m_load, s.I_load, s.F_x_Cload, s.elbow, s.elbow_d, s.tau_J, s.tau_J_d, s.dtau_J, s.q, s.q_d, s.dq, s.dq_d,
      s.ddq_d, s.joint_contact, s.cartesian_contact, s.joint_collision, s.cartesian_collision,
      s.tau_ext_hat_filtered, s.O_F_ext_hat_K, s.K_F_ext_hat_K, s.O_dP_EE_d, s.O_ddP_O, s.elbow_c, s.delbow_c,
      s.ddelbow_c, s.O_T_EE_c, s.O_dP_EE_c, s.O_ddP_EE_c, s.theta, s.dtheta, s.motion_generator_mode,
      s.controller_mode, s.errors, s.robot_mode, s.control_command_success_rate))
    (fun (message_id, O_T_EE, O_T_EE_d, F_T_EE, EE_T_K, F_T_NE, NE_T_EE, m_ee, I_ee, F_x_Cee, m_load, I_load,
      F_x_Cload, elbow, elbow_d, tau_J, tau_J_d, dtau_J, q, q_d, dq, dq_d, ddq_d, joint_contact, cartesian_contact,
      joint_collision, cartesian_collision, tau_ext_hat_filtered, O_F_ext_hat_K, K_F_ext_hat_K, O_dP_EE_d, O_ddP_O,
      elbow_c, delbow_c, ddelbow_c, O_T_EE_c, O_dP_EE_c, O_ddP_EE_c, theta, dtheta, motion_generator_mode,
      controller_mode, errors, robot_mode, control_command_success_rate) =>
      ⟨message_id, O_T_EE, O_T_EE_d, F_T_EE, EE_T_K, F_T_NE, NE_T_EE, m_ee, I_ee, F_x_Cee, m_load, I_load,
      F_x_Cload, elbow, elbow_d, tau_J, tau_J_d, dtau_J, q, q_d, dq, dq_d, ddq_d, joint_contact, cartesian_contact,
      joint_collision, cartesian_collision, tau_ext_hat_filtered, O_F_ext_hat_K, K_F_ext_hat_K, O_dP_EE_d, O_ddP_O,
      elbow_c, delbow_c, ddelbow_c, O_T_EE_c, O_dP_EE_c, O_ddP_EE_c, theta, dtheta, motion_generator_mode,
      controller_mode, errors, robot_mode, control_command_success_rate⟩)

/-- `RobotStateIntern::dummy` (`/repo/src/robot/types.rs:99-154`). -/
def RobotStateIntern.dummy (F : Type) [Fl F] : RobotStateIntern F where
  message_id := 0
  O_T_EE := fun _ => Fl.lit 0
  O_T_EE_d := fun _ => Fl.lit 0
  F_T_EE := fun _ => Fl.lit 0
  EE_T_K := fun _ => Fl.lit 0
  F_T_NE := fun _ => Fl.lit 0
  NE_T_EE := fun _ => Fl.lit 0
  m_ee := Fl.lit 0
  I_ee := fun _ => Fl.lit 0
  F_x_Cee := fun _ => Fl.lit 0
  m_load := Fl.lit 0
  I_load := fun _ => Fl.lit 0
  F_x_Cload := fun _ => Fl.lit 0
  elbow := fun _ => Fl.lit 0
  elbow_d := fun _ => Fl.lit 0
  tau_J := fun _ => Fl.lit 0
  tau_J_d := fun _ => Fl.lit 0
  dtau_J := fun _ => Fl.lit 0
  q := fun _ => Fl.lit 0
  q_d := fun _ => Fl.lit 0
  dq := fun _ => Fl.lit 0
  dq_d := fun _ => Fl.lit 0
  ddq_d := fun _ => Fl.lit 0
  joint_contact := fun _ => Fl.lit 0
  cartesian_contact := fun _ => Fl.lit 0
  joint_collision := fun _ => Fl.lit 0
  cartesian_collision := fun _ => Fl.lit 0
  tau_ext_hat_filtered := fun _ => Fl.lit 0
  O_F_ext_hat_K := fun _ => Fl.lit 0
  K_F_ext_hat_K := fun _ => Fl.lit 0
  O_dP_EE_d := fun _ => Fl.lit 0
  O_ddP_O := fun _ => Fl.lit 0
  elbow_c := fun _ => Fl.lit 0
  delbow_c := fun _ => Fl.lit 0
  ddelbow_c := fun _ => Fl.lit 0
  O_T_EE_c := fun _ => Fl.lit 0
  O_dP_EE_c := fun _ => Fl.lit 0
  O_ddP_EE_c := fun _ => Fl.lit 0
  theta := fun _ => Fl.lit 0
  dtheta := fun _ => Fl.lit 0
  motion_generator_mode := .Idle
  controller_mode := .JointImpedance
  errors := ⟨fun _ => false, fun _ => false, fun _ => false, fun _ => false⟩
  robot_mode := .Other
  control_command_success_rate := Fl.lit 0

/-- `combine_errors` (`/repo/src/robot/types.rs:170-179`): the two arrays one after the other. -/
def RoboErrorHelperStruct.combine_errors (e : RoboErrorHelperStruct) : Arr Bool 41 := fun i =>
  if h : i.val < 32 then e.errors1 ⟨i.val, h⟩ else e.errors2 ⟨i.val - 32, by omega⟩

/-- `combine_reflex_reasons` (`/repo/src/robot/types.rs:180-189`). -/
def RoboErrorHelperStruct.combine_reflex_reasons (e : RoboErrorHelperStruct) : Arr Bool 41 := fun i =>
  if h : i.val < 32 then e.reflex_reason1 ⟨i.val, h⟩ else e.reflex_reason2 ⟨i.val - 32, by omega⟩

/-- `MotionGeneratorCommand` and `MotionGeneratorCommandPacked`, which has the same fields; `pack` (250-252) copies every field and is the identity here (/repo/src/robot/types.rs:192-229). -/
structure MotionGeneratorCommand (F : Type) where
  q_c : Arr F 7
  dq_c : Arr F 7
  O_T_EE_c : Arr F 16
  O_dP_EE_c : Arr F 6
  elbow_c : Arr F 2
  valid_elbow : Bool
  motion_generation_finished : Bool

/-- Wire form: the fields in order of declaration (/repo/src/robot/types.rs:192-229). -/
def MotionGeneratorCommand.codec (F : Type) [Wire F] : Codec (MotionGeneratorCommand F) :=
  Codec.iso
    (Codec.seq (Codec.arr (Codec.f64 F) 7) <|
    Codec.seq (Codec.arr (Codec.f64 F) 7) <|
    Codec.seq (Codec.arr (Codec.f64 F) 16) <|
    Codec.seq (Codec.arr (Codec.f64 F) 6) <|
    Codec.seq (Codec.arr (Codec.f64 F) 2) <|
    Codec.seq Codec.bool <|
    Codec.bool)
    (fun s => (s.q_c, s.dq_c, s.O_T_EE_c, s.O_dP_EE_c, s.elbow_c, s.valid_elbow, s.motion_generation_finished))
    (fun (q_c, dq_c, O_T_EE_c, O_dP_EE_c, elbow_c, valid_elbow, motion_generation_finished) =>
      ⟨q_c, dq_c, O_T_EE_c, O_dP_EE_c, elbow_c, valid_elbow, motion_generation_finished⟩)

/-- `MotionGeneratorCommand::new` (`/repo/src/robot/types.rs:233-249`). -/
def MotionGeneratorCommand.new {F : Type} (q_c dq_c : Arr F 7) (O_T_EE_c : Arr F 16) (O_dP_EE_c : Arr F 6)
    (elbow_c : Arr F 2) : MotionGeneratorCommand F :=
  { q_c, dq_c, O_T_EE_c, O_dP_EE_c, elbow_c, valid_elbow := false, motion_generation_finished := false }

/-- `ControllerCommand` and `ControllerCommandPacked`, which has the same field; `pack` is the identity here (/repo/src/robot/types.rs:255-274). -/
structure ControllerCommand (F : Type) where
  tau_J_d : Arr F 7

/-- Wire form: the fields in order of declaration (/repo/src/robot/types.rs:255-274). -/
def ControllerCommand.codec (F : Type) [Wire F] : Codec (ControllerCommand F) :=
  Codec.iso (Codec.arr (Codec.f64 F) 7) (fun s => s.tau_J_d) (fun x => ⟨x⟩)

/-- `RobotCommand` (/repo/src/robot/types.rs:276-282). -/
structure RobotCommand (F : Type) where
  message_id : UInt64
  motion : MotionGeneratorCommand F
  control : ControllerCommand F

/-- Wire form: the fields in order of declaration (/repo/src/robot/types.rs:276-282). -/
def RobotCommand.codec (F : Type) [Wire F] : Codec (RobotCommand F) :=
  Codec.iso
    (Codec.seq Codec.u64 <|
    Codec.seq (MotionGeneratorCommand.codec F) <|
    (ControllerCommand.codec F))
    (fun s => (s.message_id, s.motion, s.control))
    (fun (message_id, motion, control) =>
      ⟨message_id, motion, control⟩)

/-- `size_of::<RobotCommand>()` (packed, `/repo/src/robot/types.rs:276-282`). -/
def size_of_RobotCommand : Nat := 8 + (56 + 56 + 128 + 48 + 16 + 1 + 1) + 56

/-- `size_of::<RobotStateIntern>()` (packed, `/repo/src/robot/types.rs:46-97`): a `u64`, 285 `f64` and
3 `repr(u8)` enums and 82 `bool`s. -/
def size_of_RobotStateIntern : Nat := 8 + 285 * 8 + 3 + 82

end Verif
