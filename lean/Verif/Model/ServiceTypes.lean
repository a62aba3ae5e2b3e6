import Verif.Model.Float
/-! Messages of the robot command service, `/repo/src/robot/service_types.rs`. -/
namespace Verif

/-- `i32` (bincode: two's complement, `/repo/src/network.rs:392-398`). -/
def Codec.i32 : Codec Int32 := Codec.iso Codec.u32 Int32.toUInt32 UInt32.toInt32

/-- `VERSION` (`/repo/src/robot/service_types.rs:12`). -/
def VERSION : UInt16 := 5

/-- `RobotCommandEnum`, `repr(u32)` (/repo/src/robot/service_types.rs:15-32). -/
inductive RobotCommandEnum where
  | Connect
  | Move
  | StopMove
  | GetCartesianLimit
  | SetCollisionBehavior
  | SetJointImpedance
  | SetCartesianImpedance
  | SetGuidingMode
  | SetEeToK
  | SetNeToEe
  | SetLoad
  | SetFilters
  | AutomaticErrorRecovery
  | LoadModelLibrary
  deriving DecidableEq, Repr

/-- Integer representation (/repo/src/robot/service_types.rs:15-32, `Serialize_repr`). -/
def RobotCommandEnum.toTag : RobotCommandEnum → UInt32
  | .Connect => 0
  | .Move => 1
  | .StopMove => 2
  | .GetCartesianLimit => 3
  | .SetCollisionBehavior => 4
  | .SetJointImpedance => 5
  | .SetCartesianImpedance => 6
  | .SetGuidingMode => 7
  | .SetEeToK => 8
  | .SetNeToEe => 9
  | .SetLoad => 10
  | .SetFilters => 11
  | .AutomaticErrorRecovery => 12
  | .LoadModelLibrary => 13

/-- Inverse of the integer representation, unknown integers are an error (/repo/src/robot/service_types.rs:15-32, `Deserialize_repr`). -/
def RobotCommandEnum.ofTag (x : UInt32) : Option RobotCommandEnum :=
  if x = 0 then some .Connect
  else if x = 1 then some .Move
  else if x = 2 then some .StopMove
  else if x = 3 then some .GetCartesianLimit
  else if x = 4 then some .SetCollisionBehavior
  else if x = 5 then some .SetJointImpedance
  else if x = 6 then some .SetCartesianImpedance
  else if x = 7 then some .SetGuidingMode
  else if x = 8 then some .SetEeToK
  else if x = 9 then some .SetNeToEe
  else if x = 10 then some .SetLoad
  else if x = 11 then some .SetFilters
  else if x = 12 then some .AutomaticErrorRecovery
  else if x = 13 then some .LoadModelLibrary
  else none

/-- Wire form (/repo/src/robot/service_types.rs:15-32). -/
def RobotCommandEnum.codec : Codec RobotCommandEnum := Codec.enum Codec.u32 toTag ofTag

/-- `ConnectStatus`, `repr(u8)` (/repo/src/robot/service_types.rs:41-46). -/
inductive ConnectStatus where
  | Success
  | IncompatibleLibraryVersion
  deriving DecidableEq, Repr

/-- Integer representation (/repo/src/robot/service_types.rs:41-46, `Serialize_repr`). -/
def ConnectStatus.toTag : ConnectStatus → UInt8
  | .Success => 0
  | .IncompatibleLibraryVersion => 1

/-- Inverse of the integer representation, unknown integers are an error (/repo/src/robot/service_types.rs:41-46, `Deserialize_repr`). -/
def ConnectStatus.ofTag (x : UInt8) : Option ConnectStatus :=
  if x = 0 then some .Success
  else if x = 1 then some .IncompatibleLibraryVersion
  else none

/-- Wire form (/repo/src/robot/service_types.rs:41-46). -/
def ConnectStatus.codec : Codec ConnectStatus := Codec.enum Codec.u8 toTag ofTag

/-- `MoveStatus`, `repr(u8)` (/repo/src/robot/service_types.rs:48-61). -/
inductive MoveStatus where
  | Success
  | MotionStarted
  | Preempted
  | CommandNotPossibleRejected
  | StartAtSingularPoseRejected
  | InvalidArgumentRejected
  | ReflexAborted
  | EmergencyAborted
  | InputErrorAborted
  | Aborted
  deriving DecidableEq, Repr

/-- Integer representation (/repo/src/robot/service_types.rs:48-61, `Serialize_repr`). -/
def MoveStatus.toTag : MoveStatus → UInt8
  | .Success => 0
  | .MotionStarted => 1
  | .Preempted => 2
  | .CommandNotPossibleRejected => 3
  | .StartAtSingularPoseRejected => 4
  | .InvalidArgumentRejected => 5
  | .ReflexAborted => 6
  | .EmergencyAborted => 7
  | .InputErrorAborted => 8
  | .Aborted => 9

/-- Inverse of the integer representation, unknown integers are an error (/repo/src/robot/service_types.rs:48-61, `Deserialize_repr`). -/
def MoveStatus.ofTag (x : UInt8) : Option MoveStatus :=
  if x = 0 then some .Success
  else if x = 1 then some .MotionStarted
  else if x = 2 then some .Preempted
  else if x = 3 then some .CommandNotPossibleRejected
  else if x = 4 then some .StartAtSingularPoseRejected
  else if x = 5 then some .InvalidArgumentRejected
  else if x = 6 then some .ReflexAborted
  else if x = 7 then some .EmergencyAborted
  else if x = 8 then some .InputErrorAborted
  else if x = 9 then some .Aborted
  else none

/-- Wire form (/repo/src/robot/service_types.rs:48-61). -/
def MoveStatus.codec : Codec MoveStatus := Codec.enum Codec.u8 toTag ofTag

/-- `StopMoveStatus`, `repr(u8)` (/repo/src/robot/service_types.rs:63-71). -/
inductive StopMoveStatus where
  | Success
  | CommandNotPossibleRejected
  | EmergencyAborted
  | ReflexAborted
  | Aborted
  deriving DecidableEq, Repr

/-- Integer representation (/repo/src/robot/service_types.rs:63-71, `Serialize_repr`). -/
def StopMoveStatus.toTag : StopMoveStatus → UInt8
  | .Success => 0
  | .CommandNotPossibleRejected => 1
  | .EmergencyAborted => 2
  | .ReflexAborted => 3
  | .Aborted => 4

/-- Inverse of the integer representation, unknown integers are an error (/repo/src/robot/service_types.rs:63-71, `Deserialize_repr`). -/
def StopMoveStatus.ofTag (x : UInt8) : Option StopMoveStatus :=
  if x = 0 then some .Success
  else if x = 1 then some .CommandNotPossibleRejected
  else if x = 2 then some .EmergencyAborted
  else if x = 3 then some .ReflexAborted
  else if x = 4 then some .Aborted
  else none

/-- Wire form (/repo/src/robot/service_types.rs:63-71). -/
def StopMoveStatus.codec : Codec StopMoveStatus := Codec.enum Codec.u8 toTag ofTag

/-- `AutomaticErrorRecoveryStatus`, `repr(u8)` (/repo/src/robot/service_types.rs:73-82). -/
inductive AutomaticErrorRecoveryStatus where
  | Success
  | CommandNotPossibleRejected
  | ManualErrorRecoveryRequiredRejected
  | ReflexAborted
  | EmergencyAborted
  | Aborted
  deriving DecidableEq, Repr

/-- Integer representation (/repo/src/robot/service_types.rs:73-82, `Serialize_repr`). -/
def AutomaticErrorRecoveryStatus.toTag : AutomaticErrorRecoveryStatus → UInt8
  | .Success => 0
  | .CommandNotPossibleRejected => 1
  | .ManualErrorRecoveryRequiredRejected => 2
  | .ReflexAborted => 3
  | .EmergencyAborted => 4
  | .Aborted => 5

/-- Inverse of the integer representation, unknown integers are an error (/repo/src/robot/service_types.rs:73-82, `Deserialize_repr`). -/
def AutomaticErrorRecoveryStatus.ofTag (x : UInt8) : Option AutomaticErrorRecoveryStatus :=
  if x = 0 then some .Success
  else if x = 1 then some .CommandNotPossibleRejected
  else if x = 2 then some .ManualErrorRecoveryRequiredRejected
  else if x = 3 then some .ReflexAborted
  else if x = 4 then some .EmergencyAborted
  else if x = 5 then some .Aborted
  else none

/-- Wire form (/repo/src/robot/service_types.rs:73-82). -/
def AutomaticErrorRecoveryStatus.codec : Codec AutomaticErrorRecoveryStatus := Codec.enum Codec.u8 toTag ofTag

/-- `LoadModelLibraryStatus`, `repr(u8)` (/repo/src/robot/service_types.rs:84-89). -/
inductive LoadModelLibraryStatus where
  | Success
  | Error
  deriving DecidableEq, Repr

/-- Integer representation (/repo/src/robot/service_types.rs:84-89, `Serialize_repr`). -/
def LoadModelLibraryStatus.toTag : LoadModelLibraryStatus → UInt8
  | .Success => 0
  | .Error => 1

/-- Inverse of the integer representation, unknown integers are an error (/repo/src/robot/service_types.rs:84-89, `Deserialize_repr`). -/
def LoadModelLibraryStatus.ofTag (x : UInt8) : Option LoadModelLibraryStatus :=
  if x = 0 then some .Success
  else if x = 1 then some .Error
  else none

/-- Wire form (/repo/src/robot/service_types.rs:84-89). -/
def LoadModelLibraryStatus.codec : Codec LoadModelLibraryStatus := Codec.enum Codec.u8 toTag ofTag

/-- `GetterSetterStatus`, `repr(u8)` (/repo/src/robot/service_types.rs:91-97). -/
inductive GetterSetterStatus where
  | Success
  | CommandNotPossibleRejected
  | InvalidArgumentRejected
  deriving DecidableEq, Repr

/-- Integer representation (/repo/src/robot/service_types.rs:91-97, `Serialize_repr`). -/
def GetterSetterStatus.toTag : GetterSetterStatus → UInt8
  | .Success => 0
  | .CommandNotPossibleRejected => 1
  | .InvalidArgumentRejected => 2

/-- Inverse of the integer representation, unknown integers are an error (/repo/src/robot/service_types.rs:91-97, `Deserialize_repr`). -/
def GetterSetterStatus.ofTag (x : UInt8) : Option GetterSetterStatus :=
  if x = 0 then some .Success
  else if x = 1 then some .CommandNotPossibleRejected
  else if x = 2 then some .InvalidArgumentRejected
  else none

/-- Wire form (/repo/src/robot/service_types.rs:91-97). -/
def GetterSetterStatus.codec : Codec GetterSetterStatus := Codec.enum Codec.u8 toTag ofTag

/-- `MoveControllerMode`, `repr(u32)` (/repo/src/robot/service_types.rs:135-141). -/
inductive MoveControllerMode where
  | JointImpedance
  | CartesianImpedance
  | ExternalController
  deriving DecidableEq, Repr

/-- Integer representation (/repo/src/robot/service_types.rs:135-141, `Serialize_repr`). -/
def MoveControllerMode.toTag : MoveControllerMode → UInt32
  | .JointImpedance => 0
  | .CartesianImpedance => 1
  | .ExternalController => 2

/-- Inverse of the integer representation, unknown integers are an error (/repo/src/robot/service_types.rs:135-141, `Deserialize_repr`). -/
def MoveControllerMode.ofTag (x : UInt32) : Option MoveControllerMode :=
  if x = 0 then some .JointImpedance
  else if x = 1 then some .CartesianImpedance
  else if x = 2 then some .ExternalController
  else none

/-- Wire form (/repo/src/robot/service_types.rs:135-141). -/
def MoveControllerMode.codec : Codec MoveControllerMode := Codec.enum Codec.u32 toTag ofTag

/-- `MoveMotionGeneratorMode`, `repr(u32)` (/repo/src/robot/service_types.rs:143-150). -/
inductive MoveMotionGeneratorMode where
  | JointPosition
  | JointVelocity
  | CartesianPosition
  | CartesianVelocity
  deriving DecidableEq, Repr

/-- Integer representation (/repo/src/robot/service_types.rs:143-150, `Serialize_repr`). -/
def MoveMotionGeneratorMode.toTag : MoveMotionGeneratorMode → UInt32
  | .JointPosition => 0
  | .JointVelocity => 1
  | .CartesianPosition => 2
  | .CartesianVelocity => 3

/-- Inverse of the integer representation, unknown integers are an error (/repo/src/robot/service_types.rs:143-150, `Deserialize_repr`). -/
def MoveMotionGeneratorMode.ofTag (x : UInt32) : Option MoveMotionGeneratorMode :=
  if x = 0 then some .JointPosition
  else if x = 1 then some .JointVelocity
  else if x = 2 then some .CartesianPosition
  else if x = 3 then some .CartesianVelocity
  else none

/-- Wire form (/repo/src/robot/service_types.rs:143-150). -/
def MoveMotionGeneratorMode.codec : Codec MoveMotionGeneratorMode := Codec.enum Codec.u32 toTag ofTag

/-- `LoadModelLibraryArchitecture`, `repr(u8)` (/repo/src/robot/service_types.rs:552-559). -/
inductive LoadModelLibraryArchitecture where
  | X64
  | X86
  | Arm
  | Arm64
  deriving DecidableEq, Repr

/-- Integer representation (/repo/src/robot/service_types.rs:552-559, `Serialize_repr`). -/
def LoadModelLibraryArchitecture.toTag : LoadModelLibraryArchitecture → UInt8
  | .X64 => 0
  | .X86 => 1
  | .Arm => 2
  | .Arm64 => 3

/-- Inverse of the integer representation, unknown integers are an error (/repo/src/robot/service_types.rs:552-559, `Deserialize_repr`). -/
def LoadModelLibraryArchitecture.ofTag (x : UInt8) : Option LoadModelLibraryArchitecture :=
  if x = 0 then some .X64
  else if x = 1 then some .X86
  else if x = 2 then some .Arm
  else if x = 3 then some .Arm64
  else none

/-- Wire form (/repo/src/robot/service_types.rs:552-559). -/
def LoadModelLibraryArchitecture.codec : Codec LoadModelLibraryArchitecture := Codec.enum Codec.u8 toTag ofTag

/-- `LoadModelLibrarySystem`, `repr(u8)` (/repo/src/robot/service_types.rs:561-566). -/
inductive LoadModelLibrarySystem where
  | Linux
  | Windows
  deriving DecidableEq, Repr

/-- Integer representation (/repo/src/robot/service_types.rs:561-566, `Serialize_repr`). -/
def LoadModelLibrarySystem.toTag : LoadModelLibrarySystem → UInt8
  | .Linux => 0
  | .Windows => 1

/-- Inverse of the integer representation, unknown integers are an error (/repo/src/robot/service_types.rs:561-566, `Deserialize_repr`). -/
def LoadModelLibrarySystem.ofTag (x : UInt8) : Option LoadModelLibrarySystem :=
  if x = 0 then some .Linux
  else if x = 1 then some .Windows
  else none

/-- Wire form (/repo/src/robot/service_types.rs:561-566). -/
def LoadModelLibrarySystem.codec : Codec LoadModelLibrarySystem := Codec.enum Codec.u8 toTag ofTag

/-- `RobotCommandHeader` (/repo/src/robot/service_types.rs:594-610). -/
structure RobotCommandHeader where
  command : RobotCommandEnum
  command_id : UInt32
  size : UInt32
  deriving DecidableEq, Repr

/-- Wire form: the fields in order of declaration (/repo/src/robot/service_types.rs:594-610). -/
def RobotCommandHeader.codec : Codec (RobotCommandHeader) :=
  Codec.iso
    (Codec.seq RobotCommandEnum.codec <|
    Codec.seq Codec.u32 <|
    Codec.u32)
    (fun s => (s.command, s.command_id, s.size))
    (fun (command, command_id, size) =>
      ⟨command, command_id, size⟩)

/-- `ConnectRequest` (/repo/src/robot/service_types.rs:99-104). -/
structure ConnectRequest where
  version : UInt16
  udp_port : UInt16
  deriving DecidableEq, Repr

/-- Wire form: the fields in order of declaration (/repo/src/robot/service_types.rs:99-104). -/
def ConnectRequest.codec : Codec (ConnectRequest) :=
  Codec.iso
    (Codec.seq Codec.u16 <|
    Codec.u16)
    (fun s => (s.version, s.udp_port))
    (fun (version, udp_port) =>
      ⟨version, udp_port⟩)

/-- `ConnectRequest::new` (`/repo/src/robot/service_types.rs:106-113`). -/
def ConnectRequest.new (udp_port : UInt16) : ConnectRequest := { version := VERSION, udp_port }

/-- `MoveDeviation` (/repo/src/robot/service_types.rs:152-158). -/
structure MoveDeviation (F : Type) where
  translation : F
  rotation : F
  elbow : F

/-- Wire form: the fields in order of declaration (/repo/src/robot/service_types.rs:152-158). -/
def MoveDeviation.codec (F : Type) [Wire F] : Codec (MoveDeviation F) :=
  Codec.iso
    (Codec.seq (Codec.f64 F) <|
    Codec.seq (Codec.f64 F) <|
    (Codec.f64 F))
    (fun s => (s.translation, s.rotation, s.elbow))
    (fun (translation, rotation, elbow) =>
      ⟨translation, rotation, elbow⟩)

/-- `MoveRequest` (/repo/src/robot/service_types.rs:160-183). -/
structure MoveRequest (F : Type) where
  controller_mode : MoveControllerMode
  motion_generator_mode : MoveMotionGeneratorMode
  maximum_path_deviation : MoveDeviation F
  maximum_goal_deviation : MoveDeviation F

/-- Wire form: the fields in order of declaration (/repo/src/robot/service_types.rs:160-183). -/
def MoveRequest.codec (F : Type) [Wire F] : Codec (MoveRequest F) :=
  Codec.iso
    (Codec.seq MoveControllerMode.codec <|
    Codec.seq MoveMotionGeneratorMode.codec <|
    Codec.seq (MoveDeviation.codec F) <|
    (MoveDeviation.codec F))
    (fun s => (s.controller_mode, s.motion_generator_mode, s.maximum_path_deviation, s.maximum_goal_deviation))
    (fun (controller_mode, motion_generator_mode, maximum_path_deviation, maximum_goal_deviation) =>
      ⟨controller_mode, motion_generator_mode, maximum_path_deviation, maximum_goal_deviation⟩)

/-- `GetCartesianLimitRequest` (/repo/src/robot/service_types.rs:222-232). -/
structure GetCartesianLimitRequest where
  id : Int32

/-- Wire form: the fields in order of declaration (/repo/src/robot/service_types.rs:222-232). -/
def GetCartesianLimitRequest.codec : Codec (GetCartesianLimitRequest) :=
  Codec.iso Codec.i32 (fun s => s.id) (fun x => ⟨x⟩)

/-- `SetCollisionBehaviorRequest` (/repo/src/robot/service_types.rs:256-292). -/
structure SetCollisionBehaviorRequest (F : Type) where
  lower_torque_thresholds_acceleration : Arr F 7
  upper_torque_thresholds_acceleration : Arr F 7
  lower_torque_thresholds_nominal : Arr F 7
  upper_torque_thresholds_nominal : Arr F 7
  lower_force_thresholds_acceleration : Arr F 6
  upper_force_thresholds_acceleration : Arr F 6
  lower_force_thresholds_nominal : Arr F 6
  upper_force_thresholds_nominal : Arr F 6

/-- Wire form: the fields in order of declaration (/repo/src/robot/service_types.rs:256-292). -/
def SetCollisionBehaviorRequest.codec (F : Type) [Wire F] : Codec (SetCollisionBehaviorRequest F) :=
  Codec.iso
    (Codec.seq (Codec.arr (Codec.f64 F) 7) <|
    Codec.seq (Codec.arr (Codec.f64 F) 7) <|
    Codec.seq (Codec.arr (Codec.f64 F) 7) <|
    Codec.seq (Codec.arr (Codec.f64 F) 7) <|
    Codec.seq (Codec.arr (Codec.f64 F) 6) <|
    Codec.seq (Codec.arr (Codec.f64 F) 6) <|
    Codec.seq (Codec.arr (Codec.f64 F) 6) <|
    (Codec.arr (Codec.f64 F) 6))
    (fun s => (s.lower_torque_thresholds_acceleration, s.upper_torque_thresholds_acceleration,
      s.lower_torque_thresholds_nominal, s.upper_torque_thresholds_nominal, s.lower_force_thresholds_acceleration,
      s.upper_force_thresholds_acceleration, s.lower_force_thresholds_nominal, s.upper_force_thresholds_nominal))
    (fun (lower_torque_thresholds_acceleration, upper_torque_thresholds_acceleration, lower_torque_thresholds_nominal,
      upper_torque_thresholds_nominal, lower_force_thresholds_acceleration, upper_force_thresholds_acceleration,
      lower_force_thresholds_nominal, upper_force_thresholds_nominal) =>
      ⟨lower_torque_thresholds_acceleration, upper_torque_thresholds_acceleration, lower_torque_thresholds_nominal,
      upper_torque_thresholds_nominal, lower_force_thresholds_acceleration, upper_force_thresholds_acceleration,
      lower_force_thresholds_nominal, upper_force_thresholds_nominal⟩)

/-- `SetJointImpedanceRequest` (/repo/src/robot/service_types.rs:309-321). -/
structure SetJointImpedanceRequest (F : Type) where
  K_theta : Arr F 7

/-- Wire form: the fields in order of declaration (/repo/src/robot/service_types.rs:309-321). -/
def SetJointImpedanceRequest.codec (F : Type) [Wire F] : Codec (SetJointImpedanceRequest F) :=
  Codec.iso (Codec.arr (Codec.f64 F) 7) (fun s => s.K_theta) (fun x => ⟨x⟩)

/-- `SetCartesianImpedanceRequest` (/repo/src/robot/service_types.rs:338-350). -/
structure SetCartesianImpedanceRequest (F : Type) where
  K_x : Arr F 6

/-- Wire form: the fields in order of declaration (/repo/src/robot/service_types.rs:338-350). -/
def SetCartesianImpedanceRequest.codec (F : Type) [Wire F] : Codec (SetCartesianImpedanceRequest F) :=
  Codec.iso (Codec.arr (Codec.f64 F) 6) (fun s => s.K_x) (fun x => ⟨x⟩)

/-- `SetGuidingModeRequest` (/repo/src/robot/service_types.rs:367-383). -/
structure SetGuidingModeRequest where
  guiding_mode : Arr Bool 6
  nullspace : Bool

/-- Wire form: the fields in order of declaration (/repo/src/robot/service_types.rs:367-383). -/
def SetGuidingModeRequest.codec : Codec (SetGuidingModeRequest) :=
  Codec.iso
    (Codec.seq (Codec.arr Codec.bool 6) <|
    Codec.bool)
    (fun s => (s.guiding_mode, s.nullspace))
    (fun (guiding_mode, nullspace) =>
      ⟨guiding_mode, nullspace⟩)

/-- `SetEeToKRequest` (/repo/src/robot/service_types.rs:400-412). -/
structure SetEeToKRequest (F : Type) where
  EE_T_K : Arr F 16

/-- Wire form: the fields in order of declaration (/repo/src/robot/service_types.rs:400-412). -/
def SetEeToKRequest.codec (F : Type) [Wire F] : Codec (SetEeToKRequest F) :=
  Codec.iso (Codec.arr (Codec.f64 F) 16) (fun s => s.EE_T_K) (fun x => ⟨x⟩)

/-- `SetNeToEeRequest` (/repo/src/robot/service_types.rs:429-441). -/
structure SetNeToEeRequest (F : Type) where
  NE_T_EE : Arr F 16

/-- Wire form: the fields in order of declaration (/repo/src/robot/service_types.rs:429-441). -/
def SetNeToEeRequest.codec (F : Type) [Wire F] : Codec (SetNeToEeRequest F) :=
  Codec.iso (Codec.arr (Codec.f64 F) 16) (fun s => s.NE_T_EE) (fun x => ⟨x⟩)

/-- `SetLoadRequest` (/repo/src/robot/service_types.rs:458-476). -/
structure SetLoadRequest (F : Type) where
  m_load : F
  F_x_Cload : Arr F 3
  I_Load : Arr F 9

/-- Wire form: the fields in order of declaration (/repo/src/robot/service_types.rs:458-476). -/
def SetLoadRequest.codec (F : Type) [Wire F] : Codec (SetLoadRequest F) :=
  Codec.iso
    (Codec.seq (Codec.f64 F) <|
    Codec.seq (Codec.arr (Codec.f64 F) 3) <|
    (Codec.arr (Codec.f64 F) 9))
    (fun s => (s.m_load, s.F_x_Cload, s.I_Load))
    (fun (m_load, F_x_Cload, I_Load) =>
      ⟨m_load, F_x_Cload, I_Load⟩)

/-- `SetFiltersRequest` (/repo/src/robot/service_types.rs:493-521). -/
structure SetFiltersRequest (F : Type) where
  joint_position_filter_frequency : F
  joint_velocity_filter_frequency : F
  cartesian_position_filter_frequency : F
  cartesian_velocity_filter_frequency : F
  controller_filter_frequency : F

/-- Wire form: the fields in order of declaration (/repo/src/robot/service_types.rs:493-521). -/
def SetFiltersRequest.codec (F : Type) [Wire F] : Codec (SetFiltersRequest F) :=
  Codec.iso
    (Codec.seq (Codec.f64 F) <|
    Codec.seq (Codec.f64 F) <|
    Codec.seq (Codec.f64 F) <|
    Codec.seq (Codec.f64 F) <|
    (Codec.f64 F))
    (fun s => (s.joint_position_filter_frequency, s.joint_velocity_filter_frequency, s.cartesian_position_filter_frequency,
      s.cartesian_velocity_filter_frequency, s.controller_filter_frequency))
    (fun (joint_position_filter_frequency, joint_velocity_filter_frequency, cartesian_position_filter_frequency,
      cartesian_velocity_filter_frequency, controller_filter_frequency) =>
      ⟨joint_position_filter_frequency, joint_velocity_filter_frequency, cartesian_position_filter_frequency,
      cartesian_velocity_filter_frequency, controller_filter_frequency⟩)

/-- `LoadModelLibraryRequest` (/repo/src/robot/service_types.rs:568-573). -/
structure LoadModelLibraryRequest where
  architecture : LoadModelLibraryArchitecture
  system : LoadModelLibrarySystem

/-- Wire form: the fields in order of declaration (/repo/src/robot/service_types.rs:568-573). -/
def LoadModelLibraryRequest.codec : Codec (LoadModelLibraryRequest) :=
  Codec.iso
    (Codec.seq LoadModelLibraryArchitecture.codec <|
    LoadModelLibrarySystem.codec)
    (fun s => (s.architecture, s.system))
    (fun (architecture, system) =>
      ⟨architecture, system⟩)

/-- `ConnectResponse` (/repo/src/robot/service_types.rs:128-133). -/
structure ConnectResponse where
  header : RobotCommandHeader
  status : ConnectStatus
  version : UInt16

/-- Wire form: the fields in order of declaration (/repo/src/robot/service_types.rs:128-133). -/
def ConnectResponse.codec : Codec (ConnectResponse) :=
  Codec.iso
    (Codec.seq RobotCommandHeader.codec <|
    Codec.seq ConnectStatus.codec <|
    Codec.u16)
    (fun s => (s.header, s.status, s.version))
    (fun (header, status, version) =>
      ⟨header, status, version⟩)

/-- `MoveResponse` (/repo/src/robot/service_types.rs:198-202). -/
structure MoveResponse where
  header : RobotCommandHeader
  status : MoveStatus

/-- Wire form: the fields in order of declaration (/repo/src/robot/service_types.rs:198-202). -/
def MoveResponse.codec : Codec (MoveResponse) :=
  Codec.iso
    (Codec.seq RobotCommandHeader.codec <|
    MoveStatus.codec)
    (fun s => (s.header, s.status))
    (fun (header, status) =>
      ⟨header, status⟩)

/-- `StopMoveResponse` (/repo/src/robot/service_types.rs:216-220). -/
structure StopMoveResponse where
  header : RobotCommandHeader
  status : StopMoveStatus

/-- Wire form: the fields in order of declaration (/repo/src/robot/service_types.rs:216-220). -/
def StopMoveResponse.codec : Codec (StopMoveResponse) :=
  Codec.iso
    (Codec.seq RobotCommandHeader.codec <|
    StopMoveStatus.codec)
    (fun s => (s.header, s.status))
    (fun (header, status) =>
      ⟨header, status⟩)

/-- `GetCartesianLimitResponse` (/repo/src/robot/service_types.rs:247-254). -/
structure GetCartesianLimitResponse (F : Type) where
  header : RobotCommandHeader
  status : GetterSetterStatus
  object_world_size : Arr F 3
  object_frame : Arr F 16
  object_activation : Bool

/-- Wire form: the fields in order of declaration (/repo/src/robot/service_types.rs:247-254). -/
def GetCartesianLimitResponse.codec (F : Type) [Wire F] : Codec (GetCartesianLimitResponse F) :=
  Codec.iso
    (Codec.seq RobotCommandHeader.codec <|
    Codec.seq GetterSetterStatus.codec <|
    Codec.seq (Codec.arr (Codec.f64 F) 3) <|
    Codec.seq (Codec.arr (Codec.f64 F) 16) <|
    Codec.bool)
    (fun s => (s.header, s.status, s.object_world_size, s.object_frame, s.object_activation))
    (fun (header, status, object_world_size, object_frame, object_activation) =>
      ⟨header, status, object_world_size, object_frame, object_activation⟩)

/-- `SetterResponse` and its aliases `SetCollisionBehaviorResponse`, ..., `SetFiltersResponse` (/repo/src/robot/service_types.rs:538-542). -/
structure SetterResponse where
  header : RobotCommandHeader
  status : GetterSetterStatus

/-- Wire form: the fields in order of declaration (/repo/src/robot/service_types.rs:538-542). -/
def SetterResponse.codec : Codec (SetterResponse) :=
  Codec.iso
    (Codec.seq RobotCommandHeader.codec <|
    GetterSetterStatus.codec)
    (fun s => (s.header, s.status))
    (fun (header, status) =>
      ⟨header, status⟩)

/-- `AutomaticErrorRecoveryResponse` (/repo/src/robot/service_types.rs:546-550). -/
structure AutomaticErrorRecoveryResponse where
  header : RobotCommandHeader
  status : AutomaticErrorRecoveryStatus

/-- Wire form: the fields in order of declaration (/repo/src/robot/service_types.rs:546-550). -/
def AutomaticErrorRecoveryResponse.codec : Codec (AutomaticErrorRecoveryResponse) :=
  Codec.iso
    (Codec.seq RobotCommandHeader.codec <|
    AutomaticErrorRecoveryStatus.codec)
    (fun s => (s.header, s.status))
    (fun (header, status) =>
      ⟨header, status⟩)

/-- `LoadModelLibraryResponse` (/repo/src/robot/service_types.rs:588-592). -/
structure LoadModelLibraryResponse where
  header : RobotCommandHeader
  status : LoadModelLibraryStatus

/-- Wire form: the fields in order of declaration (/repo/src/robot/service_types.rs:588-592). -/
def LoadModelLibraryResponse.codec : Codec (LoadModelLibraryResponse) :=
  Codec.iso
    (Codec.seq RobotCommandHeader.codec <|
    LoadModelLibraryStatus.codec)
    (fun s => (s.header, s.status))
    (fun (header, status) =>
      ⟨header, status⟩)

/-- The `request` part of the `...RequestWithHeader` structs of the robot service, one constructor per struct:
`/repo/src/robot/service_types.rs:115-120` (Connect), `185-190` (Move), `204-208` (StopMove), `234-239` (GetCartesianLimit),
`294-299` (SetCollisionBehavior), `323-328` (SetJointImpedance), `352-357` (SetCartesianImpedance), `385-390` (SetGuidingMode),
`414-419` (SetEeToK), `443-448` (SetNeToEe), `478-483` (SetLoad), `523-528` (SetFilters), `544` (AutomaticErrorRecovery),
`575-580` (LoadModelLibrary). -/
inductive RobotBody (F : Type) where
  | Connect (r : ConnectRequest)
  | Move (r : MoveRequest F)
  | StopMove
  | GetCartesianLimit (r : GetCartesianLimitRequest)
  | SetCollisionBehavior (r : SetCollisionBehaviorRequest F)
  | SetJointImpedance (r : SetJointImpedanceRequest F)
  | SetCartesianImpedance (r : SetCartesianImpedanceRequest F)
  | SetGuidingMode (r : SetGuidingModeRequest)
  | SetEeToK (r : SetEeToKRequest F)
  | SetNeToEe (r : SetNeToEeRequest F)
  | SetLoad (r : SetLoadRequest F)
  | SetFilters (r : SetFiltersRequest F)
  | AutomaticErrorRecovery
  | LoadModelLibrary (r : LoadModelLibraryRequest)

/-- Serialization of the `request` field (`/repo/src/network.rs:392-394` on the structs of `RobotBody`). -/
def RobotBody.enc {F : Type} [Wire F] : RobotBody F → Bytes
  | .Connect r => ConnectRequest.codec.enc r
  | .Move r => (MoveRequest.codec F).enc r
  | .StopMove => []
  | .GetCartesianLimit r => GetCartesianLimitRequest.codec.enc r
  | .SetCollisionBehavior r => (SetCollisionBehaviorRequest.codec F).enc r
  | .SetJointImpedance r => (SetJointImpedanceRequest.codec F).enc r
  | .SetCartesianImpedance r => (SetCartesianImpedanceRequest.codec F).enc r
  | .SetGuidingMode r => SetGuidingModeRequest.codec.enc r
  | .SetEeToK r => (SetEeToKRequest.codec F).enc r
  | .SetNeToEe r => (SetNeToEeRequest.codec F).enc r
  | .SetLoad r => (SetLoadRequest.codec F).enc r
  | .SetFilters r => (SetFiltersRequest.codec F).enc r
  | .AutomaticErrorRecovery => []
  | .LoadModelLibrary r => LoadModelLibraryRequest.codec.enc r

/-- A `...RequestWithHeader` struct (lines as for `RobotBody`). -/
structure RobotReq (F : Type) where
  header : RobotCommandHeader
  request : RobotBody F

/-- `serialize(&request)` (`/repo/src/network.rs:392-394`). -/
def RobotReq.enc {F : Type} [Wire F] (r : RobotReq F) : Bytes :=
  RobotCommandHeader.codec.enc r.header ++ r.request.enc

/-- `size_of::<...RequestWithHeader>()` of the packed structs (lines as for `RobotBody`): 12 bytes of header
plus the fields, 8 bytes per `f64`, 4 per `u32`/`i32`/`repr(u32)` enum, 2 per `u16`, 1 per `bool`/`repr(u8)` enum. -/
def RobotCommandEnum.size_of_request : RobotCommandEnum → Nat
  | .Connect => 12 + 4
  | .Move => 12 + (4 + 4 + 24 + 24)
  | .StopMove => 12
  | .GetCartesianLimit => 12 + 4
  | .SetCollisionBehavior => 12 + (4 * 56 + 4 * 48)
  | .SetJointImpedance => 12 + 56
  | .SetCartesianImpedance => 12 + 48
  | .SetGuidingMode => 12 + 7
  | .SetEeToK => 12 + 128
  | .SetNeToEe => 12 + 128
  | .SetLoad => 12 + (8 + 24 + 72)
  | .SetFilters => 12 + 40
  | .AutomaticErrorRecovery => 12
  | .LoadModelLibrary => 12 + 2

end Verif
