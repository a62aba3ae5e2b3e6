import Verif.Model.RobotState
import Verif.Model.Filters
/-! Motion and torque values returned by callbacks, `/repo/src/robot/control_types.rs`. -/
namespace Verif
open Fl

/-- `control_types::ControllerMode`, the argument of the control functions (`/repo/src/robot/control_types.rs:28-31`). -/
inductive ControllerModeArg where
  | JointImpedance
  | CartesianImpedance
  deriving DecidableEq, Repr

/-- `RealtimeConfig` (`/repo/src/robot/control_types.rs:36-39`). -/
inductive RealtimeConfig where
  | Enforce
  | Ignore
  deriving DecidableEq, Repr

/-- `Torques` (`/repo/src/robot/control_types.rs:75-79`). -/
structure Torques (F : Type) where
  motion_finished : Bool
  tau_J : Arr F 7

/-- `JointPositions` (`/repo/src/robot/control_types.rs:122-126`). -/
structure JointPositions (F : Type) where
  motion_finished : Bool
  q : Arr F 7

/-- `JointVelocities` (`/repo/src/robot/control_types.rs:196-200`). -/
structure JointVelocities (F : Type) where
  motion_finished : Bool
  dq : Arr F 7

/-- `CartesianPose` (`/repo/src/robot/control_types.rs:269-283`). -/
structure CartesianPose (F : Type) where
  motion_finished : Bool
  O_T_EE : Arr F 16
  elbow : Option (Arr F 2)

/-- `CartesianVelocities` (`/repo/src/robot/control_types.rs:413-426`). -/
structure CartesianVelocities (F : Type) where
  motion_finished : Bool
  O_dP_EE : Arr F 6
  elbow : Option (Arr F 2)

/-- `Torques::new` (`/repo/src/robot/control_types.rs:91-96`). -/
def Torques.new {F : Type} (torques : Arr F 7) : Torques F := ⟨false, torques⟩
/-- `JointPositions::new` (`/repo/src/robot/control_types.rs:138-143`). -/
def JointPositions.new {F : Type} (joint_positions : Arr F 7) : JointPositions F := ⟨false, joint_positions⟩
/-- `JointVelocities::new` (`/repo/src/robot/control_types.rs:212-217`). -/
def JointVelocities.new {F : Type} (joint_velocities : Arr F 7) : JointVelocities F := ⟨false, joint_velocities⟩
/-- `CartesianPose::new` (`/repo/src/robot/control_types.rs:310-316`). -/
def CartesianPose.new {F : Type} (cartesian_pose : Arr F 16) (elbow : Option (Arr F 2)) : CartesianPose F :=
  ⟨false, cartesian_pose, elbow⟩
/-- `CartesianVelocities::new` (`/repo/src/robot/control_types.rs:441-447`). -/
def CartesianVelocities.new {F : Type} (cartesian_velocities : Arr F 6) (elbow : Option (Arr F 2)) :
    CartesianVelocities F := ⟨false, cartesian_velocities, elbow⟩

/-- The four types which implement `Finishable + MotionGeneratorTrait`
(`/repo/src/robot/control_types.rs:187,260,404,528`). -/
inductive MotionKind where
  | JointPositions
  | JointVelocities
  | CartesianPose
  | CartesianVelocities
  deriving DecidableEq, Repr

/-- The Rust type of that kind (`/repo/src/robot/control_types.rs:122-126,196-200,269-283,413-426`). -/
def Motion (F : Type) : MotionKind → Type
  | .JointPositions => JointPositions F
  | .JointVelocities => JointVelocities F
  | .CartesianPose => CartesianPose F
  | .CartesianVelocities => CartesianVelocities F

/-- `get_motion_generator_mode` (`/repo/src/robot/control_types.rs:188-190,261-263,405-407,529-531`). -/
def MotionKind.get_motion_generator_mode : MotionKind → MoveMotionGeneratorMode
  | .JointPositions => .JointPosition
  | .JointVelocities => .JointVelocity
  | .CartesianPose => .CartesianPosition
  | .CartesianVelocities => .CartesianVelocity

/-- `is_finished` of a motion (`/repo/src/robot/control_types.rs:147-149,221-223,334-336,455-457`). -/
def Motion.is_finished {F : Type} : {k : MotionKind} → Motion F k → Bool
  | .JointPositions, m => JointPositions.motion_finished m
  | .JointVelocities, m => JointVelocities.motion_finished m
  | .CartesianPose, m => CartesianPose.motion_finished m
  | .CartesianVelocities, m => CartesianVelocities.motion_finished m

/-- `is_finished` of torques (`/repo/src/robot/control_types.rs:100-102`). -/
def Torques.is_finished {F : Type} (t : Torques F) : Bool := t.motion_finished

variable {F : Type} [Fl F]

/-- `CartesianPose::is_valid_elbow` (`/repo/src/robot/control_types.rs:328-330`). -/
def is_valid_elbow (elbow : Arr F 2) : Bool := feq (fabs (elbow 1)) (lit 1)

/-- `CartesianPose::check_elbow` (`/repo/src/robot/control_types.rs:322-325`). -/
def check_elbow (elbow : Arr F 2) : P Unit := do
  assertFinite elbow
  assertP (is_valid_elbow elbow) "assertion failed: CartesianPose::is_valid_elbow(elbow)"

/-- `check_matrix` (`/repo/src/robot/control_types.rs:534-537`). -/
def check_matrix (transform : Arr F 16) : P Unit := do
  assertFinite transform
  assertP (is_homogeneous_transformation transform) "assertion failed: is_homogeneous_transformation(transform)"

/-- `JointPositions::convert_motion` (`/repo/src/robot/control_types.rs:154-184`); the mutated command is returned. -/
def JointPositions.convert_motion (m : JointPositions F) (robot_state : RobotState F) (command : MotionGeneratorCommand F)
    (cutoff_frequency : F) (limit_rate : Bool) : P (MotionGeneratorCommand F) := do
  let q_c := m.q
  let q_c ← if flt cutoff_frequency MAX_CUTOFF_FREQUENCY then
      Arr.tabulateP fun i => low_pass_filter DELTA_T (q_c i) (robot_state.q_d i) cutoff_frequency
    else pure q_c
  let q_c ← if limit_rate then
      limit_rate_joint_positions MAX_JOINT_VELOCITY MAX_JOINT_ACCELERATION MAX_JOINT_JERK q_c robot_state.q_d
        robot_state.dq_d robot_state.ddq_d
    else pure q_c
  assertFinite q_c
  return { command with q_c := q_c }

/-- `JointVelocities::convert_motion` (`/repo/src/robot/control_types.rs:228-257`). -/
def JointVelocities.convert_motion (m : JointVelocities F) (robot_state : RobotState F) (command : MotionGeneratorCommand F)
    (cutoff_frequency : F) (limit_rate : Bool) : P (MotionGeneratorCommand F) := do
  let dq_c := m.dq
  let dq_c ← if flt cutoff_frequency MAX_CUTOFF_FREQUENCY then
      Arr.tabulateP fun i => low_pass_filter DELTA_T (dq_c i) (robot_state.dq_d i) cutoff_frequency
    else pure dq_c
  let dq_c ← if limit_rate then
      limit_rate_joint_velocities MAX_JOINT_VELOCITY MAX_JOINT_ACCELERATION MAX_JOINT_JERK dq_c robot_state.dq_d
        robot_state.ddq_d
    else pure dq_c
  assertFinite dq_c
  return { command with dq_c := dq_c }

/-- The elbow part shared by the two Cartesian conversions
(`/repo/src/robot/control_types.rs:374-400,498-524`, the same code twice). -/
def convert_elbow (elbow : Option (Arr F 2)) (robot_state : RobotState F) (command : MotionGeneratorCommand F)
    (cutoff_frequency : F) (limit_rate : Bool) : P (MotionGeneratorCommand F) := do
  match elbow with
  | some elbow_c =>
    let elbow_c : Arr F 2 ← if flt cutoff_frequency MAX_CUTOFF_FREQUENCY then do
        let x ← low_pass_filter DELTA_T (elbow_c 0) (robot_state.elbow_c 0) cutoff_frequency
        pure (elbow_c.set 0 x)
      else pure elbow_c
    let elbow_c : Arr F 2 ← if limit_rate then do
        let x ← limit_rate_position MAX_ELBOW_VELOCITY MAX_ELBOW_ACCELERATION MAX_ELBOW_JERK (elbow_c 0)
          (robot_state.elbow_c 0) (robot_state.delbow_c 0) (robot_state.ddelbow_c 0)
        pure (elbow_c.set 0 x)
      else pure elbow_c
    check_elbow elbow_c
    return { command with valid_elbow := true, elbow_c := elbow_c }
  | none => return { command with valid_elbow := false, elbow_c := fun _ => lit 0 }

/-- `CartesianPose::convert_motion` (`/repo/src/robot/control_types.rs:341-401`). -/
def CartesianPose.convert_motion [Geo F] (m : CartesianPose F) (robot_state : RobotState F)
    (command : MotionGeneratorCommand F) (cutoff_frequency : F) (limit_rate : Bool) : P (MotionGeneratorCommand F) := do
  let O_T_EE_c := m.O_T_EE
  let O_T_EE_c ← if flt cutoff_frequency MAX_CUTOFF_FREQUENCY then
      cartesian_low_pass_filter DELTA_T O_T_EE_c robot_state.O_T_EE_c cutoff_frequency
    else pure O_T_EE_c
  let O_T_EE_c ← if limit_rate then
      limit_rate_cartesian_pose MAX_TRANSLATIONAL_VELOCITY MAX_TRANSLATIONAL_ACCELERATION MAX_TRANSLATIONAL_JERK
        MAX_ROTATIONAL_VELOCITY MAX_ROTATIONAL_ACCELERATION MAX_ROTATIONAL_JERK O_T_EE_c robot_state.O_T_EE_c
        robot_state.O_dP_EE_c robot_state.O_ddP_EE_c
    else pure O_T_EE_c
  check_matrix O_T_EE_c
  convert_elbow m.elbow robot_state { command with O_T_EE_c := O_T_EE_c } cutoff_frequency limit_rate

/-- `CartesianVelocities::convert_motion` (`/repo/src/robot/control_types.rs:462-525`). -/
def CartesianVelocities.convert_motion (m : CartesianVelocities F) (robot_state : RobotState F)
    (command : MotionGeneratorCommand F) (cutoff_frequency : F) (limit_rate : Bool) : P (MotionGeneratorCommand F) := do
  let O_dP_EE_c := m.O_dP_EE
  let O_dP_EE_c ← if flt cutoff_frequency MAX_CUTOFF_FREQUENCY then
      Arr.tabulateP fun i => low_pass_filter DELTA_T (O_dP_EE_c i) (robot_state.O_dP_EE_c i) cutoff_frequency
    else pure O_dP_EE_c
  let O_dP_EE_c ← if limit_rate then
      limit_rate_cartesian_velocity MAX_TRANSLATIONAL_VELOCITY MAX_TRANSLATIONAL_ACCELERATION MAX_TRANSLATIONAL_JERK
        MAX_ROTATIONAL_VELOCITY MAX_ROTATIONAL_ACCELERATION MAX_ROTATIONAL_JERK O_dP_EE_c robot_state.O_dP_EE_c
        robot_state.O_ddP_EE_c
    else pure O_dP_EE_c
  assertFinite O_dP_EE_c
  convert_elbow m.elbow robot_state { command with O_dP_EE_c := O_dP_EE_c } cutoff_frequency limit_rate

/-- `convert_motion` of the trait `Finishable` for a motion (`/repo/src/robot/control_types.rs:154,228,341,462`). -/
def Motion.convert_motion [Geo F] : {k : MotionKind} → Motion F k → RobotState F → MotionGeneratorCommand F → F → Bool →
    P (MotionGeneratorCommand F)
  | .JointPositions, m => JointPositions.convert_motion m
  | .JointVelocities, m => JointVelocities.convert_motion m
  | .CartesianPose, m => CartesianPose.convert_motion m
  | .CartesianVelocities, m => CartesianVelocities.convert_motion m

end Verif
