import Verif.Model.ControlTypes
import Verif.Model.ModelLib
/-! How user code makes the values its callbacks return, `/repo/src/robot/control_types.rs`. The `Vector7` and `Vector6` of nalgebra are arrays here. -/
namespace Verif
open Fl

/-- `Torques::from(Vector7)` (`/repo/src/robot/control_types.rs:81-85`). -/
def Torques.fromVector {F : Type} (vector : Arr F 7) : Torques F := Torques.new vector
/-- `JointPositions::from(Vector7)` (`/repo/src/robot/control_types.rs:128-132`). -/
def JointPositions.fromVector {F : Type} (vector : Arr F 7) : JointPositions F := JointPositions.new vector
/-- `JointVelocities::from(Vector7)` (`/repo/src/robot/control_types.rs:202-206`). -/
def JointVelocities.fromVector {F : Type} (vector : Arr F 7) : JointVelocities F := JointVelocities.new vector
/-- `CartesianVelocities::from(Vector6)` (`/repo/src/robot/control_types.rs:428-432`). -/
def CartesianVelocities.fromVector {F : Type} (vector : Arr F 6) : CartesianVelocities F := CartesianVelocities.new vector none
/-- `CartesianPose::from([f64; 16])` (`/repo/src/robot/control_types.rs:295-299`). -/
def CartesianPose.fromArray {F : Type} (array : Arr F 16) : CartesianPose F := CartesianPose.new array none
/-- `CartesianPose::from(Isometry3)` (`/repo/src/robot/control_types.rs:285-293`). The iterator of a matrix is in column major order. -/
def CartesianPose.fromIsometry {F : Type} [Fl F] [Geo F] (isometry : Isometry F) : CartesianPose F :=
  let out : Arr F 16 := fun _ => lit 0
  let out := (List.finRange 16).foldl (fun out i => out.set i (isometry.to_homogeneous i)) out
  CartesianPose.new out none

/-- `CartesianPose::has_elbow` (`/repo/src/robot/control_types.rs:318-320`). -/
def CartesianPose.has_elbow {F : Type} (m : CartesianPose F) : Bool := m.elbow.isSome
/-- `CartesianVelocities::has_elbow` (`/repo/src/robot/control_types.rs:449-451`). -/
def CartesianVelocities.has_elbow {F : Type} (m : CartesianVelocities F) : Bool := m.elbow.isSome

/-- `set_motion_finished` of a motion (`/repo/src/robot/control_types.rs:48,150-152,224-226,337-339,458-460`). -/
def Motion.set_motion_finished {F : Type} : {k : MotionKind} → Motion F k → Bool → Motion F k
  | .JointPositions, (m : JointPositions F), finished => ({ m with motion_finished := finished } : JointPositions F)
  | .JointVelocities, (m : JointVelocities F), finished => ({ m with motion_finished := finished } : JointVelocities F)
  | .CartesianPose, (m : CartesianPose F), finished => ({ m with motion_finished := finished } : CartesianPose F)
  | .CartesianVelocities, (m : CartesianVelocities F), finished => ({ m with motion_finished := finished } : CartesianVelocities F)
/-- `set_motion_finished` of torques (`/repo/src/robot/control_types.rs:103-105`). -/
def Torques.set_motion_finished {F : Type} (t : Torques F) (finished : Bool) : Torques F := { t with motion_finished := finished }

/-- `motion_finished` of the trait `MotionFinished` (`/repo/src/robot/control_types.rs:60-70`), for motions. -/
def Motion.motion_finished {F : Type} {k : MotionKind} (m : Motion F k) : Motion F k := m.set_motion_finished true
/-- `motion_finished` of the trait `MotionFinished` (`/repo/src/robot/control_types.rs:60-70`), for torques. -/
def Torques.with_motion_finished {F : Type} (t : Torques F) : Torques F := t.set_motion_finished true

/-- The text of a frame (`/repo/src/model.rs:30-65`). -/
def Frame.fmt : Frame → String
  | .Joint1 => "Joint 1"
  | .Joint2 => "Joint 2"
  | .Joint3 => "Joint 3"
  | .Joint4 => "Joint 4"
  | .Joint5 => "Joint 5"
  | .Joint6 => "Joint 6"
  | .Joint7 => "Joint 7"
  | .Flange => "Flange"
  | .EndEffector => "End-Effector"
  | .Stiffness => "Stiffness"

end Verif
