import Verif.Model.Geometry
/-! `is_homogeneous_transformation`, the low pass filters and the rate limiters:
`/repo/src/robot/control_tools.rs`, `/repo/src/robot/low_pass_filter.rs`, `/repo/src/robot/rate_limiting.rs`. -/
namespace Verif
open Fl
variable {F : Type} [Fl F]

/-- `|sqrt(x² + y² + z²) - 1| > 1e-5`, the test of both loops of `is_homogeneous_transformation`
(`/repo/src/robot/control_tools.rs:64-70,76-80`). -/
def offUnit (x y z : F) : Bool :=
  flt (lit (1 / 100000)) (fabs (fsqrt (powf2 x + powf2 y + powf2 z) - lit 1))

/-- `is_homogeneous_transformation` (`/repo/src/robot/control_tools.rs:58-87`); the two loops over columns `j` and rows `i`
are written as conditions over `Fin 3`. -/
def is_homogeneous_transformation (t : Arr F 16) : Bool :=
  if !(feq (t 3) (lit 0)) || !(feq (t 7) (lit 0)) || !(feq (t 11) (lit 0)) || !(feq (t 15) (lit 1)) then false
  else if ∃ j : Fin 3, offUnit (t ⟨j * 4, by omega⟩) (t ⟨j * 4 + 1, by omega⟩) (t ⟨j * 4 + 2, by omega⟩) = true then false
  else if ∃ i : Fin 3, offUnit (t ⟨i, by omega⟩) (t ⟨4 + i, by omega⟩) (t ⟨2 * 4 + i, by omega⟩) = true then false
  else true

/-- `MAX_CUTOFF_FREQUENCY` (`/repo/src/robot/low_pass_filter.rs:10`). -/
def MAX_CUTOFF_FREQUENCY : F := lit 1000
/-- `DEFAULT_CUTOFF_FREQUENCY` (`/repo/src/robot/low_pass_filter.rs:12`). -/
def DEFAULT_CUTOFF_FREQUENCY : F := lit 100

/-- The gain computed by both filters (`/repo/src/robot/low_pass_filter.rs:33,66`). -/
def filter_gain (sample_time cutoff_frequency : F) : F :=
  sample_time / (sample_time + (lit 1 / (lit 2 * pi * cutoff_frequency)))

/-- `low_pass_filter` (`/repo/src/robot/low_pass_filter.rs:29-35`). -/
def low_pass_filter (sample_time y y_last cutoff_frequency : F) : P F := do
  assertP (isSignPositive sample_time && isFinite sample_time)
    "assertion failed: sample_time.is_sign_positive() && sample_time.is_finite()"
  assertP (isSignPositive cutoff_frequency && isFinite cutoff_frequency)
    "assertion failed: cutoff_frequency.is_sign_positive() && cutoff_frequency.is_finite()"
  assertP (isFinite y && isFinite y_last) "assertion failed: y.is_finite() && y_last.is_finite()"
  let gain := filter_gain sample_time cutoff_frequency
  return gain * y + (lit 1 - gain) * y_last

/-- `cartesian_low_pass_filter` (`/repo/src/robot/low_pass_filter.rs:53-76`). -/
def cartesian_low_pass_filter [Geo F] (sample_time : F) (y y_last : Arr F 16) (cutoff_frequency : F) : P (Arr F 16) := do
  assertP (isSignPositive sample_time && isFinite sample_time)
    "assertion failed: sample_time.is_sign_positive() && sample_time.is_finite()"
  assertP (isSignPositive cutoff_frequency && isFinite cutoff_frequency)
    "assertion failed: cutoff_frequency.is_sign_positive() && cutoff_frequency.is_finite()"
  assertP (Arr.all id fun i => isFinite (y i) && isFinite (y_last i)) "assertion failed: i.is_finite() && j.is_finite()"
  let transform := array_to_isometry y
  let transform_last := array_to_isometry y_last
  let gain := filter_gain sample_time cutoff_frequency
  let translation := Arr.add (Arr.lmul gain transform.translation) (Arr.lmul (lit 1 - gain) transform_last.translation)
  match Geo.slerp transform_last.rotation transform.rotation gain with
  | none => throw "Quaternion slerp: ambiguous configuration."
  | some rotation => return Isometry.to_homogeneous (⟨translation, rotation⟩ : Isometry F)

/-! Constants of `/repo/src/robot/rate_limiting.rs:15-78`. -/

/-- `DELTA_T` (`/repo/src/robot/rate_limiting.rs:16`). -/
def DELTA_T : F := lit (1 / 1000)
/-- `LIMIT_EPS` (`/repo/src/robot/rate_limiting.rs:18`). -/
def LIMIT_EPS : F := lit (1 / 1000)
/-- `NORM_EPS = f64::EPSILON` (`/repo/src/robot/rate_limiting.rs:20`). -/
def NORM_EPS : F := lit (1 / 2 ^ 52)
/-- `TOL_NUMBER_PACKETS_LOST` (`/repo/src/robot/rate_limiting.rs:23`). -/
def TOL_NUMBER_PACKETS_LOST : F := lit (1 / 1000)
/-- `FACTOR_CARTESIAN_ROTATION_POSE_INTERFACE` (`/repo/src/robot/rate_limiting.rs:25`). -/
def FACTOR_CARTESIAN_ROTATION_POSE_INTERFACE : F := lit (99 / 100)
/-- `MAX_TORQUE_RATE` (`/repo/src/robot/rate_limiting.rs:27`). -/
def MAX_TORQUE_RATE : Arr F 7 := fun _ => lit 1000 - LIMIT_EPS
/-- `MAX_JOINT_JERK` (`/repo/src/robot/rate_limiting.rs:29-37`). -/
def MAX_JOINT_JERK : Arr F 7 :=
  ![lit 7500 - LIMIT_EPS, lit 3750 - LIMIT_EPS, lit 5000 - LIMIT_EPS, lit 6250 - LIMIT_EPS, lit 7500 - LIMIT_EPS,
    lit 10000 - LIMIT_EPS, lit 10000 - LIMIT_EPS]
/-- `MAX_JOINT_ACCELERATION` (`/repo/src/robot/rate_limiting.rs:39-47`). -/
def MAX_JOINT_ACCELERATION : Arr F 7 :=
  ![lit 15 - LIMIT_EPS, lit (75 / 10) - LIMIT_EPS, lit 10 - LIMIT_EPS, lit (125 / 10) - LIMIT_EPS, lit 15 - LIMIT_EPS,
    lit 20 - LIMIT_EPS, lit 20 - LIMIT_EPS]
/-- `MAX_JOINT_VELOCITY` (`/repo/src/robot/rate_limiting.rs:49-57`). -/
def MAX_JOINT_VELOCITY : Arr F 7 :=
  ![lit (2175 / 1000) - LIMIT_EPS - TOL_NUMBER_PACKETS_LOST * DELTA_T * MAX_JOINT_ACCELERATION 0,
    lit (2175 / 1000) - LIMIT_EPS - TOL_NUMBER_PACKETS_LOST * DELTA_T * MAX_JOINT_ACCELERATION 1,
    lit (2175 / 1000) - LIMIT_EPS - TOL_NUMBER_PACKETS_LOST * DELTA_T * MAX_JOINT_ACCELERATION 2,
    lit (2175 / 1000) - LIMIT_EPS - TOL_NUMBER_PACKETS_LOST * DELTA_T * MAX_JOINT_ACCELERATION 3,
    lit (261 / 100) - LIMIT_EPS - TOL_NUMBER_PACKETS_LOST * DELTA_T * MAX_JOINT_ACCELERATION 4,
    lit (261 / 100) - LIMIT_EPS - TOL_NUMBER_PACKETS_LOST * DELTA_T * MAX_JOINT_ACCELERATION 5,
    lit (261 / 100) - LIMIT_EPS - TOL_NUMBER_PACKETS_LOST * DELTA_T * MAX_JOINT_ACCELERATION 6]
/-- `MAX_TRANSLATIONAL_JERK` (`/repo/src/robot/rate_limiting.rs:59`). -/
def MAX_TRANSLATIONAL_JERK : F := lit 6500 - LIMIT_EPS
/-- `MAX_TRANSLATIONAL_ACCELERATION` (`/repo/src/robot/rate_limiting.rs:61`). -/
def MAX_TRANSLATIONAL_ACCELERATION : F := lit 13 - LIMIT_EPS
/-- `MAX_TRANSLATIONAL_VELOCITY` (`/repo/src/robot/rate_limiting.rs:63-64`). -/
def MAX_TRANSLATIONAL_VELOCITY : F :=
  lit 2 - LIMIT_EPS - TOL_NUMBER_PACKETS_LOST * DELTA_T * MAX_TRANSLATIONAL_ACCELERATION
/-- `MAX_ROTATIONAL_JERK` (`/repo/src/robot/rate_limiting.rs:66`). -/
def MAX_ROTATIONAL_JERK : F := lit 12500 - LIMIT_EPS
/-- `MAX_ROTATIONAL_ACCELERATION` (`/repo/src/robot/rate_limiting.rs:68`). -/
def MAX_ROTATIONAL_ACCELERATION : F := lit 25 - LIMIT_EPS
/-- `MAX_ROTATIONAL_VELOCITY` (`/repo/src/robot/rate_limiting.rs:70-71`). -/
def MAX_ROTATIONAL_VELOCITY : F :=
  lit (25 / 10) - LIMIT_EPS - TOL_NUMBER_PACKETS_LOST * DELTA_T * MAX_ROTATIONAL_ACCELERATION
/-- `MAX_ELBOW_JERK` (`/repo/src/robot/rate_limiting.rs:73`). -/
def MAX_ELBOW_JERK : F := lit 5000 - LIMIT_EPS
/-- `MAX_ELBOW_ACCELERATION` (`/repo/src/robot/rate_limiting.rs:75`). -/
def MAX_ELBOW_ACCELERATION : F := lit 10 - LIMIT_EPS
/-- `MAX_ELBOW_VELOCITY` (`/repo/src/robot/rate_limiting.rs:77-78`). -/
def MAX_ELBOW_VELOCITY : F :=
  lit (2175 / 1000) - LIMIT_EPS - TOL_NUMBER_PACKETS_LOST * DELTA_T * MAX_ELBOW_ACCELERATION

/-- `limit_rate_velocity` (`/repo/src/robot/rate_limiting.rs:171-198`). -/
def limit_rate_velocity (max_velocity max_acceleration max_jerk commanded_velocity last_commanded_velocity
    last_commanded_acceleration : F) : P F := do
  assertP (isFinite commanded_velocity) "assertion failed: commanded_velocity.is_finite()"
  let commanded_jerk :=
    (((commanded_velocity - last_commanded_velocity) / DELTA_T) - last_commanded_acceleration) / DELTA_T
  let commanded_acceleration := last_commanded_acceleration + fmax (fmin commanded_jerk max_jerk) (-max_jerk) * DELTA_T
  let safe_max_acceleration :=
    fmin ((max_jerk / max_acceleration) * (max_velocity - last_commanded_velocity)) max_acceleration
  let safe_min_acceleration :=
    fmax ((max_jerk / max_acceleration) * (-max_velocity - last_commanded_velocity)) (-max_acceleration)
  return last_commanded_velocity + fmax (fmin commanded_acceleration safe_max_acceleration) safe_min_acceleration * DELTA_T

/-- `limit_rate_position` (`/repo/src/robot/rate_limiting.rs:136-155`). -/
def limit_rate_position (max_velocity max_acceleration max_jerk commanded_position last_commanded_position
    last_commanded_velocity last_commanded_acceleration : F) : P F := do
  assertP (isFinite commanded_position) "assertion failed: commanded_position.is_finite()"
  let v ← limit_rate_velocity max_velocity max_acceleration max_jerk
    ((commanded_position - last_commanded_position) / DELTA_T) last_commanded_velocity last_commanded_acceleration
  return last_commanded_position + v * DELTA_T

/-- `limit_rate_joint_positions` (`/repo/src/robot/rate_limiting.rs:95-120`). -/
def limit_rate_joint_positions (max_velocity max_acceleration max_jerk commanded_positions last_commanded_positions
    last_commanded_velocities last_commanded_accelerations : Arr F 7) : P (Arr F 7) := do
  assertFinite commanded_positions
  Arr.tabulateP fun i => limit_rate_position (max_velocity i) (max_acceleration i) (max_jerk i) (commanded_positions i)
    (last_commanded_positions i) (last_commanded_velocities i) (last_commanded_accelerations i)

/-- `limit_rate_torques` (`/repo/src/robot/rate_limiting.rs:212-228`). -/
def limit_rate_torques (max_derivatives commanded_values last_commanded_values : Arr F 7) : P (Arr F 7) := do
  assertFinite commanded_values
  return fun i =>
    let commanded_derivative := (commanded_values i - last_commanded_values i) / DELTA_T
    last_commanded_values i + fmax (fmin commanded_derivative (max_derivatives i)) (-(max_derivatives i)) * DELTA_T

/-- `limit_rate_joint_velocities` (`/repo/src/robot/rate_limiting.rs:244-267`). -/
def limit_rate_joint_velocities (max_velocity max_acceleration max_jerk commanded_velocities last_commanded_velocities
    last_commanded_accelerations : Arr F 7) : P (Arr F 7) := do
  assertFinite commanded_velocities
  Arr.tabulateP fun i => limit_rate_velocity (max_velocity i) (max_acceleration i) (max_jerk i) (commanded_velocities i)
    (last_commanded_velocities i) (last_commanded_accelerations i)

/-- `limit_rate_single_cartesian_velocity` (`/repo/src/robot/rate_limiting.rs:429-464`). -/
def limit_rate_single_cartesian_velocity (max_velocity max_acceleration max_jerk : F)
    (commanded_velocity last_commanded_velocity last_commanded_acceleration : Arr F 3) : Arr F 3 :=
  let commanded_jerk : Arr F 3 :=
    (((commanded_velocity.sub last_commanded_velocity).divs DELTA_T).sub last_commanded_acceleration).divs DELTA_T
  let commanded_acceleration : Arr F 3 :=
    if flt NORM_EPS (Vec3.norm commanded_jerk) then
      last_commanded_acceleration.add
        (((Vec3.normalize commanded_jerk).rmul (fmax (fmin (Vec3.norm commanded_jerk) max_jerk) (-max_jerk))).rmul DELTA_T)
    else last_commanded_acceleration
  let unit_commanded_acceleration := Vec3.normalize commanded_acceleration
  let dot_product := Vec3.dot unit_commanded_acceleration last_commanded_velocity
  let distance_to_max_velocity :=
    -dot_product + fsqrt (powf2 dot_product - Vec3.norm_squared last_commanded_velocity + powf2 max_velocity)
  let safe_max_acceleration := fmin ((max_jerk / max_acceleration) * distance_to_max_velocity) max_acceleration
  if flt NORM_EPS (Vec3.norm commanded_acceleration) then
    last_commanded_velocity.add
      ((unit_commanded_acceleration.rmul (fmin (Vec3.norm commanded_acceleration) safe_max_acceleration)).rmul DELTA_T)
  else last_commanded_velocity

/-- First three elements (`fixed_slice::<U3, U1>(0, 0)`, `/repo/src/robot/rate_limiting.rs:406-408`). -/
def Arr.head3 (v : Arr F 6) : Arr F 3 := ![v 0, v 1, v 2]
/-- Last three elements (`fixed_slice::<U3, U1>(3, 0)`, `/repo/src/robot/rate_limiting.rs:414-416`). -/
def Arr.tail3 (v : Arr F 6) : Arr F 3 := ![v 3, v 4, v 5]

/-- `limit_rate_cartesian_velocity` (`/repo/src/robot/rate_limiting.rs:387-427`). -/
def limit_rate_cartesian_velocity (max_translational_velocity max_translational_acceleration max_translational_jerk
    max_rotational_velocity max_rotational_acceleration max_rotational_jerk : F)
    (O_dP_EE_c last_O_dP_EE_c last_O_ddP_EE_c : Arr F 6) : P (Arr F 6) := do
  assertFinite O_dP_EE_c
  let dx_head := limit_rate_single_cartesian_velocity max_translational_velocity max_translational_acceleration
    max_translational_jerk O_dP_EE_c.head3 last_O_dP_EE_c.head3 last_O_ddP_EE_c.head3
  let dx_tail := limit_rate_single_cartesian_velocity max_rotational_velocity max_rotational_acceleration
    max_rotational_jerk O_dP_EE_c.tail3 last_O_dP_EE_c.tail3 last_O_ddP_EE_c.tail3
  return ![dx_head 0, dx_head 1, dx_head 2, dx_tail 0, dx_tail 1, dx_tail 2]

/-- `limit_rate_cartesian_pose` (`/repo/src/robot/rate_limiting.rs:288-367`). -/
def limit_rate_cartesian_pose [Geo F] (max_translational_velocity max_translational_acceleration max_translational_jerk
    max_rotational_velocity max_rotational_acceleration max_rotational_jerk : F)
    (O_T_EE_c last_O_T_EE_c : Arr F 16) (last_O_dP_EE_c last_O_ddP_EE_c : Arr F 6) : P (Arr F 16) := do
  assertFinite O_T_EE_c
  assertP (is_homogeneous_transformation O_T_EE_c) "assertion failed: is_homogeneous_transformation(O_T_EE_c)"
  let commanded_pose := array_to_isometry O_T_EE_c
  let last_commanded_pose := array_to_isometry last_O_T_EE_c
  let dx_head := (commanded_pose.translation.sub last_commanded_pose.translation).divs DELTA_T
  let rot_diff := Mat3.mul (Geo.toMatrix commanded_pose.rotation) (Mat3.transpose (Geo.toMatrix last_commanded_pose.rotation))
  let dx_tail := (Geo.renormalizedScaledAxis rot_diff).divs DELTA_T
  let commanded_O_dP_EE_c : Arr F 6 := ![dx_head 0, dx_head 1, dx_head 2, dx_tail 0, dx_tail 1, dx_tail 2]
  let dx ← limit_rate_cartesian_velocity max_translational_velocity max_translational_acceleration
    max_translational_jerk (FACTOR_CARTESIAN_ROTATION_POSE_INTERFACE * max_rotational_velocity)
    (FACTOR_CARTESIAN_ROTATION_POSE_INTERFACE * max_rotational_acceleration)
    (FACTOR_CARTESIAN_ROTATION_POSE_INTERFACE * max_rotational_jerk) commanded_O_dP_EE_c last_O_dP_EE_c last_O_ddP_EE_c
  let translation := last_commanded_pose.translation.add ((Arr.head3 dx).rmul DELTA_T)
  let dx_tail := Arr.tail3 dx
  let rotation : Geo.Q F :=
    if flt NORM_EPS (Vec3.norm dx_tail) then
      let w_norm := Vec3.normalize dx_tail
      let theta := DELTA_T * Vec3.norm dx_tail
      let omega_skew : Arr F 9 :=
        ![lit 0, w_norm 2, - w_norm 1,  - w_norm 2, lit 0, w_norm 0,  w_norm 1, - w_norm 0, lit 0]
      let R := ((Mat3.identity (F := F)).add (Arr.lmul (fsin theta) omega_skew)).add
        (Arr.lmul (lit 1 - fcos theta) (Mat3.mul omega_skew omega_skew))
      Geo.quatFromMatrix (Mat3.mul R (Geo.toMatrix last_commanded_pose.rotation))
    else last_commanded_pose.rotation
  return Isometry.to_homogeneous (⟨translation, rotation⟩ : Isometry F)

end Verif
