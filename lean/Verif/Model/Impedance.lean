import Verif.Model.Examples
import Verif.Model.ModelLib
/-!
The two example programs that control the robot with torques: `/repo/examples/cartesian_impedance_control.rs` and `/repo/examples/mirror_robot.rs`.
Simplification: the order in which nalgebra adds the products of a matrix product is fixed to left to right.
-/
namespace Verif
open Fl

/-- More operations of nalgebra, left uninterpreted. -/
class GeoExtra (F : Type) [Geo F] where
  /-- `q.coords`: i, j, k, w (`/repo/examples/cartesian_impedance_control.rs:77,85`) -/
  coords : Geo.Q F → Arr F 4
  /-- `m.pseudo_inverse(eps).unwrap()` of a matrix with 7 rows and 6 columns (`/repo/examples/mirror_robot.rs:146`) -/
  pseudo_inverse : (Fin 7 → Fin 6 → F) → F → Fin 6 → Fin 7 → F

variable {F : Type} [Fl F]

/-- The sum of the products in a row of a matrix product, from left to right (nalgebra; `/repo/examples/cartesian_impedance_control.rs:98`). -/
def sumUp : {n : Nat} → (Fin (n + 1) → F) → F
  | 0, f => f 0
  | _ + 1, f => sumUp (fun i => f i.castSucc) + f (Fin.last _)

namespace Mat
/-- Matrix times vector (nalgebra; `/repo/examples/cartesian_impedance_control.rs:98`). -/
def mulVec {r c : Nat} (m : Fin r → Fin (c + 1) → F) (v : Arr F (c + 1)) : Arr F r := fun i => sumUp fun j => m i j * v j
/-- Matrix times matrix (nalgebra; `/repo/examples/mirror_robot.rs:146`). -/
def mul {r n c : Nat} (a : Fin r → Fin (n + 1) → F) (b : Fin (n + 1) → Fin c → F) : Fin r → Fin c → F := fun i j => sumUp fun l => a i l * b l j
/-- `-m` (nalgebra; `/repo/examples/cartesian_impedance_control.rs:98`). -/
def neg {r c : Nat} (m : Fin r → Fin c → F) : Fin r → Fin c → F := fun i j => -m i j
/-- `m.transpose()` (nalgebra; `/repo/examples/cartesian_impedance_control.rs:98`). -/
def transpose {r c : Nat} (m : Fin r → Fin c → F) : Fin c → Fin r → F := fun i j => m j i
/-- `Matrix6x7::from_column_slice(a)` (nalgebra; `/repo/examples/cartesian_impedance_control.rs:72`). -/
def from_column_slice (a : Arr F 42) : Fin 6 → Fin 7 → F := fun r c => a ⟨r.val + 6 * c.val, by omega⟩
/-- The identity (nalgebra; `/repo/examples/mirror_robot.rs:145`). -/
def identity {n : Nat} : Fin n → Fin n → F := fun r c => if r = c then lit 1 else lit 0
end Mat

/-! Quaternions of nalgebra, as the four numbers i, j, k, w. -/
namespace Quat
/-- `a.dot(&b)` of the coordinates (nalgebra; `/repo/examples/cartesian_impedance_control.rs:85`). -/
def dot (a b : Arr F 4) : F := a 0 * b 0 + a 1 * b 1 + a 2 * b 2 + a 3 * b 3
/-- `-coords` (nalgebra; `/repo/examples/cartesian_impedance_control.rs:86`). -/
def neg (a : Arr F 4) : Arr F 4 := fun i => -a i
/-- `UnitQuaternion::new_normalize(a)` and `UnitQuaternion::from_quaternion(a)` (nalgebra; `/repo/examples/cartesian_impedance_control.rs:88`,
`/repo/examples/mirror_robot.rs:126`). -/
def normalize (a : Arr F 4) : Arr F 4 := a.divs (fsqrt (lit 0 + dot a a))
/-- `q.inverse()` of a unit quaternion (nalgebra; `/repo/examples/cartesian_impedance_control.rs:89`). -/
def inverse (a : Arr F 4) : Arr F 4 := ![-a 0, -a 1, -a 2, a 3]
/-- `a * b` (nalgebra; `/repo/examples/cartesian_impedance_control.rs:89`). -/
def mul (a b : Arr F 4) : Arr F 4 :=
  ![a 3 * b 0 + a 0 * b 3 + a 1 * b 2 - a 2 * b 1,
    a 3 * b 1 - a 0 * b 2 + a 1 * b 3 + a 2 * b 0,
    a 3 * b 2 + a 0 * b 1 - a 1 * b 0 + a 2 * b 3,
    a 3 * b 3 - a 0 * b 0 - a 1 * b 1 - a 2 * b 2]
end Quat

namespace Examples
variable [Geo F] [GeoExtra F]

/-- The diagonal matrices `stiffness` and `damping`, made of the blocks `Matrix3::identity() * t` and `Matrix3::identity() * r`
(`/repo/examples/cartesian_impedance_control.rs:31-45`, `/repo/examples/mirror_robot.rs:38-52`). -/
def blocks (t r : F) : Fin 6 → Fin 6 → F := fun i j =>
  if i.val < 3 ∧ j.val < 3 then Mat.identity i j * t else if 3 ≤ i.val ∧ 3 ≤ j.val then Mat.identity i j * r else lit 0

/-- The difference to the desired pose (`/repo/examples/cartesian_impedance_control.rs:76-96`, `/repo/examples/mirror_robot.rs:110-111,127-144`). -/
def pose_error (transform : Isometry F) (position_d : Arr F 3) (orientation_d : Arr F 4) : Arr F 6 :=
  let position := transform.translation
  let orientation := GeoExtra.coords transform.rotation
  let head := position.sub position_d
  let orientation := if flt (Quat.dot orientation_d orientation) (lit 0) then Quat.neg orientation else orientation
  let orientation := Quat.normalize orientation
  let error_quaternion := Quat.mul (Quat.inverse orientation) orientation_d
  let v := Mat.mulVec (fun r c => Mat3.get (Geo.toMatrix transform.rotation) r c) ![error_quaternion 0, error_quaternion 1, error_quaternion 2]
  ![head 0, head 1, head 2, -v 0, -v 1, -v 2]

/-- `tau_task` (`/repo/examples/cartesian_impedance_control.rs:97-98`, `/repo/examples/mirror_robot.rs:148-149`). -/
def tau_task (t r : F) (jacobian : Fin 6 → Fin 7 → F) (error : Arr F 6) (dq : Arr F 7) : Arr F 7 :=
  Mat.mulVec (Mat.transpose jacobian)
    ((Mat.mulVec (Mat.neg (blocks t r)) error).sub (Mat.mulVec (blocks (lit 2 * fsqrt t) (lit 2 * fsqrt r)) (Mat.mulVec jacobian dq)))

/-! ## cartesian_impedance_control -/

/-- What the callback captures (`/repo/examples/cartesian_impedance_control.rs:57-59`). -/
structure ImpedanceState (F : Type) [Geo F] where
  position_d : Arr F 3
  orientation_d : Geo.Q F

/-- `/repo/examples/cartesian_impedance_control.rs:57-59` -/
def ImpedanceState.new (initial_state : RobotState F) : ImpedanceState F :=
  let initial_transform := array_to_isometry initial_state.O_T_EE
  ⟨initial_transform.translation, initial_transform.rotation⟩

/-- The callback (`/repo/examples/cartesian_impedance_control.rs:28-29,69-102`). -/
def impedance_callback (model : ModelLibrary F) (c : ImpedanceState F) (state : RobotState F) (_step : Nat) : ImpedanceState F × Torques F :=
  let coriolis := Model.coriolis_from_state model state
  let jacobian := Mat.from_column_slice (Model.zero_jacobian_from_state model .EndEffector state)
  let error := pose_error (array_to_isometry state.O_T_EE) c.position_d (GeoExtra.coords c.orientation_d)
  let tau_d := (tau_task (lit 150) (lit 10) jacobian error state.dq).add coriolis
  (c, .fromVector tau_d)

/-- The program. `model` is the library that `load_model` has loaded from the file (`/repo/examples/cartesian_impedance_control.rs:26-114`). -/
def cartesian_impedance_control [Wire F] (model : ModelLibrary F) : Prog F Unit := do
  Robot.new none none
  let _ ← (Robot.load_model true : Prog F Bytes)
  Robot.set_collision_behavior (fun _ => lit 100) (fun _ => lit 100) (fun _ => lit 100) (fun _ => lit 100) (fun _ => lit 100) (fun _ => lit 100)
    (fun _ => lit 100) (fun _ => lit 100)
  Robot.set_joint_impedance ![lit 3000, lit 3000, lit 3000, lit 2500, lit 2500, lit 2000, lit 2000]
  Robot.set_cartesian_impedance ![lit 3000, lit 3000, lit 3000, lit 300, lit 300, lit 300]
  let initial_state ← (Robot.read_once : Prog F (RobotState F))
  let result ← Prog.attempt (Robot.control_torques (impedance_callback model) none none (ImpedanceState.new initial_state))
  match result with
  | .ok _ => pure ()
  | .error _ => pure ()

/-! ## mirror_robot -/

/-- The desired pose of the mirror: position and orientation (`/repo/examples/mirror_robot.rs:116-126`). -/
def mirrored (desired_state : Arr F 16) : Arr F 3 × Arr F 4 :=
  let desired_transform := array_to_isometry desired_state
  let p := desired_transform.translation
  let o := GeoExtra.coords desired_transform.rotation
  (![p 0, -p 1, p 2], Quat.normalize ![-o 0, o 1, -o 2, o 3])

/-- `tau_nullspace` (`/repo/examples/mirror_robot.rs:32,80,103,145-147`). -/
def tau_nullspace (jacobian : Fin 6 → Fin 7 → F) (q : Arr F 7) : Arr F 7 :=
  let home : Arr F 7 := q_goal
  let projection : Fin 7 → Fin 7 → F := fun i j =>
    Mat.identity i j - Mat.mul (Mat.transpose jacobian) (GeoExtra.pseudo_inverse (Mat.transpose jacobian) (lit (1 / 1000))) i j
  Mat.mulVec (fun i j => projection i j * lit 5) (home.sub q)

/-- The callback of the robot that the user guides: the torques; the pose that it sends to the other thread (`/repo/examples/mirror_robot.rs:92-95`). -/
def user_callback (state : RobotState F) (_step : Nat) : Arr F 16 × Torques F := (state.O_T_EE, .new fun _ => lit 0)

/-- The callback of the mirror, with the pose that it captures (`/repo/examples/mirror_robot.rs:35-36,68,102-153`). Simplification: what it finds in the channel
within 100 microseconds is the argument `received`. -/
def mirror_callback (model : ModelLibrary F) (desired_state : Arr F 16) (received : Option (Arr F 16)) (state : RobotState F) (_step : Nat) : Arr F 16 × Torques F :=
  let coriolis := Model.coriolis_from_state model state
  let jacobian := Mat.from_column_slice (Model.zero_jacobian_from_state model .EndEffector state)
  let desired_state := received.getD desired_state
  let d := mirrored desired_state
  let error := pose_error (array_to_isometry state.O_T_EE) d.1 d.2
  let tau_d := ((tau_task (lit 400) (lit 50) jacobian error state.dq).add (tau_nullspace jacobian state.q)).add coriolis
  (desired_state, .fromVector tau_d)

end Examples
end Verif
