import Verif.Model.Impedance
import Verif.Model.ModelLib
import Verif.Model.Robot
/-!
The example programs that use the model without moving the robot: `/repo/examples/download_model.rs` and `/repo/examples/print_joint_poses.rs`.
-/
namespace Verif
open Prog Fl
variable {F : Type} [Fl F] [Wire F]

/-- `Display for Frame` (`/repo/src/model.rs:30-65`). -/
def Frame.text : Frame → String
  | .Joint1 => "Joint 1"
  | .Joint2 => "Joint 2"
  | .Joint3 => "Joint 3"
  | .Joint4 => "Joint 4"
  | .Joint5 => "Joint 5"
  | .Joint6 => "Joint 6"
  | .Joint7 => "Joint 7"
  | .Flange => "Flange"
  | .EndEffector => "End-Effector"
  | .Stiffness => "Stiffness"

namespace Examples

/-- `fs::copy("/tmp/model.so", &path)` (`/repo/examples/download_model.rs:29-31`): one system call. The result is the content of the new file. Simplification: what a
copy that fails leaves behind is not modelled, and the number of bytes, which the program ignores, is not returned. -/
def copy_model : Prog F Bytes := do
  let file ← gets fun w => w.model_file
  let t ← sys
  match file with
  | none => err (.ModelException "Could copy model to download location")
  | some content => if t.fail then err (.ModelException "Could copy model to download location") else pure content

/-- The program `download_model` (`/repo/examples/download_model.rs:23-34`). The result is the content of the file at the path that the user has given. Simplification:
the command line and what is printed at the end are left out. -/
def download_model : Prog F Bytes := do
  Robot.new (some .Ignore) none
  let _ ← (Robot.load_model true : Prog F Bytes)
  copy_model

/-- `Matrix4::from_column_slice(a)` (nalgebra; `/repo/examples/print_joint_poses.rs:33`). -/
def matrix4 (a : Arr F 16) : Fin 4 → Fin 4 → F := fun r c => a ⟨r.val + 4 * c.val, by omega⟩

/-- `/repo/examples/print_joint_poses.rs:21-31` -/
def frames : List Frame := [.Joint1, .Joint2, .Joint3, .Joint4, .Joint5, .Joint6, .Joint7, .Flange, .EndEffector]

/-- The program `print_joint_poses` (`/repo/examples/print_joint_poses.rs:16-37`). The result is what it prints: one frame with its matrix after the other. `library` says which
library a file contains. Simplification: the digits of the numbers are left out. -/
def print_joint_poses (library : Bytes → ModelLibrary F) : Prog F (List (String × (Fin 4 → Fin 4 → F))) := do
  Robot.new (some .Ignore) none
  let model ← (Robot.load_model false : Prog F Bytes)
  let state ← (Robot.read_once : Prog F (RobotState F))
  pure (frames.map fun frame => (frame.text, matrix4 (Model.pose_from_state (library model) frame state)))

end Examples
end Verif
