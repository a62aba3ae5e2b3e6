import Verif.Model.Robot
/-! The public API of the gripper, `/repo/src/gripper.rs`. -/
namespace Verif
namespace Gripper
open Prog Fl
variable {F : Type} [Fl F] [Wire F]

/-- `handle_response_status` (`/repo/src/gripper.rs:181-192`). -/
def handle_response_status (status : Status) : Prog F Bool :=
  match status with
  | .Success => pure true
  | .Fail => err (create_command_exception "libfranka-rs gripper: Command failed!")
  | .Unsuccessful => pure false
  | .Aborted => err (create_command_exception "libfranka-rs gripper: Command aborted!")

/-- `connect_gripper` (`/repo/src/gripper.rs:47-67`). -/
def connect_gripper (ri_version : UInt16) : Prog F Unit := do
  let header ← create_header_for_gripper .Connect Command.Connect.size_of_request
  let port ← gets fun w => w.cfg.udp_port
  let command_id ← tcp_send_request_gripper ⟨header, .Connect (ConnectRequest.new port)⟩
  let connect_response ← tcp_blocking_receive_response ConnectResponse.codec command_id
  match connect_response.status with
  | .Success => modify fun w => { w with rob := { w.rob with ri_version := some connect_response.version } }
  | _ => err (.IncompatibleLibraryVersionError connect_response.version ri_version)

/-- `Gripper::new` (`/repo/src/gripper.rs:35-46`). -/
def new : Prog F Unit := do
  if ← Robot.network_new .Gripper then do
    modify fun w => { w with rob := { w.rob with ri_version := none } }
    connect_gripper VERSION
  else err (.NetworkException ioErrorText)

/-- `move_gripper` (`/repo/src/gripper.rs:77-87`). -/
def move_gripper (width speed : F) : Prog F Bool := do
  let header ← create_header_for_gripper .Move Command.Move.size_of_request
  let command_id ← tcp_send_request_gripper ⟨header, .Move ⟨width, speed⟩⟩
  let response ← tcp_blocking_receive_response MoveResponse.codec command_id
  handle_response_status response.status

/-- `homing` (`/repo/src/gripper.rs:98-105`). -/
def homing : Prog F Bool := do
  let header ← create_header_for_gripper .Homing Command.Homing.size_of_request
  let command_id ← tcp_send_request_gripper ⟨header, .Homing⟩
  let response ← tcp_blocking_receive_response MoveResponse.codec command_id
  handle_response_status response.status

/-- `stop` (`/repo/src/gripper.rs:113-120`). -/
def stop : Prog F Bool := do
  let header ← create_header_for_gripper .Stop Command.Stop.size_of_request
  let command_id ← tcp_send_request_gripper ⟨header, .Stop⟩
  let response ← tcp_blocking_receive_response MoveResponse.codec command_id
  handle_response_status response.status

/-- `grasp` (`/repo/src/gripper.rs:139-158`). -/
def grasp (width speed force : F) (epsilon_inner epsilon_outer : Option F) : Prog F Bool := do
  let epsilon_inner := epsilon_inner.getD (lit (5 / 1000))
  let epsilon_outer := epsilon_outer.getD (lit (5 / 1000))
  let header ← create_header_for_gripper .Grasp Command.Grasp.size_of_request
  let command_id ← tcp_send_request_gripper ⟨header, .Grasp (GraspRequest.new width speed force epsilon_inner epsilon_outer)⟩
  let response ← tcp_blocking_receive_response MoveResponse.codec command_id
  handle_response_status response.status

/-- `GripperState` (`/repo/src/gripper/gripper_state.rs:12-32`); `time` in milliseconds. -/
structure GripperState (F : Type) where
  width : F
  max_width : F
  is_grasped : Bool
  temperature : UInt16
  time : Nat

/-- `From<GripperStateIntern>` (`/repo/src/gripper/gripper_state.rs:34-44`). -/
def GripperState.ofIntern (s : GripperStateIntern F) : GripperState F where
  width := s.width
  max_width := s.max_width
  is_grasped := s.is_grasped
  temperature := s.temperature
  time := s.message_id.toNat

/-- `while udp_receive::<GripperStateIntern>().is_some() {}` (`/repo/src/gripper.rs:166`). -/
def discard_available : Prog F Unit :=
  loop (fun _ : Unit => do
    match ← udp_receive (GripperStateIntern.codec F) size_of_GripperStateIntern with
    | some _ => pure (.inl ())
    | none => pure (.inr ())) ()

/-- `read_once` (`/repo/src/gripper.rs:165-171`). -/
def read_once : Prog F (GripperState F) := do
  discard_available
  let s ← udp_blocking_receive (GripperStateIntern.codec F) size_of_GripperStateIntern
  pure (GripperState.ofIntern s)

/-- `server_version` (`/repo/src/gripper.rs:176-178`). -/
def server_version : Prog F UInt16 := Verif.server_version

end Gripper
end Verif
