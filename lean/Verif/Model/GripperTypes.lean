import Verif.Model.Float
/-! Messages of the gripper service, `/repo/src/gripper/types.rs`. -/
namespace Verif
namespace Gripper

/-- `VERSION` (`/repo/src/gripper/types.rs:13`). -/
def VERSION : UInt16 := 3

/-- `Command`, `repr(u16)` (/repo/src/gripper/types.rs:16-24). -/
inductive Command where
  | Connect
  | Homing
  | Grasp
  | Move
  | Stop
  deriving DecidableEq, Repr

/-- Integer representation (/repo/src/gripper/types.rs:16-24, `Serialize_repr`). -/
def Command.toTag : Command → UInt16
  | .Connect => 0
  | .Homing => 1
  | .Grasp => 2
  | .Move => 3
  | .Stop => 4

/-- Inverse of the integer representation, unknown integers are an error (/repo/src/gripper/types.rs:16-24, `Deserialize_repr`). -/
def Command.ofTag (x : UInt16) : Option Command :=
  if x = 0 then some .Connect
  else if x = 1 then some .Homing
  else if x = 2 then some .Grasp
  else if x = 3 then some .Move
  else if x = 4 then some .Stop
  else none

/-- Wire form (/repo/src/gripper/types.rs:16-24). -/
def Command.codec : Codec Command := Codec.enum Codec.u16 toTag ofTag

/-- `Status`, `repr(u16)` (/repo/src/gripper/types.rs:26-33). -/
inductive Status where
  | Success
  | Fail
  | Unsuccessful
  | Aborted
  deriving DecidableEq, Repr

/-- Integer representation (/repo/src/gripper/types.rs:26-33, `Serialize_repr`). -/
def Status.toTag : Status → UInt16
  | .Success => 0
  | .Fail => 1
  | .Unsuccessful => 2
  | .Aborted => 3

/-- Inverse of the integer representation, unknown integers are an error (/repo/src/gripper/types.rs:26-33, `Deserialize_repr`). -/
def Status.ofTag (x : UInt16) : Option Status :=
  if x = 0 then some .Success
  else if x = 1 then some .Fail
  else if x = 2 then some .Unsuccessful
  else if x = 3 then some .Aborted
  else none

/-- Wire form (/repo/src/gripper/types.rs:26-33). -/
def Status.codec : Codec Status := Codec.enum Codec.u16 toTag ofTag

/-- `GripperStateIntern` (/repo/src/gripper/types.rs:35-43). -/
structure GripperStateIntern (F : Type) where
  message_id : UInt32
  width : F
  max_width : F
  is_grasped : Bool
  temperature : UInt16

/-- Wire form: the fields in order of declaration (/repo/src/gripper/types.rs:35-43). -/
def GripperStateIntern.codec (F : Type) [Wire F] : Codec (GripperStateIntern F) :=
  Codec.iso
    (Codec.seq Codec.u32 <|
    Codec.seq (Codec.f64 F) <|
    Codec.seq (Codec.f64 F) <|
    Codec.seq Codec.bool <|
    Codec.u16)
    (fun s => (s.message_id, s.width, s.max_width, s.is_grasped, s.temperature))
    (fun (message_id, width, max_width, is_grasped, temperature) =>
      ⟨message_id, width, max_width, is_grasped, temperature⟩)

/-- `CommandHeader` (/repo/src/gripper/types.rs:51-67). -/
structure CommandHeader where
  command : Command
  command_id : UInt32
  size : UInt32
  deriving DecidableEq, Repr

/-- Wire form: the fields in order of declaration (/repo/src/gripper/types.rs:51-67). -/
def CommandHeader.codec : Codec (CommandHeader) :=
  Codec.iso
    (Codec.seq Command.codec <|
    Codec.seq Codec.u32 <|
    Codec.u32)
    (fun s => (s.command, s.command_id, s.size))
    (fun (command, command_id, size) =>
      ⟨command, command_id, size⟩)

/-- `ConnectRequest` (/repo/src/gripper/types.rs:69-74). -/
structure ConnectRequest where
  version : UInt16
  udp_port : UInt16

/-- Wire form: the fields in order of declaration (/repo/src/gripper/types.rs:69-74). -/
def ConnectRequest.codec : Codec (ConnectRequest) :=
  Codec.iso
    (Codec.seq Codec.u16 <|
    Codec.u16)
    (fun s => (s.version, s.udp_port))
    (fun (version, udp_port) =>
      ⟨version, udp_port⟩)

/-- `MoveRequest` (/repo/src/gripper/types.rs:75-80). -/
structure MoveRequest (F : Type) where
  width : F
  speed : F

/-- Wire form: the fields in order of declaration (/repo/src/gripper/types.rs:75-80). -/
def MoveRequest.codec (F : Type) [Wire F] : Codec (MoveRequest F) :=
  Codec.iso
    (Codec.seq (Codec.f64 F) <|
    (Codec.f64 F))
    (fun s => (s.width, s.speed))
    (fun (width, speed) =>
      ⟨width, speed⟩)

/-- `GraspEpsilon` (/repo/src/gripper/types.rs:82-87). -/
structure GraspEpsilon (F : Type) where
  inner : F
  outer : F

/-- Wire form: the fields in order of declaration (/repo/src/gripper/types.rs:82-87). -/
def GraspEpsilon.codec (F : Type) [Wire F] : Codec (GraspEpsilon F) :=
  Codec.iso
    (Codec.seq (Codec.f64 F) <|
    (Codec.f64 F))
    (fun s => (s.inner, s.outer))
    (fun (inner, outer) =>
      ⟨inner, outer⟩)

/-- `GraspRequest` (/repo/src/gripper/types.rs:89-96). -/
structure GraspRequest (F : Type) where
  width : F
  epsilon : GraspEpsilon F
  speed : F
  force : F

/-- Wire form: the fields in order of declaration (/repo/src/gripper/types.rs:89-96). -/
def GraspRequest.codec (F : Type) [Wire F] : Codec (GraspRequest F) :=
  Codec.iso
    (Codec.seq (Codec.f64 F) <|
    Codec.seq (GraspEpsilon.codec F) <|
    Codec.seq (Codec.f64 F) <|
    (Codec.f64 F))
    (fun s => (s.width, s.epsilon, s.speed, s.force))
    (fun (width, epsilon, speed, force) =>
      ⟨width, epsilon, speed, force⟩)

/-- `ConnectRequest::new` (`/repo/src/gripper/types.rs:98-105`). -/
def ConnectRequest.new (udp_port : UInt16) : ConnectRequest := { version := VERSION, udp_port }

/-- `GraspRequest::new` (`/repo/src/gripper/types.rs:113-125`). -/
def GraspRequest.new {F : Type} (width speed force epsilon_inner epsilon_outer : F) : GraspRequest F :=
  { width, epsilon := { inner := epsilon_inner, outer := epsilon_outer }, speed, force }

/-- `ConnectResponse` (/repo/src/gripper/types.rs:175-180). -/
structure ConnectResponse where
  header : CommandHeader
  status : Status
  version : UInt16

/-- Wire form: the fields in order of declaration (/repo/src/gripper/types.rs:175-180). -/
def ConnectResponse.codec : Codec (ConnectResponse) :=
  Codec.iso
    (Codec.seq CommandHeader.codec <|
    Codec.seq Status.codec <|
    Codec.u16)
    (fun s => (s.header, s.status, s.version))
    (fun (header, status, version) =>
      ⟨header, status, version⟩)

/-- `MoveResponse`, also `GraspResponse`, `HomingResponse`, `StopResponse` (/repo/src/gripper/types.rs:182-190). -/
structure MoveResponse where
  header : CommandHeader
  status : Status

/-- Wire form: the fields in order of declaration (/repo/src/gripper/types.rs:182-190). -/
def MoveResponse.codec : Codec (MoveResponse) :=
  Codec.iso
    (Codec.seq CommandHeader.codec <|
    Status.codec)
    (fun s => (s.header, s.status))
    (fun (header, status) =>
      ⟨header, status⟩)

/-- The `request` part of the `...RequestWithHeader` structs of the gripper (`/repo/src/gripper/types.rs:127-149`). -/
inductive Body (F : Type) where
  | Connect (r : ConnectRequest)
  | Homing
  | Grasp (r : GraspRequest F)
  | Move (r : MoveRequest F)
  | Stop

/-- Serialization of the `request` field (`/repo/src/network.rs:392-394`). -/
def Body.enc {F : Type} [Wire F] : Body F → Bytes
  | .Connect r => ConnectRequest.codec.enc r
  | .Homing => []
  | .Grasp r => (GraspRequest.codec F).enc r
  | .Move r => (MoveRequest.codec F).enc r
  | .Stop => []

/-- A `...RequestWithHeader` struct (`/repo/src/gripper/types.rs:127-149`). -/
structure Req (F : Type) where
  header : CommandHeader
  request : Body F

/-- `serialize(&request)` (`/repo/src/network.rs:392-394`). -/
def Req.enc {F : Type} [Wire F] (r : Req F) : Bytes := CommandHeader.codec.enc r.header ++ r.request.enc

/-- `size_of::<...RequestWithHeader>()` of the packed structs (`/repo/src/gripper/types.rs:127-149`). -/
def Command.size_of_request : Command → Nat
  | .Connect => 10 + 4
  | .Homing => 10
  | .Grasp => 10 + (8 + 16 + 8 + 8)
  | .Move => 10 + 16
  | .Stop => 10

/-- `size_of::<GripperStateIntern>()` (packed, `/repo/src/gripper/types.rs:35-43`). -/
def size_of_GripperStateIntern : Nat := 4 + 8 + 8 + 1 + 2

end Gripper
end Verif
