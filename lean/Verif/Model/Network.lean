import Verif.Model.World
/-! The transport, `/repo/src/network.rs`. -/
namespace Verif
open Prog
variable {F : Type} [Fl F] [Wire F]

/-- Text of an `io::Error`. Simplification: one fixed text for every operating system error (`/repo/src/network.rs:283,308`). -/
def ioErrorText : String := "io error"

/-- `deserialize` with its `unwrap` (`/repo/src/network.rs:396-398`). -/
def deserialize {α : Type} (c : Codec α) (bs : Bytes) : Prog F α :=
  match c.dec bs with
  | some (a, _) => pure a
  | none => Prog.panic "called `Result::unwrap()` on an `Err` value: bincode error"

/-- `command_id += 1` of `create_header_for_*` (`/repo/src/network.rs:128,137`): the id used by the header and the new value. -/
def next_command_id : Prog F UInt32 := do
  let id ← gets fun w => w.net.command_id
  let checks ← gets fun w => w.cfg.overflow_checks
  if checks && id = 0xffffffff then Prog.panic "attempt to add with overflow"
  else do
    modify fun w => { w with net := { w.net with command_id := id + 1 } }
    pure id

/-- `create_header_for_robot` (`/repo/src/network.rs:131-139`). -/
def create_header_for_robot (command : RobotCommandEnum) (size : Nat) : Prog F RobotCommandHeader := do
  let id ← next_command_id
  pure { command := command, command_id := id, size := UInt32.ofNat size }

/-- `create_header_for_gripper` (`/repo/src/network.rs:122-130`). -/
def create_header_for_gripper (command : Gripper.Command) (size : Nat) : Prog F Gripper.CommandHeader := do
  let id ← next_command_id
  pure { command := command, command_id := id, size := UInt32.ofNat size }

/-- `tcp_send_request` for a robot request (`/repo/src/network.rs:141-148`). Simplification: `write_all` writes everything or fails
before the first byte. -/
def tcp_send_request (r : RobotReq F) : Prog F UInt32 := do
  let t ← sys
  if t.fail then Prog.panic "called `Result::unwrap()` on an `Err` value: io error"
  else do
    emit (.robotReq r)
    pure r.header.command_id

/-- `tcp_send_request` for a gripper request (`/repo/src/network.rs:141-148`). Simplification as for `tcp_send_request`. -/
def tcp_send_request_gripper (r : Gripper.Req F) : Prog F UInt32 := do
  let t ← sys
  if t.fail then Prog.panic "called `Result::unwrap()` on an `Err` value: io error"
  else do
    emit (.gripperReq r)
    pure r.header.command_id

/-- `poll_read.poll(..).unwrap()` on the TCP socket: is there a readable event (`/repo/src/network.rs:319-325`). An
interrupted poll is an error and panics. -/
def tcp_poll : Prog F Bool := do
  let t ← sys
  if t.fail then Prog.panic "called `Result::unwrap()` on an `Err` value: io error"
  else do
    let k ← gets fun w => w.ker
    let event := k.tcpEdge && (!k.tcpRx.isEmpty || k.tcpEof)
    modify fun w => { w with ker := { w.ker with tcpEdge := false } }
    pure event

/-- `tcp_socket.peek` with a 70000 byte buffer; `none` is an error, also `WouldBlock` (`/repo/src/network.rs:326-327`). -/
def tcp_peek : Prog F (Option Nat) := do
  let t ← sys
  let k ← gets fun w => w.ker
  if t.fail then pure none
  else if k.tcpRx.isEmpty && !k.tcpEof then pure none
  else pure (some (min k.tcpRx.length 70000))

/-- `tcp_socket.read_exact(&mut buffer).unwrap()` for a buffer of `n` bytes (`/repo/src/network.rs:343,366`): a loop of `read`s.
No data is `WouldBlock`, end of stream is `UnexpectedEof`; both panic. -/
def tcp_read_exact (n : Nat) : Prog F Bytes :=
  loop (fun got : Bytes =>
    if got.length < n then do
      let t ← sys
      let k ← gets fun w => w.ker
      if t.fail || k.tcpRx.isEmpty then Prog.panic "called `Result::unwrap()` on an `Err` value: io error"
      else do
        let bs := k.tcpRx.take (n - got.length)
        modify fun w => { w with ker := { w.ker with tcpRx := w.ker.tcpRx.drop (n - got.length) } }
        emit (.tcpRecv bs)
        pure (.inl (got ++ bs))
    else pure (.inr got)) []

/-- `size_of` of the header of this network type (`/repo/src/network.rs:337-340`). -/
def header_mem_size : NetworkType → Nat
  | .Gripper => 10
  | .Robot => 12

/-- `size` and `command_id` of a header (`/repo/src/network.rs:346-357`). -/
def decode_header (nt : NetworkType) (bs : Bytes) : Prog F (Nat × UInt32) :=
  match nt with
  | .Gripper => do
    let h ← deserialize Gripper.CommandHeader.codec bs
    pure (h.size.toNat, h.command_id)
  | .Robot => do
    let h ← deserialize RobotCommandHeader.codec bs
    pure (h.size.toNat, h.command_id)

/-- First half of the readable branch: read a header when no response is pending (`/repo/src/network.rs:336-359`). -/
def read_header (available_bytes : Nat) : Prog F Unit := do
  let nt ← gets fun w => w.cfg.network_type
  let pending ← gets fun w => w.net.pending_response
  if pending.isEmpty && decide (header_mem_size nt ≤ available_bytes) then do
    let header_bytes ← tcp_read_exact (header_mem_size nt)
    modify fun w => { w with net := { w.net with
      pending_response := w.net.pending_response ++ header_bytes
      pending_response_offset := header_mem_size nt } }
    let (size, id) ← decode_header nt header_bytes
    modify fun w => { w with net := { w.net with pending_response_len := size, pending_command_id := id } }
  else pure ()

/-- `pending_response_len - pending_response_offset`: panics on underflow with overflow checks, else wraps to a huge number
(`/repo/src/network.rs:363`). -/
def remaining_bytes (checks : Bool) (len offset : Nat) : P Nat :=
  if offset ≤ len then .ok (len - offset)
  else if checks then .error "attempt to subtract with overflow"
  else .ok (2 ^ 64 + len - offset)

/-- Second half of the readable branch: read more of the pending response and store it when complete (`/repo/src/network.rs:360-377`). -/
def read_body (available_bytes : Nat) : Prog F Unit := do
  let pending ← gets fun w => w.net.pending_response
  if !pending.isEmpty && decide (0 < available_bytes) then do
    let checks ← gets fun w => w.cfg.overflow_checks
    let len ← gets fun w => w.net.pending_response_len
    let offset ← gets fun w => w.net.pending_response_offset
    let remaining ← liftP (remaining_bytes checks len offset)
    let number_of_bytes_to_read := min available_bytes remaining
    let response_buffer ← tcp_read_exact number_of_bytes_to_read
    modify fun w => { w with net := { w.net with
      pending_response := w.net.pending_response ++ response_buffer
      pending_response_offset := w.net.pending_response_offset + number_of_bytes_to_read } }
    let n ← gets fun w => w.net
    if n.pending_response_offset = n.pending_response_len then do
      emit (.response n.pending_command_id n.pending_response)
      modify fun w => { w with net := { w.net with
        received_responses := fun i => if i = n.pending_command_id then some n.pending_response else w.net.received_responses i
        pending_response := []
        pending_response_offset := 0
        pending_command_id := 0
        pending_response_len := 0 } }
    else pure ()
  else pure ()

/-- `tcp_read_from_buffer` (`/repo/src/network.rs:318-386`). The timeout of the poll (0 or 10 ms) does not appear: a tick says whether
something arrived in time. -/
def tcp_read_from_buffer : Prog F Unit := do
  let event ← tcp_poll
  if event then do
    match ← tcp_peek with
    | none => pure ()
    | some available_bytes => do
      read_header available_bytes
      read_body available_bytes
  else pure ()

/-- `received_responses.remove(command_id)` (`/repo/src/network.rs:231,243`). -/
def remove_response (command_id : UInt32) : Prog F (Option Bytes) := do
  let r ← gets fun w => w.net.received_responses command_id
  modify fun w => { w with net := { w.net with
    received_responses := fun i => if i = command_id then none else w.net.received_responses i } }
  pure r

/-- `wait_for_response_to_arrive` (`/repo/src/network.rs:238-248`). -/
def wait_for_response_to_arrive (command_id : UInt32) : Prog F Bytes :=
  loop (fun _ : Unit => do
    tcp_read_from_buffer
    match ← remove_response command_id with
    | some bs => pure (.inr bs)
    | none => pure (.inl ())) ()

/-- `tcp_blocking_receive_response` (`/repo/src/network.rs:154-160`). -/
def tcp_blocking_receive_response {α : Type} (c : Codec α) (command_id : UInt32) : Prog F α := do
  let response_bytes ← wait_for_response_to_arrive command_id
  deserialize c response_bytes

/-- `size_of::<LoadModelLibraryResponse>()`: a packed 12 byte header and a one byte status
(`/repo/src/robot/service_types.rs:588-592`). -/
def size_of_LoadModelLibraryResponse : Nat := 13

/-- `tcp_blocking_receive_load_library_response` (`/repo/src/network.rs:172-197`): the bytes appended to `buffer`. -/
def tcp_blocking_receive_load_library_response (command_id : UInt32) : Prog F Bytes := do
  let response_bytes ← wait_for_response_to_arrive command_id
  if response_bytes.length < size_of_LoadModelLibraryResponse then
    Prog.panic "range end index out of range for slice"
  else do
    let lib_response ← deserialize LoadModelLibraryResponse.codec (response_bytes.take size_of_LoadModelLibraryResponse)
    match lib_response.status with
    | .Error => err (.ModelException "libfranka-rs: Server reports error when loading model library.")
    | .Success =>
      if lib_response.header.size.toNat = size_of_LoadModelLibraryResponse then Prog.panic "assertion failed: `(left != right)`"
      else pure (response_bytes.drop size_of_LoadModelLibraryResponse)

/-- `size_of::<MoveResponse>()` (`/repo/src/robot/service_types.rs:198-202`: packed 12 byte header and one byte status). -/
def size_of_MoveResponse : Nat := 13

/-- `tcp_receive_response::<MoveResponse, _>` (`/repo/src/network.rs:210-236`); it is only used for `MoveResponse`. -/
def tcp_receive_response (command_id : UInt32) (handler : MoveResponse → Except (FrankaException F) Unit) : Prog F Bool := do
  tcp_read_from_buffer
  match ← gets fun w => w.net.received_responses command_id with
  | none => pure false
  | some message =>
    if message.length ≠ size_of_MoveResponse then Prog.panic "libfranka-rs: Incorrect TCP message size."
    else do
      let m ← deserialize MoveResponse.codec message
      match handler m with
      | .ok _ => do
        let _ ← remove_response command_id
        pure true
      | .error e => err e

/-- `udp_socket.recv_from(&mut buffer)`; `none` is an error, also `WouldBlock`. Returns the changed buffer, the number of bytes
and the sender. A datagram longer than the buffer is truncated, a shorter one changes only the front of the buffer
(`/repo/src/network.rs:274-275`). -/
def recv_from (buffer : Bytes) : Prog F (Option (Bytes × Nat × Addr)) := do
  let t ← sys
  if t.fail then pure none
  else do
    match ← gets fun w => w.ker.udpRx with
    | [] => pure none
    | d :: ds => do
      modify fun w => { w with ker := { w.ker with udpRx := ds } }
      emit (.udpRecv d)
      let n := min d.data.length buffer.length
      pure (some (d.data.take n ++ buffer.drop n, n, d.src))

/-- `while udp_socket.recv_from(&mut buffer).is_ok() {}` (`/repo/src/network.rs:275`). -/
def udp_drain (buffer : Bytes) : Prog F Bytes :=
  loop (fun b : Bytes => do
    match ← recv_from b with
    | some (b', _, _) => pure (.inl b')
    | none => pure (.inr b)) buffer

/-- `poll_read_udp.poll(..).unwrap()`: is there a readable event (`/repo/src/network.rs:266-272`). -/
def udp_poll : Prog F Bool := do
  let t ← sys
  if t.fail then Prog.panic "called `Result::unwrap()` on an `Err` value: io error"
  else do
    let k ← gets fun w => w.ker
    let event := k.udpEdge && !k.udpRx.isEmpty
    modify fun w => { w with ker := { w.ker with udpEdge := false } }
    pure event

/-- `udp_blocking_receive` (`/repo/src/network.rs:263-299`) for a type with this codec and `size_of`. -/
def udp_blocking_receive {α : Type} (c : Codec α) (size : Nat) : Prog F α := do
  let event ← udp_poll
  if event then do
    let buffer : Bytes := List.replicate size 0
    match ← recv_from buffer with
    | none => do
      let _ ← udp_drain buffer
      err (.NetworkException ioErrorText)
    | some (buffer, read_bytes, src) => do
      let buffer ← udp_drain buffer
      modify fun w => { w with net := { w.net with udp_server_address := src } }
      if read_bytes ≠ size then
        err (.NetworkException s!"UDP object could not be received: object has {read_bytes} bytes but it should have {size} bytes")
      else deserialize c buffer
  else err (.NetworkException "libfranka-rs: UDP receive: timeout")

/-- `udp_socket.peek(&mut buffer).ok()` for a buffer of `size` bytes (`/repo/src/network.rs:252-253`). -/
def udp_peek (size : Nat) : Prog F (Option Nat) := do
  let t ← sys
  if t.fail then pure none
  else do
    match ← gets fun w => w.ker.udpRx with
    | [] => pure none
    | d :: _ => pure (some (min d.data.length size))

/-- `udp_receive` (`/repo/src/network.rs:249-262`). -/
def udp_receive {α : Type} (c : Codec α) (size : Nat) : Prog F (Option α) := do
  match ← udp_peek size with
  | none => pure none
  | some available_bytes =>
    if size ≤ available_bytes then do
      match ← attempt (udp_blocking_receive c size) with
      | .ok o => pure (some o)
      | .error _ => pure none
    else pure none

/-- `udp_send` of a `RobotCommand` (`/repo/src/network.rs:300-316`). Simplification: `send_to` sends the whole datagram or fails. -/
def udp_send (c : RobotCommand F) : Prog F Unit := do
  let t ← sys
  if t.fail then err (.NetworkException ioErrorText)
  else do
    let addr ← gets fun w => w.net.udp_server_address
    emit (.udpSend addr c)
    if ((RobotCommand.codec F).enc c).length ≠ size_of_RobotCommand then
      err (.NetworkException "libfranka-rs: UDP object could not be send")
    else pure ()

end Verif
