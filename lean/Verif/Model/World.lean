import Verif.Model.Logger
import Verif.Model.GripperTypes
/-!
# World, schedules and effectful programs

A Rust function that uses the network is a `Prog F α`: a function from a world to a result and a new world.
The world contains the kernel's receive buffers and a *script* of `Tick`s. Every system call consumes one tick. The tick says
what arrived from the robot just before the call completes and whether the call fails.
When the script is exhausted the program is `blocked`: it is still waiting in that system call.
-/
namespace Verif

/-- A UDP peer address (opaque). `0` stands for `0.0.0.0:0` (`/repo/src/network.rs:82-83`). -/
abbrev Addr := Nat

/-- A UDP datagram in the kernel queue (`recv_from`, `/repo/src/network.rs:274`). -/
structure Datagram where
  src : Addr
  data : Bytes
  deriving DecidableEq, Repr

/-- What the environment does up to the completion of one system call (the calls of `/repo/src/network.rs`). -/
structure Tick where
  /-- bytes which arrive on the TCP stream -/
  tcpIn : Bytes := []
  /-- the robot closes the TCP stream -/
  eof : Bool := false
  /-- datagrams which arrive on the UDP socket, in order of arrival -/
  udpIn : List Datagram := []
  /-- the system call returns an error -/
  fail : Bool := false
  /-- number of bytes a file write accepts at most (`/repo/src/model/library_downloader.rs:37-44`) -/
  accept : Nat := 0
  deriving DecidableEq, Repr

/-- Kernel side of the two sockets, registered edge triggered with mio (`/repo/src/network.rs:93-102`): `tcpEdge`/`udpEdge`
say that something arrived since the last poll which reported it. -/
structure Kernel where
  tcpRx : Bytes := []
  tcpEdge : Bool := false
  tcpEof : Bool := false
  udpRx : List Datagram := []
  udpEdge : Bool := false
  deriving DecidableEq, Repr

/-- Effect of the arrivals of a tick on the kernel buffers (kernel side of `/repo/src/network.rs:93-102`). -/
def Kernel.arrive (k : Kernel) (t : Tick) : Kernel where
  tcpRx := k.tcpRx ++ t.tcpIn
  tcpEdge := k.tcpEdge || !t.tcpIn.isEmpty || t.eof
  tcpEof := k.tcpEof || t.eof
  udpRx := k.udpRx ++ t.udpIn
  udpEdge := k.udpEdge || !t.udpIn.isEmpty

/-- `NetworkType` (`/repo/src/network.rs:37-40`). -/
inductive NetworkType where
  | Robot
  | Gripper
  deriving DecidableEq, Repr

/-- The changing fields of `Network` (`/repo/src/network.rs:46-63`). The `HashMap` of responses is a function. -/
structure Network where
  udp_server_address : Addr := 0
  command_id : UInt32 := 0
  pending_response : Bytes := []
  pending_response_offset : Nat := 0
  pending_response_len : Nat := 0
  pending_command_id : UInt32 := 0
  received_responses : UInt32 → Option Bytes := fun _ => none

/-- The fields of `RobotImpl` (`/repo/src/robot/robot_impl.rs:28-38`); for a gripper only `ri_version` is used
(`/repo/src/gripper.rs:23-26`). -/
structure RobotImpl (F : Type) where
  logger : Logger F
  realtime_config : RealtimeConfig
  ri_version : Option UInt16
  motion_generator_mode : Option MotionGeneratorMode
  current_move_motion_generator_mode : MotionGeneratorMode
  controller_mode : ControllerMode
  current_move_controller_mode : Option ControllerMode
  message_id : UInt64

/-- Facts about the process and the machine which the code reads. -/
structure Cfg where
  /-- which device the connection belongs to (`/repo/src/network.rs:47`) -/
  network_type : NetworkType
  /-- compiled with overflow checks (debug profile): `+=`, `-` on integers panic instead of wrapping -/
  overflow_checks : Bool
  /-- local port of the UDP socket (`/repo/src/network.rs:86`) -/
  udp_port : UInt16
  /-- `/sys/kernel/realtime` exists (`/repo/src/robot/control_tools.rs:11-13`) -/
  realtime_kernel : Bool
  /-- `sched_get_priority_max` succeeds (`/repo/src/robot/control_tools.rs:27-28`) -/
  priority_max_ok : Bool
  /-- `pthread_setschedparam` succeeds (`/repo/src/robot/control_tools.rs:39`) -/
  setsched_ok : Bool
  /-- `mlockall` succeeds (`/repo/src/robot/control_tools.rs:46`) -/
  mlock_ok : Bool
  /-- target is x86-64 Linux (`/repo/src/model/library_downloader.rs:22`) -/
  x86_64_linux : Bool
  /-- does `Model::new` succeed on a file with this content, otherwise its error message
  (`/repo/src/model/model_library.rs:78-168`, `dlopen` is not modelled) -/
  model_error : Bytes → Option String

/-- Events observable at the boundary of the library, and two ghost events (`response`, `accepted`) which
mark points in the code. -/
inductive Ev (F : Type) where
  /-- a robot request was written to the TCP stream: the bytes `r.enc` (`/repo/src/network.rs:146`) -/
  | robotReq (r : RobotReq F)
  /-- a gripper request was written to the TCP stream: the bytes `r.enc` (`/repo/src/network.rs:146`) -/
  | gripperReq (r : Gripper.Req F)
  /-- bytes read from the TCP stream (`/repo/src/network.rs:343,366`) -/
  | tcpRecv (bs : Bytes)
  /-- ghost: a complete response was stored (`/repo/src/network.rs:370-371`) -/
  | response (id : UInt32) (bs : Bytes)
  /-- a datagram was taken from the UDP socket (`/repo/src/network.rs:274-275`) -/
  | udpRecv (d : Datagram)
  /-- a command datagram was sent: the bytes `(RobotCommand.codec F).enc c` (`/repo/src/network.rs:304-306`) -/
  | udpSend (addr : Addr) (c : RobotCommand F)
  /-- ghost: `update_state_with` was called (`/repo/src/robot/robot_impl.rs:142-146`) -/
  | accepted (s : RobotStateIntern F)
  /-- the motion callback was called with this state and time step in ms and returned `out` (`/repo/src/robot/control_loop.rs:213`) -/
  | motionCb (k : MotionKind) (s : RobotState F) (dt : Nat) (out : Motion F k)
  /-- the torque callback was called (`/repo/src/robot/control_loop.rs:184-185`) -/
  | controlCb (s : RobotState F) (dt : Nat) (out : Torques F)
  /-- the callback of `Robot::read` was called and returned `cont` (`/repo/src/robot.rs:181-183`) -/
  | readCb (s : RobotState F) (cont : Bool)

/-- The state of one connection together with its environment. -/
structure World (F : Type) where
  cfg : Cfg
  script : List Tick
  ker : Kernel
  net : Network
  rob : RobotImpl F
  /-- content of `/tmp/model.so` if it exists (`/repo/src/robot/robot_impl.rs:234`) -/
  model_file : Option Bytes
  trace : List (Ev F)

/-- Outcome of a call: normal return, `Err`, panic, or still waiting when the script ends (`FrankaResult`, `/repo/src/exception.rs:68`). -/
inductive Res (F : Type) (α : Type) where
  | ok (a : α)
  | err (e : FrankaException F)
  | panic (msg : String)
  | blocked

/-- An effectful program (any `fn(&mut self, ..) -> FrankaResult<α>` of `/repo/src`). -/
def Prog (F : Type) (α : Type) := World F → Res F α × World F

namespace Prog
variable {F : Type} {α β γ : Type}

/-- Return a value (`Ok(a)`, e.g. `/repo/src/robot/robot_impl.rs:118`). -/
protected def pure (a : α) : Prog F α := fun w => (.ok a, w)

/-- Sequence with the `?` operator (e.g. `/repo/src/robot/robot_impl.rs:112`). -/
protected def bind (p : Prog F α) (f : α → Prog F β) : Prog F β := fun w =>
  match p w with
  | (.ok a, w') => f a w'
  | (.err e, w') => (.err e, w')
  | (.panic m, w') => (.panic m, w')
  | (.blocked, w') => (.blocked, w')

instance : Monad (Prog F) where
  pure := Prog.pure
  bind := Prog.bind

/-- `return Err(e)` (e.g. `/repo/src/robot/robot_impl.rs:185`). -/
def err (e : FrankaException F) : Prog F α := fun w => (.err e, w)

/-- A panic (e.g. `/repo/src/robot/robot_impl.rs:295`). -/
protected def panic (msg : String) : Prog F α := fun w => (.panic msg, w)

/-- Wait for ever (no Rust counterpart: a system call that never returns). -/
def blocked : Prog F α := fun w => (.blocked, w)

/-- Look at the result instead of propagating an error (`match`/`unwrap` on a `Result`, e.g. `/repo/src/robot/control_loop.rs:122`). -/
def attempt (p : Prog F α) : Prog F (Except (FrankaException F) α) := fun w =>
  match p w with
  | (.ok a, w') => (.ok (.ok a), w')
  | (.err e, w') => (.ok (.error e), w')
  | (.panic m, w') => (.panic m, w')
  | (.blocked, w') => (.blocked, w')

/-- A pure computation that may panic (`assert!`, e.g. `/repo/src/robot/low_pass_filter.rs:30`). -/
def liftP (x : P α) : Prog F α := match x with
  | .ok a => Prog.pure a
  | .error m => Prog.panic m

/-- Read the world (field access through `&self`, e.g. `/repo/src/robot/robot_impl.rs:227`). -/
def gets (f : World F → α) : Prog F α := fun w => (.ok (f w), w)

/-- Change the world (field assignment through `&mut self`, e.g. `/repo/src/robot/robot_impl.rs:143`). -/
def modify (f : World F → World F) : Prog F Unit := fun w => (.ok (), f w)

/-- Record an observation (see `Ev`). -/
def emit (e : Ev F) : Prog F Unit := modify fun w => { w with trace := w.trace ++ [e] }

/-- One system call: the next tick of the script happens; without a next tick the call never returns
(any socket call of `/repo/src/network.rs`). -/
def sys : Prog F Tick := fun w =>
  match w.script with
  | [] => (.blocked, w)
  | t :: ts => (.ok t, { w with script := ts, ker := w.ker.arrive t })

/-- At most `n` rounds of a loop; `inl` continues, `inr` leaves (`while`/`loop` of `/repo/src`). -/
def loopFuel (body : β → Prog F (β ⊕ γ)) : Nat → β → Prog F γ
  | 0, _ => blocked
  | n + 1, b => Prog.bind (body b) fun
    | .inl b' => loopFuel body n b'
    | .inr c => Prog.pure c

/-- An unbounded loop. Every round that continues consumes at least one tick (`Lemmas/Prog.lean`: `Consumes`), so
one round more than the length of the script is never exceeded (`while` loops, e.g. `/repo/src/network.rs:240-246`). -/
def loop (body : β → Prog F (β ⊕ γ)) (b : β) : Prog F γ := fun w => loopFuel body (w.script.length + 1) b w

end Prog
end Verif
