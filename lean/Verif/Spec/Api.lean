import Verif.Spec.Frames
import Verif.Spec.Session
/-!
# What an API call has to do with an answer

The verdict on an answer is given by the bytes of the message at their documented offsets: the status of a robot
answer is the byte after the 12 byte header, the status of a gripper answer is the 16 bit number after the 10 byte header.
-/
namespace Verif.Spec
variable {F : Type} {β : Type}

/-- What a call returns: a value or an error. -/
abbrev Outcome (F β : Type) := Except (FrankaException F) β

/-- What the caller sees of an outcome. -/
def returned : Outcome F β → Res F β
  | .ok v => .ok v
  | .error e => .err e

/-- The call returns a `CommandException` with this message. -/
def rejects (msg : String) (o : Outcome F β) : Prop := o = .error (.CommandException msg)

/-- Setters: 0 success, 1 not possible, 2 invalid argument. -/
def setterVerdict (m : Bytes) (o : Outcome F Unit) : Prop :=
  match natAt m 12 1 with
  | 0 => o = .ok ()
  | 1 => rejects "libfranka-rs: command rejected: command not possible in current mode" o
  | 2 => rejects "libfranka-rs: command rejected: invalid argument!" o
  | _ => False

/-- `get_virtual_wall`: as for setters; the wall is in the answer. -/
def wallVerdict [Wire F] (id : Int32) (m : Bytes) (o : Outcome F (Robot.VirtualWallCuboid F)) : Prop :=
  match natAt m 12 1 with
  | 0 => ∃ wall, o = .ok wall ∧ wall.id = id ∧ (∀ i, floatAt m (13 + 8 * i.val) (wall.object_world_size i)) ∧
      (∀ i, floatAt m (37 + 8 * i.val) (wall.p_frame i)) ∧ boolAt m 165 wall.active
  | 1 => rejects "libfranka-rs: command rejected: command not possible in current mode" o
  | 2 => rejects "libfranka-rs: command rejected: invalid argument!" o
  | _ => False

/-- `stop`: 0 success, 1 not possible, 2 user stop, 3 reflex, 4 aborted. -/
def stopVerdict (m : Bytes) (o : Outcome F Unit) : Prop :=
  match natAt m 12 1 with
  | 0 => o = .ok ()
  | 1 => rejects "libfranka-rs: command rejected: command not possible in current mode" o
  | 2 => rejects "libfranka-rs: command aborted: User Stop pressed!" o
  | 3 => rejects "libfranka-rs: command aborted: motion aborted by reflex!" o
  | 4 => rejects "libfranka-rs: command rejected: command not possible in current mode" o
  | _ => False

/-- `automatic_error_recovery`: 0 success, 1 not possible, 2 manual recovery needed, 3 reflex, 4 user stop, 5 aborted. -/
def recoveryVerdict (m : Bytes) (o : Outcome F Unit) : Prop :=
  match natAt m 12 1 with
  | 0 => o = .ok ()
  | 1 => rejects "libfranka-rs: command rejected: command not possible in current mode" o
  | 2 => rejects "libfranka-rs: command rejected: manual error recovery required!" o
  | 3 => rejects "libfranka-rs: command aborted: motion aborted by reflex!" o
  | 4 => rejects "libfranka-rs: command aborted: User Stop pressed!" o
  | 5 => rejects "libfranka-rs: command aborted!" o
  | _ => False

/-- Gripper commands: 0 success, 1 failed, 2 unsuccessful, 3 aborted. -/
def gripperVerdict (m : Bytes) (o : Outcome F Bool) : Prop :=
  match natAt m 10 2 with
  | 0 => o = .ok true
  | 1 => rejects "libfranka-rs gripper: Command failed!" o
  | 2 => o = .ok false
  | 3 => rejects "libfranka-rs gripper: Command aborted!" o
  | _ => False

/-- Connecting: 0 success, otherwise the version of the server (after the status) and `own` are reported. -/
def connectVerdict (statusBytes own : Nat) (nt : NetworkType) (m : Bytes) (o : Outcome F Nat) : Prop :=
  ∃ v : UInt16, natAt m (headerLength nt + statusBytes) 2 = v.toNat ∧
    if natAt m (headerLength nt) statusBytes = 0 then o = .ok v.toNat
    else o = .error (.IncompatibleLibraryVersionError v (UInt16.ofNat own))

/-- A call that sends one request with body `b`, and nothing else, and returns what `verdict` says about an answer that
carries the id of that request. A call which does not return has sent at most that request. -/
def OneExchange (b : RobotBody F) (verdict : Bytes → Outcome F β → Prop) (w : World F) (r : Res F β) (w' : World F) : Prop :=
  ∃ h : RobotCommandHeader, h.command = kind b ∧
    match r with
    | .ok v => visible w'.trace = visible w.trace ++ [.robotReq ⟨h, b⟩] ∧
        ∃ m, (h.command_id, m) ∈ responses w'.trace ∧ IsFrame .Robot h.command_id m ∧ verdict m (.ok v)
    | .err e => visible w'.trace = visible w.trace ++ [.robotReq ⟨h, b⟩] ∧
        ∃ m, (h.command_id, m) ∈ responses w'.trace ∧ IsFrame .Robot h.command_id m ∧ verdict m (.error e)
    | _ => visible w'.trace = visible w.trace ∨ visible w'.trace = visible w.trace ++ [.robotReq ⟨h, b⟩]

/-- The same for the gripper. -/
def OneGripperExchange (b : Gripper.Body F) (verdict : Bytes → Outcome F β → Prop) (w : World F) (r : Res F β) (w' : World F) :
    Prop :=
  ∃ h : Gripper.CommandHeader, h.command = gripperKind b ∧
    match r with
    | .ok v => visible w'.trace = visible w.trace ++ [.gripperReq ⟨h, b⟩] ∧
        ∃ m, (h.command_id, m) ∈ responses w'.trace ∧ IsFrame .Gripper h.command_id m ∧ verdict m (.ok v)
    | .err e => visible w'.trace = visible w.trace ++ [.gripperReq ⟨h, b⟩] ∧
        ∃ m, (h.command_id, m) ∈ responses w'.trace ∧ IsFrame .Gripper h.command_id m ∧ verdict m (.error e)
    | _ => visible w'.trace = visible w.trace ∨ visible w'.trace = visible w.trace ++ [.gripperReq ⟨h, b⟩]

/-- `w` is a state between two calls of some history of a robot connection. -/
def RobotReachable [Fl F] [Wire F] [Geo F] (w : World F) : Prop :=
  ∃ (rc : Option RealtimeConfig) (ls : Option Nat) (cs : List (RobotCall F)) (w0 : World F), Fresh w0 ∧
    robotSession rc ls cs w0 = (.ok (), w)

/-- `w` is a state between two calls of some history of a gripper connection. -/
def GripperReachable [Fl F] [Wire F] (w : World F) : Prop :=
  ∃ (cs : List (GripperCall F)) (w0 : World F), Fresh w0 ∧ gripperSession cs w0 = (.ok (), w)

/-- The connection is idle, and the answer `m` to the next request arrives in one piece: the next call of the library is the
write of the request, then it polls `q.length` times in vain, then the first bytes are there (`t1`), and the whole answer is there when
the library looks how much is there (`t2`). Other bytes may follow. -/
structure AnswerArrives (w : World F) (m : Bytes) : Prop where
  rx : w.ker.tcpRx = []
  edge : w.ker.tcpEdge = false
  pending : w.net.pending_response = []
  absent : w.net.received_responses w.net.command_id = none
  ids : w.net.command_id ≠ 0xffffffff
  schedule : ∃ q t1 t2 t3 t4 ts r, w.script = q ++ t1 :: t2 :: t3 :: t4 :: ts ∧ q ≠ [] ∧ TcpQuiet q ∧
    (∀ t ∈ [t1, t2, t3, t4], t.fail = false) ∧ t1.tcpIn ≠ [] ∧ t1.tcpIn ++ t2.tcpIn = m ++ r
  frame : IsFrame w.cfg.network_type w.net.command_id m
  long : headerLength w.cfg.network_type < m.length
  short : m.length ≤ 70000
  known : KnownCommand w.cfg.network_type m

/-- The calls which consist of one request and one answer. -/
def RobotCall.IsRequest : RobotCall F → Prop
  | .set_collision_behavior .. | .set_joint_impedance _ | .set_cartesian_impedance _ | .set_guiding_mode .. | .set_K _ | .set_EE _
  | .set_load .. | .set_filters .. | .automatic_error_recovery | .stop | .get_virtual_wall _ => True
  | _ => False

/-- The gripper calls which consist of one request and one answer. -/
def GripperCall.IsRequest : GripperCall F → Prop
  | .move_gripper .. | .homing | .stop | .grasp .. => True
  | _ => False

/-- The connection is idle and the answer `m` to the next request is cut after `k` bytes, inside its body: the first `k` bytes arrive in one
piece; the rest has not yet arrived four system calls later, and may arrive after that. -/
structure AnswerCut (w : World F) (m : Bytes) (k : Nat) : Prop where
  rx : w.ker.tcpRx = []
  edge : w.ker.tcpEdge = false
  pending : w.net.pending_response = []
  absent : w.net.received_responses w.net.command_id = none
  ids : w.net.command_id ≠ 0xffffffff
  schedule : ∃ q t1 t2 t3 t4 t5 ts, w.script = q ++ t1 :: t2 :: t3 :: t4 :: t5 :: ts ∧ q ≠ [] ∧ TcpQuiet q ∧
    t1.fail = false ∧ TcpQuiet [t2, t3, t4, t5] ∧ t1.tcpIn = m.take k ∧ tcpArrived ts = m.drop k
  frame : IsFrame w.cfg.network_type w.net.command_id m
  body : headerLength w.cfg.network_type ≤ k
  cut : k < m.length
  short : m.length ≤ 70000
  known : KnownCommand w.cfg.network_type m

/-- The connection is idle and the answer `m` to the next request arrives completely, together with and after the message `other`. Nothing
else arrives, no system call fails. -/
structure AnswerInBurst (w : World F) (other m : Bytes) : Prop where
  rx : w.ker.tcpRx = []
  edge : w.ker.tcpEdge = false
  pending : w.net.pending_response = []
  absent : w.net.received_responses w.net.command_id = none
  ids : w.net.command_id ≠ 0xffffffff
  schedule : ∃ q t1 ts, w.script = q ++ t1 :: ts ∧ q ≠ [] ∧ TcpQuiet q ∧ t1.fail = false ∧ t1.tcpIn = other ++ m ∧ TcpQuiet ts ∧ 3 ≤ ts.length
  frame : IsFrame w.cfg.network_type w.net.command_id m
  otherFrame : ∃ i, i ≠ w.net.command_id ∧ IsFrame w.cfg.network_type i other
  long : headerLength w.cfg.network_type < other.length
  short : other.length ≤ 70000
  known : KnownCommand w.cfg.network_type other

/-- The connection is idle and nothing more comes from the server, which may close the connection. -/
structure NoAnswer (w : World F) : Prop where
  rx : w.ker.tcpRx = []
  pending : w.net.pending_response = []
  absent : w.net.received_responses w.net.command_id = none
  nothing : tcpArrived w.script = []

/-- The call neither returns a value nor an error. -/
def NeverReturns : Res F β → Prop
  | .ok _ | .err _ => False
  | .panic _ | .blocked => True

/-- The request a setter has to send: its arguments, by name. -/
def setterRequest : RobotCall F → Option (RobotBody F)
  | .set_collision_behavior lta uta ltn utn lfa ufa lfn ufn => some (.SetCollisionBehavior {
      lower_torque_thresholds_acceleration := lta, upper_torque_thresholds_acceleration := uta
      lower_torque_thresholds_nominal := ltn, upper_torque_thresholds_nominal := utn
      lower_force_thresholds_acceleration := lfa, upper_force_thresholds_acceleration := ufa
      lower_force_thresholds_nominal := lfn, upper_force_thresholds_nominal := ufn })
  | .set_joint_impedance K_theta => some (.SetJointImpedance { K_theta })
  | .set_cartesian_impedance K_x => some (.SetCartesianImpedance { K_x })
  | .set_guiding_mode guiding_mode elbow => some (.SetGuidingMode { guiding_mode, nullspace := elbow })
  | .set_K EE_T_K => some (.SetEeToK { EE_T_K })
  | .set_EE NE_T_EE => some (.SetNeToEe { NE_T_EE })
  | .set_load mass F_x_Cload inertia => some (.SetLoad { m_load := mass, F_x_Cload, I_Load := inertia })
  | .set_filters jp jv cp cv c => some (.SetFilters {
      joint_position_filter_frequency := jp, joint_velocity_filter_frequency := jv
      cartesian_position_filter_frequency := cp, cartesian_velocity_filter_frequency := cv, controller_filter_frequency := c })
  | _ => none

/-- A list of setters, each started when the one before it succeeded; the first error ends it. -/
def SetterSequence : List (RobotBody F) → World F → Res F Unit → World F → Prop
  | [], w, r, w' => r = .ok () ∧ w' = w
  | b :: bs, w, r, w' => ∃ r1 w1, OneExchange b setterVerdict w r1 w1 ∧
      match r1 with
      | .ok _ => SetterSequence bs w1 r w'
      | _ => r = r1 ∧ w' = w1

/-- The documented default behaviour. -/
def defaultBehavior [Fl F] : List (RobotBody F) := [
  .SetCollisionBehavior {
    lower_torque_thresholds_acceleration := fun _ => Fl.lit 20, upper_torque_thresholds_acceleration := fun _ => Fl.lit 20
    lower_torque_thresholds_nominal := fun _ => Fl.lit 10, upper_torque_thresholds_nominal := fun _ => Fl.lit 10
    lower_force_thresholds_acceleration := fun _ => Fl.lit 20, upper_force_thresholds_acceleration := fun _ => Fl.lit 20
    lower_force_thresholds_nominal := fun _ => Fl.lit 10, upper_force_thresholds_nominal := fun _ => Fl.lit 10 },
  .SetJointImpedance { K_theta := ![Fl.lit 3000, Fl.lit 3000, Fl.lit 3000, Fl.lit 2500, Fl.lit 2500, Fl.lit 2000, Fl.lit 2000] },
  .SetCartesianImpedance { K_x := ![Fl.lit 3000, Fl.lit 3000, Fl.lit 3000, Fl.lit 300, Fl.lit 300, Fl.lit 300] }]

/-- The request a gripper command has to send. -/
def gripperRequest [Fl F] : GripperCall F → Option (Gripper.Body F)
  | .move_gripper width speed => some (.Move { width, speed })
  | .homing => some .Homing
  | .stop => some .Stop
  | .grasp width speed force epsilon_inner epsilon_outer => some (.Grasp { width, speed, force, epsilon := {
      inner := epsilon_inner.getD (Fl.lit (5 / 1000)), outer := epsilon_outer.getD (Fl.lit (5 / 1000)) } })
  | _ => none

/-- What a gripper command returns. -/
def gripperCommand [Fl F] [Wire F] : GripperCall F → Option (Prog F Bool)
  | .move_gripper width speed => some (Gripper.move_gripper width speed)
  | .homing => some Gripper.homing
  | .stop => some Gripper.stop
  | .grasp width speed force epsilon_inner epsilon_outer => some (Gripper.grasp width speed force epsilon_inner epsilon_outer)
  | _ => none

/-- The request with which a robot connection has to begin: version 5 and the local UDP port. -/
def robotHello (w : World F) : RobotBody F := .Connect { version := 5, udp_port := w.cfg.udp_port }

/-- The request with which a gripper connection has to begin: version 3 and the local UDP port. -/
def gripperHello (w : World F) : Gripper.Body F := .Connect { version := 3, udp_port := w.cfg.udp_port }

/-- How the constructor of a robot may end. Nothing is sent before or after the request; a robot is constructed only after the server
answered it with success; then exactly one state is accepted. An error means that there was no connection, or that the server
answered with the error that is returned. -/
def RobotConstructed (w : World F) (r : Res F Unit) (w' : World F) : Prop :=
  ∃ h : RobotCommandHeader, h.command = .Connect ∧
    match r with
    | .ok _ => ∃ s m v, visible w'.trace = [.robotReq ⟨h, robotHello w⟩, .accepted s] ∧ (h.command_id, m) ∈ responses w'.trace ∧
        IsFrame .Robot h.command_id m ∧ connectVerdict (F := F) 1 5 .Robot m (.ok v)
    | .err e => (visible w'.trace = [] ∧ e = .NetworkException "Connection could not be established") ∨
        (visible w'.trace = [.robotReq ⟨h, robotHello w⟩] ∧ ∃ m, (h.command_id, m) ∈ responses w'.trace ∧
          IsFrame .Robot h.command_id m ∧ connectVerdict 1 5 .Robot m (.error e))
    | _ => visible w'.trace = [] ∨ visible w'.trace = [.robotReq ⟨h, robotHello w⟩]

/-- The same for the constructor of a gripper, which does not wait for a state. -/
def GripperConstructed (w : World F) (r : Res F Unit) (w' : World F) : Prop :=
  ∃ h : Gripper.CommandHeader, h.command = .Connect ∧
    match r with
    | .ok _ => ∃ m v, visible w'.trace = [.gripperReq ⟨h, gripperHello w⟩] ∧ (h.command_id, m) ∈ responses w'.trace ∧
        IsFrame .Gripper h.command_id m ∧ connectVerdict (F := F) 2 3 .Gripper m (.ok v)
    | .err e => (visible w'.trace = [] ∧ e = .NetworkException ioErrorText) ∨
        (visible w'.trace = [.gripperReq ⟨h, gripperHello w⟩] ∧ ∃ m, (h.command_id, m) ∈ responses w'.trace ∧
          IsFrame .Gripper h.command_id m ∧ connectVerdict 2 3 .Gripper m (.error e))
    | _ => visible w'.trace = [] ∨ visible w'.trace = [.gripperReq ⟨h, gripperHello w⟩]

end Verif.Spec
