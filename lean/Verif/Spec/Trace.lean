import Verif.Model.World
/-!
# Projections of a trace and of a schedule

What an observer outside the library reads off a trace; used to state the properties.
-/
namespace Verif.Spec
variable {F : Type}

/-- All bytes read from the TCP stream, in order. -/
def recvBytes (tr : List (Ev F)) : Bytes := tr.flatMap fun
  | .tcpRecv bs => bs
  | _ => []

/-- The complete responses, with the id under which each was stored. -/
def responses (tr : List (Ev F)) : List (UInt32 × Bytes) := tr.filterMap fun
  | .response id bs => some (id, bs)
  | _ => none

/-- All datagrams taken from the UDP socket, in order. -/
def datagrams (tr : List (Ev F)) : List Datagram := tr.filterMap fun
  | .udpRecv d => some d
  | _ => none

/-- The states accepted as new robot state, in order. -/
def accepted (tr : List (Ev F)) : List (RobotStateIntern F) := tr.filterMap fun
  | .accepted s => some s
  | _ => none

/-- The real-time commands sent, with the address they were sent to. -/
def commands (tr : List (Ev F)) : List (Addr × RobotCommand F) := tr.filterMap fun
  | .udpSend a c => some (a, c)
  | _ => none

/-- The robot requests written to the TCP stream. -/
def requests (tr : List (Ev F)) : List (RobotReq F) := tr.filterMap fun
  | .robotReq r => some r
  | _ => none

/-- The gripper requests written to the TCP stream. -/
def gripperRequests (tr : List (Ev F)) : List (Gripper.Req F) := tr.filterMap fun
  | .gripperReq r => some r
  | _ => none

/-- The command ids of all requests of a connection, in the order of sending. -/
def requestIds (tr : List (Ev F)) : List UInt32 := tr.filterMap fun
  | .robotReq r => some r.header.command_id
  | .gripperReq r => some r.header.command_id
  | _ => none

/-- The latest answer with this id among these events, or `old` if there is none. -/
def latestAnswer (i : UInt32) (old : Option Bytes) (tr : List (Ev F)) : Option Bytes := tr.foldl (fun acc e => match e with
  | .response j bs => if j = i then some bs else acc
  | _ => acc) old

/-- Events of reading from the TCP stream. -/
def isTcpEv : Ev F → Bool
  | .tcpRecv _ => true
  | .response _ _ => true
  | _ => false

/-- Events of receiving datagrams. -/
def isUdpEv : Ev F → Bool
  | .udpRecv _ => true
  | _ => false

/-- What the user and the robot see, and the accepted states: everything but the reading from sockets. -/
def visible (tr : List (Ev F)) : List (Ev F) := tr.filter fun e => !isTcpEv e && !isUdpEv e

/-- The bytes the server has sent on the TCP stream during these ticks. -/
def tcpArrived (s : List Tick) : Bytes := s.flatMap (·.tcpIn)

/-- The datagrams which arrived during these ticks. -/
def udpArrived (s : List Tick) : List Datagram := s.flatMap (·.udpIn)

section
variable (a b : List (Ev F)) (e : Ev F)
@[simp] theorem recvBytes_append : recvBytes (a ++ b) = recvBytes a ++ recvBytes b := by simp [recvBytes]
@[simp] theorem responses_append : responses (a ++ b) = responses a ++ responses b := by simp [responses]
@[simp] theorem datagrams_append : datagrams (a ++ b) = datagrams a ++ datagrams b := by simp [datagrams]
@[simp] theorem accepted_append : accepted (a ++ b) = accepted a ++ accepted b := by simp [accepted]
@[simp] theorem commands_append : commands (a ++ b) = commands a ++ commands b := by simp [commands]
@[simp] theorem requests_append : requests (a ++ b) = requests a ++ requests b := by simp [requests]
@[simp] theorem gripperRequests_append : gripperRequests (a ++ b) = gripperRequests a ++ gripperRequests b := by
  simp [gripperRequests]
@[simp] theorem requestIds_append : requestIds (a ++ b) = requestIds a ++ requestIds b := by simp [requestIds]
@[simp] theorem visible_append : visible (a ++ b) = visible a ++ visible b := by simp [visible]
@[simp] theorem visible_nil : visible ([] : List (Ev F)) = [] := rfl
@[simp] theorem latestAnswer_append (i : UInt32) (o : Option Bytes) :
    latestAnswer i o (a ++ b) = latestAnswer i (latestAnswer i o a) b := by simp [latestAnswer]
@[simp] theorem latestAnswer_nil (i : UInt32) (o : Option Bytes) : latestAnswer i o ([] : List (Ev F)) = o := rfl
@[simp] theorem recvBytes_nil : recvBytes ([] : List (Ev F)) = [] := rfl
@[simp] theorem responses_nil : responses ([] : List (Ev F)) = [] := rfl
@[simp] theorem datagrams_nil : datagrams ([] : List (Ev F)) = [] := rfl
@[simp] theorem accepted_nil : accepted ([] : List (Ev F)) = [] := rfl
@[simp] theorem commands_nil : commands ([] : List (Ev F)) = [] := rfl
@[simp] theorem requests_nil : requests ([] : List (Ev F)) = [] := rfl
@[simp] theorem gripperRequests_nil : gripperRequests ([] : List (Ev F)) = [] := rfl
@[simp] theorem requestIds_nil : requestIds ([] : List (Ev F)) = [] := rfl
end

@[simp] theorem tcpArrived_append (a b : List Tick) : tcpArrived (a ++ b) = tcpArrived a ++ tcpArrived b := by
  simp [tcpArrived]
@[simp] theorem udpArrived_append (a b : List Tick) : udpArrived (a ++ b) = udpArrived a ++ udpArrived b := by
  simp [udpArrived]
@[simp] theorem tcpArrived_nil : tcpArrived [] = [] := rfl
@[simp] theorem udpArrived_nil : udpArrived [] = [] := rfl
@[simp] theorem tcpArrived_cons (t : Tick) (s : List Tick) : tcpArrived (t :: s) = t.tcpIn ++ tcpArrived s := by
  simp [tcpArrived]
@[simp] theorem udpArrived_cons (t : Tick) (s : List Tick) : udpArrived (t :: s) = t.udpIn ++ udpArrived s := by
  simp [udpArrived]

end Verif.Spec
