import Verif.Lemmas.Reach
import Verif.Props.Wire
import Verif.Lemmas.ToyRun
/-!
# Requests and answers on the TCP stream: C01 (API part), C06 - C10

`(robotSession rc ls cs w).2` is the world after the history `cs` of one `Robot`, started in the world `w`, whose script fixes the
behaviour of network, robot and operating system. Nothing is assumed about how the history ends: it may also end with a panic
or with a call that still waits.
-/
set_option linter.unusedSectionVars false
namespace Verif
open Prog Spec
variable {F : Type} [Fl F] [Wire F]

/-! ## C01 -/

/-- C01: in every history of a robot, the size field of every request is the number of bytes written for it. -/
theorem C01_robot_size_field [LawfulWire F] [Geo F] (rc : Option RealtimeConfig) (ls : Option Nat) (cs : List (RobotCall F)) (w : World F)
    (hw : Fresh w) : ∀ r ∈ requests (robotSession rc ls cs w).2.trace, r.header.size.toNat = r.enc.length := by
  have h : ReqWeak w.cfg.overflow_checks (robotSession rc ls cs w).2 := session_req_weak rc ls cs w hw
  intro r hr
  rw [C01_robot_request_size, (h.robot r hr).2]

/-- C01: the same for every history of a gripper. -/
theorem C01_gripper_size_field [LawfulWire F] (cs : List (GripperCall F)) (w : World F) (hw : Fresh w) :
    ∀ r ∈ gripperRequests (gripperSession cs w).2.trace, r.header.size.toNat = r.enc.length := by
  have h : ReqWeak w.cfg.overflow_checks (gripperSession cs w).2 := gripper_session_req_weak cs w hw
  intro r hr
  rw [C01_gripper_request_size, (h.gripper r hr).2]

/-- C02, API part: the header of every request names the kind of its body, so a peer decodes it as in `C02_robot_request_roundtrip`. -/
theorem C02_robot_session_requests [LawfulWire F] [Geo F] (rc : Option RealtimeConfig) (ls : Option Nat) (cs : List (RobotCall F))
    (w : World F) (hw : Fresh w) (rest : Bytes) :
    ∀ r ∈ requests (robotSession rc ls cs w).2.trace, robotPeer (r.enc ++ rest) = some (r, rest) := by
  have h : ReqWeak w.cfg.overflow_checks (robotSession rc ls cs w).2 := session_req_weak rc ls cs w hw
  intro r hr
  exact C02_robot_request_roundtrip r rest (h.robot r hr).1

/-- C02, API part, gripper. -/
theorem C02_gripper_session_requests [LawfulWire F] (cs : List (GripperCall F)) (w : World F) (hw : Fresh w) (rest : Bytes) :
    ∀ r ∈ gripperRequests (gripperSession cs w).2.trace, gripperPeer (r.enc ++ rest) = some (r, rest) := by
  have h : ReqWeak w.cfg.overflow_checks (gripperSession cs w).2 := gripper_session_req_weak cs w hw
  intro r hr
  exact C02_gripper_request_roundtrip r rest (h.gripper r hr).1

/-! ## C06 -/

theorem nodup_ofNat (n : Nat) (h : n ≤ 2 ^ 32) : ((List.range n).map UInt32.ofNat).Nodup := by
  rw [List.nodup_iff_pairwise_ne, List.pairwise_map]
  refine (List.nodup_range (n := n)).imp_of_mem ?_
  intro a b ha hb hne he
  rw [List.mem_range] at ha hb
  have := congrArg UInt32.toNat he
  simp only [UInt32.toNat_ofNat'] at this
  rw [Nat.mod_eq_of_lt (by omega), Nat.mod_eq_of_lt (by omega)] at this
  exact hne this

/-- What C06 says about the ids of a connection. -/
def IdsOk (overflow_checks : Bool) (ids : List UInt32) : Prop :=
  (∀ n, ids[n]? = if n < ids.length then some (UInt32.ofNat n) else none) ∧ (ids.length ≤ 2 ^ 32 → ids.Nodup) ∧
    (overflow_checks = true → ids.Nodup)

theorem idsOk_of {c : Bool} {w : World F} (h : ReqWeak c w) : IdsOk c (requestIds w.trace) := by
  have hn : (requestIds w.trace).length ≤ 2 ^ 32 → (requestIds w.trace).Nodup := by
    intro hl
    rw [h.ids]
    exact nodup_ofNat _ hl
  refine ⟨?_, hn, fun hc => hn (Nat.le_of_lt (h.checked hc))⟩
  intro n
  conv => lhs; rw [h.ids]
  rw [List.getElem?_map]
  split
  · rename_i hl
    rw [List.getElem?_range hl]; rfl
  · rename_i hl
    rw [List.getElem?_eq_none (by simpa using hl)]; rfl

/-- C06: the n-th request of a robot connection has id n (mod 2^32). Up to 2^32 requests, and in a build with overflow checks always, the
ids are pairwise different. -/
theorem C06_robot_ids [Geo F] (rc : Option RealtimeConfig) (ls : Option Nat) (cs : List (RobotCall F)) (w : World F) (hw : Fresh w) :
    IdsOk w.cfg.overflow_checks (requestIds (robotSession rc ls cs w).2.trace) := by
  exact idsOk_of (session_req_weak rc ls cs w hw)

/-- C06: the same for a gripper connection. -/
theorem C06_gripper_ids (cs : List (GripperCall F)) (w : World F) (hw : Fresh w) :
    IdsOk w.cfg.overflow_checks (requestIds (gripperSession cs w).2.trace) := by
  exact idsOk_of (gripper_session_req_weak cs w hw)

/-! ## C07 -/

/-- C07 (part): whatever two histories of two robots do, whenever and in which pieces the bytes arrive: if the servers send the same bytes
then the sequences of messages the libraries cut out of them agree as far as both go, message by message with their ids.
Missing: that both go equally far; see `C07_cut_message_panics`. -/
theorem C07_robot_segmentation_partial [Geo F] (rc rc' : Option RealtimeConfig) (ls ls' : Option Nat) (cs cs' : List (RobotCall F))
    (w w' : World F) (hw : Fresh w) (hw' : Fresh w') (hs : tcpArrived w.script = tcpArrived w'.script) :
    responses (robotSession rc ls cs w).2.trace <+: responses (robotSession rc' ls' cs' w').2.trace ∨
      responses (robotSession rc' ls' cs' w').2.trace <+: responses (robotSession rc ls cs w).2.trace := by
  have weak : ∀ rc ls cs (w : World F), Fresh w → TcpWeak .Robot (robotSession rc ls cs w).2 := session_tcp_weak
  obtain ⟨r, h1⟩ := weak rc ls cs w hw
  obtain ⟨r', h2⟩ := weak rc' ls' cs' w' hw'
  have p1 := (session_conserve rc ls cs w).recv_prefix hw
  have p2 := (session_conserve rc' ls' cs' w').recv_prefix hw'
  rw [hs] at p1
  rcases List.prefix_or_prefix_of_prefix p1 p2 with h | h
  · exact h1.comparable h2 h
  · exact (h2.comparable h1 h).symm

/-- C07 (part): the same for grippers. -/
theorem C07_gripper_segmentation_partial (cs cs' : List (GripperCall F))
    (w w' : World F) (hw : Fresh w) (hw' : Fresh w') (hs : tcpArrived w.script = tcpArrived w'.script) :
    responses (gripperSession cs w).2.trace <+: responses (gripperSession cs' w').2.trace ∨
      responses (gripperSession cs' w').2.trace <+: responses (gripperSession cs w).2.trace := by
  have weak : ∀ cs (w : World F), Fresh w → TcpWeak .Gripper (gripperSession cs w).2 := gripper_session_tcp_weak
  obtain ⟨r, h1⟩ := weak cs w hw
  obtain ⟨r', h2⟩ := weak cs' w' hw'
  have p1 := (gripper_session_conserve cs w).recv_prefix hw
  have p2 := (gripper_session_conserve cs' w').recv_prefix hw'
  rw [hs] at p1
  rcases List.prefix_or_prefix_of_prefix p1 p2 with h | h
  · exact h1.comparable h2 h
  · exact (h2.comparable h1 h).symm

/-- C07 (part): the messages are the ones the server sent: they are consecutive complete messages, starting with the first byte. -/
theorem C07_robot_messages_partial [Geo F] (rc : Option RealtimeConfig) (ls : Option Nat) (cs : List (RobotCall F)) (w : World F)
    (hw : Fresh w) : ∃ rest, Frames .Robot (tcpArrived w.script) (responses (robotSession rc ls cs w).2.trace) rest := by
  have h1 : TcpWeak .Robot (robotSession rc ls cs w).2 := session_tcp_weak rc ls cs w hw
  obtain ⟨r, h1, h2⟩ := h1
  obtain ⟨t, ht⟩ := (session_conserve rc ls cs w).recv_prefix hw
  exact ⟨r ++ t, by rw [← ht, h1, List.append_assoc], h2⟩

/-- C07 (part): the same for the gripper. -/
theorem C07_gripper_messages_partial (cs : List (GripperCall F)) (w : World F)
    (hw : Fresh w) : ∃ rest, Frames .Gripper (tcpArrived w.script) (responses (gripperSession cs w).2.trace) rest := by
  have h1 : TcpWeak .Gripper (gripperSession cs w).2 := gripper_session_tcp_weak cs w hw
  obtain ⟨r, h1, h2⟩ := h1
  obtain ⟨t, ht⟩ := (gripper_session_conserve cs w).recv_prefix hw
  exact ⟨r ++ t, by rw [← ht, h1, List.append_assoc], h2⟩

/-- C07 fails: every request call panics if its (correct) answer is cut by TCP inside the body, wherever it is cut. -/
theorem C07_cut_message_panics [Geo F] (c : RobotCall F) (hc : RobotCall.IsRequest c) (w : World F) (m : Bytes) (k : Nat)
    (h : AnswerCut w m k) : ∃ msg, (c.run w).1 = .panic msg := by
  obtain ⟨α, b, k', f, hf⟩ := request_form c hc
  rw [hf]
  exact rpc_cut b k' f w m k h

/-- C07 fails for the gripper. -/
theorem C07_gripper_cut_message_panics (c : GripperCall F) (hc : GripperCall.IsRequest c) (w : World F) (m : Bytes) (k : Nat)
    (h : AnswerCut w m k) : ∃ msg, (c.run w).1 = .panic msg := by
  obtain ⟨α, b, k', f, hf⟩ := gripper_request_form c hc
  rw [hf]
  exact rpcGripper_cut b k' f w m k h

/-! ## C08 -/

/-- C08: the answer a request call returns carries the id of the request it sent (`OneExchange`), and answers for other ids are only
added to, neither consumed nor altered (`KeepsOthers`). -/
theorem C08_robot_answer_matches [Geo F] (c : RobotCall F) (hc : RobotCall.IsRequest c) (w : World F) (hw : RobotReachable w) :
    (∃ b, OneExchange b (fun _ _ => True) w (c.run w).1 (c.run w).2) ∧ KeepsOthers w.net.command_id w (c.run w).2 := by
  obtain ⟨α, b, k', f, hf⟩ := request_form c hc
  rw [hf]
  exact ⟨⟨b, rpc_spec b k' f (fun _ _ => True) (fun _ _ _ _ => trivial) w hw.tcp⟩, rpc_others b k' f w⟩

/-- C08 for the gripper. -/
theorem C08_gripper_answer_matches (c : GripperCall F) (hc : GripperCall.IsRequest c) (w : World F) (hw : GripperReachable w) :
    (∃ b, OneGripperExchange b (fun _ _ => True) w (c.run w).1 (c.run w).2) ∧ KeepsOthers w.net.command_id w (c.run w).2 := by
  obtain ⟨α, b, k', f, hf⟩ := gripper_request_form c hc
  rw [hf]
  exact ⟨⟨b, rpcGripper_spec b k' f (fun _ _ => True) (fun _ _ _ _ => trivial) w hw.tcp⟩, rpcGripper_others b k' f w⟩

/-! ## C09 -/

/-- C09 (part): an answer that arrives in one piece on an idle connection and decodes is handed to the caller: the call returns, and it
returns what it makes of this answer. Other bytes may follow the answer.
Missing: answers which come behind another message in one burst (`C09_burst_blocks`), or in pieces (`C07_cut_message_panics`). -/
theorem C09_robot_delivery_partial {α β : Type} (b : RobotBody F) (c : Codec α) (f : α → Outcome F β) (w : World F) (m : Bytes)
    (h : AnswerArrives w m) (a : α) (rest : Bytes) (hd : c.dec m = some (a, rest)) :
    (rpc b c f w).1 = returned (f a) := rpc_delivers b c f w m h a rest hd

/-- C09 (part): no byte is lost: what arrived on the TCP stream was read in order, or still is in the socket. -/
theorem C09_robot_bytes_partial [Geo F] (rc : Option RealtimeConfig) (ls : Option Nat) (cs : List (RobotCall F)) (w : World F)
    (hw : Fresh w) : ∃ used, w.script = used ++ (robotSession rc ls cs w).2.script ∧
      tcpArrived used = recvBytes (robotSession rc ls cs w).2.trace ++ (robotSession rc ls cs w).2.ker.tcpRx := by
  obtain ⟨used, es, h1, h2, h3, -⟩ := session_conserve rc ls cs w
  refine ⟨used, h1, ?_⟩
  rw [h2, hw.1]
  rw [hw.2] at h3
  simpa using h3

/-- C09 fails: if the answer to a request arrives completely, but behind another message in the same burst, the call waits for ever. -/
theorem C09_burst_blocks [Geo F] (c : RobotCall F) (hc : RobotCall.IsRequest c) (w : World F) (other m : Bytes)
    (h : AnswerInBurst w other m) : (c.run w).1 = .blocked := by
  obtain ⟨α, b, k', f, hf⟩ := request_form c hc
  rw [hf]
  exact rpc_burst b k' f w other m h

/-- C09 fails for the gripper. -/
theorem C09_gripper_burst_blocks (c : GripperCall F) (hc : GripperCall.IsRequest c) (w : World F) (other m : Bytes)
    (h : AnswerInBurst w other m) : (c.run w).1 = .blocked := by
  obtain ⟨α, b, k', f, hf⟩ := gripper_request_form c hc
  rw [hf]
  exact rpcGripper_burst b k' f w other m h

/-! ## C10 -/

/-- C10 (part): without an answer that carries the id of the request no request call returns `Ok` (nor `Err`).
Missing: that the caller gets an error; see `C10_dead_connection_never_returns`. -/
theorem C10_no_phantom_answer_partial [Geo F] (c : RobotCall F) (hc : RobotCall.IsRequest c) (w : World F) (hw : RobotReachable w)
    (hr : ∀ m, (w.net.command_id, m) ∉ responses (c.run w).2.trace) : NeverReturns (c.run w).1 := by
  obtain ⟨α, b, k', f, hf⟩ := request_form c hc
  rw [hf] at hr ⊢
  have h := rpc_others b k' f w
  have : Post (rpc b k' f) w fun r w' => (∀ m, (w.net.command_id, m) ∉ responses w'.trace) → NeverReturns r := by
    unfold rpc
    refine (ask_spec b k' w hw.tcp).bind ?_
    rintro r w' ⟨h, h1, h2, h3⟩
    cases r with
    | ok a =>
      obtain ⟨-, -, -, -, g1, m, rest, g2, g3, g4⟩ := h3
      rw [after_ok]
      rw [h2] at g2
      cases hfa : f a with
      | ok v => intro hn; exact absurd g2 (hn m)
      | error e => intro hn; exact absurd g2 (hn m)
    | err e => exact h3.elim
    | panic msg => intro _; trivial
    | blocked => intro _; trivial
  exact this hr

/-- C10 fails: if nothing more comes from the server, whether it closes the connection or not, no request call ever returns; the error is
not reported. -/
theorem C10_dead_connection_never_returns [Geo F] (c : RobotCall F) (hc : RobotCall.IsRequest c) (w : World F) (h : NoAnswer w) :
    NeverReturns (c.run w).1 := by
  obtain ⟨α, b, k', f, hf⟩ := request_form c hc
  rw [hf]
  exact rpc_no_answer b k' f w h

/-- C10 fails for the gripper. -/
theorem C10_gripper_dead_connection_never_returns (c : GripperCall F) (hc : GripperCall.IsRequest c) (w : World F) (h : NoAnswer w) :
    NeverReturns (c.run w).1 := by
  obtain ⟨α, b, k', f, hf⟩ := gripper_request_form c hc
  rw [hf]
  exact rpcGripper_no_answer b k' f w h

/-! ## Concrete cases

A connected robot (`Toy.robot`, `Toy.robot_reachable`) is in the states the theorems speak about. -/
section examples
open Toy

/-- The answer to the first setter arrives in one piece. -/
example : AnswerArrives (robot [quiet, quiet, tcp (response 7 1 0), quiet, quiet, quiet]) (response 7 1 0) where
  rx := robot_rx _
  edge := robot_edge _
  pending := robot_pending _
  absent := by rw [robot_id]; exact robot_table _
  ids := by rw [robot_id]; decide
  schedule := ⟨[quiet, quiet], tcp (response 7 1 0), quiet, quiet, quiet, [], [], robot_script _, by simp,
    by intro t ht; simp only [List.mem_cons, List.not_mem_nil, or_false, or_self] at ht; subst ht; exact ⟨rfl, rfl, rfl⟩,
    by decide, by decide, by decide⟩
  frame := by rw [robot_type, robot_id]; exact frame_response 7 1 0
  long := by rw [robot_type]; decide
  short := by decide
  known := by rw [robot_type]; show natAt _ 0 4 < 14; decide

/-- TCP delivers the header first and the status byte later: this is the situation of `C07_cut_message_panics`. -/
theorem Toy.cut : AnswerCut (robot ([quiet, quiet, tcp ((response 7 1 0).take 12), quiet, quiet, quiet, quiet, tcp [0]]))
    (response 7 1 0) 12 where
  rx := robot_rx _
  edge := robot_edge _
  pending := robot_pending _
  absent := by rw [robot_id]; exact robot_table _
  ids := by rw [robot_id]; decide
  schedule := ⟨[quiet, quiet], tcp ((response 7 1 0).take 12), quiet, quiet, quiet, quiet, [tcp [0]], robot_script _, by simp,
    by intro t ht; simp only [List.mem_cons, List.not_mem_nil, or_false, or_self] at ht; subst ht; exact ⟨rfl, rfl, rfl⟩, rfl,
    by intro t ht; simp only [List.mem_cons, List.not_mem_nil, or_false, or_self] at ht; subst ht; exact ⟨rfl, rfl, rfl⟩, rfl, by decide⟩
  frame := by rw [robot_type, robot_id]; exact frame_response 7 1 0
  body := by rw [robot_type]; decide
  cut := by decide
  short := by decide
  known := by rw [robot_type]; show natAt _ 0 4 < 14; decide

/-- A setter on a connected robot panics because of this cut. -/
example : ∃ msg, ((RobotCall.set_joint_impedance fun _ => 3000).run (robot ([quiet, quiet, tcp ((response 7 1 0).take 12), quiet, quiet, quiet,
    quiet, tcp [0]]))).1 = .panic msg := C07_cut_message_panics (.set_joint_impedance fun _ => 3000) trivial _ _ _ Toy.cut

/-- Another message and the answer in one segment: the situation of `C09_burst_blocks`. -/
theorem Toy.burst (n : Nat) : AnswerInBurst (robot ([quiet, tcp (response 2 77 0 ++ response 7 1 0)] ++ List.replicate (n + 3) quiet))
    (response 2 77 0) (response 7 1 0) where
  rx := robot_rx _
  edge := robot_edge _
  pending := robot_pending _
  absent := by rw [robot_id]; exact robot_table _
  ids := by rw [robot_id]; decide
  schedule := ⟨[quiet], tcp (response 2 77 0 ++ response 7 1 0), List.replicate (n + 3) quiet, robot_script _, by simp,
    by intro t ht; simp only [List.mem_cons, List.not_mem_nil, or_false] at ht; subst ht; exact ⟨rfl, rfl, rfl⟩, rfl, rfl,
    by intro t ht; obtain rfl := List.eq_of_mem_replicate ht; exact ⟨rfl, rfl, rfl⟩, by simp⟩
  frame := by rw [robot_type, robot_id]; exact frame_response 7 1 0
  otherFrame := ⟨77, by rw [robot_id]; decide, by rw [robot_type]; exact frame_response 2 77 0⟩
  long := by rw [robot_type]; decide
  short := by decide
  known := by rw [robot_type]; show natAt _ 0 4 < 14; decide

/-- The server closes the connection instead of answering, `C10_dead_connection_never_returns`. -/
theorem Toy.closed (n : Nat) : NoAnswer (robot ([quiet, { eof := true }] ++ List.replicate n quiet)) where
  rx := robot_rx _
  pending := robot_pending _
  absent := by rw [robot_id]; exact robot_table _
  nothing := by
    rw [robot_script]
    have : tcpArrived (List.replicate n quiet) = [] := by induction n <;> simp_all [List.replicate_succ, quiet]
    rw [tcpArrived_append, this]; rfl

/-- Two servers which send the same bytes in different pieces. -/
example : tcpArrived (world (handshake ++ [quiet, tcp (response 7 1 0)])).script =
    tcpArrived (world (handshake ++ [tcp [7, 0, 0, 0], quiet, tcp [1, 0, 0, 0, 13, 0, 0, 0, 0]])).script := by decide

/-- A gripper whose answer is cut behind its header. -/
example : AnswerCut (gripper ([quiet, tcp ((gripperResponse 1 1 0).take 10), quiet, quiet, quiet, quiet, tcp [0, 0]])) (gripperResponse 1 1 0) 10 where
  rx := gripper_rx _
  edge := gripper_edge _
  pending := gripper_pending _
  absent := by rw [gripper_id]; exact gripper_table _
  ids := by rw [gripper_id]; decide
  schedule := ⟨[quiet], tcp ((gripperResponse 1 1 0).take 10), quiet, quiet, quiet, quiet, [tcp [0, 0]], gripper_script _, by simp,
    by intro t ht; simp only [List.mem_cons, List.not_mem_nil, or_false] at ht; subst ht; exact ⟨rfl, rfl, rfl⟩, rfl,
    by intro t ht; simp only [List.mem_cons, List.not_mem_nil, or_false, or_self] at ht; subst ht; exact ⟨rfl, rfl, rfl⟩, rfl, by decide⟩
  frame := by rw [gripper_type, gripper_id]; exact frame_gripperResponse 1 1 0
  body := by rw [gripper_type]; decide
  cut := by decide
  short := by decide
  known := by rw [gripper_type]; show natAt _ 0 2 < 5; decide

end examples

end Verif
