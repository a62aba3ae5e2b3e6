import Verif.Lemmas.Prog
import Verif.Model.Robot
import Verif.Model.Gripper
/-!
# Relations kept by the code

A relation `T` between worlds that holds for the elementary effects of a layer holds for every function of that layer.
The classes list the elementary effects, layer by layer.
-/
namespace Verif
open Prog
variable {F : Type}

/-- `T` holds when a tick happens. -/
class TSys (T : World F → World F → Prop) : Prop extends Pre T where
  tick : ∀ w t ts, w.script = t :: ts → T w { w with script := ts, ker := w.ker.arrive t }

/-- `T` holds for the effects of reading bytes from the TCP stream. -/
class TRecv (T : World F → World F → Prop) : Prop extends TSys T where
  poll : ∀ w : World F, T w { w with ker := { w.ker with tcpEdge := false } }
  read : ∀ (w : World F) n, T w { w with
    ker := { w.ker with tcpRx := w.ker.tcpRx.drop n }, trace := w.trace ++ [.tcpRecv (w.ker.tcpRx.take n)] }
  pend : ∀ (w : World F) p o, T w { w with net := { w.net with pending_response := p, pending_response_offset := o } }
  head : ∀ (w : World F) l i, T w { w with net := { w.net with pending_response_len := l, pending_command_id := i } }

/-- `T` holds for the effects of reading responses from the TCP stream. -/
class TRead (T : World F → World F → Prop) : Prop extends TRecv T where
  store : ∀ (w : World F), T w { w with
    trace := w.trace ++ [.response w.net.pending_command_id w.net.pending_response]
    net := { w.net with
      received_responses := fun i =>
        if i = w.net.pending_command_id then some w.net.pending_response else w.net.received_responses i
      pending_response := []
      pending_response_offset := 0
      pending_command_id := 0
      pending_response_len := 0 } }

/-- `T` holds for the effects of reading responses and of handing them to a caller. -/
class TTcp (T : World F → World F → Prop) : Prop extends TRead T where
  remove : ∀ (w : World F) id, T w { w with net := { w.net with
    received_responses := fun i => if i = id then none else w.net.received_responses i } }

/-- `T` holds for the effects of receiving datagrams. -/
class TUdp (T : World F → World F → Prop) : Prop extends TSys T where
  upoll : ∀ w : World F, T w { w with ker := { w.ker with udpEdge := false } }
  recv : ∀ (w : World F) d ds, w.ker.udpRx = d :: ds →
    T w { w with ker := { w.ker with udpRx := ds }, trace := w.trace ++ [.udpRecv d] }
  addr : ∀ (w : World F) a, T w { w with net := { w.net with udp_server_address := a } }

/-- `T` holds for the effects of sending a robot request with a body accepted by `B`. -/
class TReq (T : World F → World F → Prop) (B : outParam (RobotBody F → Prop)) : Prop extends TSys T where
  next : ∀ w : World F, T w { w with net := { w.net with command_id := w.net.command_id + 1 } }
  req : ∀ (w : World F) r, B r.request → T w { w with trace := w.trace ++ [.robotReq r] }

/-- `T` holds for the effects of sending a gripper request. -/
class TGReq (T : World F → World F → Prop) : Prop extends TSys T where
  gnext : ∀ w : World F, T w { w with net := { w.net with command_id := w.net.command_id + 1 } }
  greq : ∀ (w : World F) r, T w { w with trace := w.trace ++ [.gripperReq r] }

/-- `T` holds when a state is accepted. -/
class TAcc (T : World F → World F → Prop) : Prop extends TUdp T where
  acc : ∀ (w : World F) (s : RobotStateIntern F), T w { w with
    rob := { w.rob with
      motion_generator_mode := some s.motion_generator_mode, controller_mode := s.controller_mode, message_id := s.message_id }
    trace := w.trace ++ [.accepted s] }

/-- `T` holds when only the logger, the version or the mode of the current motion change. -/
class TRob (T : World F → World F → Prop) : Prop extends Pre T where
  rob : ∀ (w : World F) l v m c, T w { w with rob := { w.rob with
    logger := l, ri_version := v, current_move_motion_generator_mode := m, current_move_controller_mode := c } }

/-- `T` holds when a command is sent. -/
class TCmd (T : World F → World F → Prop) : Prop extends TSys T where
  send : ∀ (w : World F) c, T w { w with trace := w.trace ++ [.udpSend w.net.udp_server_address c] }

/-- `T` holds when a callback is called. -/
class TCb (T : World F → World F → Prop) : Prop extends Pre T where
  motion : ∀ (w : World F) k s dt m, T w { w with trace := w.trace ++ [.motionCb k s dt m] }
  control : ∀ (w : World F) s dt t, T w { w with trace := w.trace ++ [.controlCb s dt t] }

section sys
variable {T : World F → World F → Prop} [TSys T]

theorem pres_sys : Pres T (sys : Prog F Tick) := by
  intro w
  unfold sys
  split
  · exact Pre.refl w
  · exact TSys.tick w _ _ ‹_›
end sys

section tcp
variable {T : World F → World F → Prop}

section
variable [TRecv T]

theorem pres_deserialize {T : World F → World F → Prop} [Pre T] {α : Type} (c : Codec α) (bs : Bytes) :
    Pres T (deserialize c bs : Prog F α) := by
  unfold deserialize; pres

theorem pres_tcp_poll : Pres T (tcp_poll : Prog F Bool) := by
  unfold tcp_poll
  pres [pres_sys, (show Pres T (modify _) from fun w => TRecv.poll w)]

theorem pres_tcp_peek : Pres T (tcp_peek : Prog F (Option Nat)) := by
  unfold tcp_peek; pres [pres_sys]

theorem pres_tcp_read_exact (n : Nat) : Pres T (tcp_read_exact n : Prog F Bytes) := by
  unfold tcp_read_exact
  refine Pres.loop ?_ _
  intro got
  refine Pres.ite ?_ (Pres.pure _)
  refine Pres.bind pres_sys fun t => ?_
  intro w
  by_cases h : (t.fail || w.ker.tcpRx.isEmpty) = true
  · have : (do
        let k ← gets fun w => w.ker
        if t.fail || k.tcpRx.isEmpty then Prog.panic "called `Result::unwrap()` on an `Err` value: io error"
        else do
          let bs := k.tcpRx.take (n - got.length)
          modify fun w => { w with ker := { w.ker with tcpRx := w.ker.tcpRx.drop (n - got.length) } }
          emit (.tcpRecv bs)
          pure (.inl (got ++ bs)) : Prog F (Bytes ⊕ Bytes)) w = (.panic "called `Result::unwrap()` on an `Err` value: io error", w) := by
      show (if _ then _ else _ : Prog F (Bytes ⊕ Bytes)) w = _
      rw [if_pos h]; rfl
    rw [this]; exact Pre.refl w
  · have : (do
        let k ← gets fun w => w.ker
        if t.fail || k.tcpRx.isEmpty then Prog.panic "called `Result::unwrap()` on an `Err` value: io error"
        else do
          let bs := k.tcpRx.take (n - got.length)
          modify fun w => { w with ker := { w.ker with tcpRx := w.ker.tcpRx.drop (n - got.length) } }
          emit (.tcpRecv bs)
          pure (.inl (got ++ bs)) : Prog F (Bytes ⊕ Bytes)) w = (.ok (.inl (got ++ w.ker.tcpRx.take (n - got.length))),
            { w with ker := { w.ker with tcpRx := w.ker.tcpRx.drop (n - got.length) },
                     trace := w.trace ++ [.tcpRecv (w.ker.tcpRx.take (n - got.length))] }) := by
      show (if _ then _ else _ : Prog F (Bytes ⊕ Bytes)) w = _
      rw [if_neg h]; rfl
    rw [this]; exact TRecv.read w _

theorem pres_decode_header {T : World F → World F → Prop} [Pre T] (nt : NetworkType) (bs : Bytes) :
    Pres T (decode_header nt bs : Prog F (Nat × UInt32)) := by
  unfold decode_header; pres [pres_deserialize _ _]

theorem pres_read_header (n : Nat) : Pres T (read_header n : Prog F Unit) := by
  unfold read_header
  pres [pres_tcp_read_exact _, pres_decode_header _ _, (show Pres T (modify _) from fun w => TRecv.pend w _ _),
    (show Pres T (modify _) from fun w => TRecv.head w _ _)]

end

variable [TRead T]

theorem pres_read_body (n : Nat) : Pres T (read_body n : Prog F Unit) := by
  unfold read_body
  refine Pres.bind (Pres.gets _) fun pending => Pres.ite ?_ (Pres.pure _)
  refine Pres.bind (Pres.gets _) fun _ => Pres.bind (Pres.gets _) fun _ => Pres.bind (Pres.gets _) fun _ =>
    Pres.bind (Pres.liftP _) fun _ => Pres.bind (pres_tcp_read_exact _) fun _ =>
    Pres.bind (show Pres T (modify _) from fun w => TRecv.pend w _ _) fun _ => ?_
  intro w
  by_cases h : w.net.pending_response_offset = w.net.pending_response_len
  · show T w (((if _ then _ else _ : Prog F Unit)) w).2
    rw [if_pos h]
    exact TRead.store w
  · show T w (((if _ then _ else _ : Prog F Unit)) w).2
    rw [if_neg h]
    exact Pre.refl w

theorem pres_tcp_read_from_buffer : Pres T (tcp_read_from_buffer : Prog F Unit) := by
  unfold tcp_read_from_buffer
  pres [pres_tcp_poll, pres_tcp_peek, pres_read_header _, pres_read_body _]

section
variable {T : World F → World F → Prop} [TTcp T]

theorem pres_remove_response (id : UInt32) : Pres T (remove_response id : Prog F (Option Bytes)) := by
  unfold remove_response
  pres [(show Pres T (modify _) from fun w => TTcp.remove w _)]

theorem pres_wait_for_response_to_arrive (id : UInt32) : Pres T (wait_for_response_to_arrive id : Prog F Bytes) := by
  unfold wait_for_response_to_arrive
  pres [pres_tcp_read_from_buffer, pres_remove_response _]

theorem pres_tcp_blocking_receive_response {α : Type} (c : Codec α) (id : UInt32) :
    Pres T (tcp_blocking_receive_response c id : Prog F α) := by
  unfold tcp_blocking_receive_response
  pres [pres_wait_for_response_to_arrive _, pres_deserialize _ _]

theorem pres_tcp_blocking_receive_load_library_response (id : UInt32) :
    Pres T (tcp_blocking_receive_load_library_response id : Prog F Bytes) := by
  unfold tcp_blocking_receive_load_library_response
  pres [pres_wait_for_response_to_arrive _, pres_deserialize _ _]

theorem pres_tcp_receive_response (id : UInt32) (h : MoveResponse → Except (FrankaException F) Unit) :
    Pres T (tcp_receive_response id h : Prog F Bool) := by
  unfold tcp_receive_response
  pres [pres_tcp_read_from_buffer, pres_remove_response _, pres_deserialize _ _]
end
end tcp

section udp
variable {T : World F → World F → Prop} [TUdp T]

theorem pres_recv_from (b : Bytes) : Pres T (recv_from b : Prog F (Option (Bytes × Nat × Addr))) := by
  unfold recv_from
  refine Pres.bind pres_sys fun t => Pres.ite (Pres.pure _) ?_
  intro w
  cases h : w.ker.udpRx with
  | nil =>
    show T w ((match w.ker.udpRx with | [] => _ | d :: ds => _ : Prog F _) w).2
    rw [h]; exact Pre.refl w
  | cons d ds =>
    show T w ((match w.ker.udpRx with | [] => _ | d :: ds => _ : Prog F _) w).2
    rw [h]; exact TUdp.recv w d ds h

theorem pres_udp_drain (b : Bytes) : Pres T (udp_drain b : Prog F Bytes) := by
  unfold udp_drain; pres [pres_recv_from _]

theorem pres_udp_poll : Pres T (udp_poll : Prog F Bool) := by
  unfold udp_poll
  pres [pres_sys, (show Pres T (modify _) from fun w => TUdp.upoll w)]

theorem pres_udp_blocking_receive {α : Type} (c : Codec α) (n : Nat) : Pres T (udp_blocking_receive c n : Prog F α) := by
  unfold udp_blocking_receive
  pres [pres_udp_poll, pres_recv_from _, pres_udp_drain _, pres_deserialize _ _,
    (show Pres T (modify _) from fun w => TUdp.addr w _)]

theorem pres_udp_peek (n : Nat) : Pres T (udp_peek n : Prog F (Option Nat)) := by
  unfold udp_peek; pres [pres_sys]

theorem pres_udp_receive {α : Type} (c : Codec α) (n : Nat) : Pres T (udp_receive c n : Prog F (Option α)) := by
  unfold udp_receive
  pres [pres_udp_peek _, pres_udp_blocking_receive _ _]
end udp

/-- Sending a request: `tcp_send_request` after `create_header_for_robot`. -/
theorem pres_next_command_id {T : World F → World F → Prop} [Pre T]
    (h : ∀ w : World F, T w { w with net := { w.net with command_id := w.net.command_id + 1 } }) :
    Pres T (next_command_id : Prog F UInt32) := by
  intro w
  unfold next_command_id
  by_cases hc : (w.cfg.overflow_checks && decide (w.net.command_id = 0xffffffff)) = true
  · show T w ((if _ then _ else _ : Prog F UInt32) w).2
    rw [if_pos hc]; exact Pre.refl w
  · show T w ((if _ then _ else _ : Prog F UInt32) w).2
    rw [if_neg hc]; exact h w

section req
variable {T : World F → World F → Prop} {B : RobotBody F → Prop} [TReq T B]

include B in
theorem pres_create_header_for_robot (c : RobotCommandEnum) (n : Nat) :
    Pres T (create_header_for_robot c n : Prog F RobotCommandHeader) := by
  unfold create_header_for_robot
  pres [pres_next_command_id TReq.next]

theorem pres_tcp_send_request (r : RobotReq F) (hr : B r.request) : Pres T (tcp_send_request r : Prog F UInt32) := by
  unfold tcp_send_request
  pres [pres_sys, (show Pres T (emit _) from fun w => TReq.req w _ hr)]

/-- The pattern of every request with a blocking answer. -/
theorem pres_rpc [TTcp T] {α β : Type} (c : RobotCommandEnum) (n : Nat) (b : RobotBody F) (hb : B b) (k : Codec α)
    (f : α → Prog F β) (hf : ∀ a, Pres T (f a)) :
    Pres T (do
      let header ← create_header_for_robot c n
      let command_id ← tcp_send_request ⟨header, b⟩
      let response ← tcp_blocking_receive_response k command_id
      f response) := by
  refine Pres.bind (pres_create_header_for_robot c n) fun _ => ?_
  refine Pres.bind (pres_tcp_send_request _ hb) fun _ => ?_
  exact Pres.bind (pres_tcp_blocking_receive_response _ _) hf
end req

section greq
variable {T : World F → World F → Prop} [TGReq T]

theorem pres_create_header_for_gripper (c : Gripper.Command) (n : Nat) :
    Pres T (create_header_for_gripper c n : Prog F Gripper.CommandHeader) := by
  unfold create_header_for_gripper
  pres [pres_next_command_id TGReq.gnext]

theorem pres_tcp_send_request_gripper (r : Gripper.Req F) : Pres T (tcp_send_request_gripper r : Prog F UInt32) := by
  unfold tcp_send_request_gripper
  pres [pres_sys, (show Pres T (emit _) from fun w => TGReq.greq w _)]
end greq

section acc
variable {T : World F → World F → Prop} [TAcc T]

theorem pres_update_state_with (s : RobotStateIntern F) : Pres T (update_state_with s) :=
  fun w => TAcc.acc w s

variable [Wire F]

theorem pres_receive_available : Pres T (receive_available : Prog F (Option (RobotStateIntern F))) := by
  unfold receive_available
  pres [pres_udp_receive _ _]

theorem pres_receive_newer (l : Option (RobotStateIntern F)) : Pres T (receive_newer l) := by
  unfold receive_newer
  pres [pres_udp_blocking_receive _ _]

theorem pres_receive_robot_state : Pres T (receive_robot_state : Prog F (RobotStateIntern F)) := by
  unfold receive_robot_state
  pres [pres_receive_available, pres_receive_newer _, pres_update_state_with _]

theorem pres_discard_available : Pres T (discard_available : Prog F Unit) := by
  unfold discard_available
  pres [pres_udp_receive _ _]

theorem pres_robotImpl_read_once [Fl F] : Pres T (RobotImpl.read_once : Prog F (RobotState F)) := by
  unfold RobotImpl.read_once
  pres [pres_discard_available, pres_receive_robot_state]
end acc

theorem pres_unwrapOpt {T : World F → World F → Prop} [Pre T] {α : Type} (o : Option α) :
    Pres T (unwrapOpt o : Prog F α) := by
  unfold unwrapOpt; pres

theorem pres_ofExcept {T : World F → World F → Prop} [Pre T] {α : Type} (o : Except (FrankaException F) α) :
    Pres T (ofExcept o : Prog F α) := by
  unfold ofExcept; pres

theorem pres_something_running {T : World F → World F → Prop} [Pre T] : Pres T (something_running : Prog F Bool) := by
  unfold something_running motion_generator_running controller_running
  pres [pres_unwrapOpt _]

theorem pres_modes_differ {T : World F → World F → Prop} [Pre T] : Pres T (modes_differ : Prog F Bool) := by
  unfold modes_differ
  pres [pres_unwrapOpt _]

theorem pres_motion_error {T : World F → World F → Prop} [Pre T] (s : RobotState F) :
    Pres T (motion_error s : Prog F Bool) := by
  unfold motion_error
  pres [pres_unwrapOpt _]

theorem pres_set_logger {T : World F → World F → Prop} [TRob T] (l : Logger F) :
    Pres T (modify fun w => { w with rob := { w.rob with logger := l } }) :=
  fun w => TRob.rob w l w.rob.ri_version w.rob.current_move_motion_generator_mode w.rob.current_move_controller_mode

theorem pres_set_version {T : World F → World F → Prop} [TRob T] (v : Option UInt16) :
    Pres T (modify fun w : World F => { w with rob := { w.rob with ri_version := v } }) :=
  fun w => TRob.rob w w.rob.logger v w.rob.current_move_motion_generator_mode w.rob.current_move_controller_mode

theorem pres_set_modes {T : World F → World F → Prop} [TRob T] (m : MotionGeneratorMode) (c : Option ControllerMode) :
    Pres T (modify fun w : World F => { w with rob := { w.rob with
      current_move_motion_generator_mode := m, current_move_controller_mode := c } }) :=
  fun w => TRob.rob w w.rob.logger w.rob.ri_version m c

theorem pres_forget_motion {T : World F → World F → Prop} [TRob T] : Pres T (forget_motion : Prog F Unit) :=
  pres_set_modes _ _

theorem pres_flush_logger {T : World F → World F → Prop} [TRob T] : Pres T (flush_logger : Prog F (List (Record F))) := by
  unfold flush_logger
  pres [pres_set_logger _]

section cmd
variable {T : World F → World F → Prop} [TCmd T] [Wire F]

theorem pres_udp_send (c : RobotCommand F) : Pres T (udp_send c) := by
  unfold udp_send
  refine Pres.bind pres_sys fun t => Pres.ite (Pres.err _) ?_
  intro w
  have := TCmd.send (T := T) w c
  show Post _ w (fun _ w' => T w w')
  simp only [post_bind, post_gets, after_ok, post_emit, post_ite, post_err, post_pure]
  exact ⟨fun _ => this, fun _ => this⟩

theorem pres_send_robot_command [Fl F] (m : Option (MotionGeneratorCommand F)) (c : Option (ControllerCommand F)) :
    Pres T (send_robot_command m c) := by
  unfold send_robot_command send_command_or_wrap
  pres [pres_udp_send _, pres_unwrapOpt _]
end cmd

/-- Updating without a command sends nothing. -/
theorem pres_update_none {T : World F → World F → Prop} [TAcc T] [TRob T] [Fl F] [Wire F] :
    Pres T (update (F := F) none none) := by
  unfold update
  refine Pres.bind ?_ ?_
  · unfold send_robot_command
    simp only [Option.isSome_none, Bool.or_self, Bool.false_eq_true, if_false]
    pres
  · pres [pres_receive_robot_state, pres_set_logger _]

theorem pres_update {T : World F → World F → Prop} [TAcc T] [TRob T] [TCmd T] [Fl F] [Wire F]
    (m : Option (MotionGeneratorCommand F)) (c : Option (ControllerCommand F)) : Pres T (update m c) := by
  unfold update
  pres [pres_send_robot_command _ _, pres_receive_robot_state, pres_set_logger _]

theorem pres_fail_with_log {T : World F → World F → Prop} [TRob T] [Fl F] {α : Type} (m : String) (s : MoveStatus)
    (r : FrankaErrors) : Pres T (fail_with_log m s r : Prog F α) := by
  unfold fail_with_log
  pres [pres_flush_logger]

theorem pres_throw_on_motion_error {T : World F → World F → Prop} [TRob T] [TTcp T] [Fl F] (s : RobotState F)
    (id : UInt32) : Pres T (throw_on_motion_error s id) := by
  unfold throw_on_motion_error
  pres [pres_motion_error _, pres_tcp_blocking_receive_response _ _, pres_fail_with_log _ _ _]

theorem pres_wait_for_motion_start {T : World F → World F → Prop} [TAcc T] [TRob T] [TTcp T] [Fl F] [Wire F]
    (id : UInt32) : Pres T (wait_for_motion_start id : Prog F Unit) := by
  unfold wait_for_motion_start
  pres [pres_modes_differ, pres_tcp_receive_response _ _, pres_update_none]

theorem pres_execute_move_command {T : World F → World F → Prop} {B : RobotBody F → Prop} [TReq T B] [TTcp T]
    (cm : MoveControllerMode) (mm : MoveMotionGeneratorMode) (a b : MoveDeviation F) (hB : B (.Move ⟨cm, mm, a, b⟩)) :
    Pres T (execute_move_command cm mm a b) := by
  unfold execute_move_command
  refine Pres.bind (pres_create_header_for_robot _ _) fun _ => ?_
  refine Pres.bind (pres_tcp_send_request _ hB) fun _ => ?_
  pres [pres_tcp_blocking_receive_response _ _, pres_ofExcept _]

theorem pres_execute_stop_command {T : World F → World F → Prop} {B : RobotBody F → Prop} [TReq T B] [TTcp T]
    (hB : B .StopMove) : Pres T (execute_stop_command : Prog F UInt32) := by
  unfold execute_stop_command
  refine Pres.bind (pres_create_header_for_robot _ _) fun _ => ?_
  refine Pres.bind (pres_tcp_send_request _ hB) fun _ => ?_
  pres [pres_tcp_blocking_receive_response _ _, pres_ofExcept _]

theorem pres_start_motion {T : World F → World F → Prop} {B : RobotBody F → Prop} [TReq T B] [TTcp T] [TAcc T] [TRob T]
    [Fl F] [Wire F]
    (cm : MoveControllerMode) (mm : MoveMotionGeneratorMode) (a b : MoveDeviation F) (hB : B (.Move ⟨cm, mm, a, b⟩)) :
    Pres T (start_motion cm mm a b) := by
  unfold start_motion
  pres [pres_something_running, pres_set_modes _ _, pres_execute_move_command _ _ _ _ hB, pres_wait_for_motion_start _,
    pres_flush_logger]

theorem pres_finish_motion {T : World F → World F → Prop} [TTcp T] [TAcc T] [TRob T] [TCmd T] [Fl F] [Wire F]
    (id : UInt32) (m : Option (MotionGeneratorCommand F)) (c : Option (ControllerCommand F)) :
    Pres T (finish_motion id m c) := by
  unfold finish_motion finish_loop
  pres [pres_something_running, pres_update _ _, pres_unwrapOpt _, pres_tcp_blocking_receive_response _ _,
    pres_fail_with_log _ _ _, pres_forget_motion]

theorem pres_cancel_loop {T : World F → World F → Prop} [TAcc T] [Wire F] : Pres T (cancel_loop : Prog F Unit) := by
  unfold cancel_loop
  pres [pres_something_running, pres_receive_robot_state]

theorem pres_cancel_motion {T : World F → World F → Prop} {B : RobotBody F → Prop} [TReq T B] [TTcp T] [TAcc T] [TRob T]
    [Fl F] [Wire F] (hB : B .StopMove) (id : UInt32) : Pres T (cancel_motion id : Prog F Unit) := by
  unfold cancel_motion
  pres [pres_execute_stop_command hB, pres_receive_robot_state, pres_cancel_loop, pres_tcp_receive_response _ _,
    pres_forget_motion]

section loop
variable {T : World F → World F → Prop} [TCb T] [Fl F] {σ : Type} {k : MotionKind} (l : ControlLoop F σ k)

theorem pres_spin_control (cb : σ → RobotState F → Nat → σ × Torques F) (c : σ) (s : RobotState F) (dt : Nat) :
    Pres T (l.spin_control cb c s dt) := by
  unfold ControlLoop.spin_control
  pres [(show Pres T (emit _) from fun w => TCb.control w _ _ _)]

theorem pres_spin_motion [Geo F] (c : σ) (s : RobotState F) (dt : Nat) (m : MotionGeneratorCommand F) :
    Pres T (l.spin_motion c s dt m) := by
  unfold ControlLoop.spin_motion
  pres [(show Pres T (emit _) from fun w => TCb.motion w _ _ _ _)]

variable [TTcp T] [TAcc T] [TRob T] [TCmd T] [Wire F] [Geo F]

theorem pres_torque_loop (cb : σ → RobotState F → Nat → σ × Torques F) (v : ControlLoop.Locals F σ) :
    Pres T (l.torque_loop cb v) := by
  unfold ControlLoop.torque_loop
  pres [pres_spin_motion _ _ _ _ _, pres_spin_control _ _ _ _ _, pres_update _ _, pres_throw_on_motion_error _ _]

theorem pres_motion_loop (v : ControlLoop.Locals F σ) : Pres T (l.motion_loop v) := by
  unfold ControlLoop.motion_loop
  pres [pres_spin_motion _ _ _ _ _, pres_update _ _, pres_throw_on_motion_error _ _]

theorem pres_do_loop (c : σ) : Pres T (l.do_loop c) := by
  unfold ControlLoop.do_loop
  pres [pres_update_none, pres_throw_on_motion_error _ _, pres_torque_loop _ _ _, pres_motion_loop _ _,
    pres_finish_motion _ _ _]

theorem pres_run {B : RobotBody F → Prop} [TReq T B] (hB : B .StopMove) (c : σ) : Pres T (l.run c) := by
  unfold ControlLoop.run
  pres [pres_do_loop _ _, pres_cancel_motion hB _]
end loop

end Verif
