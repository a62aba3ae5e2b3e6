import Verif.Lemmas.ApiSteps
/-!
# Every loop of the model makes progress

The bound `script.length + 1` in `Prog.loop` is never reached: each round that continues consumes a tick. Hence every loop
of the model equals its unfolding (`loop_unfold`), as a `while` loop should.
-/
namespace Verif
open Prog
variable {F : Type}

instance : TRobot (Shorter (F := F)) (fun _ => True) where
  tick w t ts h := by simp [Shorter, h]
  poll _ := Nat.le_refl _
  read _ _ := Nat.le_refl _
  pend _ _ _ := Nat.le_refl _
  head _ _ _ := Nat.le_refl _
  store _ := Nat.le_refl _
  remove _ _ := Nat.le_refl _
  upoll _ := Nat.le_refl _
  recv _ _ _ _ := Nat.le_refl _
  addr _ _ := Nat.le_refl _
  next _ := Nat.le_refl _
  req _ _ _ := Nat.le_refl _
  acc _ _ := Nat.le_refl _
  rob _ _ _ _ _ := Nat.le_refl _
  send _ _ := Nat.le_refl _
  motion _ _ _ _ _ := Nat.le_refl _
  control _ _ _ _ := Nat.le_refl _
  readCb _ _ _ := Nat.le_refl _
  file _ _ := Nat.le_refl _

section
variable {α β γ : Type}

theorem consumes_of_post {body : β → Prog F (β ⊕ γ)}
    (h : ∀ b w, Post (body b) w fun r w' => match r with
      | .ok (.inl _) => w'.script.length < w.script.length
      | _ => True) : Consumes body := by
  intro b w b' w' hb
  have := h b w
  unfold Post at this
  rw [hb] at this
  exact this

theorem consumes_of_eats {body : β → Prog F (β ⊕ γ)} (h : ∀ b, Eats (body b)) : Consumes body := by
  apply consumes_of_post
  intro b w
  refine (h b w).mono ?_
  intro r w' hr
  cases r with
  | ok x => cases x <;> simp only at hr ⊢; exact hr
  | _ => trivial

theorem eats_of_ok {p : Prog F α} {f : α → Prog F β} (hp : Eats p) (hf : ∀ a, Pres Shorter (f a)) : Eats (p >>= f) := hp.bind hf

theorem Eats.ite {c : Prop} [Decidable c] {p q : Prog F α} (hp : Eats p) (hq : Eats q) : Eats (if c then p else q) := by
  split <;> assumption

theorem Eats.panic (m) : Eats (Prog.panic m : Prog F α) := fun _ => trivial

theorem consumes_tcp_read_exact (n : Nat) : Consumes (fun got : Bytes =>
    if got.length < n then do
      let t ← sys
      let k ← gets fun w => w.ker
      if t.fail || k.tcpRx.isEmpty then Prog.panic "called `Result::unwrap()` on an `Err` value: io error"
      else do
        let bs := k.tcpRx.take (n - got.length)
        Prog.modify fun w => { w with ker := { w.ker with tcpRx := w.ker.tcpRx.drop (n - got.length) } }
        emit (.tcpRecv bs)
        pure (.inl (got ++ bs))
    else (pure (.inr got) : Prog F (Bytes ⊕ Bytes))) := by
  apply consumes_of_post
  intro got w
  by_cases h : got.length < n
  · simp only [if_pos h]
    refine ((eats_sys.bind fun t => ?_) w).mono ?_
    · intro w'
      show Post _ w' fun _ w'' => Shorter w' w''
      simp [Shorter]
    · intro r w' hr
      cases r with
      | ok x => cases x <;> simp only at hr ⊢; exact hr
      | _ => trivial
  · simp [if_neg h]

theorem eats_tcp_poll : Eats (tcp_poll : Prog F Bool) := by
  unfold tcp_poll
  refine eats_sys.bind fun t => ?_
  pres [(show Pres Shorter (Prog.modify _) from fun w => TRecv.poll w)]

theorem eats_tcp_read_from_buffer : Eats (tcp_read_from_buffer : Prog F Unit) := by
  unfold tcp_read_from_buffer
  refine eats_tcp_poll.bind fun e => ?_
  pres [pres_tcp_peek, pres_read_header _, pres_read_body _]

theorem consumes_wait_for_response_to_arrive (id : UInt32) : Consumes (fun _ : Unit => (do
    tcp_read_from_buffer
    match ← remove_response id with
    | some bs => pure (.inr bs)
    | none => pure (.inl ()) : Prog F (Unit ⊕ Bytes))) := by
  apply consumes_of_eats
  intro _
  refine eats_tcp_read_from_buffer.bind fun e => ?_
  pres [pres_remove_response _]

theorem eats_recv_from (b : Bytes) : Eats (recv_from b : Prog F _) := by
  unfold recv_from
  refine eats_sys.bind fun t => ?_
  refine Pres.ite (Pres.pure _) ?_
  intro w
  show Post _ w fun _ w' => Shorter w w'
  simp only [post_bind, post_gets, after_ok]
  split <;> simp [Shorter]

theorem consumes_udp_drain : Consumes (fun b : Bytes => (do
    match ← recv_from b with
    | some (b', _, _) => pure (.inl b')
    | none => pure (.inr b) : Prog F (Bytes ⊕ Bytes))) := by
  apply consumes_of_eats
  intro b
  refine (eats_recv_from b).bind fun e => ?_
  pres

theorem eats_udp_poll : Eats (udp_poll : Prog F Bool) := by
  unfold udp_poll
  refine eats_sys.bind fun t => ?_
  pres [(show Pres Shorter (Prog.modify _) from fun w => TUdp.upoll w)]

theorem eats_udp_blocking_receive (c : Codec α) (n : Nat) : Eats (udp_blocking_receive c n : Prog F α) := by
  unfold udp_blocking_receive
  refine eats_udp_poll.bind fun e => ?_
  pres [pres_recv_from _, pres_udp_drain _, pres_deserialize _ _,
    (show Pres Shorter (Prog.modify _) from fun w => TUdp.addr w _)]

theorem eats_udp_peek (n : Nat) : Eats (udp_peek n : Prog F _) := by
  unfold udp_peek
  refine eats_sys.bind fun t => ?_
  pres

theorem eats_udp_receive (c : Codec α) (n : Nat) : Eats (udp_receive c n : Prog F (Option α)) := by
  unfold udp_receive
  refine (eats_udp_peek n).bind fun e => ?_
  pres [pres_udp_blocking_receive _ _]

variable [Wire F]

theorem consumes_receive_available : Consumes (fun latest : Option (RobotStateIntern F) => (do
    match ← udp_receive (RobotStateIntern.codec F) size_of_RobotStateIntern with
    | none => pure (.inr latest)
    | some s => do
      let own ← gets fun w => w.rob.message_id
      let bound := match latest with
        | some l => l.message_id
        | none => own
      if bound < s.message_id then pure (.inl (some s)) else pure (.inl latest) :
        Prog F (Option (RobotStateIntern F) ⊕ Option (RobotStateIntern F)))) := by
  apply consumes_of_eats
  intro l
  refine (eats_udp_receive _ _).bind fun e => ?_
  pres

theorem consumes_receive_newer : Consumes (fun latest : Option (RobotStateIntern F) => (
    match latest with
    | some s => pure (.inr s)
    | none => do
      let s ← udp_blocking_receive (RobotStateIntern.codec F) size_of_RobotStateIntern
      let own ← gets fun w => w.rob.message_id
      if own < s.message_id then pure (.inl (some s)) else pure (.inl none) :
        Prog F (Option (RobotStateIntern F) ⊕ RobotStateIntern F))) := by
  apply consumes_of_post
  intro l w
  cases l with
  | some s => simp
  | none =>
    refine (((eats_udp_blocking_receive _ _).bind fun e => ?_) w).mono ?_
    · pres
    · intro r w' hr
      cases r with
      | ok x => cases x <;> simp only at hr ⊢; exact hr
      | _ => trivial

theorem consumes_discard_available : Consumes (fun _ : Unit => (do
    match ← udp_receive (RobotStateIntern.codec F) size_of_RobotStateIntern with
    | some _ => pure (.inl ())
    | none => pure (.inr ()) : Prog F (Unit ⊕ Unit))) := by
  apply consumes_of_eats
  intro _
  refine (eats_udp_receive _ _).bind fun e => ?_
  pres

theorem eats_receive_available : Eats (receive_available : Prog F (Option (RobotStateIntern F))) := by
  have h : (receive_available : Prog F (Option (RobotStateIntern F))) = _ := loop_unfold consumes_receive_available none
  rw [h]
  refine Eats.bind (Eats.bind (eats_udp_receive _ _) fun e => ?_) fun e => ?_
  · pres
  · split
    · apply Pres.loop
      pres [pres_udp_receive _ _]
    · pres

theorem eats_receive_robot_state : Eats (receive_robot_state : Prog F (RobotStateIntern F)) := by
  unfold receive_robot_state
  refine eats_receive_available.bind fun e => ?_
  pres [pres_receive_newer _, pres_update_state_with _]

variable [Fl F]

omit [Wire F] [Fl F] in
theorem eats_tcp_receive_response (id : UInt32) (h : MoveResponse → Except (FrankaException F) Unit) :
    Eats (tcp_receive_response id h : Prog F Bool) := by
  unfold tcp_receive_response
  refine eats_tcp_read_from_buffer.bind fun e => ?_
  pres [pres_remove_response _, pres_deserialize _ _]

theorem consumes_wait_for_motion_start (id : UInt32) : Consumes (fun _ : Unit => (do
    if ← modes_differ then do
      match ← attempt (tcp_receive_response id handle_command_response_move) with
      | .ok true => pure (.inr ())
      | .ok false => do
        let _ ← update none none
        pure (.inl ())
      | .error (.CommandException message) => err (.ControlException none message)
      | .error _ => Prog.panic "this should be an command exception but it is not"
    else pure (.inr ()) : Prog F (Unit ⊕ Unit))) := by
  apply consumes_of_post
  intro _ w
  rw [post_bind]
  refine ((pres_modes_differ (T := Shorter)).post w).mono ?_
  intro r w' hr
  cases r with
  | ok b =>
    rw [after_ok]
    cases b with
    | false => simp
    | true =>
      simp only [if_true]
      refine (((eats_tcp_receive_response id _).attempt.bind fun e => ?_) w').mono ?_
      · pres [pres_update_none]
      · intro r w'' hr'
        simp only [Shorter] at hr
        cases r with
        | ok x => cases x <;> simp only at hr' ⊢; omega
        | _ => trivial
  | _ => trivial

theorem update_eats_ok (m : Option (MotionGeneratorCommand F)) (c : Option (ControllerCommand F)) (w : World F) :
    Post (update m c) w fun r w' => match r with
      | .ok _ => w'.script.length < w.script.length
      | _ => True := by
  unfold update
  refine ((pres_send_robot_command (T := Shorter) m c).post w).bind ?_
  intro r w' hr
  cases r with
  | ok b =>
    rw [after_ok]
    refine (((eats_receive_robot_state).bind fun e => ?_) w').mono ?_
    · pres [pres_set_logger _]
    · intro r w'' hr'
      simp only [Shorter] at hr
      cases r <;> simp only at hr' ⊢; omega
  | _ => trivial

theorem consumes_finish_loop (m : MotionGeneratorCommand F) (c : Option (ControllerCommand F)) :
    Consumes (fun robot_state : Option (RobotState F) => (do
    if ← something_running then do
      let s ← update (some m) c
      pure (.inl (some s))
    else pure (.inr robot_state) : Prog F (Option (RobotState F) ⊕ Option (RobotState F)))) := by
  apply consumes_of_post
  intro l w
  refine ((pres_something_running (T := Shorter)).post w).bind ?_
  intro r w' hr
  cases r with
  | ok b =>
    rw [after_ok]
    cases b with
    | false => simp
    | true =>
      simp only [if_true]
      refine (update_eats_ok _ _ w').bind ?_
      intro r w'' hr'
      simp only [Shorter] at hr
      cases r with
      | ok x => simp only [after_ok, post_pure] at hr' ⊢; omega
      | _ => trivial
  | _ => trivial

omit [Fl F] in
theorem consumes_cancel_loop : Consumes (fun _ : Unit => (do
    if ← something_running then do
      let _ ← attempt receive_robot_state
      pure (.inl ())
    else pure (.inr ()) : Prog F (Unit ⊕ Unit))) := by
  apply consumes_of_post
  intro l w
  refine ((pres_something_running (T := Shorter)).post w).bind ?_
  intro r w' hr
  cases r with
  | ok b =>
    rw [after_ok]
    cases b with
    | false => simp
    | true =>
      simp only [if_true]
      refine (((eats_receive_robot_state).attempt.bind fun e => ?_) w').mono ?_
      · pres
      · intro r w'' hr'
        simp only [Shorter] at hr
        cases r with
        | ok x => cases x <;> simp only at hr' ⊢; omega
        | _ => trivial
  | _ => trivial

theorem consumes_robot_read {σ : Type} (cb : σ → RobotState F → σ × Bool) : Consumes (fun c : σ => (do
    let state ← update none none
    let (c, cont) := cb c state
    emit (.readCb state cont)
    if cont then pure (.inl c) else pure (.inr ()) : Prog F (σ ⊕ Unit))) := by
  apply consumes_of_post
  intro c w
  refine (update_eats_ok _ _ w).bind ?_
  intro r w' hr
  cases r with
  | ok s =>
    simp only [after_ok, post_bind, post_emit]
    by_cases h : (cb c s).2 = true <;> simp only [h, if_true, post_pure]
    · exact hr
    · simp
  | _ => trivial

end
end Verif
