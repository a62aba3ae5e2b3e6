import Verif.Lemmas.Progress
import Verif.Spec.Wire
/-!
# Invariants of whole histories

`Keeps I J p`: if `I` holds before `p` then `I` holds after `p` when `p` returns (normally or with an error), and `J` holds after
`p` when `p` panics or waits for ever. `KeepRobot I J` lists what has to be shown for the parts of the code so that
every history of API calls keeps `I`.
-/
set_option linter.unusedSectionVars false
namespace Verif
namespace Prog
variable {F : Type} {α β γ : Type}

/-- See the head of this file. -/
def Keeps (I J : World F → Prop) (p : Prog F α) : Prop := ∀ w, I w → Post p w fun r w' =>
  match r with
  | .ok _ | .err _ => I w'
  | .panic _ | .blocked => J w'

variable {I J : World F → Prop}

theorem Keeps.of_pres (hIJ : ∀ w, I w → J w) {p : Prog F α} (h : Pres (fun w w' => I w → I w') p) : Keeps I J p := by
  intro w hw
  refine (h.post w).mono ?_
  intro r w' h'
  cases r
  · exact h' hw
  · exact h' hw
  · exact hIJ _ (h' hw)
  · exact hIJ _ (h' hw)

theorem Keeps.pure (a : α) : Keeps I J (pure a : Prog F α) := fun _ h => h
theorem Keeps.err (e) : Keeps I J (err e : Prog F α) := fun _ h => h
theorem Keeps.gets (f : World F → α) : Keeps I J (gets f) := fun _ h => h
theorem Keeps.panic (hIJ : ∀ w, I w → J w) (m) : Keeps I J (Prog.panic m : Prog F α) := fun w h => hIJ w h
theorem Keeps.liftP (hIJ : ∀ w, I w → J w) (x : P α) : Keeps I J (liftP x : Prog F α) := by
  cases x with
  | ok a => exact Keeps.pure a
  | error m => exact Keeps.panic hIJ m
theorem Keeps.bind {p : Prog F α} {f : α → Prog F β} (hp : Keeps I J p) (hf : ∀ a, Keeps I J (f a)) :
    Keeps I J (p >>= f) := by
  intro w hw
  refine (hp w hw).bind ?_
  intro r w' h
  cases r with
  | ok a => exact hf a w' h
  | err e => exact h
  | panic m => exact h
  | blocked => exact h
theorem Keeps.attempt {p : Prog F α} (hp : Keeps I J p) : Keeps I J (attempt p) := by
  intro w hw
  refine (post_attempt _ _ _).2 ((hp w hw).mono ?_)
  intro r w' h
  cases r <;> exact h
theorem Keeps.ite {c : Prop} [Decidable c] {p q : Prog F α} (hp : Keeps I J p) (hq : Keeps I J q) :
    Keeps I J (if c then p else q) := by
  split <;> assumption
theorem Keeps.loop (hIJ : ∀ w, I w → J w) {body : β → Prog F (β ⊕ γ)} (hb : ∀ b, Keeps I J (body b)) (b : β) :
    Keeps I J (loop body b) := by
  intro w hw
  refine loop_post (fun _ w => I w) hw ?_ ?_
  · intro b w h
    refine (hb b w h).mono ?_
    intro r w' h'
    cases r with
    | ok x => cases x <;> exact h'
    | err e => exact h'
    | panic m => exact h'
    | blocked => exact h'
  · intro b w h; exact hIJ w h

/-- Decomposes a goal `Keeps I J p` along the structure of `p`. -/
syntax "keeps" term:max ("[" term,* "]")? : tactic
macro_rules
  | `(tactic| keeps $h) => `(tactic| keeps $h [])
  | `(tactic| keeps $h [$ts,*]) => `(tactic|
      repeat' (first
        | with_reducible assumption
        $[| with_reducible exact $ts]*
        | with_reducible exact Keeps.pure _ | with_reducible exact Keeps.err _ | with_reducible exact Keeps.panic $h _
        | with_reducible exact Keeps.gets _ | with_reducible exact Keeps.liftP $h _
        | with_reducible refine Keeps.bind ?_ ?_ | with_reducible refine Keeps.attempt ?_
        | with_reducible refine Keeps.ite ?_ ?_ | with_reducible refine Keeps.loop $h ?_ _
        | with_reducible intro _ | split
        $[| exact $ts]*))

end Prog

open Prog Spec
variable {F : Type}

/-- The first two steps of every request. -/
def sendRequest (b : RobotBody F) : Prog F UInt32 := do
  let header ← create_header_for_robot (kind b) (kind b).size_of_request
  tcp_send_request ⟨header, b⟩

/-- The first two steps of every gripper request. -/
def sendGripperRequest (b : Gripper.Body F) : Prog F UInt32 := do
  let header ← create_header_for_gripper (gripperKind b) (gripperKind b).size_of_request
  tcp_send_request_gripper ⟨header, b⟩

/-- What has to be shown of the elementary parts so that everything a robot does keeps the invariant `I`. -/
class KeepTcp (I J : World F → Prop) : Prop where
  weak : ∀ w, I w → J w
  tick : ∀ (w : World F) t ts, w.script = t :: ts → I w → I { w with script := ts, ker := w.ker.arrive t }
  tcp : Keeps I J (tcp_read_from_buffer : Prog F Unit)
  remove : ∀ id, Keeps I J (remove_response id : Prog F (Option Bytes))

class KeepRobot [Fl F] [Wire F] (I J : World F → Prop) : Prop extends KeepTcp I J where
  request : ∀ b : RobotBody F, (∀ m, b ≠ .Move m) → Keeps I J (sendRequest b)
  start : ∀ cm mm a b, Keeps I J (start_motion (F := F) cm mm a b)
  receive : Keeps I J (receive_robot_state : Prog F (RobotStateIntern F))
  discard : Keeps I J (discard_available : Prog F Unit)
  update : ∀ m c, Keeps I J (update (F := F) m c)
  flush : Keeps I J (flush_logger : Prog F (List (Record F)))
  forget : Keeps I J (forget_motion : Prog F Unit)
  cb : ∀ (w : World F) e, (∃ k s dt m, e = Ev.motionCb k s dt m) ∨ (∃ s dt t, e = Ev.controlCb s dt t) ∨ (∃ s b, e = Ev.readCb s b) →
    I w → I { w with trace := w.trace ++ [e] }
  file : ∀ (w : World F) f, I w → I { w with model_file := f }

/-- The request part of `KeepTcp` for grippers. -/
class KeepGripper [Fl F] [Wire F] (I J : World F → Prop) : Prop extends KeepTcp I J where
  grequest : ∀ b : Gripper.Body F, Keeps I J (sendGripperRequest b)
  greceive : Keeps I J (udp_blocking_receive (Gripper.GripperStateIntern.codec F) Gripper.size_of_GripperStateIntern)
  gdiscard : Keeps I J (Gripper.discard_available : Prog F Unit)

section tcp
variable {I J : World F → Prop} [KeepTcp I J]

theorem keeps_sys : Keeps I J (sys : Prog F Tick) := by
  intro w hw
  rw [post_sys]
  exact ⟨fun _ => KeepTcp.weak (I := I) w hw, fun t ts h => KeepTcp.tick (J := J) w t ts h hw⟩

theorem keeps_deserialize {α : Type} (c : Codec α) (bs : Bytes) : Keeps I J (deserialize c bs : Prog F α) := by
  unfold deserialize; keeps (KeepTcp.weak (I := I) (J := J))

theorem keeps_wait_for_response_to_arrive (id : UInt32) : Keeps I J (wait_for_response_to_arrive id : Prog F Bytes) := by
  unfold wait_for_response_to_arrive
  keeps (KeepTcp.weak (I := I) (J := J)) [KeepTcp.tcp, KeepTcp.remove _]

theorem keeps_tcp_blocking_receive_response {α : Type} (c : Codec α) (id : UInt32) :
    Keeps I J (tcp_blocking_receive_response c id : Prog F α) := by
  unfold tcp_blocking_receive_response
  keeps (KeepTcp.weak (I := I) (J := J)) [keeps_wait_for_response_to_arrive _, keeps_deserialize _ _]

theorem keeps_tcp_blocking_receive_load_library_response (id : UInt32) :
    Keeps I J (tcp_blocking_receive_load_library_response id : Prog F Bytes) := by
  unfold tcp_blocking_receive_load_library_response
  keeps (KeepTcp.weak (I := I) (J := J)) [keeps_wait_for_response_to_arrive _, keeps_deserialize _ _]

theorem keeps_tcp_receive_response (id : UInt32) (h : MoveResponse → Except (FrankaException F) Unit) :
    Keeps I J (tcp_receive_response id h : Prog F Bool) := by
  unfold tcp_receive_response
  keeps (KeepTcp.weak (I := I) (J := J)) [KeepTcp.tcp, KeepTcp.remove _, keeps_deserialize _ _]

theorem keeps_unwrapOpt {α : Type} (o : Option α) : Keeps I J (unwrapOpt o : Prog F α) := by
  unfold unwrapOpt; keeps (KeepTcp.weak (I := I) (J := J))

omit [KeepTcp I J] in
theorem keeps_ofExcept {α : Type} (o : Except (FrankaException F) α) : Keeps I J (ofExcept o : Prog F α) := by
  unfold ofExcept
  split
  · exact Keeps.pure _
  · exact Keeps.err _

theorem keeps_something_running : Keeps I J (something_running : Prog F Bool) := by
  unfold something_running motion_generator_running controller_running
  keeps (KeepTcp.weak (I := I) (J := J)) [keeps_unwrapOpt _]

theorem keeps_modes_differ : Keeps I J (modes_differ : Prog F Bool) := by
  unfold modes_differ
  keeps (KeepTcp.weak (I := I) (J := J)) [keeps_unwrapOpt _]

theorem keeps_motion_error (s : RobotState F) : Keeps I J (motion_error s : Prog F Bool) := by
  unfold motion_error
  keeps (KeepTcp.weak (I := I) (J := J)) [keeps_unwrapOpt _]

/-- A request followed by anything. -/
theorem keeps_request {α : Type} (b : RobotBody F) (h : Keeps I J (sendRequest b)) (f : UInt32 → Prog F α)
    (hf : ∀ id, Keeps I J (f id)) :
    Keeps I J (do
      let header ← create_header_for_robot (kind b) (kind b).size_of_request
      let command_id ← tcp_send_request ⟨header, b⟩
      f command_id) := by
  intro w hw
  have := h w hw
  unfold sendRequest at this
  rw [post_bind] at this ⊢
  refine this.mono ?_
  intro r w' hr
  cases r with
  | ok a =>
    rw [after_ok] at hr ⊢
    rw [post_bind]
    refine hr.mono ?_
    intro r w'' hr
    cases r with
    | ok id => exact hf id w'' hr
    | err e => exact hr
    | panic m => exact hr
    | blocked => exact hr
  | err e => exact hr
  | panic m => exact hr
  | blocked => exact hr

theorem keeps_grequest {α : Type} (b : Gripper.Body F) (h : Keeps I J (sendGripperRequest b)) (f : UInt32 → Prog F α)
    (hf : ∀ id, Keeps I J (f id)) :
    Keeps I J (do
      let header ← create_header_for_gripper (gripperKind b) (gripperKind b).size_of_request
      let command_id ← tcp_send_request_gripper ⟨header, b⟩
      f command_id) := by
  intro w hw
  have := h w hw
  unfold sendGripperRequest at this
  rw [post_bind] at this ⊢
  refine this.mono ?_
  intro r w' hr
  cases r with
  | ok a =>
    rw [after_ok] at hr ⊢
    rw [post_bind]
    refine hr.mono ?_
    intro r w'' hr
    cases r with
    | ok id => exact hf id w'' hr
    | err e => exact hr
    | panic m => exact hr
    | blocked => exact hr
  | err e => exact hr
  | panic m => exact hr
  | blocked => exact hr

theorem keeps_connect_robot (hreq : ∀ b : RobotBody F, (∀ m, b ≠ .Move m) → Keeps I J (sendRequest b))
    (hv : ∀ (w : World F) v, I w → I { w with rob := { w.rob with ri_version := v } }) :
    Keeps I J (connect_robot : Prog F Unit) := by
  intro w hw
  have : Keeps I J (do
      let header ← create_header_for_robot .Connect RobotCommandEnum.Connect.size_of_request
      let command_id ← tcp_send_request ⟨header, .Connect (ConnectRequest.new w.cfg.udp_port)⟩
      let connect_response ← tcp_blocking_receive_response ConnectResponse.codec command_id
      match connect_response.status with
      | .Success => Prog.modify fun w => { w with rob := { w.rob with ri_version := some connect_response.version } }
      | _ => err (.IncompatibleLibraryVersionError connect_response.version VERSION) : Prog F Unit) := by
    refine keeps_request (I := I) (J := J) (.Connect _) (hreq _ (by simp)) _ fun id => ?_
    keeps (KeepTcp.weak (I := I) (J := J)) [keeps_tcp_blocking_receive_response _ _,
      (show Keeps I J (Prog.modify _) from fun w h => hv w _ h)]
  have h := this w hw
  unfold connect_robot
  rw [post_bind] at h ⊢
  have hcfg : Pres (fun w w' : World F => w'.cfg = w.cfg)
      (create_header_for_robot .Connect RobotCommandEnum.Connect.size_of_request : Prog F _) := by
    unfold create_header_for_robot next_command_id
    have : Pre (fun w w' : World F => w'.cfg = w.cfg) := ⟨fun _ => rfl, fun h h' => h'.trans h⟩
    pres [(show Pres _ (Prog.modify _) from fun w => rfl)]
  refine ((h.and (hcfg.post w)).mono ?_)
  rintro r w' ⟨hr, hc⟩
  cases r with
  | ok a =>
    rw [after_ok] at hr ⊢
    rw [post_bind, post_gets, after_ok, hc]
    exact hr
  | err e => exact hr
  | panic m => exact hr
  | blocked => exact hr

theorem keeps_connect_gripper (v : UInt16) (hreq : ∀ b : Gripper.Body F, Keeps I J (sendGripperRequest b))
    (hv : ∀ (w : World F) v, I w → I { w with rob := { w.rob with ri_version := v } }) :
    Keeps I J (Gripper.connect_gripper v : Prog F Unit) := by
  intro w hw
  have : Keeps I J (do
      let header ← create_header_for_gripper .Connect Gripper.Command.Connect.size_of_request
      let command_id ← tcp_send_request_gripper ⟨header, .Connect (Gripper.ConnectRequest.new w.cfg.udp_port)⟩
      let connect_response ← tcp_blocking_receive_response Gripper.ConnectResponse.codec command_id
      match connect_response.status with
      | .Success => Prog.modify fun w => { w with rob := { w.rob with ri_version := some connect_response.version } }
      | _ => err (.IncompatibleLibraryVersionError connect_response.version v) : Prog F Unit) := by
    refine keeps_grequest (I := I) (J := J) (.Connect _) (hreq _) _ fun id => ?_
    keeps (KeepTcp.weak (I := I) (J := J)) [keeps_tcp_blocking_receive_response _ _,
      (show Keeps I J (Prog.modify _) from fun w h => hv w _ h)]
  have h := this w hw
  unfold Gripper.connect_gripper
  rw [post_bind] at h ⊢
  have hcfg : Pres (fun w w' : World F => w'.cfg = w.cfg)
      (create_header_for_gripper .Connect Gripper.Command.Connect.size_of_request : Prog F _) := by
    unfold create_header_for_gripper next_command_id
    have : Pre (fun w w' : World F => w'.cfg = w.cfg) := ⟨fun _ => rfl, fun h h' => h'.trans h⟩
    pres [(show Pres _ (Prog.modify _) from fun w => rfl)]
  refine ((h.and (hcfg.post w)).mono ?_)
  rintro r w' ⟨hr, hc⟩
  cases r with
  | ok a =>
    rw [after_ok] at hr ⊢
    rw [post_bind, post_gets, after_ok, hc]
    exact hr
  | err e => exact hr
  | panic m => exact hr
  | blocked => exact hr

/-- Starting a motion, when all its parts keep the invariant. -/
theorem keeps_start_motion [Fl F] [Wire F] (cm : MoveControllerMode) (mm : MoveMotionGeneratorMode) (a b : MoveDeviation F)
    (hreq : ∀ m, Keeps I J (sendRequest (F := F) (.Move m)))
    (hupd : Keeps I J (update (F := F) none none))
    (hlog : Keeps I J (flush_logger : Prog F (List (Record F))))
    (hmode : ∀ (w : World F) m c, I w → I { w with rob := { w.rob with
      current_move_motion_generator_mode := m, current_move_controller_mode := c } }) :
    Keeps I J (start_motion (F := F) cm mm a b) := by
  unfold start_motion
  refine Keeps.bind keeps_something_running fun r => Keeps.ite (Keeps.panic (KeepTcp.weak (I := I)) _) ?_
  refine Keeps.bind (show Keeps I J (Prog.modify _) from fun w h => hmode w _ _ h) fun _ => ?_
  refine Keeps.bind ?_ fun id => ?_
  · unfold execute_move_command
    refine keeps_request (I := I) (J := J) (.Move _) (hreq _) _ fun id => ?_
    keeps (KeepTcp.weak (I := I) (J := J)) [keeps_tcp_blocking_receive_response _ _, keeps_ofExcept _]
  · unfold wait_for_motion_start
    keeps (KeepTcp.weak (I := I) (J := J)) [keeps_modes_differ, keeps_tcp_receive_response _ _]

/-- Sending nothing and receiving a state, when the parts keep the invariant. -/
theorem keeps_update_none [Fl F] [Wire F] (hrec : Keeps I J (receive_robot_state : Prog F (RobotStateIntern F)))
    (hlog : ∀ (w : World F) l, I w → I { w with rob := { w.rob with logger := l } }) :
    Keeps I J (update (F := F) none none) := by
  unfold update
  refine Keeps.bind ?_ ?_
  · unfold send_robot_command
    simp only [Option.isSome_none, Bool.or_self, Bool.false_eq_true, if_false]
    keeps (KeepTcp.weak (I := I) (J := J))
  · keeps (KeepTcp.weak (I := I) (J := J)) [(show Keeps I J (Prog.modify _) from fun w h => hlog w _ h)]

/-- Sending a command and receiving a state, when the parts keep the invariant. -/
theorem keeps_update_some [Fl F] [Wire F] (m : Option (MotionGeneratorCommand F)) (c : Option (ControllerCommand F))
    (hsend : Keeps I J (send_robot_command (F := F) m c)) (hrec : Keeps I J (receive_robot_state : Prog F (RobotStateIntern F)))
    (hlog : ∀ (w : World F) l, I w → I { w with rob := { w.rob with logger := l } }) :
    Keeps I J (update (F := F) m c) := by
  unfold update
  keeps (KeepTcp.weak (I := I) (J := J)) [(show Keeps I J (Prog.modify _) from fun w h => hlog w _ h)]

theorem keeps_flush_logger' (hlog : ∀ (w : World F) l, I w → I { w with rob := { w.rob with logger := l } }) :
    Keeps I J (flush_logger : Prog F (List (Record F))) := by
  unfold flush_logger
  keeps (KeepTcp.weak (I := I) (J := J)) [(show Keeps I J (Prog.modify _) from fun w h => hlog w _ h)]

/-- Constructing a robot. `I0` holds until the first state is accepted. -/
theorem post_robot_new [Fl F] [Wire F] {K : World F → Prop} (rc : Option RealtimeConfig) (log_size : Option Nat) (w : World F)
    (hfail : ∀ w', w'.trace = w.trace → J w')
    (hinit : ∀ t ts r, w.script = t :: ts → I { w with
      script := ts, ker := w.ker.arrive t, cfg := { w.cfg with network_type := .Robot }, net := {}, rob := RobotImpl.init (log_size.getD 50) r })
    (hreq : ∀ b : RobotBody F, (∀ m, b ≠ .Move m) → Keeps I J (sendRequest b))
    (hv : ∀ (w : World F) v, I w → I { w with rob := { w.rob with ri_version := v } })
    (hfirst : ∀ w, I w → Post (udp_blocking_receive (RobotStateIntern.codec F) size_of_RobotStateIntern) w fun r w' =>
      match r with
      | .ok s => K { w' with
          rob := { w'.rob with motion_generator_mode := some s.motion_generator_mode, controller_mode := s.controller_mode, message_id := s.message_id }
          trace := w'.trace ++ [.accepted s] }
      | _ => J w') :
    Post (Robot.new rc log_size : Prog F Unit) w fun r w' => match r with
      | .ok _ => K w'
      | _ => J w' := by
  unfold Robot.new Robot.network_new
  simp only [post_bind, post_sys]
  refine ⟨fun _ => hfail _ rfl, ?_⟩
  intro t ts hs
  simp only [after_ok, post_ite, post_pure, post_bind, post_modify, Bool.false_eq_true, if_false, if_true, post_err]
  refine ⟨fun _ => hfail _ rfl, ?_⟩
  intro _
  unfold RobotImpl.new
  simp only [post_bind, post_modify, after_ok]
  refine (keeps_connect_robot (I := I) (J := J) hreq hv _ (hinit t ts _ hs)).mono ?_
  intro r w' hr
  cases r with
  | ok a =>
    simp only [after_ok, post_bind, post_attempt]
    refine (hfirst w' hr).mono ?_
    intro r w'' hr
    cases r with
    | ok s => exact hr
    | err e => exact hr
    | panic m => exact hr
    | blocked => exact hr
  | err e => exact KeepTcp.weak (I := I) (J := J) _ hr
  | panic m => exact hr
  | blocked => exact hr

/-- Constructing a gripper. -/
theorem post_gripper_new [Fl F] [Wire F] (w : World F)
    (hfail : ∀ w', w'.trace = w.trace → J w')
    (hinit : ∀ t ts v, w.script = t :: ts → I { w with
      script := ts, ker := w.ker.arrive t, cfg := { w.cfg with network_type := .Gripper }, net := {}, rob := { w.rob with ri_version := v } })
    (hreq : ∀ b : Gripper.Body F, Keeps I J (sendGripperRequest b))
    (hv : ∀ (w : World F) v, I w → I { w with rob := { w.rob with ri_version := v } }) :
    Post (Gripper.new : Prog F Unit) w fun r w' => match r with
      | .ok _ => I w'
      | _ => J w' := by
  unfold Gripper.new Robot.network_new
  simp only [post_bind, post_sys]
  refine ⟨fun _ => hfail _ rfl, ?_⟩
  intro t ts hs
  simp only [after_ok, post_ite, post_pure, post_bind, post_modify, Bool.false_eq_true, if_false, if_true, post_err]
  refine ⟨fun _ => hfail _ rfl, ?_⟩
  intro _
  refine (keeps_connect_gripper (I := I) (J := J) _ hreq hv _ (hinit t ts _ hs)).mono ?_
  intro r w' hr
  cases r with
  | ok a => exact hr
  | err e => exact KeepTcp.weak (I := I) (J := J) _ hr
  | panic m => exact hr
  | blocked => exact hr

end tcp

section robot
variable {I J : World F → Prop} [Fl F] [Wire F] [KeepRobot I J]

local notation "ij" => (KeepTcp.weak (I := I) (J := J))

theorem keeps_flush_logger : Keeps I J (flush_logger : Prog F (List (Record F))) := KeepRobot.flush

theorem keeps_update (m : Option (MotionGeneratorCommand F)) (c : Option (ControllerCommand F)) : Keeps I J (update m c) := KeepRobot.update m c

theorem keeps_fail_with_log {α : Type} (m : String) (s : MoveStatus) (r : FrankaErrors) :
    Keeps I J (fail_with_log m s r : Prog F α) := by
  unfold fail_with_log
  keeps ij [keeps_flush_logger]

theorem keeps_throw_on_motion_error (s : RobotState F) (id : UInt32) : Keeps I J (throw_on_motion_error s id) := by
  unfold throw_on_motion_error
  keeps ij [keeps_motion_error _, keeps_tcp_blocking_receive_response _ _, keeps_fail_with_log _ _ _]

theorem keeps_execute_stop_command : Keeps I J (execute_stop_command : Prog F UInt32) := by
  unfold execute_stop_command
  refine keeps_request (I := I) (J := J) .StopMove (KeepRobot.request _ (by simp)) _ fun id => ?_
  keeps ij [keeps_tcp_blocking_receive_response _ _, keeps_ofExcept _]

theorem keeps_finish_motion (id : UInt32) (m : Option (MotionGeneratorCommand F)) (c : Option (ControllerCommand F)) :
    Keeps I J (finish_motion id m c) := by
  unfold finish_motion finish_loop
  keeps ij [keeps_something_running, keeps_update _ _, keeps_unwrapOpt _, keeps_tcp_blocking_receive_response _ _,
    keeps_fail_with_log _ _ _, KeepRobot.forget]

theorem keeps_cancel_loop : Keeps I J (cancel_loop : Prog F Unit) := by
  unfold cancel_loop
  keeps ij [keeps_something_running, KeepRobot.receive]

theorem keeps_cancel_motion (id : UInt32) : Keeps I J (cancel_motion id : Prog F Unit) := by
  unfold cancel_motion
  keeps ij [keeps_execute_stop_command, KeepRobot.receive, keeps_cancel_loop, keeps_tcp_receive_response _ _,
    KeepRobot.forget]

section loop
variable {σ : Type} {k : MotionKind} (l : ControlLoop F σ k)

theorem keeps_spin_control (cb : σ → RobotState F → Nat → σ × Torques F) (c : σ) (s : RobotState F) (dt : Nat) :
    Keeps I J (l.spin_control cb c s dt) := by
  unfold ControlLoop.spin_control
  keeps ij [(show Keeps I J (emit _) from fun w h => KeepRobot.cb (J := J) w _ (.inr (.inl ⟨_, _, _, rfl⟩)) h)]

theorem keeps_spin_motion [Geo F] (c : σ) (s : RobotState F) (dt : Nat) (m : MotionGeneratorCommand F) :
    Keeps I J (l.spin_motion c s dt m) := by
  unfold ControlLoop.spin_motion
  keeps ij [(show Keeps I J (emit _) from fun w h => KeepRobot.cb (J := J) w _ (.inl ⟨_, _, _, _, rfl⟩) h)]

variable [Geo F]

theorem keeps_torque_loop (cb : σ → RobotState F → Nat → σ × Torques F) (v : ControlLoop.Locals F σ) :
    Keeps I J (l.torque_loop cb v) := by
  unfold ControlLoop.torque_loop
  keeps ij [keeps_spin_motion _ _ _ _ _, keeps_spin_control _ _ _ _ _, keeps_update _ _, keeps_throw_on_motion_error _ _]

theorem keeps_motion_loop (v : ControlLoop.Locals F σ) : Keeps I J (l.motion_loop v) := by
  unfold ControlLoop.motion_loop
  keeps ij [keeps_spin_motion _ _ _ _ _, keeps_update _ _, keeps_throw_on_motion_error _ _]

theorem keeps_do_loop (c : σ) : Keeps I J (l.do_loop c) := by
  unfold ControlLoop.do_loop
  keeps ij [keeps_update _ _, keeps_throw_on_motion_error _ _, keeps_torque_loop _ _ _, keeps_motion_loop _ _,
    keeps_finish_motion _ _ _]

theorem keeps_run (c : σ) : Keeps I J (l.run c) := by
  unfold ControlLoop.run
  keeps ij [keeps_do_loop _ _, keeps_cancel_motion _]
end loop

theorem keeps_new_intern {σ : Type} {k : MotionKind} (cb : σ → RobotState F → Nat → σ × Motion F k)
    (tcb : Option (σ → RobotState F → Nat → σ × Torques F)) (l : Bool) (f : F) :
    Keeps I J (ControlLoop.new_intern cb tcb l f) := by
  unfold ControlLoop.new_intern set_current_thread_to_highest_scheduler_priority
  keeps ij

theorem keeps_control_torques_intern [Geo F] {σ : Type} {k : MotionKind} (cb : σ → RobotState F → Nat → σ × Motion F k)
    (tcb : σ → RobotState F → Nat → σ × Torques F) (l : Option Bool) (f : Option F) (c : σ) :
    Keeps I J (Robot.control_torques_intern cb tcb l f c) := by
  unfold Robot.control_torques_intern ControlLoop.new
  keeps ij [keeps_new_intern _ _ _ _, KeepRobot.start _ _ _ _, keeps_run _ _]

theorem keeps_control_motion_intern [Geo F] {σ : Type} {k : MotionKind} (cb : σ → RobotState F → Nat → σ × Motion F k)
    (m : Option ControllerModeArg) (l : Option Bool) (f : Option F) (c : σ) :
    Keeps I J (Robot.control_motion_intern cb m l f c) := by
  unfold Robot.control_motion_intern ControlLoop.from_control_mode
  keeps ij [keeps_new_intern _ _ _ _, KeepRobot.start _ _ _ _, keeps_run _ _]

theorem keeps_handle_getter_setter_status (s : GetterSetterStatus) :
    Keeps I J (handle_getter_setter_status s : Prog F Unit) := by
  unfold handle_getter_setter_status; keeps ij

theorem keeps_set_file (f : Option Bytes) : Keeps I J (Prog.modify fun w : World F => { w with model_file := f }) :=
  fun w h => KeepRobot.file (J := J) w f h

theorem keeps_download : Keeps I J (download : Prog F Unit) := by
  unfold download
  refine Keeps.bind (Keeps.gets _) fun _ => Keeps.ite ?_ (Keeps.err _)
  refine keeps_request (I := I) (J := J) (.LoadModelLibrary _) (KeepRobot.request _ (by simp)) _ fun id => ?_
  keeps ij [keeps_tcp_blocking_receive_load_library_response _, keeps_sys, keeps_set_file _]

theorem keeps_load_model (p : Bool) : Keeps I J (Robot.load_model p : Prog F Bytes) := by
  unfold Robot.load_model model_new
  keeps ij [keeps_download, keeps_sys, keeps_set_file _]

theorem keeps_set_collision_behavior (a b c d : Arr F 7) (e f g h : Arr F 6) :
    Keeps I J (Robot.set_collision_behavior a b c d e f g h) := by
  unfold Robot.set_collision_behavior
  refine keeps_request (I := I) (J := J) (.SetCollisionBehavior _) (KeepRobot.request _ (by simp)) _ fun id => ?_
  keeps ij [keeps_tcp_blocking_receive_response _ _, keeps_handle_getter_setter_status _]

theorem keeps_set_joint_impedance (a : Arr F 7) : Keeps I J (Robot.set_joint_impedance a) := by
  unfold Robot.set_joint_impedance
  refine keeps_request (I := I) (J := J) (.SetJointImpedance _) (KeepRobot.request _ (by simp)) _ fun id => ?_
  keeps ij [keeps_tcp_blocking_receive_response _ _, keeps_handle_getter_setter_status _]

theorem keeps_set_cartesian_impedance (a : Arr F 6) : Keeps I J (Robot.set_cartesian_impedance a) := by
  unfold Robot.set_cartesian_impedance
  refine keeps_request (I := I) (J := J) (.SetCartesianImpedance _) (KeepRobot.request _ (by simp)) _ fun id => ?_
  keeps ij [keeps_tcp_blocking_receive_response _ _, keeps_handle_getter_setter_status _]

/-- Every call of a robot method keeps the invariant. -/
theorem keeps_call [Geo F] (c : RobotCall F) : Keeps I J c.run := by
  cases c <;> unfold RobotCall.run <;> simp only
  case read =>
    unfold Robot.read
    keeps ij [keeps_update _ _, (show Keeps I J (emit _) from fun w h => KeepRobot.cb (J := J) w _ (.inr (.inr ⟨_, _, rfl⟩)) h)]
  case read_once => unfold Robot.read_once RobotImpl.read_once; keeps ij [KeepRobot.discard, KeepRobot.receive]
  case set_collision_behavior => exact keeps_set_collision_behavior _ _ _ _ _ _ _ _
  case set_joint_impedance => exact keeps_set_joint_impedance _
  case set_cartesian_impedance => exact keeps_set_cartesian_impedance _
  case set_guiding_mode =>
    unfold Robot.set_guiding_mode
    refine keeps_request (I := I) (J := J) (.SetGuidingMode _) (KeepRobot.request _ (by simp)) _ fun id => ?_
    keeps ij [keeps_tcp_blocking_receive_response _ _, keeps_handle_getter_setter_status _]
  case set_K =>
    unfold Robot.set_K
    refine keeps_request (I := I) (J := J) (.SetEeToK _) (KeepRobot.request _ (by simp)) _ fun id => ?_
    keeps ij [keeps_tcp_blocking_receive_response _ _, keeps_handle_getter_setter_status _]
  case set_EE =>
    unfold Robot.set_EE
    refine keeps_request (I := I) (J := J) (.SetNeToEe _) (KeepRobot.request _ (by simp)) _ fun id => ?_
    keeps ij [keeps_tcp_blocking_receive_response _ _, keeps_handle_getter_setter_status _]
  case set_load =>
    unfold Robot.set_load
    refine keeps_request (I := I) (J := J) (.SetLoad _) (KeepRobot.request _ (by simp)) _ fun id => ?_
    keeps ij [keeps_tcp_blocking_receive_response _ _, keeps_handle_getter_setter_status _]
  case set_filters =>
    unfold Robot.set_filters
    refine keeps_request (I := I) (J := J) (.SetFilters _) (KeepRobot.request _ (by simp)) _ fun id => ?_
    keeps ij [keeps_tcp_blocking_receive_response _ _, keeps_handle_getter_setter_status _]
  case automatic_error_recovery =>
    unfold Robot.automatic_error_recovery
    refine keeps_request (I := I) (J := J) (.AutomaticErrorRecovery) (KeepRobot.request _ (by simp)) _ fun id => ?_
    keeps ij [keeps_tcp_blocking_receive_response _ _]
  case stop =>
    unfold Robot.stop
    refine keeps_request (I := I) (J := J) (.StopMove) (KeepRobot.request _ (by simp)) _ fun id => ?_
    keeps ij [keeps_tcp_blocking_receive_response _ _]
  case get_virtual_wall =>
    refine Keeps.bind ?_ fun _ => Keeps.pure _
    unfold Robot.get_virtual_wall
    refine keeps_request (I := I) (J := J) (.GetCartesianLimit _) (KeepRobot.request _ (by simp)) _ fun id => ?_
    keeps ij [keeps_tcp_blocking_receive_response _ _]
  case control_motion =>
    unfold Robot.control_motion
    exact keeps_control_motion_intern _ _ _ _ _
  case control_torques_and_motion =>
    unfold Robot.control_torques_and_motion
    exact keeps_control_torques_intern _ _ _ _ _
  case control_torques =>
    unfold Robot.control_torques
    exact keeps_control_torques_intern _ _ _ _ _
  case set_default_behavior =>
    unfold Robot.set_default_behavior
    keeps ij [keeps_set_collision_behavior _ _ _ _ _ _ _ _, keeps_set_joint_impedance _, keeps_set_cartesian_impedance _]
  case joint_motion =>
    unfold Robot.joint_motion Robot.control_motion
    exact keeps_control_motion_intern _ _ _ _ _
  case load_model => keeps ij [keeps_load_model _]
  case server_version =>
    unfold Robot.server_version Verif.server_version
    keeps ij [keeps_unwrapOpt _]

theorem keeps_robotCalls [Geo F] (cs : List (RobotCall F)) : Keeps I J (robotCalls cs) := by
  induction cs with
  | nil => exact Keeps.pure _
  | cons c cs ih =>
    unfold robotCalls
    keeps ij [keeps_call c]

/-- A whole history keeps the invariant once it holds for a constructed robot. -/
theorem post_robotSession [Geo F] (rc : Option RealtimeConfig) (log_size : Option Nat) (cs : List (RobotCall F)) (w : World F)
    (hnew : Post (Robot.new rc log_size : Prog F Unit) w fun r w' => match r with
      | .ok _ => I w'
      | _ => J w') :
    Post (robotSession rc log_size cs) w fun r w' => match r with
      | .ok _ => I w'
      | _ => J w' := by
  unfold robotSession
  refine hnew.bind ?_
  intro r w' h
  cases r with
  | ok a =>
    rw [after_ok]
    refine (keeps_robotCalls (I := I) (J := J) cs w' h).mono ?_
    intro r w'' h'
    cases r with
    | ok a => exact h'
    | err e => exact KeepTcp.weak _ h'
    | panic m => exact h'
    | blocked => exact h'
  | err e => exact h
  | panic m => exact h
  | blocked => exact h

end robot

section gripper
variable {I J : World F → Prop} [Fl F] [Wire F] [KeepGripper I J]

local notation "ij" => (KeepTcp.weak (I := I) (J := J))

theorem keeps_handle_response_status (s : Gripper.Status) : Keeps I J (Gripper.handle_response_status s : Prog F Bool) := by
  unfold Gripper.handle_response_status; keeps ij

theorem keeps_gripper_call (c : GripperCall F) : Keeps I J c.run := by
  cases c <;> unfold GripperCall.run <;> simp only <;> refine Keeps.bind ?_ fun _ => Keeps.pure _
  case move_gripper =>
    unfold Gripper.move_gripper
    refine keeps_grequest (I := I) (J := J) (.Move _) (KeepGripper.grequest _) _ fun id => ?_
    keeps ij [keeps_tcp_blocking_receive_response _ _, keeps_handle_response_status _]
  case homing =>
    unfold Gripper.homing
    refine keeps_grequest (I := I) (J := J) .Homing (KeepGripper.grequest _) _ fun id => ?_
    keeps ij [keeps_tcp_blocking_receive_response _ _, keeps_handle_response_status _]
  case stop =>
    unfold Gripper.stop
    refine keeps_grequest (I := I) (J := J) .Stop (KeepGripper.grequest _) _ fun id => ?_
    keeps ij [keeps_tcp_blocking_receive_response _ _, keeps_handle_response_status _]
  case grasp =>
    unfold Gripper.grasp
    refine keeps_grequest (I := I) (J := J) (.Grasp _) (KeepGripper.grequest _) _ fun id => ?_
    keeps ij [keeps_tcp_blocking_receive_response _ _, keeps_handle_response_status _]
  case read_once =>
    unfold Gripper.read_once
    keeps ij [KeepGripper.gdiscard, KeepGripper.greceive]
  case server_version =>
    unfold Gripper.server_version Verif.server_version
    keeps ij [keeps_unwrapOpt _]

theorem keeps_gripperCalls (cs : List (GripperCall F)) : Keeps I J (gripperCalls cs) := by
  induction cs with
  | nil => exact Keeps.pure _
  | cons c cs ih =>
    unfold gripperCalls
    keeps ij [keeps_gripper_call c]

theorem post_gripperSession (cs : List (GripperCall F)) (w : World F)
    (hnew : Post (Gripper.new : Prog F Unit) w fun r w' => match r with
      | .ok _ => I w'
      | _ => J w') :
    Post (gripperSession cs) w fun r w' => match r with
      | .ok _ => I w'
      | _ => J w' := by
  unfold gripperSession
  refine hnew.bind ?_
  intro r w' h
  cases r with
  | ok a =>
    rw [after_ok]
    refine (keeps_gripperCalls (I := I) (J := J) cs w' h).mono ?_
    intro r w'' h'
    cases r with
    | ok a => exact h'
    | err e => exact KeepTcp.weak _ h'
    | panic m => exact h'
    | blocked => exact h'
  | err e => exact h
  | panic m => exact h
  | blocked => exact h

end gripper
/-! ## Building the classes from relations -/

section build
variable {I J : World F → Prop} [Fl F] [Wire F] [KeepTcp I J] (T : World F → World F → Prop)

theorem Keeps.of_rel {T : World F → World F → Prop} {α : Type} (hT : ∀ w w', T w w' → I w → I w') {p : Prog F α} (h : Pres T p) :
    Keeps I J p :=
  Keeps.of_pres (KeepTcp.weak (J := J)) fun w => hT _ _ (h w)

/-- Everything but reading responses and sending requests is covered by a relation `T` that keeps `I`. -/
theorem KeepRobot.of [TAcc T] [TRob T] [TCmd T] [TCb T] (hT : ∀ w w', T w w' → I w → I w')
    (hread : ∀ (w : World F) s b, T w { w with trace := w.trace ++ [.readCb s b] })
    (hfile : ∀ (w : World F) f, T w { w with model_file := f })
    (hreq : ∀ b : RobotBody F, Keeps I J (sendRequest b)) : KeepRobot I J where
  request b _ := hreq b
  start cm mm a b := by
    refine keeps_start_motion (I := I) (J := J) cm mm a b (fun m => hreq _) (Keeps.of_rel hT pres_update_none)
      (Keeps.of_rel hT pres_flush_logger) ?_
    intro w m c
    exact hT _ _ (pres_set_modes m c w)
  receive := Keeps.of_rel hT pres_receive_robot_state
  discard := Keeps.of_rel hT pres_discard_available
  update m c := Keeps.of_rel hT (pres_update m c)
  flush := Keeps.of_rel hT pres_flush_logger
  forget := Keeps.of_rel hT pres_forget_motion
  cb w e h := by
    rcases h with ⟨k, s, dt, m, rfl⟩ | ⟨s, dt, t, rfl⟩ | ⟨s, b, rfl⟩
    · exact hT _ _ (TCb.motion w k s dt m)
    · exact hT _ _ (TCb.control w s dt t)
    · exact hT _ _ (hread w s b)
  file w f := hT _ _ (hfile w f)

theorem KeepGripper.of [TUdp T] (hT : ∀ w w', T w w' → I w → I w')
    (hreq : ∀ b : Gripper.Body F, Keeps I J (sendGripperRequest b)) : KeepGripper I J where
  grequest := hreq
  greceive := Keeps.of_rel hT (pres_udp_blocking_receive _ _)
  gdiscard := by
    refine Keeps.of_rel hT ?_
    unfold Gripper.discard_available
    pres [pres_udp_receive _ _]

end build
end Verif
