import Verif.Lemmas.Motion
/-!
# The answers a control call waits for before it returns

A control call that returns Ok has read the final answer to its Move request after everything else it did. One that returns an
error after the motion was started has read a positive answer to its StopMove request.
-/
set_option linter.unusedSectionVars false
namespace Verif
open Prog Spec
variable {F : Type}

/-- Only the user, the UDP socket and the clock were involved: nothing was read from the TCP connection. -/
structure NoTcp (w w' : World F) : Prop where
  table : w'.net.received_responses = w.net.received_responses
  next : w'.net.command_id = w.net.command_id
  trace : ∃ es, w'.trace = w.trace ++ es ∧ responses es = []

instance : Pre (NoTcp (F := F)) where
  refl _ := ⟨rfl, rfl, [], (List.append_nil _).symm, rfl⟩
  trans := by
    rintro a b c ⟨h1, h2, x, hx, hx'⟩ ⟨g1, g2, y, hy, hy'⟩
    exact ⟨g1.trans h1, g2.trans h2, x ++ y, by rw [hy, hx, List.append_assoc], by rw [responses_append, hx', hy']; rfl⟩

instance : TAcc (NoTcp (F := F)) where
  tick _ _ _ _ := ⟨rfl, rfl, [], (List.append_nil _).symm, rfl⟩
  upoll _ := ⟨rfl, rfl, [], (List.append_nil _).symm, rfl⟩
  recv _ _ _ _ := ⟨rfl, rfl, _, rfl, rfl⟩
  addr _ _ := ⟨rfl, rfl, [], (List.append_nil _).symm, rfl⟩
  acc _ _ := ⟨rfl, rfl, _, rfl, rfl⟩

instance : TRob (NoTcp (F := F)) where
  rob _ _ _ _ _ := ⟨rfl, rfl, [], (List.append_nil _).symm, rfl⟩

instance : TCmd (NoTcp (F := F)) where
  send _ _ := ⟨rfl, rfl, _, rfl, rfl⟩

instance : TCb (NoTcp (F := F)) where
  motion _ _ _ _ _ := ⟨rfl, rfl, _, rfl, rfl⟩
  control _ _ _ _ := ⟨rfl, rfl, _, rfl, rfl⟩

/-- The mode of the motion that was asked for is kept. -/
def SameMove (w w' : World F) : Prop := w'.rob.current_move_motion_generator_mode = w.rob.current_move_motion_generator_mode

instance : Pre (SameMove (F := F)) where
  refl _ := rfl
  trans h g := Eq.trans g h

instance : TAcc (SameMove (F := F)) where
  tick _ _ _ _ := rfl
  upoll _ := rfl
  recv _ _ _ _ := rfl
  addr _ _ := rfl
  acc _ _ := rfl

instance : TCmd (SameMove (F := F)) where
  send _ _ := rfl

instance : TCb (SameMove (F := F)) where
  motion _ _ _ _ _ := rfl
  control _ _ _ _ := rfl

section
variable [Fl F] [Wire F]

theorem sameMove_update (m : Option (MotionGeneratorCommand F)) (c : Option (ControllerCommand F)) : Pres SameMove (update m c) := by
  unfold update
  pres [pres_send_robot_command _ _, pres_receive_robot_state, (show Pres SameMove (Prog.modify _) from fun w => rfl)]

/-- What holds between two rounds of the control loop. -/
structure InMotion (w0 w : World F) : Prop where
  tcp : NoTcp w0 w
  asked : w.rob.current_move_motion_generator_mode ≠ .Idle
  shown : w.rob.motion_generator_mode = some w.rob.current_move_motion_generator_mode

omit [Wire F] in
theorem fail_with_log_not_ok {α : Type} (m : String) (s : MoveStatus) (r : FrankaErrors) (w : World F) :
    Post (fail_with_log m s r : Prog F α) w fun r _ => ∀ a, r ≠ .ok a := by
  unfold fail_with_log flush_logger
  simp only [post_bind, post_gets, after_ok, post_liftP]
  refine ⟨fun p _ => ?_, fun m _ => by simp⟩
  simp only [after_ok, post_modify, post_pure, post_gets, post_liftP, post_bind]
  exact ⟨fun e _ => by simp, fun m _ => by simp⟩

omit [Wire F] in
theorem motion_error_same (s : RobotState F) (w : World F) : Post (motion_error s : Prog F Bool) w fun r w' => w' = w ∧
    (r = .ok false → w.rob.motion_generator_mode = some w.rob.current_move_motion_generator_mode) := by
  unfold motion_error
  rw [post_bind, post_gets, after_ok, post_ite]
  refine ⟨fun _ => ⟨rfl, fun h => by cases h⟩, fun _ => ?_⟩
  cases hm : w.rob.motion_generator_mode with
  | none => exact ⟨rfl, fun h => by cases h⟩
  | some m =>
    simp only [unwrapOpt, post_bind, post_pure, after_ok, post_ite]
    refine ⟨fun _ => ⟨trivial, by simp⟩, fun hne => ?_⟩
    have hme : m = w.rob.current_move_motion_generator_mode := by simpa using hne
    cases hc : w.rob.current_move_controller_mode with
    | none => exact ⟨rfl, by simp⟩
    | some c => exact ⟨rfl, fun _ => by rw [hme]⟩

/-- A check that does not fail changes nothing. -/
theorem throw_ok (s : RobotState F) (id : UInt32) (w : World F) : Post (throw_on_motion_error s id) w fun r w' =>
    r = .ok () → w' = w ∧ w.rob.motion_generator_mode = some w.rob.current_move_motion_generator_mode := by
  unfold throw_on_motion_error
  refine (motion_error_same s w).bind ?_
  rintro r w' ⟨rfl, hr⟩
  cases r with
  | ok b =>
    cases b with
    | false => exact fun _ => ⟨rfl, hr rfl⟩
    | true =>
      simp only [after_ok, if_true]
      refine Post.bind (S := fun _ _ => True) trivial ?_
      intro r w1 _
      cases r with
      | ok a =>
        rw [after_ok]
        cases (handle_command_response_move a : Except (FrankaException F) Unit) with
        | error e => exact (fail_with_log_not_ok _ _ _ w1).mono fun r _ h hr => absurd hr (h _)
        | ok _ => intro h; cases h
      | err e => intro h; cases h
      | panic m => intro h; cases h
      | blocked => intro h; cases h
  | err e => intro h; cases h
  | panic m => intro h; cases h
  | blocked => intro h; cases h

/-- One round of the control loop: a command, the next state and the check. -/
theorem round_ok (m : Option (MotionGeneratorCommand F)) (c : Option (ControllerCommand F)) (id : UInt32) (w0 w : World F) (h : NoTcp w0 w)
    (ha : w.rob.current_move_motion_generator_mode ≠ .Idle) {α : Type} (g : RobotState F → α) : Post (do
      let robot_state ← update m c
      throw_on_motion_error robot_state id
      pure (g robot_state) : Prog F α) w fun r w' => ∀ a, r = .ok a → InMotion w0 w' := by
  refine (((pres_update (T := NoTcp) m c).post w).and ((sameMove_update m c).post w)).bind ?_
  rintro r w1 ⟨h1, h2⟩
  cases r with
  | ok s =>
    rw [after_ok]
    refine (throw_ok s id w1).bind ?_
    rintro r w2 hr
    cases r with
    | ok _ =>
      obtain ⟨rfl, hm⟩ := hr rfl
      intro a _
      refine ⟨Pre.trans h h1, ?_, hm⟩
      show w2.rob.current_move_motion_generator_mode ≠ _
      rw [show w2.rob.current_move_motion_generator_mode = _ from h2]
      exact ha
    | err e => intro a h; cases h
    | panic m => intro a h; cases h
    | blocked => intro a h; cases h
  | err e => intro a h; cases h
  | panic m => intro a h; cases h
  | blocked => intro a h; cases h

variable [Geo F] {σ : Type} {k : MotionKind} (l : ControlLoop F σ k)

theorem spin_motion_same (c : σ) (s : RobotState F) (dt : Nat) (m : MotionGeneratorCommand F) (w0 w : World F) (h : InMotion w0 w) :
    Post (l.spin_motion c s dt m) w fun _ w' => InMotion w0 w' := by
  unfold ControlLoop.spin_motion
  simp only [post_bind, post_emit, after_ok, post_liftP, post_pure]
  have : InMotion w0 { w with trace := w.trace ++ [.motionCb k s dt (l.motion_callback c s dt).2] } :=
    ⟨Pre.trans h.tcp (TCb.motion w _ _ _ _), h.asked, h.shown⟩
  exact ⟨fun _ _ => this, fun _ _ => this⟩

theorem spin_control_same (f : σ → RobotState F → Nat → σ × Torques F) (c : σ) (s : RobotState F) (dt : Nat) (w0 w : World F) (h : InMotion w0 w) :
    Post (l.spin_control f c s dt) w fun _ w' => InMotion w0 w' := by
  unfold ControlLoop.spin_control
  simp only [post_bind, post_emit, after_ok, post_liftP, post_pure]
  have : InMotion w0 { w with trace := w.trace ++ [.controlCb s dt (f c s dt).2] } :=
    ⟨Pre.trans h.tcp (TCb.control w _ _ _), h.asked, h.shown⟩
  exact ⟨fun _ _ => this, fun _ _ => this⟩

theorem motion_loop_ok (v : ControlLoop.Locals F σ) (w0 w : World F) (h : InMotion w0 w) :
    Post (l.motion_loop v) w fun r w' => ∀ a, r = .ok a → InMotion w0 w' := by
  unfold ControlLoop.motion_loop
  refine loop_post (fun _ w' => InMotion w0 w') h ?_ (fun _ _ _ => by simp)
  intro v w1 h1
  rw [post_bind, post_liftP]
  refine ⟨fun dt _ => ?_, fun m _ => by simp [after_panic, round_panic]⟩
  rw [after_ok]
  refine (spin_motion_same l _ _ _ _ w0 w1 h1).bind ?_
  rintro r w2 h2
  cases r with
  | ok x =>
    obtain ⟨c, m, go⟩ := x
    rw [after_ok]
    simp only [post_ite]
    refine ⟨fun _ => ?_, fun _ => ?_⟩
    · refine (round_ok (some m) none l.motion_id w0 w2 h2.tcp h2.asked _).mono ?_
      intro r w3 h3
      cases r with
      | ok x =>
        cases x with
        | inl b => exact h3 _ rfl
        | inr b => exact fun a _ => h3 _ rfl
      | err e => intro a h; cases h
      | panic m => intro a h; cases h
      | blocked => intro a h; cases h
    · exact fun _ _ => h2
  | err e => intro a h; cases h
  | panic m => intro a h; cases h
  | blocked => intro a h; cases h

theorem torque_loop_ok (f : σ → RobotState F → Nat → σ × Torques F) (v : ControlLoop.Locals F σ) (w0 w : World F) (h : InMotion w0 w) :
    Post (l.torque_loop f v) w fun r w' => ∀ a, r = .ok a → InMotion w0 w' := by
  unfold ControlLoop.torque_loop
  refine loop_post (fun _ w' => InMotion w0 w') h ?_ (fun _ _ _ => by simp)
  intro v w1 h1
  rw [post_bind, post_liftP]
  refine ⟨fun dt _ => ?_, fun m _ => by simp [after_panic, round_panic]⟩
  rw [after_ok]
  refine (spin_motion_same l _ _ _ _ w0 w1 h1).bind ?_
  rintro r w2 h2
  cases r with
  | ok x =>
    obtain ⟨c, m, go⟩ := x
    rw [after_ok]
    simp only [post_ite]
    refine ⟨fun _ => ?_, fun _ => fun _ _ => h2⟩
    rw [post_bind, post_liftP]
    refine ⟨fun dt _ => ?_, fun m _ => by simp [after_panic, round_panic]⟩
    rw [after_ok]
    refine (spin_control_same l f _ _ _ w0 w2 h2).bind ?_
    rintro r w3 h3
    cases r with
    | ok x =>
      obtain ⟨c, t, go⟩ := x
      rw [after_ok]
      simp only [post_ite]
      refine ⟨fun _ => ?_, fun _ => fun _ _ => h3⟩
      refine (round_ok (some m) (some t) l.motion_id w0 w3 h3.tcp h3.asked _).mono ?_
      intro r w4 h4
      cases r with
      | ok x =>
        cases x with
        | inl b => exact h4 _ rfl
        | inr b => exact fun a _ => h4 _ rfl
      | err e => intro a h; cases h
      | panic m => intro a h; cases h
      | blocked => intro a h; cases h
    | err e => intro a h; cases h
    | panic m => intro a h; cases h
    | blocked => intro a h; cases h
  | err e => intro a h; cases h
  | panic m => intro a h; cases h
  | blocked => intro a h; cases h

/-- A positive answer to the request `id` was the last thing that happened before `w'`, after `w`. -/
def AnsweredLast (id : UInt32) (w w' : World F) : Prop := ∃ es bs fs a rest, w'.trace = w.trace ++ es ++ .response id bs :: fs ∧
  visible fs = [] ∧ MoveResponse.codec.dec bs = some (a, rest) ∧ abortMessage a.status = none

theorem AnsweredLast.back {id : UInt32} {w0 w w' : World F} (h : AnsweredLast id w w') (h0 : NoTcp w0 w) : AnsweredLast id w0 w' := by
  obtain ⟨es, bs, fs, a, rest, h1, h2⟩ := h
  obtain ⟨x, hx, -⟩ := h0.trace
  exact ⟨x ++ es, bs, fs, a, rest, by rw [h1, hx]; simp, h2⟩

omit [Fl F] [Wire F] [Geo F] in
theorem mem_responses_split {id : UInt32} {bs : Bytes} {es : List (Ev F)} (h : (id, bs) ∈ responses es) : ∃ x y, es = x ++ .response id bs :: y := by
  unfold responses at h
  obtain ⟨e, he, h2⟩ := List.mem_filterMap.1 h
  cases e <;> simp only [reduceCtorEq, Option.some.injEq, Prod.mk.injEq] at h2
  obtain ⟨rfl, rfl⟩ := h2
  exact List.append_of_mem he

/-- Waiting for the answer to a request that has none yet. -/
theorem wait_answer_last (id : UInt32) (w : World F) (hn : w.net.received_responses id = none) :
    Post (tcp_blocking_receive_response MoveResponse.codec id : Prog F MoveResponse) w fun r w' =>
      ∀ a, r = .ok a → abortMessage a.status = none → AnsweredLast id w w' := by
  unfold tcp_blocking_receive_response
  refine (wait_spec id w).bind ?_
  intro r w1 h1
  cases r with
  | ok bs =>
    obtain ⟨w2, ⟨-, -, -, -, -, es, h2, h3, h4⟩, h5, rfl⟩ := h1
    rw [after_ok]
    unfold deserialize
    cases hd : MoveResponse.codec.dec bs with
    | none => intro a ha; cases ha
    | some p =>
      rintro a ha hp
      cases ha
      rw [h4 id, hn] at h5
      rcases latestAnswer_mem _ _ _ _ h5 with h | h
      · cases h
      · obtain ⟨x, y, rfl⟩ := mem_responses_split h
        refine ⟨x, bs, y, p.1, p.2, ?_, visible_tcp _ fun e he => h3 e (by simp [he]), hd, hp⟩
        show w2.trace = _
        rw [h2, List.append_assoc]
  | err e => exact h1.elim
  | panic m => intro a ha; cases ha
  | blocked => intro a ha; cases ha


theorem finish_ok (id : UInt32) (m : Option (MotionGeneratorCommand F)) (c : Option (ControllerCommand F)) (w0 w : World F) (h : InMotion w0 w)
    (hn : w0.net.received_responses id = none) : Post (finish_motion id m c) w fun r w' => r = .ok () → AnsweredLast id w0 w' := by
  unfold finish_motion
  have hrun : Post (something_running : Prog F Bool) w fun r w' => r = .ok true ∧ w' = w := by
    unfold something_running motion_generator_running
    simp only [post_bind, post_gets, after_ok, h.shown, unwrapOpt, post_pure, post_ite]
    exact ⟨fun _ => ⟨trivial, trivial⟩, fun h1 => absurd h.asked (by simpa using h1)⟩
  refine hrun.bind ?_
  rintro r w1 ⟨rfl, rfl⟩
  simp only [after_ok, if_true]
  cases m with
  | none => intro h; cases h
  | some m =>
    refine ((pres_finish_loop (T := NoTcp) _ _).post w1).bind ?_
    intro r w2 h2
    have h2 := Pre.trans h.tcp h2
    cases r with
    | ok st =>
      cases st with
      | none => intro h; cases h
      | some st =>
        simp only [after_ok, unwrapOpt, post_bind, post_pure]
        refine (wait_answer_last id w2 (by rw [h2.table]; exact hn)).mono ?_
        intro r w3 h3
        cases r with
        | ok a =>
          rw [after_ok]
          split
          · exact (fail_with_log_not_ok _ _ _ w3).mono fun r _ h hr => absurd hr (h _)
          · have hmv := handle_move (F := F) a
            cases hh : (handle_command_response_move a : Except (FrankaException F) Unit) with
            | ok _ =>
              rw [hh] at hmv
              intro _
              exact (h3 a rfl hmv).back h2
            | error e =>
              rw [hh] at hmv
              obtain ⟨msg, hm1, rfl⟩ := hmv
              exact (fail_with_log_not_ok _ _ _ w3).mono fun r _ h hr => absurd hr (h _)
        | err e => intro h; cases h
        | panic m => intro h; cases h
        | blocked => intro h; cases h
    | err e => intro h; cases h
    | panic m => intro h; cases h
    | blocked => intro h; cases h

theorem do_loop_ok (c0 : σ) (w : World F) (hn : w.net.received_responses l.motion_id = none)
    (ha : w.rob.current_move_motion_generator_mode ≠ .Idle) :
    Post (l.do_loop c0) w fun r w' => r = .ok () → AnsweredLast l.motion_id w w' := by
  unfold ControlLoop.do_loop
  refine (((pres_update_none (T := NoTcp)).post w).and ((sameMove_update none none).post w)).bind ?_
  rintro r w1 ⟨h1, h2⟩
  cases r with
  | ok s =>
    rw [after_ok]
    refine (throw_ok s l.motion_id w1).bind ?_
    rintro r w2 hr
    cases r with
    | ok _ =>
      obtain ⟨rfl, hm⟩ := hr rfl
      have hin : InMotion w w2 := ⟨h1, by rw [show w2.rob.current_move_motion_generator_mode = _ from h2]; exact ha, hm⟩
      rw [after_ok]
      cases hf : l.control_callback with
      | none =>
        refine (motion_loop_ok l _ w w2 hin).bind ?_
        intro r w3 h3
        cases r with
        | ok m => exact finish_ok _ _ _ w w3 (h3 _ rfl) hn
        | err e => intro h; cases h
        | panic m => intro h; cases h
        | blocked => intro h; cases h
      | some f =>
        refine (torque_loop_ok l f _ w w2 hin).bind ?_
        intro r w3 h3
        cases r with
        | ok x => exact finish_ok _ _ _ w w3 (h3 _ rfl) hn
        | err e => intro h; cases h
        | panic m => intro h; cases h
        | blocked => intro h; cases h
    | err e => intro h; cases h
    | panic m => intro h; cases h
    | blocked => intro h; cases h
  | err e => intro h; cases h
  | panic m => intro h; cases h
  | blocked => intro h; cases h


/-! ## The start of a motion -/

omit [Fl F] [Wire F] [Geo F] in
theorem no_answer_of_latest {id : UInt32} {o : Option Bytes} {es : List (Ev F)} (h : latestAnswer id o es = none) : ∀ bs, (id, bs) ∉ responses es := by
  induction es generalizing o with
  | nil => intro bs h; cases h
  | cons e es ih =>
    have h' : latestAnswer id (latestAnswer id o [e]) es = none := by rw [← latestAnswer_append]; exact h
    intro bs hm
    have hr : responses (e :: es) = responses [e] ++ responses es := responses_append [e] es
    rw [hr, List.mem_append] at hm
    rcases hm with hm | hm
    · obtain ⟨x, y, he⟩ := mem_responses_split hm
      have : e = .response id bs := by
        cases x with
        | nil => cases he; rfl
        | cons a x => simp at he
      subst this
      rw [show latestAnswer id o [.response id bs] = some bs by simp [latestAnswer]] at h'
      have : ∀ (es : List (Ev F)) b, latestAnswer id (some b) es ≠ none := by
        intro es
        induction es with
        | nil => intro b h; cases h
        | cons e es ih =>
          intro b
          rw [show latestAnswer id (some b) (e :: es) = latestAnswer id (latestAnswer id (some b) [e]) es from latestAnswer_append [e] es id (some b)]
          cases e <;> try exact ih b
          simp only [latestAnswer, List.foldl_cons, List.foldl_nil]
          split
          · exact ih _
          · exact ih b
      exact this _ _ h'
    · exact ih h' bs hm

omit [Fl F] [Wire F] [Geo F] in
/-- After an answer to `id` nothing is seen. -/
def EndsAtAnswer (id : UInt32) (es : List (Ev F)) : Prop := ∀ pre bs post, es = pre ++ .response id bs :: post → visible post = []

omit [Fl F] [Wire F] [Geo F] in
theorem endsAtAnswer_of_none {id : UInt32} {es fs : List (Ev F)} (h : ∀ bs, (id, bs) ∉ responses es) (hf : ∀ e ∈ fs, isTcpEv e = true) :
    EndsAtAnswer id (es ++ fs) := by
  intro pre bs post he
  rcases List.append_eq_append_iff.1 he with ⟨x, h1, h2⟩ | ⟨x, h1, h2⟩
  · refine visible_tcp _ fun e hx => hf e ?_
    rw [h2]; simp [hx]
  · cases x with
    | nil =>
      simp only [List.nil_append] at h2
      refine visible_tcp _ fun e hx => hf e ?_
      rw [← h2]; simp [hx]
    | cons e x =>
      simp only [List.cons_append, List.cons.injEq] at h2
      obtain ⟨rfl, -⟩ := h2
      refine absurd ?_ (h bs)
      rw [h1]
      simp [responses]

/-- Waiting for the start of the motion `id`: nothing is done any more after its answer. -/
theorem wait_start_answer (id : UInt32) (w : World F) (hn : w.net.received_responses id = none) :
    Post (wait_for_motion_start id : Prog F Unit) w fun r w' => ∃ es, w'.trace = w.trace ++ es ∧ EndsAtAnswer id es ∧
      (r = .ok () → w'.net.received_responses id = none ∧ SameMove w w') := by
  unfold wait_for_motion_start
  have base : ∀ (w' : World F), (∃ es, w'.trace = w.trace ++ es ∧ ∀ bs, (id, bs) ∉ responses es) →
      ∃ es, w'.trace = w.trace ++ es ∧ EndsAtAnswer id es := by
    rintro w' ⟨es, h1, h2⟩
    exact ⟨es, h1, by simpa using endsAtAnswer_of_none (fs := []) h2 (by simp)⟩
  refine loop_post (fun _ w' => (∃ es, w'.trace = w.trace ++ es ∧ ∀ bs, (id, bs) ∉ responses es) ∧ w'.net.received_responses id = none ∧ SameMove w w')
    ⟨⟨[], (List.append_nil _).symm, by simp [responses]⟩, hn, rfl⟩ ?_ ?_
  · rintro _ w1 ⟨h1, h2, h3⟩
    have hmd : Post (modes_differ : Prog F Bool) w1 fun _ w' => w' = w1 := by
      unfold modes_differ
      cases hm : w1.rob.motion_generator_mode <;> simp [hm, unwrapOpt]
    refine hmd.bind ?_
    rintro r w' rfl
    cases r with
    | ok b =>
      rw [after_ok, post_ite]
      refine ⟨fun _ => ?_, fun _ => ?_⟩
      · rw [post_bind, post_attempt]
        unfold tcp_receive_response
        refine ((pres_tcp_read_from_buffer (T := TcpStep)).post w').bind ?_
        rintro r w2 ⟨hrob, -, -, -, -, es2, ht, htcp, htab⟩
        obtain ⟨es, g1, g2⟩ := h1
        have hends : ∃ es, w2.trace = w.trace ++ es ∧ EndsAtAnswer id es :=
          ⟨es ++ es2, by rw [ht, g1, List.append_assoc], endsAtAnswer_of_none g2 htcp⟩
        obtain ⟨fs, f1, f2⟩ := hends
        have hsame : SameMove w w2 := by unfold SameMove; rw [hrob]; exact h3
        cases r with
        | ok _ =>
          rw [after_ok, post_bind, post_gets, after_ok]
          cases hr : w2.net.received_responses id with
          | none =>
            rw [htab id, h2] at hr
            have hno := no_answer_of_latest hr
            simp only [post_pure, tried_ok, after_ok, post_bind]
            refine (((pres_update_none (T := NoTcp)).post w2).and ((sameMove_update none none).post w2)).mono ?_
            rintro r w3 ⟨⟨q1, -, q3, q4, q5⟩, q6⟩
            have hn3 : ∃ es, w3.trace = w.trace ++ es ∧ ∀ bs, (id, bs) ∉ responses es := by
              refine ⟨es ++ es2 ++ q3, by rw [q4, ht, g1]; simp, fun bs => ?_⟩
              rw [responses_append, responses_append, q5, List.append_nil, List.mem_append]
              exact fun h => h.elim (g2 bs) (hno bs)
            obtain ⟨xs, x1, x2⟩ := base w3 hn3
            cases r with
            | ok _ => exact ⟨hn3, (congrFun q1 id).trans (by rw [htab id, h2]; exact hr), Pre.trans hsame q6⟩
            | err e => exact ⟨xs, x1, x2, fun h => by cases h⟩
            | panic m => exact ⟨xs, x1, x2, fun h => by cases h⟩
            | blocked => exact ⟨xs, x1, x2, fun h => by cases h⟩
          | some m =>
            simp only [post_ite]
            refine ⟨fun _ => ⟨fs, f1, f2, fun h => by cases h⟩, fun _ => ?_⟩
            unfold deserialize
            cases MoveResponse.codec.dec m with
            | none => exact ⟨fs, f1, f2, fun h => by cases h⟩
            | some p =>
              simp only [post_bind, post_pure, after_ok]
              cases hh : (handle_command_response_move p.1 : Except (FrankaException F) Unit) with
              | ok _ =>
                simp only [remove_response, post_bind, post_gets, post_modify, post_pure, after_ok, tried_ok, round_inr]
                exact ⟨fs, f1, f2, fun _ => ⟨by simp, hsame⟩⟩
              | error e =>
                simp only [post_err, tried_err, after_ok]
                cases e <;> exact ⟨fs, f1, f2, fun h => by cases h⟩
        | err e =>
          simp only [after_err, tried_err, after_ok]
          cases e <;> exact ⟨fs, f1, f2, fun h => by cases h⟩
        | panic m => exact ⟨fs, f1, f2, fun h => by cases h⟩
        | blocked => exact ⟨fs, f1, f2, fun h => by cases h⟩
      · obtain ⟨xs, x1, x2⟩ := base w' h1
        exact ⟨xs, x1, x2, fun _ => ⟨h2, h3⟩⟩
    | err e => obtain ⟨xs, x1, x2⟩ := base w' h1; exact ⟨xs, x1, x2, fun h => by cases h⟩
    | panic m => obtain ⟨xs, x1, x2⟩ := base w' h1; exact ⟨xs, x1, x2, fun h => by cases h⟩
    | blocked => obtain ⟨xs, x1, x2⟩ := base w' h1; exact ⟨xs, x1, x2, fun h => by cases h⟩
  · rintro _ w1 ⟨h1, h2, h3⟩
    obtain ⟨xs, x1, x2⟩ := base w1 h1
    exact ⟨xs, x1, x2, fun h => by cases h⟩

omit [Fl F] [Wire F] [Geo F] in
theorem sendRequest_table (b : RobotBody F) (w : World F) : Post (sendRequest b) w fun r w' => ∀ id, r = .ok id →
    id = w.net.command_id ∧ w'.rob = w.rob := by
  refine (sendRequest_spec b w).mono ?_
  intro r w' hr
  cases r with
  | ok id =>
    obtain ⟨rfl, t, ts, -, -, -, rfl⟩ := hr
    intro id h; cases h; exact ⟨rfl, rfl⟩
  | err e => exact hr.elim
  | panic m => intro id h; cases h
  | blocked => intro id h; cases h

/-- The request to start a motion: when it was accepted, its answer is no longer in the table. -/
theorem move_command_none (cm : MoveControllerMode) (mm : MoveMotionGeneratorMode) (a b : MoveDeviation F) (w : World F) :
    Post (execute_move_command cm mm a b) w fun r w' => ∀ id, r = .ok id → id = w.net.command_id ∧ w'.net.received_responses id = none ∧
      SameMove w w' := by
  have heq : execute_move_command cm mm a b = (sendRequest (.Move ⟨cm, mm, a, b⟩) >>= fun id =>
      tcp_blocking_receive_response MoveResponse.codec id >>= fun r => ofExcept (handle_command_response_move r) >>= fun _ => pure id : Prog F UInt32) := by
    unfold execute_move_command sendRequest
    simp only [Prog.bind_assoc']; rfl
  rw [heq]
  refine (sendRequest_table _ w).bind ?_
  intro r w1 h1
  cases r with
  | ok id =>
    obtain ⟨rfl, hrob⟩ := h1 _ rfl
    rw [after_ok]
    have hrec : Post (tcp_blocking_receive_response MoveResponse.codec w.net.command_id : Prog F MoveResponse) w1 fun _ w' => w'.rob = w1.rob := by
      unfold tcp_blocking_receive_response
      refine (wait_spec _ w1).bind ?_
      intro r w2 h2
      cases r with
      | ok bs =>
        obtain ⟨w3, h3, -, rfl⟩ := h2
        rw [after_ok]
        unfold deserialize
        cases MoveResponse.codec.dec bs <;> exact h3.rob
      | err e => exact h2.elim
      | panic m => exact h2.rob
      | blocked => exact h2.rob
    refine ((new_answer_view w.net.command_id w1).and hrec).bind ?_
    rintro r w2 ⟨h2, h3⟩
    cases r with
    | ok a =>
      rw [after_ok]
      cases (handle_command_response_move a : Except (FrankaException F) Unit) with
      | ok _ =>
        intro id h
        cases h
        exact ⟨rfl, (h2 a rfl).1, by unfold SameMove; exact congrArg _ (h3.trans hrob)⟩
      | error e => intro id h; cases h
    | err e => intro id h; cases h
    | panic m => intro id h; cases h
    | blocked => intro id h; cases h
  | err e => intro id h; cases h
  | panic m => intro id h; cases h
  | blocked => intro id h; cases h

/-- A motion that was started. -/
theorem start_ok (cm : MoveControllerMode) (mm : MoveMotionGeneratorMode) (a b : MoveDeviation F) (w : World F) :
    Post (start_motion cm mm a b) w fun r w' => ∀ id, r = .ok id → id = w.net.command_id ∧ w'.net.received_responses id = none ∧
      w'.rob.current_move_motion_generator_mode ≠ .Idle := by
  unfold start_motion
  have hrun : Post (something_running : Prog F Bool) w fun _ w' => w' = w := by
    unfold something_running motion_generator_running controller_running
    cases hm : w.rob.motion_generator_mode with
    | none => simp [hm, unwrapOpt]
    | some m => simp [hm, unwrapOpt, post_ite]
  refine hrun.bind ?_
  rintro r w' rfl
  cases r with
  | ok b' =>
    rw [after_ok, post_ite]
    refine ⟨fun _ => fun id h => (by cases h), fun _ => ?_⟩
    rw [post_bind, post_modify, after_ok]
    refine (move_command_none _ _ _ _ _).bind ?_
    intro r w1 h1
    cases r with
    | ok id =>
      obtain ⟨rfl, hn, hs⟩ := h1 _ rfl
      rw [after_ok]
      refine (wait_start_answer _ w1 hn).bind ?_
      rintro r w2 ⟨-, -, -, h2⟩
      cases r with
      | ok _ =>
        obtain ⟨g1, g2⟩ := h2 rfl
        unfold flush_logger
        simp only [after_ok, post_bind, post_gets, post_liftP, post_modify, post_pure]
        refine ⟨fun p _ => ?_, fun m _ => fun id h => by cases h⟩
        intro id h
        cases h
        refine ⟨rfl, g1, ?_⟩
        show w2.rob.current_move_motion_generator_mode ≠ _
        rw [show w2.rob.current_move_motion_generator_mode = _ from g2, show w1.rob.current_move_motion_generator_mode = _ from hs]
        show mm.reported ≠ _
        cases mm <;> decide
      | err e => intro id h; cases h
      | panic m => intro id h; cases h
      | blocked => intro id h; cases h
    | err e => intro id h; cases h
    | panic m => intro id h; cases h
    | blocked => intro id h; cases h
  | err e => intro id h; cases h
  | panic m => intro id h; cases h
  | blocked => intro id h; cases h


/-! ## Stopping -/

/-- The StopMove request number `id` was sent and answered with success. -/
def StopAnswered (id : UInt32) (w' : World F) : Prop := ∃ h bs a rest, .robotReq ⟨h, .StopMove⟩ ∈ w'.trace ∧ h.command_id = id ∧
  (id, bs) ∈ responses w'.trace ∧ StopMoveResponse.codec.dec bs = some (a, rest) ∧ a.status = .Success

theorem StopAnswered.grows {id : UInt32} {w w' : World F} (h : StopAnswered id w) (hg : Grows w w') : StopAnswered id w' := by
  obtain ⟨hd, bs, a, rest, h1, h2, h3, h4⟩ := h
  refine ⟨hd, bs, a, rest, ?_, h2, hg.responses h3, h4⟩
  obtain ⟨es, he⟩ := hg
  rw [he]; exact List.mem_append_left _ h1

theorem stop_command_ok (w : World F) (hw : TcpOk .Robot w) : Post (execute_stop_command : Prog F UInt32) w fun r w' =>
    ∀ id, r = .ok id → StopAnswered w.net.command_id w' := by
  have heq : execute_stop_command = (sendRequest .StopMove >>= fun id =>
      tcp_blocking_receive_response StopMoveResponse.codec id >>= fun r => ofExcept (handle_command_response_stop r) >>= fun _ => pure id : Prog F UInt32) := by
    unfold execute_stop_command sendRequest
    simp only [Prog.bind_assoc']; rfl
  rw [heq]
  have hk : Keeps (TcpOk .Robot) (TcpWeak .Robot) (sendRequest .StopMove : Prog F _) := Keeps.of_rel TcpSame.keep (pres_sendRequest _)
  refine ((sendRequest_spec _ w).and (hk w hw)).bind ?_
  rintro r w1 ⟨h1, h2⟩
  cases r with
  | ok id =>
    obtain ⟨rfl, t, ts, -, -, -, hw1⟩ := h1
    have hm1 : .robotReq ⟨⟨.StopMove, w.net.command_id, UInt32.ofNat (RobotCommandEnum.StopMove).size_of_request⟩, .StopMove⟩ ∈ w1.trace := by
      rw [hw1]; exact List.mem_append_right _ (List.mem_singleton.2 rfl)
    rw [after_ok]
    refine ((receive_answer_spec .Robot StopMoveResponse.codec w.net.command_id w1 h2).and
      ((pres_tcp_blocking_receive_response (T := Grows) _ _).post w1)).bind ?_
    rintro r w2 ⟨⟨-, -, -, -, -, -, g7⟩, hg⟩
    cases r with
    | ok a =>
      obtain ⟨-, m, rest, g2, -, g3⟩ := g7
      rw [after_ok]
      have hgood : a.status = .Success ∨ ∃ e, (handle_command_response_stop a : Except (FrankaException F) Unit) = .error e := by
        unfold handle_command_response_stop
        cases a.status <;> simp
      cases hh : (handle_command_response_stop a : Except (FrankaException F) Unit) with
      | ok _ =>
        intro id _
        obtain ⟨es, he⟩ := hg
        have hm2 : w2.trace = w1.trace ++ es := he
        exact ⟨_, m, a, rest, hm2 ▸ List.mem_append_left _ hm1, rfl, g2, g3, hgood.resolve_right (by rw [hh]; simp)⟩
      | error e => intro id h; cases h
    | err e => intro id h; cases h
    | panic m => intro id h; cases h
    | blocked => intro id h; cases h
  | err e => intro id h; cases h
  | panic m => intro id h; cases h
  | blocked => intro id h; cases h

/-- The number of the next request is kept. -/
def SameNext (w w' : World F) : Prop := w'.net.command_id = w.net.command_id

instance : Pre (SameNext (F := F)) where
  refl _ := rfl
  trans h g := Eq.trans g h

instance : TTcp (SameNext (F := F)) where
  tick _ _ _ _ := rfl
  poll _ := rfl
  read _ _ := rfl
  pend _ _ _ := rfl
  head _ _ _ := rfl
  store _ := rfl
  remove _ _ := rfl

instance : TAcc (SameNext (F := F)) where
  tick _ _ _ _ := rfl
  upoll _ := rfl
  recv _ _ _ _ := rfl
  addr _ _ := rfl
  acc _ _ := rfl

instance : TRob (SameNext (F := F)) where
  rob _ _ _ _ _ := rfl

instance : TCmd (SameNext (F := F)) where
  send _ _ := rfl

instance : TCb (SameNext (F := F)) where
  motion _ _ _ _ _ := rfl
  control _ _ _ _ := rfl

/-- Running a motion that was started. -/
theorem run_answers (c0 : σ) (w : World F) (hw : TcpOk .Robot w) (hn : w.net.received_responses l.motion_id = none)
    (ha : w.rob.current_move_motion_generator_mode ≠ .Idle) : Post (l.run c0) w fun r w' =>
      (r = .ok () → AnsweredLast l.motion_id w w') ∧ ∀ e, r = .err e → StopAnswered w.net.command_id w' := by
  unfold ControlLoop.run
  rw [post_bind, post_attempt]
  refine ((do_loop_ok l c0 w hn ha).and (((pres_do_loop (T := SameNext) l c0).post w).and
    (keeps_do_loop (I := TcpOk .Robot) (J := TcpWeak .Robot) l c0 w hw))).mono ?_
  rintro r w1 ⟨h1, h2, h3⟩
  cases r with
  | ok _ => exact ⟨fun _ => h1 rfl, fun e h => by cases h⟩
  | err e =>
    rw [tried_err, after_ok]
    have hc : Post (cancel_motion l.motion_id : Prog F Unit) w1 fun r w' => match r with
        | .ok _ | .err _ => StopAnswered w.net.command_id w'
        | _ => True := by
      unfold cancel_motion
      rw [post_bind, post_attempt]
      refine (stop_command_ok w1 h3).mono ?_
      intro r w2 h4
      rw [show w1.net.command_id = w.net.command_id from h2] at h4
      cases r with
      | ok id =>
        rw [tried_ok, after_ok]
        have hg : Pres Grows (do
            let _ ← attempt receive_robot_state
            cancel_loop
            match ← attempt (tcp_receive_response l.motion_id fun _ => .ok ()) with
            | .error _ => Prog.panic "This should be impossible as the handler always returns Ok(())"
            | .ok _ => forget_motion : Prog F Unit) := by
          pres [pres_receive_robot_state, pres_cancel_loop, pres_tcp_receive_response _ _, pres_forget_motion]
        refine (hg.post w2).mono fun r w3 hg => ?_
        cases r with
        | ok x => exact (h4 _ rfl).grows hg
        | err e => exact (h4 _ rfl).grows hg
        | panic m => trivial
        | blocked => trivial
      | err e => trivial
      | panic m => trivial
      | blocked => trivial
    refine hc.bind ?_
    intro r w2 h4
    cases r with
    | ok _ => exact ⟨fun h => (by cases h), fun e _ => h4⟩
    | err e => exact ⟨fun h => (by cases h), fun e _ => h4⟩
    | panic m => exact ⟨fun h => (by cases h), fun e h => by cases h⟩
    | blocked => exact ⟨fun h => (by cases h), fun e h => by cases h⟩
  | panic m => exact ⟨fun h => (by cases h), fun e h => by cases h⟩
  | blocked => exact ⟨fun h => (by cases h), fun e h => by cases h⟩


/-! ## What is seen first when a motion that was started is run -/

/-- The list does not start with two states. -/
def NotTwo (v : List (Ev F)) : Prop := ∀ s s' rest, v ≠ .accepted s :: .accepted s' :: rest

/-- The first new visible event is not a state. -/
def Led (w w' : World F) : Prop := ∃ e rest, visible w'.trace = visible w.trace ++ e :: rest ∧ ∀ s, e ≠ .accepted s

theorem Led.grows {w w1 w' : World F} (h : Led w w1) (hg : Grows w1 w') : Led w w' := by
  obtain ⟨e, rest, h1, h2⟩ := h
  obtain ⟨es, he⟩ := hg
  exact ⟨e, rest ++ visible es, by rw [he, visible_append, h1]; simp, h2⟩

theorem spin_motion_led (c : σ) (s : RobotState F) (dt : Nat) (m : MotionGeneratorCommand F) (w : World F) :
    Post (l.spin_motion c s dt m) w fun _ w' => Led w w' := by
  unfold ControlLoop.spin_motion
  simp only [post_bind, post_emit, after_ok, post_liftP, post_pure]
  have : Led w { w with trace := w.trace ++ [.motionCb k s dt (l.motion_callback c s dt).2] } :=
    ⟨_, [], visible_snoc _ _ rfl, by simp⟩
  exact ⟨fun _ _ => this, fun _ _ => this⟩

theorem motion_loop_led (v : ControlLoop.Locals F σ) (w : World F) : Post (l.motion_loop v) w fun r w' => (w' = w ∧ ∀ a, r ≠ .ok a) ∨ Led w w' := by
  unfold ControlLoop.motion_loop
  refine loop_post (fun _ w' => w' = w ∨ Led w w') (.inl rfl) ?_ (fun _ _ h => h.imp_left fun h => ⟨h, by simp⟩)
  intro v w1 h1
  have hround : Post (do
      let dt ← liftP (durSub v.robot_state.time v.previous_time)
      let (c, motion_command, go) ← l.spin_motion v.closure v.robot_state dt v.motion_command
      if go then do
        let robot_state ← update (some motion_command) none
        throw_on_motion_error robot_state l.motion_id
        pure (.inl { v with closure := c, robot_state := robot_state, previous_time := v.robot_state.time, motion_command := motion_command })
      else pure (.inr motion_command) : Prog F (ControlLoop.Locals F σ ⊕ MotionGeneratorCommand F)) w1 fun r w' => (w' = w1 ∧ ∀ a, r ≠ .ok a) ∨ Led w1 w' := by
    rw [post_bind, post_liftP]
    refine ⟨fun dt _ => ?_, fun m _ => .inl ⟨rfl, by simp⟩⟩
    rw [after_ok]
    refine (spin_motion_led l _ _ _ _ w1).bind ?_
    intro r w2 h2
    cases r with
    | ok x =>
      obtain ⟨c, m, go⟩ := x
      rw [after_ok]
      refine (Pres.post (T := Grows) ?_ w2).mono fun _ _ hg => .inr (h2.grows hg)
      pres [pres_update _ _, pres_throw_on_motion_error _ _]
    | err e => exact .inr h2
    | panic m => exact .inr h2
    | blocked => exact .inr h2
  refine (hround.and (Pres.post (T := Grows) ?_ w1)).mono ?_
  · pres [pres_spin_motion _ _ _ _ _, pres_update _ _, pres_throw_on_motion_error _ _]
  · rintro r w' ⟨hr, hg⟩
    have hall : (w' = w ∧ ∀ a, r ≠ .ok a) ∨ Led w w' := by
      rcases h1 with rfl | h1
      · exact hr
      · exact .inr (h1.grows hg)
    cases r with
    | ok x =>
      have := hall.resolve_left fun h => h.2 _ rfl
      cases x <;> exact .inr this
    | err e => exact hall.imp_left fun h => ⟨h.1, by simp⟩
    | panic m => exact hall.imp_left fun h => ⟨h.1, by simp⟩
    | blocked => exact hall.imp_left fun h => ⟨h.1, by simp⟩

theorem torque_loop_led (f : σ → RobotState F → Nat → σ × Torques F) (v : ControlLoop.Locals F σ) (w : World F) :
    Post (l.torque_loop f v) w fun r w' => (w' = w ∧ ∀ a, r ≠ .ok a) ∨ Led w w' := by
  unfold ControlLoop.torque_loop
  refine loop_post (fun _ w' => w' = w ∨ Led w w') (.inl rfl) ?_ (fun _ _ h => h.imp_left fun h => ⟨h, by simp⟩)
  intro v w1 h1
  have hround : Post (do
      let dt ← liftP (durSub v.robot_state.time v.previous_time)
      let (c, motion_command, go) ← l.spin_motion v.closure v.robot_state dt v.motion_command
      if go then do
        let dt ← liftP (durSub v.robot_state.time v.previous_time)
        let (c, control_command, go) ← l.spin_control f c v.robot_state dt
        if go then do
          let robot_state ← update (some motion_command) (some control_command)
          throw_on_motion_error robot_state l.motion_id
          pure (.inl { closure := c, robot_state, previous_time := v.robot_state.time, motion_command, control_command })
        else pure (.inr (motion_command, control_command))
      else pure (.inr (motion_command, v.control_command)) :
        Prog F (ControlLoop.Locals F σ ⊕ MotionGeneratorCommand F × ControllerCommand F)) w1 fun r w' => (w' = w1 ∧ ∀ a, r ≠ .ok a) ∨ Led w1 w' := by
    rw [post_bind, post_liftP]
    refine ⟨fun dt _ => ?_, fun m _ => .inl ⟨rfl, by simp⟩⟩
    rw [after_ok]
    refine (spin_motion_led l _ _ _ _ w1).bind ?_
    intro r w2 h2
    cases r with
    | ok x =>
      obtain ⟨c, m, go⟩ := x
      rw [after_ok]
      refine (Pres.post (T := Grows) ?_ w2).mono fun _ _ hg => .inr (h2.grows hg)
      pres [pres_spin_control _ _ _ _ _, pres_update _ _, pres_throw_on_motion_error _ _]
    | err e => exact .inr h2
    | panic m => exact .inr h2
    | blocked => exact .inr h2
  refine (hround.and (Pres.post (T := Grows) ?_ w1)).mono ?_
  · pres [pres_spin_motion _ _ _ _ _, pres_spin_control _ _ _ _ _, pres_update _ _, pres_throw_on_motion_error _ _]
  · rintro r w' ⟨hr, hg⟩
    have hall : (w' = w ∧ ∀ a, r ≠ .ok a) ∨ Led w w' := by
      rcases h1 with rfl | h1
      · exact hr
      · exact .inr (h1.grows hg)
    cases r with
    | ok x =>
      have := hall.resolve_left fun h => h.2 _ rfl
      cases x <;> exact .inr this
    | err e => exact hall.imp_left fun h => ⟨h.1, by simp⟩
    | panic m => exact hall.imp_left fun h => ⟨h.1, by simp⟩
    | blocked => exact hall.imp_left fun h => ⟨h.1, by simp⟩

/-- Nothing is seen. -/
def Unseen (w w' : World F) : Prop := visible w'.trace = visible w.trace

instance : Pre (Unseen (F := F)) where
  refl _ := rfl
  trans h g := Eq.trans g h

instance : TTcp (Unseen (F := F)) where
  tick _ _ _ _ := rfl
  poll _ := rfl
  read _ _ := by simp [Unseen, visible, isTcpEv]
  pend _ _ _ := rfl
  head _ _ _ := rfl
  store _ := by simp [Unseen, visible, isTcpEv]
  remove _ _ := rfl

instance : TRob (Unseen (F := F)) where
  rob _ _ _ _ _ := rfl

/-- Before anything else than a state is seen, at most one state is. -/
theorem do_loop_not_two (c0 : σ) (w : World F) : Post (l.do_loop c0) w fun _ w' => ∃ v, visible w'.trace = visible w.trace ++ v ∧ NotTwo v := by
  unfold ControlLoop.do_loop
  refine (update_none_view w).bind ?_
  rintro r w1 ⟨-, h1⟩
  have hnil : NotTwo ([] : List (Ev F)) := by intro s s' rest h; cases h
  cases r with
  | ok st =>
    obtain ⟨s, rfl, hv, -⟩ := h1
    have hone : NotTwo [.accepted s] := by intro s s' rest h; cases h
    have hled : ∀ w' : World F, Led w1 w' → ∃ v, visible w'.trace = visible w.trace ++ v ∧ NotTwo v := by
      rintro w' ⟨e, rest, h1, h2⟩
      refine ⟨.accepted s :: e :: rest, by rw [h1, hv]; simp, ?_⟩
      intro a b r h
      cases h
      exact h2 _ rfl
    rw [after_ok]
    refine ((throw_ok _ l.motion_id w1).and ((pres_throw_on_motion_error (T := Unseen) _ l.motion_id).post w1)).bind ?_
    rintro r w2 ⟨hr, hu⟩
    have hu : visible w2.trace = visible w.trace ++ [.accepted s] := Eq.trans hu hv
    cases r with
    | ok _ =>
      obtain ⟨rfl, -⟩ := hr rfl
      rw [after_ok]
      have hboth : ∀ w', w' = w2 ∨ Led w2 w' → ∃ v, visible w'.trace = visible w.trace ++ v ∧ NotTwo v := by
        rintro w' (rfl | h)
        · exact ⟨_, hv, hone⟩
        · exact hled w' h
      cases hf : l.control_callback with
      | none =>
        refine (motion_loop_led l _ w2).bind ?_
        intro r w3 h3
        cases r with
        | ok m =>
          have h3 := h3.resolve_left fun h => h.2 _ rfl
          exact ((pres_finish_motion (T := Grows) _ _ _).post w3).mono fun _ w4 hg => hled w4 (h3.grows hg)
        | err e => exact hboth w3 (h3.imp_left And.left)
        | panic m => exact hboth w3 (h3.imp_left And.left)
        | blocked => exact hboth w3 (h3.imp_left And.left)
      | some f =>
        refine (torque_loop_led l f _ w2).bind ?_
        intro r w3 h3
        cases r with
        | ok x =>
          have h3 := h3.resolve_left fun h => h.2 _ rfl
          exact ((pres_finish_motion (T := Grows) _ _ _).post w3).mono fun _ w4 hg => hled w4 (h3.grows hg)
        | err e => exact hboth w3 (h3.imp_left And.left)
        | panic m => exact hboth w3 (h3.imp_left And.left)
        | blocked => exact hboth w3 (h3.imp_left And.left)
    | err e => exact ⟨_, hu, hone⟩
    | panic m => exact ⟨_, hu, hone⟩
    | blocked => exact ⟨_, hu, hone⟩
  | err e => exact ⟨[], by rw [h1.1]; simp, hnil⟩
  | panic m => exact ⟨[], by rw [h1]; simp, hnil⟩
  | blocked => exact ⟨[], by rw [h1]; simp, hnil⟩


theorem run_not_two (c0 : σ) (w : World F) (hw : TcpOk .Robot w) : Post (l.run c0) w fun _ w' => ∃ v, visible w'.trace = visible w.trace ++ v ∧ NotTwo v := by
  unfold ControlLoop.run
  rw [post_bind, post_attempt]
  refine ((do_loop_not_two l c0 w).and (keeps_do_loop (I := TcpOk .Robot) (J := TcpWeak .Robot) l c0 w hw)).mono ?_
  rintro r w1 ⟨⟨v, h1, h2⟩, h3⟩
  cases r with
  | ok _ => exact ⟨v, h1, h2⟩
  | err e =>
    rw [tried_err, after_ok]
    have hcan : Post (cancel_motion l.motion_id : Prog F Unit) w1 fun _ w' => visible w'.trace = visible w1.trace ∨ Led w1 w' := by
      unfold cancel_motion
      rw [post_bind, post_attempt]
      refine (stop_command_view h3).mono ?_
      rintro r w2 ⟨hd, -, -, hr⟩
      have hl : visible w2.trace = visible w1.trace ++ [.robotReq ⟨hd, .StopMove⟩] → Led w1 w2 := fun h => ⟨_, [], h, by simp⟩
      cases r with
      | ok id =>
        rw [tried_ok, after_ok]
        refine (Pres.post (T := Grows) ?_ w2).mono fun _ _ hg => .inr ((hl hr.2.2).grows hg)
        pres [pres_receive_robot_state, pres_cancel_loop, pres_tcp_receive_response _ _, pres_forget_motion]
      | err e => exact hr.imp_right hl
      | panic m => exact hr.imp_right hl
      | blocked => exact hr.imp_right hl
    have hall : ∀ w', visible w'.trace = visible w1.trace ∨ Led w1 w' → ∃ v, visible w'.trace = visible w.trace ++ v ∧ NotTwo v := by
      rintro w' (h | ⟨e, rest, h4, h5⟩)
      · exact ⟨v, h.trans h1, h2⟩
      · refine ⟨v ++ e :: rest, by rw [h4, h1]; simp, ?_⟩
        intro s s' r he
        match v, h2 with
        | [], _ => simp only [List.nil_append, List.cons.injEq] at he; exact h5 _ he.1
        | [x], _ => simp only [List.cons_append, List.nil_append, List.cons.injEq] at he; exact h5 _ he.2.1
        | x :: y :: z, h2 =>
          simp only [List.cons_append, List.cons.injEq] at he
          obtain ⟨rfl, rfl, -⟩ := he
          exact h2 s s' z rfl
    refine hcan.bind ?_
    intro r w2 h4
    cases r <;> exact hall w2 h4
  | panic m => exact ⟨v, h1, h2⟩
  | blocked => exact ⟨v, h1, h2⟩

end
end Verif
