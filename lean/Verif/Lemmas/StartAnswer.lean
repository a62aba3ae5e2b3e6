import Verif.Lemmas.FinalAnswer
/-!
# The answers that arrive while a motion starts
-/
namespace Verif
open Prog Spec
variable {F : Type}

/-- No response is completed. -/
def NoResp (w w' : World F) : Prop := ∃ es, w'.trace = w.trace ++ es ∧ responses es = []

instance : Pre (NoResp (F := F)) where
  refl _ := ⟨[], (List.append_nil _).symm, rfl⟩
  trans := by
    rintro a b c ⟨x, h1, h2⟩ ⟨y, h3, h4⟩
    exact ⟨x ++ y, by rw [h3, h1, List.append_assoc], by rw [responses_append, h2, h4]; rfl⟩

instance : TRecv (NoResp (F := F)) where
  tick _ _ _ _ := ⟨[], (List.append_nil _).symm, rfl⟩
  poll _ := ⟨[], (List.append_nil _).symm, rfl⟩
  read _ _ := ⟨[_], rfl, rfl⟩
  pend _ _ _ := ⟨[], (List.append_nil _).symm, rfl⟩
  head _ _ _ := ⟨[], (List.append_nil _).symm, rfl⟩

/-- At most one response is completed. -/
def OneResp (w w' : World F) : Prop := ∃ es, w'.trace = w.trace ++ es ∧ (responses es).length ≤ 1

theorem NoResp.one {a b c : World F} (h : NoResp a b) (g : OneResp b c) : OneResp a c := by
  obtain ⟨x, h1, h2⟩ := h
  obtain ⟨y, h3, h4⟩ := g
  exact ⟨x ++ y, by rw [h3, h1, List.append_assoc], by rw [responses_append, h2]; exact h4⟩

theorem OneResp.refl (w : World F) : OneResp w w := ⟨[], (List.append_nil _).symm, by simp [responses]⟩

theorem one_bind {α β : Type} {p : Prog F α} {f : α → Prog F β} (hp : Pres NoResp p) (hf : ∀ a w, Post (f a) w fun _ w' => OneResp w w') (w : World F) :
    Post (p >>= f) w fun _ w' => OneResp w w' := by
  refine (hp.post w).bind ?_
  intro r w1 h
  cases r with
  | ok a =>
    rw [after_ok]
    exact (hf a w1).mono fun _ _ g => h.one g
  | err e => exact h.one (.refl _)
  | panic m => exact h.one (.refl _)
  | blocked => exact h.one (.refl _)

theorem read_body_one (n : Nat) (w : World F) : Post (read_body n : Prog F Unit) w fun _ w' => OneResp w w' := by
  unfold read_body
  refine one_bind (Pres.gets _) (fun pending w => ?_) w
  rw [post_ite]
  refine ⟨fun _ => ?_, fun _ => .refl _⟩
  refine one_bind (Pres.gets _) (fun _ w => one_bind (Pres.gets _) (fun _ w => one_bind (Pres.gets _) (fun _ w =>
    one_bind (Pres.liftP _) (fun _ w => one_bind (pres_tcp_read_exact _) (fun _ w =>
    one_bind (show Pres NoResp (modify _) from fun w => TRecv.pend w _ _) (fun _ w => ?_) w) w) w) w) w) w
  by_cases h : w.net.pending_response_offset = w.net.pending_response_len
  · show OneResp w (((if _ then _ else _ : Prog F Unit)) w).2
    rw [if_pos h]
    exact ⟨[.response w.net.pending_command_id w.net.pending_response], rfl, by simp [responses]⟩
  · show OneResp w (((if _ then _ else _ : Prog F Unit)) w).2
    rw [if_neg h]
    exact .refl w

theorem read_one (w : World F) : Post (tcp_read_from_buffer : Prog F Unit) w fun _ w' => OneResp w w' := by
  unfold tcp_read_from_buffer
  refine one_bind pres_tcp_poll (fun b w => ?_) w
  rw [post_ite]
  refine ⟨fun _ => ?_, fun _ => .refl _⟩
  refine one_bind pres_tcp_peek (fun o w => ?_) w
  cases o with
  | none => exact .refl _
  | some n => exact one_bind (pres_read_header n) (fun _ w => read_body_one n w) w

/-- The answers to the request `id`. -/
def answersTo (id : UInt32) (es : List (Ev F)) : List (UInt32 × Bytes) := (responses es).filter fun p => p.1 == id

theorem answersTo_append (id : UInt32) (a b : List (Ev F)) : answersTo id (a ++ b) = answersTo id a ++ answersTo id b := by
  unfold answersTo
  rw [responses_append, List.filter_append]

theorem answersTo_nil {id : UInt32} {es : List (Ev F)} (h : ∀ bs, (id, bs) ∉ responses es) : answersTo id es = [] := by
  unfold answersTo
  rw [List.filter_eq_nil_iff]
  rintro ⟨i, bs⟩ hm hi
  rw [beq_iff_eq] at hi
  exact h bs (hi ▸ hm)

theorem wait_one (id : UInt32) (w : World F) : Post (wait_for_response_to_arrive id : Prog F Bytes) w fun _ w' =>
    ∃ es, w'.trace = w.trace ++ es ∧ (answersTo id es).length ≤ 1 := by
  unfold wait_for_response_to_arrive
  have base : ∀ w' : World F, (∃ es, w'.trace = w.trace ++ es ∧ ∀ bs, (id, bs) ∉ responses es) → ∃ es, w'.trace = w.trace ++ es ∧ (answersTo id es).length ≤ 1 := by
    rintro w' ⟨es, h1, h2⟩
    exact ⟨es, h1, by rw [answersTo_nil h2]; simp⟩
  refine loop_post (fun _ w' => ∃ es, w'.trace = w.trace ++ es ∧ ∀ bs, (id, bs) ∉ responses es) ⟨[], (List.append_nil _).symm, by simp [responses]⟩ ?_ ?_
  · rintro _ w1 ⟨es, h1, h2⟩
    refine ((read_one w1).and ((pres_tcp_read_from_buffer (T := TcpStep)).post w1)).bind ?_
    rintro r w2 ⟨⟨fs, g1, g2⟩, -, -, -, -, -, es2, ht, htcp, htab⟩
    obtain rfl : fs = es2 := List.append_cancel_left (g1.symm.trans ht)
    have hdone : ∃ es, w2.trace = w.trace ++ es ∧ (answersTo id es).length ≤ 1 := by
      refine ⟨es ++ fs, by rw [g1, h1, List.append_assoc], ?_⟩
      rw [answersTo_append, answersTo_nil h2]
      exact (List.length_filter_le _ _).trans g2
    cases r with
    | ok _ =>
      rw [after_ok]
      simp only [remove_response, post_bind, post_gets, post_modify, post_pure, after_ok]
      cases hr : w2.net.received_responses id with
      | none =>
        simp only [post_pure, round_inl]
        rw [htab id] at hr
        refine ⟨es ++ fs, by rw [g1, h1, List.append_assoc], fun bs => ?_⟩
        rw [responses_append, List.mem_append]
        exact fun h => h.elim (h2 bs) (no_answer_of_latest hr bs)
      | some bs => exact hdone
    | err e => exact hdone
    | panic m => exact hdone
    | blocked => exact hdone
  · rintro _ w1 h1
    exact base w1 h1

section
variable [Fl F] [Wire F]

omit [Fl F] [Wire F] in
theorem move_command_one (cm : MoveControllerMode) (mm : MoveMotionGeneratorMode) (a b : MoveDeviation F) (w : World F) :
    Post (execute_move_command cm mm a b) w fun r w' => ∃ es, w'.trace = w.trace ++ es ∧ (answersTo w.net.command_id es).length ≤ 1 ∧
      ((∀ id, r ≠ .ok id) ∨ ∃ e, visible es = [e]) := by
  have heq : execute_move_command cm mm a b = (sendRequest (.Move ⟨cm, mm, a, b⟩) >>= fun id =>
      tcp_blocking_receive_response MoveResponse.codec id >>= fun r => ofExcept (handle_command_response_move r) >>= fun _ => pure id : Prog F UInt32) := by
    unfold execute_move_command sendRequest
    simp only [Prog.bind_assoc']; rfl
  rw [heq]
  refine (sendRequest_spec _ w).bind ?_
  intro r w1 h1
  have hnone : ∀ {r : Res F UInt32} {w' : World F}, w'.trace = w.trace → (∀ id, r ≠ .ok id) →
      ∃ es, w'.trace = w.trace ++ es ∧ (answersTo w.net.command_id es).length ≤ 1 ∧ ((∀ id, r ≠ .ok id) ∨ ∃ e, visible es = [e]) :=
    fun h hr => ⟨[], by rw [h, List.append_nil], by simp [answersTo, responses], .inl hr⟩
  cases r with
  | ok id =>
    obtain ⟨rfl, t, ts, -, -, -, hw1⟩ := h1
    have hw1 := congrArg World.trace hw1
    rw [after_ok]
    unfold tcp_blocking_receive_response
    rw [Prog.bind_assoc']
    refine ((wait_one w.net.command_id w1).and (wait_spec w.net.command_id w1)).bind ?_
    rintro r w2 ⟨⟨es, h2, h3⟩, h4⟩
    have hv : ∀ x ∈ es, isTcpEv x = true := by
      cases r with
      | ok bs =>
        obtain ⟨w3, ⟨-, -, -, -, -, fs, f1, f2, -⟩, -, rfl⟩ := h4
        obtain rfl : es = fs := List.append_cancel_left (h2.symm.trans f1)
        exact f2
      | err e => exact h4.elim
      | panic m =>
        obtain ⟨-, -, -, -, -, fs, f1, f2, -⟩ := h4
        obtain rfl : es = fs := List.append_cancel_left (h2.symm.trans f1)
        exact f2
      | blocked =>
        obtain ⟨-, -, -, -, -, fs, f1, f2, -⟩ := h4
        obtain rfl : es = fs := List.append_cancel_left (h2.symm.trans f1)
        exact f2
    have hgoal : ∀ r : Res F UInt32, ∃ es, w2.trace = w.trace ++ es ∧ (answersTo w.net.command_id es).length ≤ 1 ∧ ((∀ id, r ≠ .ok id) ∨ ∃ e, visible es = [e]) := by
      intro r
      refine ⟨_, (h2.trans (congrArg (· ++ es) hw1)).trans (List.append_assoc _ _ _), h3, .inr ?_⟩
      rw [visible_append, visible_tcp _ hv]; exact ⟨_, rfl⟩
    cases r with
    | ok bs =>
      rw [after_ok]
      unfold deserialize
      cases MoveResponse.codec.dec bs with
      | none => exact hgoal _
      | some p =>
        simp only [post_bind, post_pure, after_ok]
        cases (handle_command_response_move p.1 : Except (FrankaException F) Unit) with
        | ok _ => exact hgoal _
        | error e => exact hgoal _
    | err e => exact hgoal _
    | panic m => exact hgoal _
    | blocked => exact hgoal _
  | err e => exact h1.elim
  | panic m => exact hnone h1 (fun id h => by cases h)
  | blocked => exact hnone h1 (fun id h => by cases h)

variable [Geo F]

/-- The answers that arrive before the motion has started. -/
theorem start_answers (cm : MoveControllerMode) (mm : MoveMotionGeneratorMode) (a b : MoveDeviation F) (w : World F) :
    Post (start_motion cm mm a b) w fun r w' => ∃ es fs, w'.trace = w.trace ++ es ++ fs ∧ (answersTo w.net.command_id es).length ≤ 1 ∧
      EndsAtAnswer w.net.command_id fs ∧ ((∀ id, r ≠ .ok id) ∨ ∃ e, visible es = [e]) := by
  unfold start_motion
  have hrun : Post (something_running : Prog F Bool) w fun _ w' => w' = w := by
    unfold something_running motion_generator_running controller_running
    cases hm : w.rob.motion_generator_mode with
    | none => simp [hm, unwrapOpt]
    | some m => simp [hm, unwrapOpt, post_ite]
  have hnil : EndsAtAnswer (F := F) w.net.command_id [] := fun pre bs post h => by simp at h
  have hnone : ∀ {r : Res F UInt32}, (∀ id, r ≠ .ok id) → ∃ es fs, w.trace = w.trace ++ es ++ fs ∧ (answersTo w.net.command_id es).length ≤ 1 ∧
      EndsAtAnswer w.net.command_id fs ∧ ((∀ id, r ≠ .ok id) ∨ ∃ e, visible es = [e]) :=
    fun hr => ⟨[], [], by simp, by simp [answersTo, responses], hnil, .inl hr⟩
  refine hrun.bind ?_
  rintro r w' rfl
  cases r with
  | ok b' =>
    rw [after_ok, post_ite]
    refine ⟨fun _ => hnone fun id h => (by cases h), fun _ => ?_⟩
    rw [post_bind, post_modify, after_ok]
    refine ((move_command_none _ _ _ _ _).and (move_command_one _ _ _ _ _)).bind ?_
    rintro r w1 ⟨h1, es, e1, e2, e3⟩
    cases r with
    | ok id =>
      obtain ⟨rfl, hn, hs⟩ := h1 _ rfl
      rw [after_ok]
      refine (wait_start_answer _ w1 hn).bind ?_
      rintro r w2 ⟨fs, f1, f2, -⟩
      have hgoal : ∀ (r : Res F UInt32) (w3 : World F), w3.trace = w2.trace → ∃ es fs, w3.trace = w'.trace ++ es ++ fs ∧ (answersTo w'.net.command_id es).length ≤ 1 ∧
          EndsAtAnswer w'.net.command_id fs ∧ ((∀ id, r ≠ .ok id) ∨ ∃ e, visible es = [e]) :=
        fun r w3 h3 => ⟨es, fs, by rw [h3, f1, e1], e2, f2, .inr (e3.resolve_left fun h => h _ rfl)⟩
      cases r with
      | ok _ =>
        unfold flush_logger
        simp only [after_ok, post_bind, post_gets, post_liftP, post_modify, post_pure]
        exact ⟨fun p _ => hgoal _ _ rfl, fun m _ => hgoal _ _ rfl⟩
      | err e => exact hgoal _ _ rfl
      | panic m => exact hgoal _ _ rfl
      | blocked => exact hgoal _ _ rfl
    | err e => exact ⟨es, [], by rw [List.append_nil]; exact e1, e2, hnil, .inl fun id h => by cases h⟩
    | panic m => exact ⟨es, [], by rw [List.append_nil]; exact e1, e2, hnil, .inl fun id h => by cases h⟩
    | blocked => exact ⟨es, [], by rw [List.append_nil]; exact e1, e2, hnil, .inl fun id h => by cases h⟩
  | err e => exact hnone fun id h => by cases h
  | panic m => exact hnone fun id h => by cases h
  | blocked => exact hnone fun id h => by cases h

/-- What happens after the second answer to the request that started the motion. -/
theorem call_answers {w : World F} (hw : RobotReachable w) {c : RobotCall F} {σ : Type} {k : MotionKind} {call : ControlCall F σ k} {c0 : σ}
    (hc : IsControl c call c0) : ∃ es fs gs, (c.run w).2.trace = w.trace ++ es ++ fs ++ gs ∧ (answersTo w.net.command_id es).length ≤ 1 ∧
      EndsAtAnswer w.net.command_id fs ∧ NotTwo (visible gs) ∧ (gs = [] ∨ ∃ e, visible es = [e]) := by
  obtain ⟨hk, s0, hh, hs⟩ := RobotReachable.alive hw
  obtain ⟨hrun, hfit⟩ := IsControl.run_eq hc
  rw [hrun]
  have hnil : EndsAtAnswer (F := F) w.net.command_id [] := fun pre bs post h => by simp at h
  have htwo : NotTwo (F := F) [] := fun s s' rest h => by cases h
  have : Post (controlProgram call c0) w fun _ w' => ∃ es fs gs, w'.trace = w.trace ++ es ++ fs ++ gs ∧ (answersTo w.net.command_id es).length ≤ 1 ∧
      EndsAtAnswer w.net.command_id fs ∧ NotTwo (visible gs) ∧ (gs = [] ∨ ∃ e, visible es = [e]) := by
    unfold controlProgram
    refine (new_intern_view call w).bind ?_
    rintro r w1 ⟨rfl, hr⟩
    have hnone : ∃ es fs gs, w1.trace = w1.trace ++ es ++ fs ++ gs ∧ (answersTo w1.net.command_id es).length ≤ 1 ∧
      EndsAtAnswer w1.net.command_id fs ∧ NotTwo (visible gs) ∧ (gs = [] ∨ ∃ e, visible es = [e]) := ⟨[], [], [], by simp, by simp [answersTo, responses], hnil, htwo, .inl rfl⟩
    cases r with
    | ok l =>
      obtain ⟨rfl, -⟩ := hr
      rw [after_ok]
      refine ((start_answers _ _ _ _ w1).and (start_view (c0 := c0) hk s0 hs _ rfl)).bind ?_
      rintro r w2 ⟨⟨es, fs, h1, h2, h3, h4⟩, h5⟩
      have hstop : ∃ es fs gs, w2.trace = w1.trace ++ es ++ fs ++ gs ∧ (answersTo w1.net.command_id es).length ≤ 1 ∧
        EndsAtAnswer w1.net.command_id fs ∧ NotTwo (visible gs) ∧ (gs = [] ∨ ∃ e, visible es = [e]) := ⟨es, fs, [], by rw [h1, List.append_nil], h2, h3, htwo, .inl rfl⟩
      cases r with
      | ok id =>
        rw [after_ok]
        obtain ⟨-, s', tr, ⟨hk2, -⟩, -⟩ := h5
        refine ((run_not_two _ c0 w2 hk2).and ((pres_run (T := Grows) _ trivial c0).post w2)).mono ?_
        rintro r w3 ⟨⟨v, v1, v2⟩, gs, hg⟩
        refine ⟨es, fs, gs, by rw [hg, h1], h2, h3, ?_, .inr (h4.resolve_left fun h => h _ rfl)⟩
        rw [hg, visible_append] at v1
        rw [List.append_cancel_left v1]
        exact v2
      | err e => exact hstop
      | panic m => exact hstop
      | blocked => exact hstop
    | err e => exact hnone
    | panic m => exact hnone
    | blocked => exact hnone
  exact this

omit [Geo F] in
/-- Starting a motion uses one number. -/
theorem start_next (cm : MoveControllerMode) (mm : MoveMotionGeneratorMode) (a b : MoveDeviation F) (w : World F) :
    Post (start_motion cm mm a b) w fun r w' => ∀ id, r = .ok id → w'.net.command_id = w.net.command_id + 1 := by
  have heq : execute_move_command cm mm a b = (sendRequest (.Move ⟨cm, mm, a, b⟩) >>= fun id =>
      tcp_blocking_receive_response MoveResponse.codec id >>= fun r => ofExcept (handle_command_response_move r) >>= fun _ => pure id : Prog F UInt32) := by
    unfold execute_move_command sendRequest
    simp only [Prog.bind_assoc']; rfl
  unfold start_motion
  have hrun : Post (something_running : Prog F Bool) w fun _ w' => w' = w := by
    unfold something_running motion_generator_running controller_running
    cases hm : w.rob.motion_generator_mode with
    | none => simp [hm, unwrapOpt]
    | some m => simp [hm, unwrapOpt, post_ite]
  refine hrun.bind ?_
  rintro r w' rfl
  cases r with
  | ok b' =>
    rw [after_ok, post_ite]
    refine ⟨fun _ => fun id h => (by cases h), fun _ => ?_⟩
    rw [post_bind, post_modify, after_ok, heq, Prog.bind_assoc']
    refine (sendRequest_spec _ _).bind ?_
    intro r w1 h1
    cases r with
    | ok id =>
      obtain ⟨rfl, t, ts, -, -, -, hw1⟩ := h1
      rw [after_ok]
      have hp : Pres SameNext (do
          let id ← (tcp_blocking_receive_response MoveResponse.codec w'.net.command_id >>= fun r => ofExcept (handle_command_response_move r) >>= fun _ => pure w'.net.command_id)
          wait_for_motion_start id
          let _ ← flush_logger
          pure id : Prog F UInt32) := by
        pres [pres_tcp_blocking_receive_response _ _, pres_ofExcept _, pres_wait_for_motion_start _, pres_flush_logger]
      refine (hp.post w1).mono fun r w2 h2 id _ => ?_
      rw [show w2.net.command_id = _ from h2, hw1]
    | err e => exact h1.elim
    | panic m => intro id h; cases h
    | blocked => intro id h; cases h
  | err e => intro id h; cases h
  | panic m => intro id h; cases h
  | blocked => intro id h; cases h

/-- How a control call ends. -/
theorem call_ends {w : World F} (hw : RobotReachable w) {c : RobotCall F} {σ : Type} {k : MotionKind} {call : ControlCall F σ k} {c0 : σ}
    (hc : IsControl c call c0) : ((c.run w).1 = .ok () → AnsweredLast w.net.command_id w (c.run w).2) ∧
      ∀ e, (c.run w).1 = .err e → StopAnswered (w.net.command_id + 1) (c.run w).2 ∨ ∃ s0 tr ph, visible (c.run w).2.trace = visible w.trace ++ tr ∧
        Run call c0 (.before s0) tr ph ∧ (tr = [] ∨ ∃ s, ph = .starting s) := by
  obtain ⟨hk, s0, hh, hs⟩ := RobotReachable.alive hw
  obtain ⟨hrun, hfit⟩ := IsControl.run_eq hc
  rw [hrun]
  have : Post (controlProgram call c0) w fun r w' => (r = .ok () → AnsweredLast w.net.command_id w w') ∧
      ∀ e, r = .err e → StopAnswered (w.net.command_id + 1) w' ∨ ∃ s0 tr ph, visible w'.trace = visible w.trace ++ tr ∧
        Run call c0 (.before s0) tr ph ∧ (tr = [] ∨ ∃ s, ph = .starting s) := by
    unfold controlProgram
    refine (new_intern_view call w).bind ?_
    rintro r w1 ⟨rfl, hr⟩
    cases r with
    | ok l =>
      obtain ⟨rfl, -⟩ := hr
      rw [after_ok]
      refine ((start_view (c0 := c0) hk s0 hs _ rfl).and ((start_ok _ _ _ _ w1).and ((start_next _ _ _ _ w1).and
        ((pres_start_motion (T := Grows) _ _ _ _ trivial).post w1)))).bind ?_
      rintro r w2 ⟨h1, h2, h3, h4⟩
      cases r with
      | ok id =>
        rw [after_ok]
        obtain ⟨-, s', tr, ⟨hk2, -⟩, -⟩ := h1
        obtain ⟨rfl, hn, ha⟩ := h2 _ rfl
        refine (run_answers _ c0 w2 hk2 hn ha).mono ?_
        rintro r w3 ⟨g1, g2⟩
        refine ⟨fun h => ?_, fun e h => .inl ?_⟩
        · obtain ⟨es, bs, fs, a, rest, f1, f2⟩ := g1 h
          obtain ⟨x, hx⟩ := h4
          exact ⟨x ++ es, bs, fs, a, rest, by rw [f1, hx]; simp, f2⟩
        · rw [← h3 _ rfl]; exact g2 e h
      | err e =>
        refine ⟨fun h => (by cases h), fun e' _ => .inr ?_⟩
        obtain ⟨s', tr, h1, -⟩ := h1
        exact ⟨s0, tr, _, h1.trace, h1.run, .inr ⟨s', rfl⟩⟩
      | panic m => exact ⟨fun h => (by cases h), fun e h => by cases h⟩
      | blocked => exact ⟨fun h => (by cases h), fun e h => by cases h⟩
    | err e => exact ⟨fun h => (by cases h), fun e' _ => .inr ⟨s0, [], _, by rw [List.append_nil], .nil _, .inl rfl⟩⟩
    | panic m => exact ⟨fun h => (by cases h), fun e h => by cases h⟩
    | blocked => exact ⟨fun h => (by cases h), fun e h => by cases h⟩
  exact this
end
end Verif
