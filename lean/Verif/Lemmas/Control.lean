import Verif.Lemmas.Udp
import Verif.Lemmas.Wire
import Verif.Spec.History
/-!
# The events of a control call

Every function of the control loop follows the automaton of `Spec/Control.lean`.
-/
set_option linter.unusedSectionVars false
namespace Verif
open Prog Spec
variable {F : Type}

theorem visible_snoc (tr : List (Ev F)) (e : Ev F) (h : (!isTcpEv e && !isUdpEv e) = true) : visible (tr ++ [e]) = visible tr ++ [e] := by
  rw [visible_append]; congr 1
  simp only [visible, List.filter_cons, h, if_true, List.filter_nil]

theorem TcpStep.visible {w w' : World F} (h : TcpStep w w') : visible w'.trace = visible w.trace := by
  obtain ⟨es, h1, h2, -⟩ := h.trace
  rw [h1, visible_append, visible_tcp es h2, List.append_nil]

/-! ## Receiving a state -/
section receive
variable [Wire F]

theorem blocking_receive_error {α : Type} (c : Codec α) (n : Nat) (w : World F) : Post (udp_blocking_receive c n) w fun r _ =>
    ∀ e, r = .err e → ∃ m, e = .NetworkException m := by
  unfold udp_blocking_receive
  have hp : NoErr (udp_poll : Prog F Bool) := by unfold udp_poll; noerr [NoErr.sys]
  have hr : ∀ b, NoErr (recv_from b : Prog F _) := by intro b; unfold recv_from; noerr [NoErr.sys]
  have hd : ∀ b, NoErr (udp_drain b : Prog F _) := by intro b; unfold udp_drain; noerr [hr _]
  refine (hp w).bind ?_
  intro r w1 h1
  cases r with
  | ok b =>
    rw [after_ok]
    cases b with
    | false => simp only [Bool.false_eq_true, if_false, post_err]; intro e he; cases he; exact ⟨_, rfl⟩
    | true =>
      simp only [if_true]
      refine (hr _ w1).bind ?_
      intro r w2 h2
      cases r with
      | ok o =>
        rw [after_ok]
        cases o with
        | none =>
          refine (hd _ w2).bind ?_
          intro r w3 h3
          cases r with
          | ok b => intro e he; cases he; exact ⟨_, rfl⟩
          | err e => exact absurd rfl (h3 e)
          | panic m => intro e he; cases he
          | blocked => intro e he; cases he
        | some p =>
          refine (hd _ w2).bind ?_
          intro r w3 h3
          cases r with
          | ok b =>
            simp only [post_bind, post_modify, after_ok, post_ite, post_err]
            refine ⟨fun _ e he => by cases he; exact ⟨_, rfl⟩, fun _ => ?_⟩
            unfold deserialize
            split
            · intro e he; cases he
            · intro e he; cases he
          | err e => exact absurd rfl (h3 e)
          | panic m => intro e he; cases he
          | blocked => intro e he; cases he
      | err e => exact absurd rfl (h2 e)
      | panic m => intro e he; cases he
      | blocked => intro e he; cases he
  | err e => exact absurd rfl (h1 e)
  | panic m => intro e he; cases he
  | blocked => intro e he; cases he

/-- The robot object after a state was accepted. -/
def withState (r : RobotImpl F) (s : RobotStateIntern F) : RobotImpl F :=
  { r with motion_generator_mode := some s.motion_generator_mode, controller_mode := s.controller_mode, message_id := s.message_id }

/-- What is seen of receiving a state. -/
theorem receive_view (w : World F) : Post (receive_robot_state : Prog F (RobotStateIntern F)) w fun r w' => w'.cfg = w.cfg ∧
    match r with
    | .ok s => visible w'.trace = visible w.trace ++ [.accepted s] ∧ w'.rob = withState w.rob s ∧ w.rob.message_id < s.message_id
    | .err e => visible w'.trace = visible w.trace ∧ w'.rob = w.rob ∧ ∃ m, e = .NetworkException m
    | _ => visible w'.trace = visible w.trace := by
  unfold receive_robot_state
  have hgt : ∀ (w : World F), Post (receive_available : Prog F _) w fun r w' => UdpStep w w' ∧
      match r with
      | .ok l => ∀ s, l = some s → w.rob.message_id < s.message_id
      | .err _ => False
      | _ => True := by
    intro w
    unfold receive_available
    refine loop_post (fun l w' => UdpStep w w' ∧ ∀ s, l = some s → w.rob.message_id < s.message_id)
      ⟨Pre.refl w, by intro s h; cases h⟩ ?_ (fun _ _ h => ⟨h.1, trivial⟩)
    rintro l w1 ⟨h1, h2⟩
    have hu : Pres UdpStep (udp_receive (RobotStateIntern.codec F) size_of_RobotStateIntern : Prog F _) := pres_udp_receive _ _
    refine ((hu.post w1).and (udp_receive_spec _ _ w1)).bind ?_
    rintro r w2 ⟨h3, h4⟩
    have h3 := Pre.trans h1 h3
    cases r with
    | ok o =>
      cases o with
      | none => exact ⟨h3, h2⟩
      | some s =>
        simp only [after_ok, post_bind, post_gets, post_ite, post_pure, round_inl]
        refine ⟨fun hlt => ⟨h3, ?_⟩, fun _ => ⟨h3, h2⟩⟩
        rintro s' hs'
        cases hs'
        rw [h3.rob] at hlt
        cases l with
        | none => exact hlt
        | some l => exact UInt64.lt_trans (h2 l rfl) hlt
    | err e => exact h4.elim
    | panic m => exact ⟨h3, trivial⟩
    | blocked => exact ⟨h3, trivial⟩
  refine (hgt w).bind ?_
  rintro r w1 ⟨h1, h2⟩
  cases r with
  | ok l =>
    rw [after_ok]
    have hn : Post (receive_newer l : Prog F _) w1 fun r w' => UdpStep w w' ∧
        match r with
        | .ok s => w.rob.message_id < s.message_id
        | .err e => ∃ m, e = .NetworkException m
        | _ => True := by
      unfold receive_newer
      refine loop_post (fun l w' => UdpStep w w' ∧ ∀ s, l = some s → w.rob.message_id < s.message_id) ⟨h1, h2⟩ ?_
        (fun _ _ h => ⟨h.1, trivial⟩)
      rintro l w2 ⟨h3, h4⟩
      cases l with
      | some s => exact ⟨h3, h4 s rfl⟩
      | none =>
        have hu : Pres UdpStep (udp_blocking_receive (RobotStateIntern.codec F) size_of_RobotStateIntern : Prog F _) :=
          pres_udp_blocking_receive _ _
        refine ((hu.post w2).and (blocking_receive_error _ _ w2)).bind ?_
        rintro r w3 ⟨h5, h6⟩
        have h5 := Pre.trans h3 h5
        cases r with
        | ok s =>
          simp only [after_ok, post_bind, post_gets, post_ite, post_pure, round_inl]
          refine ⟨fun hlt => ⟨h5, fun s' hs' => ?_⟩, fun _ => ⟨h5, fun s' hs' => by cases hs'⟩⟩
          cases hs'
          rw [h5.rob] at hlt
          exact hlt
        | err e => exact ⟨h5, h6 e rfl⟩
        | panic m => exact ⟨h5, trivial⟩
        | blocked => exact ⟨h5, trivial⟩
    refine hn.bind ?_
    rintro r w2 ⟨h3, h4⟩
    cases r with
    | ok s =>
      unfold update_state_with
      simp only [after_ok, post_bind, post_modify, post_emit, post_pure]
      refine ⟨h3.cfg, ?_, ?_, h4⟩
      · rw [visible_snoc _ _ rfl, h3.visible]
      · rw [h3.rob]; rfl
    | err e => exact ⟨h3.cfg, h3.visible, h3.rob, h4⟩
    | panic m => exact ⟨h3.cfg, h3.visible⟩
    | blocked => exact ⟨h3.cfg, h3.visible⟩
  | err e => exact h2.elim
  | panic m => exact ⟨h1.cfg, h1.visible⟩
  | blocked => exact ⟨h1.cfg, h1.visible⟩

theorem LastState.of {w : World F} {r : RobotImpl F} {s : RobotStateIntern F} (h : w.rob = withState r s) : LastState w s := by
  unfold LastState; rw [h]; exact ⟨rfl, rfl, rfl⟩

theorem LastState.congr {w w' : World F} {s : RobotStateIntern F} (h : w'.rob = w.rob) (hs : LastState w s) : LastState w' s := by
  unfold LastState; rw [h]; exact hs

end receive

/-! ## Sending a command -/
section send
variable [Fl F] [Wire F]

/-- What is seen of sending a command. -/
theorem send_view (m : MotionGeneratorCommand F) (c : Option (ControllerCommand F)) (w : World F) (cm : ControllerMode)
    (h1 : w.rob.current_move_motion_generator_mode ≠ .Idle) (h2 : w.rob.current_move_controller_mode = some cm)
    (h3 : c.isSome = true ↔ cm = .ExternalController) : Post (send_robot_command (some m) c) w fun r w' => w'.cfg = w.cfg ∧
    match r with
    | .ok x => ∃ a, x = some { message_id := w.rob.message_id, motion := m, control := c.getD noTorques } ∧ w'.rob = w.rob ∧
        visible w'.trace = visible w.trace ++ [.udpSend a { message_id := w.rob.message_id, motion := m, control := c.getD noTorques }]
    | .err e => visible w'.trace = visible w.trace ∧ w'.rob = w.rob ∧ ∃ m, e = .NetworkException m
    | _ => visible w'.trace = visible w.trace := by
  have hsend : ∀ (x : RobotCommand F), Post (send_command_or_wrap x) w fun r w' => w'.cfg = w.cfg ∧
      match r with
      | .ok y => ∃ a, y = some x ∧ w'.rob = w.rob ∧ visible w'.trace = visible w.trace ++ [.udpSend a x]
      | .err e => visible w'.trace = visible w.trace ∧ w'.rob = w.rob ∧ ∃ m, e = .NetworkException m
      | _ => visible w'.trace = visible w.trace := by
    intro x
    unfold send_command_or_wrap udp_send
    simp only [post_bind, post_attempt, post_sys]
    refine ⟨fun _ => ⟨rfl, rfl⟩, ?_⟩
    intro t ts hs
    simp only [after_ok, post_ite, post_err, tried_err, post_bind, post_gets, post_emit, post_pure, tried_ok]
    refine ⟨fun _ => ⟨trivial, trivial, trivial, _, rfl⟩, fun _ => ⟨fun hne => ?_, fun _ => ?_⟩⟩
    · exact absurd (RobotCommand.codec_sized x) hne
    · exact ⟨trivial, _, trivial, trivial, visible_snoc _ _ rfl⟩
  unfold send_robot_command
  rw [post_bind, post_gets, after_ok]
  simp only [Option.isSome_some, Bool.true_or, if_true, Bool.true_and, decide_eq_true_eq]
  rw [if_neg h1, h2]
  cases c with
  | none =>
    have hcm : cm ≠ .ExternalController := fun h => by simpa using h3.2 h
    simp only [Option.isSome_none, Bool.false_eq_true, if_false, if_pos h1, hcm, decide_false, Bool.false_and, unwrapOpt, post_bind,
      post_pure, after_ok]
    exact hsend _
  | some c =>
    have hcm : cm = .ExternalController := h3.1 rfl
    simp only [Option.isSome_some, if_true, if_pos h1, hcm, decide_true, Bool.true_and, unwrapOpt, post_bind,
      post_pure, after_ok, ne_eq, not_true_eq_false, decide_false, Bool.false_eq_true, if_false, Bool.not_true, Bool.or_self]
    exact hsend _

/-- Receiving a state without sending a command. -/
theorem update_none_view (w : World F) : Post (update none none : Prog F (RobotState F)) w fun r w' => w'.cfg = w.cfg ∧
    match r with
    | .ok st => ∃ s, st = RobotState.ofIntern s ∧ visible w'.trace = visible w.trace ++ [.accepted s] ∧ w'.rob = withState w.rob s ∧
        w.rob.message_id < s.message_id
    | .err e => visible w'.trace = visible w.trace ∧ w'.rob = w.rob ∧ ∃ m, e = .NetworkException m
    | _ => visible w'.trace = visible w.trace := by
  unfold update send_robot_command
  simp only [Option.isSome_none, Bool.or_self, Bool.false_eq_true, if_false, post_bind, post_gets, after_ok, post_pure]
  refine (receive_view w).mono ?_
  rintro r w' ⟨hc, h⟩
  cases r with
  | ok s => exact ⟨hc, s, rfl, h.1, h.2.1, h.2.2⟩
  | err e => exact ⟨hc, h⟩
  | panic m => exact ⟨hc, h⟩
  | blocked => exact ⟨hc, h⟩

/-- Sending a command and receiving the next state. -/
theorem update_some_view (m : MotionGeneratorCommand F) (c : Option (ControllerCommand F)) (w : World F) (cm : ControllerMode)
    (h1 : w.rob.current_move_motion_generator_mode ≠ .Idle) (h2 : w.rob.current_move_controller_mode = some cm)
    (h3 : c.isSome = true ↔ cm = .ExternalController) : Post (update (some m) c) w fun r w' => w'.cfg = w.cfg ∧
    (let x : RobotCommand F := { message_id := w.rob.message_id, motion := m, control := c.getD noTorques }
    match r with
    | .ok st => ∃ a s l, st = RobotState.ofIntern s ∧ w.rob.logger.log (RobotState.ofIntern s) x = .ok l ∧
        visible w'.trace = visible w.trace ++ [.udpSend a x, .accepted s] ∧ w'.rob = { withState w.rob s with logger := l } ∧
        w.rob.message_id < s.message_id
    | .err e => w'.rob = w.rob ∧ (∃ m, e = .NetworkException m) ∧
        (visible w'.trace = visible w.trace ∨ ∃ a, visible w'.trace = visible w.trace ++ [.udpSend a x])
    | _ => visible w'.trace = visible w.trace ∨ (∃ a, visible w'.trace = visible w.trace ++ [.udpSend a x]) ∨
        ∃ a s, visible w'.trace = visible w.trace ++ [.udpSend a x, .accepted s] ∧ w.rob.message_id < s.message_id) := by
  unfold update
  refine (send_view m c w cm h1 h2 h3).bind ?_
  rintro r w1 ⟨hc, h⟩
  cases r with
  | ok o =>
    obtain ⟨a, rfl, hr, hv⟩ := h
    rw [after_ok]
    refine (receive_view w1).bind ?_
    rintro r w2 ⟨hc2, h⟩
    have hc2 := hc2.trans hc
    cases r with
    | ok s =>
      obtain ⟨g1, g2, g3⟩ := h
      rw [hr] at g2 g3
      have hv2 : visible w2.trace = visible w.trace ++ [.udpSend a { message_id := w.rob.message_id, motion := m, control := c.getD noTorques }, .accepted s] := by
        rw [g1, hv]; simp
      simp only [after_ok, post_bind, post_gets, post_liftP]
      rw [show w2.rob.logger = w.rob.logger by rw [g2]; rfl]
      refine ⟨fun l hl => ?_, fun msg hl => ?_⟩
      · simp only [after_ok, post_modify, post_pure]
        exact ⟨hc2, a, s, l, rfl, hl, hv2, by rw [g2], g3⟩
      · exact ⟨hc2, .inr (.inr ⟨a, s, hv2, g3⟩)⟩
    | err e => exact ⟨hc2, h.2.1.trans hr, h.2.2, .inr ⟨a, by rw [h.1, hv]⟩⟩
    | panic m => exact ⟨hc2, .inr (.inl ⟨a, by rw [h, hv]⟩)⟩
    | blocked => exact ⟨hc2, .inr (.inl ⟨a, by rw [h, hv]⟩)⟩
  | err e => exact ⟨hc, h.2.1, h.2.2, .inl h.1⟩
  | panic m => exact ⟨hc, .inl h⟩
  | blocked => exact ⟨hc, .inl h⟩

end send

/-! ## Cycles -/
section cycles
variable [Fl F]

theorem cycles_send (tr : List (Ev F)) (a : Addr) (c : RobotCommand F) (s : RobotStateIntern F) :
    cycles (tr ++ [.udpSend a c, .accepted s]) = cycles tr ++ [(RobotState.ofIntern s, c)] := by
  induction tr using cycles.induct with
  | case1 a' c' s' tr ih => simp only [List.cons_append, cycles, ih]
  | case2 e tr h ih =>
    rw [List.cons_append, cycles.eq_2 _ _ ?_, cycles.eq_2 _ _ h, ih]
    rintro a1 c1 s1 tr1 rfl h2
    cases tr with
    | nil => simp at h2
    | cons x tr => simp only [List.cons_append, List.cons.injEq] at h2; exact h a1 c1 s1 tr rfl (by rw [h2.1])
  | case3 => rfl

theorem cycles_other (tr : List (Ev F)) (e : Ev F) (h : ∀ s, e ≠ .accepted s) : cycles (tr ++ [e]) = cycles tr := by
  induction tr using cycles.induct with
  | case1 a' c' s' tr ih => simp only [List.cons_append, cycles, ih]
  | case2 x tr hx ih =>
    rw [List.cons_append, cycles.eq_2 _ _ ?_, cycles.eq_2 _ _ hx, ih]
    rintro a1 c1 s1 tr1 rfl h2
    cases tr with
    | nil => simp only [List.nil_append, List.cons.injEq] at h2; exact h s1 h2.1
    | cons y tr => simp only [List.cons_append, List.cons.injEq] at h2; exact hx a1 c1 s1 tr rfl (by rw [h2.1])
  | case3 => simp [cycles]

theorem cycles_nil (tr : List (Ev F)) (h : ∀ a c, .udpSend a c ∉ tr) : cycles tr = [] := by
  induction tr using cycles.induct with
  | case1 a' c' s' tr ih => exact absurd (List.mem_cons_self ..) (h a' c')
  | case2 x tr hx ih => rw [cycles.eq_2 _ _ hx]; exact ih fun a c hm => h a c (List.mem_cons_of_mem _ hm)
  | case3 => rfl

end cycles

/-! ## The automaton -/
section automaton
variable [Fl F] [Wire F] [Geo F] {σ : Type} {k : MotionKind}

/-- The world `w` is in phase `ph` of the control call that started in `w0`, after the events `tr`. -/
structure AtPhase (call : ControlCall F σ k) (c0 : σ) (w0 : World F) (s0 : RobotStateIntern F) (tr : List (Ev F)) (ph : Phase F σ)
    (w : World F) : Prop where
  tcp : TcpOk .Robot w
  trace : visible w.trace = visible w0.trace ++ tr
  run : Run call c0 (.before s0) tr ph
  last : LastState w ph.last
  cfg : w.cfg = w0.cfg
  kept : ∀ s, ph ≠ .refused s

/-- The call waits forever. -/
def blocks {α : Type} : Res F α → Bool
  | .blocked => true
  | _ => false

/-- The visible events so far are a run; if the call waits (`b`), then not because of a refused output. -/
def Follows (call : ControlCall F σ k) (c0 : σ) (w0 : World F) (s0 : RobotStateIntern F) (b : Bool) (w : World F) : Prop :=
  ∃ tr ph, visible w.trace = visible w0.trace ++ tr ∧ Run call c0 (.before s0) tr ph ∧ (b = true → ∀ s, ph ≠ .refused s)

/-- The modes of the requested motion are remembered and the logger holds the cycles. -/
structure InLoop (call : ControlCall F σ k) (w0 : World F) (tr : List (Ev F)) (w : World F) : Prop where
  generator : w.rob.current_move_motion_generator_mode = generatorOf k
  controller : w.rob.current_move_controller_mode = some (controllerOf call.controller)
  logger : ∃ old l0, w0.rob.logger.flush = .ok (old, l0) ∧ (cycles tr).foldlM (fun l p => l.log p.1 p.2) l0 = .ok w.rob.logger

variable {call : ControlCall F σ k} {c0 : σ} {w0 : World F} {s0 : RobotStateIntern F} {tr : List (Ev F)} {ph : Phase F σ}
  {w w' : World F}

theorem Spec.Run.append {ph1 ph2 ph3 : Phase F σ} {tr1 tr2 : List (Ev F)} (h1 : Run call c0 ph1 tr1 ph2) (h2 : Run call c0 ph2 tr2 ph3) :
    Run call c0 ph1 (tr1 ++ tr2) ph3 := by
  induction h2 with
  | nil => rw [List.append_nil]; exact h1
  | snoc _ hs ih => rw [← List.append_assoc]; exact ih.snoc hs

theorem AtPhase.follows {b : Bool} (h : AtPhase call c0 w0 s0 tr ph w) (ht : visible w'.trace = visible w.trace) : Follows call c0 w0 s0 b w' :=
  ⟨tr, ph, ht.trans h.trace, h.run, fun _ => h.kept⟩

theorem AtPhase.refused (h : AtPhase call c0 w0 s0 tr ph w) {e : Ev F} {ph' : Phase F σ} (hs : Step call c0 ph e ph')
    (ht : visible w'.trace = visible w.trace ++ [e]) : Follows call c0 w0 s0 false w' :=
  ⟨tr ++ [e], ph', by rw [ht, h.trace, List.append_assoc], h.run.snoc hs, by simp⟩

theorem AtPhase.follows1 {b : Bool} (h : AtPhase call c0 w0 s0 tr ph w) {e : Ev F} {ph' : Phase F σ} (hs : Step call c0 ph e ph')
    (ht : visible w'.trace = visible w.trace ++ [e]) (hn : ∀ s, ph' ≠ .refused s := by simp) : Follows call c0 w0 s0 b w' :=
  ⟨tr ++ [e], ph', by rw [ht, h.trace, List.append_assoc], h.run.snoc hs, fun _ => hn⟩

theorem AtPhase.follows2 {b : Bool} (h : AtPhase call c0 w0 s0 tr ph w) {e e' : Ev F} {ph' ph'' : Phase F σ} (hs : Step call c0 ph e ph')
    (hs' : Step call c0 ph' e' ph'') (ht : visible w'.trace = visible w.trace ++ [e, e']) (hn : ∀ s, ph'' ≠ .refused s := by simp) :
    Follows call c0 w0 s0 b w' :=
  ⟨tr ++ [e] ++ [e'], ph'', by rw [ht, h.trace]; simp, (h.run.snoc hs).snoc hs', fun _ => hn⟩

theorem AtPhase.same (h : AtPhase call c0 w0 s0 tr ph w) (hk : TcpOk .Robot w') (ht : visible w'.trace = visible w.trace) (hr : LastState w' ph.last)
    (hc : w'.cfg = w.cfg) : AtPhase call c0 w0 s0 tr ph w' := ⟨hk, ht.trans h.trace, h.run, hr, hc.trans h.cfg, h.kept⟩

theorem AtPhase.step (h : AtPhase call c0 w0 s0 tr ph w) (hk : TcpOk .Robot w') {e : Ev F} {ph' : Phase F σ} (hs : Step call c0 ph e ph')
    (ht : visible w'.trace = visible w.trace ++ [e]) (hr : LastState w' ph'.last) (hc : w'.cfg = w.cfg) (hn : ∀ s, ph' ≠ .refused s := by simp) :
    AtPhase call c0 w0 s0 (tr ++ [e]) ph' w' := ⟨hk, by rw [ht, h.trace, List.append_assoc], h.run.snoc hs, hr, hc.trans h.cfg, hn⟩

theorem generator_not_idle (k : MotionKind) : generatorOf k ≠ .Idle := by cases k <;> decide

theorem running_iff (s : RobotStateIntern F) (h : LastState w s) (Q : Res F Bool → World F → Prop) :
    Post something_running w Q ↔ (Running s → Q (.ok true) w) ∧ (¬ Running s → Q (.ok false) w) := by
  obtain ⟨h1, h2, -⟩ := h
  unfold something_running motion_generator_running controller_running Running
  simp only [post_bind, post_gets, after_ok, h1, unwrapOpt, post_pure, post_ite, decide_eq_true_eq, h2]
  by_cases hm : s.motion_generator_mode = .Idle <;> by_cases hc : s.controller_mode = .ExternalController <;> simp [hm, hc]

theorem post_motion_error (hw : InLoop call w0 tr w) (s : RobotStateIntern F) (h : LastState w s) (Q : Res F Bool → World F → Prop) :
    Post (motion_error (RobotState.ofIntern s)) w Q ↔
      (Healthy k call.controller s → Q (.ok false) w) ∧ (¬ Healthy k call.controller s → Q (.ok true) w) := by
  obtain ⟨h1, h2, -⟩ := h
  unfold motion_error Healthy ShowsModes
  have hm : (RobotState.ofIntern s : RobotState F).robot_mode = s.robot_mode := rfl
  simp only [post_bind, post_gets, after_ok, h1, unwrapOpt, post_pure, post_ite, h2, hm, hw.generator, hw.controller]
  by_cases ha : s.robot_mode = .Move <;> by_cases hb : s.motion_generator_mode = generatorOf k <;>
    by_cases hc : s.controller_mode = controllerOf call.controller <;> simp [ha, hb, hc]

/-- The success rate and the lost packets. -/
theorem rate_text {checks : Bool} {log rest : List (Record F)} {last previous : Record F} {t : String} (hr : log.reverse = last :: previous :: rest)
    (h : success_rate_text checks previous last = .ok t) : RateText log t := by
  unfold RateText
  rw [hr]
  have key : ∀ v : ℕ, (if 0 < v then "\ncontrol_command_success_rate: " ++ Fl.fmt (previous.state.control_command_success_rate * (Fl.lit 1 - Fl.ofNat v / Fl.lit 100)) ++
      s!" packets lost in a row in the last sample: {v}" else "\ncontrol_command_success_rate: " ++
        Fl.fmt (previous.state.control_command_success_rate * (Fl.lit 1 - Fl.ofNat v / Fl.lit 100))) =
      "\ncontrol_command_success_rate: " ++ Fl.fmt (previous.state.control_command_success_rate * (Fl.lit 1 - Fl.ofNat v / Fl.lit 100)) ++
        if v = 0 then "" else " packets lost in a row in the last sample: " ++ toString v := by
    intro v
    by_cases hv : v = 0
    · rw [if_neg (by omega), if_pos hv, String.append_empty]
    · rw [if_pos (by omega), if_neg hv]
      rfl
  unfold success_rate_text lost_packets_of durSub at h
  simp only [bind, Except.bind, pure, Except.pure] at h
  by_cases h1 : previous.state.time ≤ last.state.time
  · rw [if_pos h1] at h
    by_cases h2 : last.state.time - previous.state.time = 0
    · simp only [h2, if_true] at h
      cases checks with
      | true => cases h
      | false =>
        simp only [Bool.false_eq_true, if_false] at h
        exact ⟨2 ^ 128 - 1, .inr ⟨by omega, rfl⟩, (Except.ok.inj h).symm.trans (key _)⟩
    · simp only [h2, if_false] at h
      exact ⟨last.state.time - previous.state.time - 1, .inl (by omega), (Except.ok.inj h).symm.trans (key _)⟩
  · rw [if_neg h1] at h
    cases h

/-- The text of a control exception. -/
theorem exception_text (checks : Bool) (status : MoveStatus) (reasons : FrankaErrors) (log : List (Record F)) (msg base : String)
    (hm : abortMessage status = some msg) (hb : base = "\"" ++ msg ++ "\"" ∨
      (status ≠ .ReflexAborted ∧ base = msg) ∨ (status = .ReflexAborted ∧ base = "Motion finished commanded, but the robot is still moving!"))
    (e : FrankaException F) (h : create_control_exception checks base status reasons log = .ok e) :
    ∃ text, e = .ControlException (some log) text ∧ AbortText status reasons log text := by
  unfold create_control_exception at h
  by_cases hr : status = .ReflexAborted
  · rw [if_pos hr] at h
    have key : ∀ tail, RateText log tail → AbortText status reasons log (base ++ " " ++ reasons.fmt ++ tail) := by
      intro tail htail
      refine ⟨msg, base ++ " " ++ reasons.fmt, tail, hm, rfl, ?_⟩
      rw [if_pos hr]
      refine ⟨htail, ?_⟩
      rcases hb with rfl | ⟨hne, -⟩ | ⟨-, rfl⟩
      · left; simp [String.append_assoc]
      · exact absurd hr hne
      · right; rfl
    split at h
    · rename_i last previous rest hrev
      cases hx : success_rate_text checks previous last with
      | error m => rw [hx] at h; cases h
      | ok t =>
        rw [hx] at h
        cases h
        exact ⟨_, rfl, key t (rate_text hrev hx)⟩
    · rename_i hrev
      cases h
      have h0 : RateText log "" := by
        unfold RateText
        split
        · rename_i last previous rest h
          exact absurd h (hrev last previous rest)
        · rfl
      exact ⟨_, rfl, by simpa using key "" h0⟩
  · rw [if_neg hr] at h
    cases h
    refine ⟨_, rfl, msg, base, "", hm, by simp, ?_⟩
    rw [if_neg hr]
    refine ⟨rfl, ?_⟩
    rcases hb with rfl | ⟨-, rfl⟩ | ⟨hr', -⟩
    · exact .inl rfl
    · exact .inr rfl
    · exact absurd hr' hr

/-- The trace only grows. -/
def Grows (w w' : World F) : Prop := ∃ es, w'.trace = w.trace ++ es

instance : Pre (Grows (F := F)) where
  refl w := ⟨[], (List.append_nil _).symm⟩
  trans := by rintro a b c ⟨x, hx⟩ ⟨y, hy⟩; exact ⟨x ++ y, by rw [hy, hx, List.append_assoc]⟩

instance : TRobot (Grows (F := F)) (fun _ => True) where
  tick _ _ _ _ := ⟨[], (List.append_nil _).symm⟩
  poll _ := ⟨[], (List.append_nil _).symm⟩
  read _ _ := ⟨_, rfl⟩
  pend _ _ _ := ⟨[], (List.append_nil _).symm⟩
  head _ _ _ := ⟨[], (List.append_nil _).symm⟩
  store _ := ⟨_, rfl⟩
  remove _ _ := ⟨[], (List.append_nil _).symm⟩
  upoll _ := ⟨[], (List.append_nil _).symm⟩
  recv _ _ _ _ := ⟨_, rfl⟩
  addr _ _ := ⟨[], (List.append_nil _).symm⟩
  next _ := ⟨[], (List.append_nil _).symm⟩
  req _ _ _ := ⟨_, rfl⟩
  acc _ _ := ⟨_, rfl⟩
  rob _ _ _ _ _ := ⟨[], (List.append_nil _).symm⟩
  send _ _ := ⟨_, rfl⟩
  motion _ _ _ _ _ := ⟨_, rfl⟩
  control _ _ _ _ := ⟨_, rfl⟩
  readCb _ _ _ := ⟨_, rfl⟩
  file _ _ := ⟨[], (List.append_nil _).symm⟩

theorem Grows.responses (h : Grows w w') {p : UInt32 × Bytes} (hp : p ∈ responses w.trace) : p ∈ responses w'.trace := by
  obtain ⟨es, h⟩ := h
  rw [h, responses_append]
  exact List.mem_append_left _ hp

/-- The trace grows, and what is new in the table of answers for this number was received in the new part. -/
def Again (id : UInt32) (w w' : World F) : Prop := ∃ es, w'.trace = w.trace ++ es ∧
  ∀ m, w'.net.received_responses id = some m → w.net.received_responses id = some m ∨ (id, m) ∈ responses es

theorem Again.same {id : UInt32} {w w' : World F} (es : List (Ev F)) (h1 : w'.trace = w.trace ++ es)
    (h2 : w'.net.received_responses = w.net.received_responses) : Again id w w' := ⟨es, h1, fun m hm => .inl (by rw [← h2]; exact hm)⟩

theorem Again.grows {id : UInt32} {w w' : World F} (h : Again id w w') : Grows w w' := ⟨_, h.choose_spec.1⟩

instance (id : UInt32) : Pre (Again (F := F) id) where
  refl w := .same [] (List.append_nil _).symm rfl
  trans := by
    rintro a b c ⟨x, hx, h1⟩ ⟨y, hy, h2⟩
    refine ⟨x ++ y, by rw [hy, hx, List.append_assoc], fun m hm => ?_⟩
    rw [responses_append, List.mem_append]
    rcases h2 m hm with h | h
    · rcases h1 m h with h | h
      · exact .inl h
      · exact .inr (.inl h)
    · exact .inr (.inr h)

instance (id : UInt32) : TRobot (Again (F := F) id) (fun _ => True) where
  tick _ _ _ _ := .same [] (List.append_nil _).symm rfl
  poll _ := .same [] (List.append_nil _).symm rfl
  read _ _ := .same _ rfl rfl
  pend _ _ _ := .same [] (List.append_nil _).symm rfl
  head _ _ _ := .same [] (List.append_nil _).symm rfl
  store w := ⟨_, rfl, fun m hm => by
    by_cases h : id = w.net.pending_command_id
    · simp only [h, if_true, Option.some.injEq] at hm
      subst hm
      exact .inr (by rw [h]; exact List.mem_singleton.2 rfl)
    · simp only [if_neg h] at hm; exact .inl hm⟩
  remove w i := ⟨[], (List.append_nil _).symm, fun m hm => by
    by_cases h : id = i
    · simp [h] at hm
    · simp only [if_neg h] at hm; exact .inl hm⟩
  upoll _ := .same [] (List.append_nil _).symm rfl
  recv _ _ _ _ := .same _ rfl rfl
  addr _ _ := .same [] (List.append_nil _).symm rfl
  next _ := .same [] (List.append_nil _).symm rfl
  req _ _ _ := .same _ rfl rfl
  acc _ _ := .same _ rfl rfl
  rob _ _ _ _ _ := .same [] (List.append_nil _).symm rfl
  send _ _ := .same _ rfl rfl
  motion _ _ _ _ _ := .same _ rfl rfl
  control _ _ _ _ := .same _ rfl rfl
  readCb _ _ _ := .same _ rfl rfl
  file _ _ := .same [] (List.append_nil _).symm rfl

/-- The answer `a` to request `id` was received after `wa`. -/
def NewAnswer (id : UInt32) (a : MoveResponse) (wa w : World F) : Prop :=
  ∃ es bs rest, w.trace = wa.trace ++ es ∧ (id, bs) ∈ responses es ∧ MoveResponse.codec.dec bs = some (a, rest)

/-- An answer that is handed out was received after the moment at which the table had none. -/
theorem new_answer_view (id : UInt32) (w : World F) : Post (tcp_blocking_receive_response MoveResponse.codec id : Prog F MoveResponse) w fun r w' =>
    ∀ a, r = .ok a → w'.net.received_responses id = none ∧
      ∀ wa, Again id wa w → wa.net.received_responses id = none → NewAnswer id a wa w' := by
  unfold tcp_blocking_receive_response
  refine (wait_spec id w).bind ?_
  intro r w1 h1
  cases r with
  | ok bs =>
    obtain ⟨w2, ⟨-, -, -, -, -, es, h2, -, h3⟩, h4, rfl⟩ := h1
    rw [after_ok]
    unfold deserialize
    cases hd : MoveResponse.codec.dec bs with
    | none => intro a ha; cases ha
    | some p =>
      rintro a ha
      cases ha
      refine ⟨if_pos rfl, ?_⟩
      rintro wa ⟨fs, g1, g2⟩ g3
      have ht : w2.trace = wa.trace ++ (fs ++ es) := by rw [h2, g1, List.append_assoc]
      refine ⟨fs ++ es, bs, p.2, ht, ?_, hd⟩
      rw [responses_append, List.mem_append]
      rw [h3 id] at h4
      rcases latestAnswer_mem _ _ _ _ h4 with h | h
      · rcases g2 bs h with h | h
        · rw [g3] at h; cases h
        · exact .inl h
      · exact .inr h
  | err e => exact h1.elim
  | panic m => intro a ha; cases ha
  | blocked => intro a ha; cases ha

/-- The end of a motion whose request had been answered once in a world before `w`. -/
def Concluded (w0 w w' : World F) (s : RobotStateIntern F) : Prop := ¬ Running s ∧ ∃ a : MoveResponse, abortMessage a.status = none ∧
  ∀ wa, Again w0.net.command_id wa w → wa.net.received_responses w0.net.command_id = none → NewAnswer w0.net.command_id a wa w'

theorem Concluded.back {w0 w w1 w' : World F} {s : RobotStateIntern F} (h : Concluded w0 w1 w' s) (h1 : Again w0.net.command_id w w1) :
    Concluded w0 w w' s := by
  obtain ⟨g1, a, g2, g3⟩ := h
  exact ⟨g1, a, g2, fun wa ha hn => g3 wa (Pre.trans ha h1) hn⟩

/-- The Move request was accepted, and its answer handed out. -/
structure Started (k : MotionKind) (controller : MoveControllerMode) (w0 wa w : World F) : Prop where
  accepted : MoveAccepted k controller w0 wa
  none : wa.net.received_responses w0.net.command_id = none
  again : Again w0.net.command_id wa w

theorem Concluded.finished {k : MotionKind} {m : MoveControllerMode} {w0 wa w w' : World F} {s : RobotStateIntern F} (h : Concluded w0 w w' s)
    (hs : Started k m w0 wa w) : Finished k m w0 w' s := by
  obtain ⟨g1, a, g2, g3⟩ := h
  obtain ⟨es, bs, rest, f1, f2, f3⟩ := g3 wa hs.again hs.none
  exact ⟨g1, wa, es, bs, a, rest, hs.accepted, f1, f2, f3, g2⟩

/-- Ending a motion with an exception and the log. -/
theorem fail_view {α : Type} (base : String) (status : MoveStatus) (reasons : FrankaErrors) (msg : String) (w : World F)
    (hm : abortMessage status = some msg) (hb : base = "\"" ++ msg ++ "\"" ∨
      (status ≠ .ReflexAborted ∧ base = msg) ∨ (status = .ReflexAborted ∧ base = "Motion finished commanded, but the robot is still moving!")) :
    Post (fail_with_log base status reasons : Prog F α) w fun r w' => w'.cfg = w.cfg ∧ w'.trace = w.trace ∧
      match r with
      | .ok _ => False
      | .err e => ∃ log l text, w.rob.logger.flush = .ok (log, l) ∧ e = .ControlException (some log) text ∧ AbortText status reasons log text ∧
          w'.rob = { w.rob with logger := l }
      | _ => True := by
  unfold fail_with_log flush_logger
  simp only [post_bind, post_gets, after_ok, post_liftP]
  refine ⟨?_, fun m _ => ⟨rfl, rfl, trivial⟩⟩
  rintro ⟨log, l⟩ hl
  simp only [after_ok, post_bind, post_modify, post_pure, post_gets, post_liftP]
  refine ⟨?_, fun m _ => ⟨rfl, rfl, trivial⟩⟩
  intro e he
  obtain ⟨text, h1, h2⟩ := exception_text _ status reasons log msg base hm hb e he
  exact ⟨rfl, rfl, log, l, text, hl, h1, h2, rfl⟩

theorem handle_move (response : MoveResponse) : match (handle_command_response_move response : Except (FrankaException F) Unit) with
    | .ok _ => abortMessage response.status = none
    | .error e => ∃ msg, abortMessage response.status = some msg ∧ e = .CommandException msg := by
  unfold handle_command_response_move
  cases response.status <;> first | rfl | exact ⟨_, rfl, rfl⟩

theorem InLoop.congr (h : InLoop call w0 tr w) (h1 : w'.rob.current_move_motion_generator_mode = w.rob.current_move_motion_generator_mode)
    (h2 : w'.rob.current_move_controller_mode = w.rob.current_move_controller_mode) (h3 : w'.rob.logger = w.rob.logger)
    {tr' : List (Ev F)} (ht : cycles tr' = cycles tr) : InLoop call w0 tr' w' :=
  ⟨h1.trans h.generator, h2.trans h.controller, by rw [ht, h3]; exact h.logger⟩

/-- A result of a part of the control loop that is an error which stops the motion. -/
def Stops (call : ControlCall F σ k) (c0 : σ) (w0 : World F) (s0 : RobotStateIntern F) (e : FrankaException F) (w : World F) : Prop :=
  ∃ tr ph, AtPhase call c0 w0 s0 tr ph w ∧ ph.MayStop ∧ Failure w0 tr ph w e

/-- The answer to the Move request makes the motion fail. -/
theorem move_answer_view (h : AtPhase call c0 w0 s0 tr ph w) : Post (tcp_blocking_receive_response MoveResponse.codec w0.net.command_id : Prog F MoveResponse) w fun r w' =>
      match r with
      | .ok a => AtPhase call c0 w0 s0 tr ph w' ∧ w'.rob = w.rob ∧
          (∃ m rest, (w0.net.command_id, m) ∈ responses w'.trace ∧ MoveResponse.codec.dec m = some (a, rest)) ∧
          ∀ wa, Again w0.net.command_id wa w → wa.net.received_responses w0.net.command_id = none → NewAnswer w0.net.command_id a wa w'
      | .err _ => False
      | _ => Follows call c0 w0 s0 (blocks r) w' := by
  refine ((receive_answer_spec .Robot MoveResponse.codec w0.net.command_id w h.tcp).and (new_answer_view _ w)).mono ?_
  rintro r w' ⟨⟨h1, h2, -, h3, -, -, h4⟩, h5⟩
  cases r with
  | ok a =>
    obtain ⟨g1, m, rest, g2, -, g3⟩ := h4
    exact ⟨h.same g1 h3 (LastState.congr h1 h.last) h2, h1, ⟨m, rest, g2, g3⟩, (h5 a rfl).2⟩
  | err e => exact h4
  | panic m => exact h.follows h3
  | blocked => exact h.follows h3

theorem InLoop.loggedBy (h : InLoop call w0 tr w) {log : List (Record F)} {l : Logger F} (hl : w.rob.logger.flush = .ok (log, l)) :
    LoggedBy w0.rob.logger (cycles tr) log := by
  obtain ⟨old, l0, h1, h2⟩ := h.logger
  exact ⟨old, l0, _, l, h1, h2, hl⟩

/-- Checking the state just received. -/
theorem throw_view (h : AtPhase call c0 w0 s0 tr ph w) (hl : InLoop call w0 tr w) :
    Post (throw_on_motion_error (RobotState.ofIntern ph.last) w0.net.command_id) w fun r w' =>
      match r with
      | .ok _ => w' = w ∧ Healthy k call.controller ph.last
      | .err e => ¬ Healthy k call.controller ph.last ∧ AtPhase call c0 w0 s0 tr ph w' ∧ (ph.Over → Failure w0 tr ph w' e)
      | _ => Follows call c0 w0 s0 (blocks r) w' := by
  unfold throw_on_motion_error
  rw [post_bind, post_motion_error hl _ h.last]
  refine ⟨fun hh => ⟨rfl, hh⟩, fun hn => ?_⟩
  simp only [after_ok, if_true]
  refine (move_answer_view h).bind ?_
  intro r w1 hr
  cases r with
  | ok a =>
    obtain ⟨g1, g2, ⟨m, rest, g3, g4⟩, -⟩ := hr
    rw [after_ok]
    have hm := handle_move (F := F) a
    cases hh : (handle_command_response_move a : Except (FrankaException F) Unit) with
    | ok _ => exact g1.follows rfl
    | error e =>
      rw [hh] at hm
      obtain ⟨msg, hm1, rfl⟩ := hm
      refine ((fail_view _ a.status _ msg w1 hm1 (.inl rfl)).and
        (keeps_fail_with_log (I := TcpOk .Robot) (J := TcpWeak .Robot) _ _ _ w1 g1.tcp)).mono ?_
      rintro r w2 ⟨⟨f1, f2, f3⟩, hk⟩
      cases r with
      | ok x => exact f3.elim
      | err e =>
        obtain ⟨log, l, text, f4, f5, f6, f7⟩ := f3
        have hl1 : InLoop call w0 tr w1 := hl.congr (by rw [g2]) (by rw [g2]) (by rw [g2]) rfl
        refine ⟨hn, ?_, fun ho => .aborted m a rest log text ho (by rw [f2]; exact g3) g4 f5 f6 (hl1.loggedBy f4)⟩
        exact g1.same hk (by rw [f2]) (by unfold LastState; rw [f7]; exact g1.last) f1
      | panic m => exact g1.follows (by rw [f2])
      | blocked => exact g1.follows (by rw [f2])
  | err e => exact hr.elim
  | panic m => exact hr
  | blocked => exact hr

/-! ### The start of a motion -/

/-- The controller and the generator modes of the model are those of the specification. -/
theorem reported_generator (k : MotionKind) : k.get_motion_generator_mode.reported = generatorOf k := by cases k <;> rfl
theorem reported_controller (m : MoveControllerMode) : m.reported = controllerOf m := by cases m <;> rfl
theorem requested_generator (k : MotionKind) : k.get_motion_generator_mode = generatorRequested k := by cases k <;> rfl

/-- Waiting for the start. -/
structure Starting (call : ControlCall F σ k) (c0 : σ) (w0 : World F) (s0 s : RobotStateIntern F) (w : World F) : Prop where
  at_ : ∃ tr, AtPhase call c0 w0 s0 tr (.starting s) w ∧ ∀ a c, .udpSend a c ∉ tr
  generator : w.rob.current_move_motion_generator_mode = generatorOf k
  controller : w.rob.current_move_controller_mode = some (controllerOf call.controller)
  logger : w.rob.logger = w0.rob.logger

theorem post_modes_differ (s : RobotStateIntern F) (h : LastState w s) (h1 : w.rob.current_move_motion_generator_mode = generatorOf k)
    (h2 : w.rob.current_move_controller_mode = some (controllerOf call.controller)) (Q : Res F Bool → World F → Prop) :
    Post modes_differ w Q ↔ (ShowsModes k call.controller s → Q (.ok false) w) ∧ (¬ ShowsModes k call.controller s → Q (.ok true) w) := by
  obtain ⟨g1, g2, -⟩ := h
  unfold modes_differ ShowsModes
  simp only [post_bind, post_gets, after_ok, g1, unwrapOpt, post_pure, h1, h2, g2]
  by_cases ha : s.motion_generator_mode = generatorOf k <;> by_cases hb : s.controller_mode = controllerOf call.controller <;> simp [ha, hb]

/-- Nothing is seen of this step, and the robot object is the same. -/
structure QuietStep (w w' : World F) : Prop where
  rob : w'.rob = w.rob
  cfg : w'.cfg = w.cfg
  trace : visible w'.trace = visible w.trace

instance : Pre (QuietStep (F := F)) := ⟨fun _ => ⟨rfl, rfl, rfl⟩, fun h g => ⟨g.1.trans h.1, g.2.trans h.2, g.3.trans h.3⟩⟩

instance : TTcp (QuietStep (F := F)) where
  tick _ _ _ _ := ⟨rfl, rfl, rfl⟩
  poll _ := ⟨rfl, rfl, rfl⟩
  read w n := ⟨rfl, rfl, by rw [visible_append]; exact List.append_nil _⟩
  pend _ _ _ := ⟨rfl, rfl, rfl⟩
  head _ _ _ := ⟨rfl, rfl, rfl⟩
  store w := ⟨rfl, rfl, by rw [visible_append]; exact List.append_nil _⟩
  remove _ _ := ⟨rfl, rfl, rfl⟩

/-- Looking for an answer. -/
theorem tcp_receive_view (id : UInt32) (f : MoveResponse → Except (FrankaException F) Unit) (w : World F) (hw : TcpOk .Robot w) :
    Post (tcp_receive_response id f : Prog F Bool) w fun r w' => QuietStep w w' ∧
      match r with
      | .ok _ => TcpOk .Robot w'
      | .err e => TcpOk .Robot w' ∧ ∃ a m rest, f a = .error e ∧ (id, m) ∈ responses w'.trace ∧ MoveResponse.codec.dec m = some (a, rest)
      | _ => True := by
  have h1 : Pres QuietStep (tcp_receive_response id f : Prog F Bool) := pres_tcp_receive_response id f
  have h2 := keeps_tcp_receive_response (I := TcpOk .Robot) (J := TcpWeak .Robot) id f w hw
  have h3 : Post (tcp_receive_response id f : Prog F Bool) w fun r w' => ∀ e, r = .err e →
      ∃ a m rest, f a = .error e ∧ (id, m) ∈ responses w'.trace ∧ MoveResponse.codec.dec m = some (a, rest) := by
    unfold tcp_receive_response
    refine ((KeepTcp.tcp (I := TcpOk .Robot) (J := TcpWeak .Robot) w hw).and (noErr_tcp_read_from_buffer w)).bind ?_
    rintro r w1 ⟨hk, hn⟩
    cases r with
    | ok _ =>
      have hk : TcpOk .Robot w1 := hk
      simp only [after_ok, post_bind, post_gets]
      cases ht : w1.net.received_responses id with
      | none => intro e he; cases he
      | some m =>
        simp only [post_ite, post_bind]
        refine ⟨fun _ e he => (by cases he), fun _ => ?_⟩
        unfold deserialize
        cases hd : MoveResponse.codec.dec m with
        | none => intro e he; cases he
        | some p =>
          simp only [post_pure, after_ok]
          cases hf : f p.1 with
          | ok _ => intro e he; cases he
          | error e' =>
            intro e he
            cases he
            exact ⟨p.1, m, p.2, hf, hk.table _ _ ht, hd⟩
    | err e => exact absurd rfl (hn e)
    | panic m => intro e he; cases he
    | blocked => intro e he; cases he
  refine ((h1.post w).and (Post.and h2 h3)).mono ?_
  rintro r w' ⟨g1, g2, g3⟩
  refine ⟨g1, ?_⟩
  cases r with
  | ok _ => exact g2
  | err e => exact ⟨g2, g3 e rfl⟩
  | panic m => trivial
  | blocked => trivial

/-- The wait for the start of a motion. -/
theorem wait_start_view (s : RobotStateIntern F) (hst : Starting call c0 w0 s0 s w) :
    Post (wait_for_motion_start w0.net.command_id) w fun r w' =>
      match r with
      | .ok _ => ∃ s', Starting call c0 w0 s0 s' w'
      | .err e => ∃ s', Starting call c0 w0 s0 s' w' ∧ ¬ ShowsModes k call.controller s' ∧ StartFailure w0 w' e
      | _ => Follows call c0 w0 s0 (blocks r) w' := by
  unfold wait_for_motion_start
  refine loop_post (fun _ w' => ∃ s', Starting call c0 w0 s0 s' w') ⟨s, hst⟩ ?_ ?_
  · rintro - w1 ⟨s1, ⟨tr, hat, hnc⟩, hg, hc, hl⟩
    rw [post_bind, post_modes_differ s1 hat.last hg hc]
    refine ⟨fun _ => ⟨s1, ⟨tr, hat, hnc⟩, hg, hc, hl⟩, fun hd => ?_⟩
    simp only [after_ok, if_true, post_bind, post_attempt]
    refine (tcp_receive_view _ _ w1 hat.tcp).mono ?_
    rintro r w2 ⟨hq, hr⟩
    have hat2 : TcpOk .Robot w2 → AtPhase call c0 w0 s0 tr (.starting s1) w2 :=
      fun hk => hat.same hk hq.trace (LastState.congr hq.rob hat.last) hq.cfg
    have hst2 : TcpOk .Robot w2 → Starting call c0 w0 s0 s1 w2 :=
      fun hk => ⟨⟨tr, hat2 hk, hnc⟩, by rw [hq.rob]; exact hg, by rw [hq.rob]; exact hc, by rw [hq.rob]; exact hl⟩
    cases r with
    | ok b =>
      rw [tried_ok, after_ok]
      cases b with
      | true => exact ⟨s1, hst2 hr⟩
      | false =>
        refine ((update_none_view w2).and (keeps_update (I := TcpOk .Robot) (J := TcpWeak .Robot) none none w2 hr)).bind ?_
        rintro r w3 ⟨⟨hc3, h3⟩, hk3⟩
        cases r with
        | ok st =>
          obtain ⟨s', -, hv, hrob, hlt⟩ := h3
          rw [(hat2 hr).last.2.2] at hlt
          have hat3 := (hat2 hr).step hk3 (.wait s1 s' hd hlt) hv (LastState.of hrob) hc3
          have hst2 := hst2 hr
          show ∃ s', Starting call c0 w0 s0 s' w3
          refine ⟨s', ⟨tr ++ [.accepted s'], hat3, ?_⟩, ?_, ?_, ?_⟩
          · intro a c hm
            rcases List.mem_append.1 hm with hm | hm
            · exact hnc a c hm
            · simp at hm
          · rw [hrob]; exact hst2.generator
          · rw [hrob]; exact hst2.controller
          · rw [hrob]; exact hst2.logger
        | err e =>
          obtain ⟨hv, hrob, m, rfl⟩ := h3
          refine ⟨s1, ⟨⟨tr, (hat2 hr).same hk3 hv (LastState.congr hrob (hat2 hr).last) hc3, hnc⟩, ?_, ?_, ?_⟩, hd, .network m rfl⟩
          · rw [hrob]; exact (hst2 hr).generator
          · rw [hrob]; exact (hst2 hr).controller
          · rw [hrob]; exact (hst2 hr).logger
        | panic m => exact (hat2 hr).follows h3
        | blocked => exact (hat2 hr).follows h3
    | err e =>
      obtain ⟨hk, a, m, rest, hf, hm, hdec⟩ := hr
      rw [tried_err, after_ok]
      have hmv := handle_move (F := F) a
      rw [hf] at hmv
      obtain ⟨msg, hm1, rfl⟩ := hmv
      exact ⟨s1, hst2 hk, hd, .rejected m a rest msg hm hdec hm1 (.inr rfl)⟩
    | panic m => exact hat.follows hq.trace
    | blocked => exact hat.follows hq.trace
  · rintro - w1 ⟨s1, ⟨tr, hat, -⟩, -⟩
    exact hat.follows rfl

/-- The Move request and its first answer. -/
theorem move_command_view (hw : TcpOk .Robot w) (b : MoveControllerMode) (mm : MoveMotionGeneratorMode) (d : MoveDeviation F) :
    Post (execute_move_command b mm d d) w fun r w' => ∃ h : RobotCommandHeader, h.command = .Move ∧ h.command_id = w.net.command_id ∧ w'.cfg = w.cfg ∧
      match r with
      | .ok id => id = w.net.command_id ∧ TcpOk .Robot w' ∧ w'.rob = w.rob ∧
          visible w'.trace = visible w.trace ++ [.robotReq ⟨h, .Move ⟨b, mm, d, d⟩⟩] ∧ w'.net.received_responses w.net.command_id = none ∧
          ∃ bs status rest, (w.net.command_id, bs) ∈ responses w'.trace ∧ MoveResponse.codec.dec bs = some (status, rest) ∧
            abortMessage status.status = none
      | .err e => TcpOk .Robot w' ∧ w'.rob = w.rob ∧ StartFailure w w' e ∧
          visible w'.trace = visible w.trace ++ [.robotReq ⟨h, .Move ⟨b, mm, d, d⟩⟩]
      | _ => visible w'.trace = visible w.trace ∨ visible w'.trace = visible w.trace ++ [.robotReq ⟨h, .Move ⟨b, mm, d, d⟩⟩] := by
  have heq : execute_move_command b mm d d = (sendRequest (.Move ⟨b, mm, d, d⟩) >>= fun id =>
      tcp_blocking_receive_response MoveResponse.codec id >>= fun r => ofExcept (handle_command_response_move r) >>= fun _ => pure id : Prog F UInt32) := by
    unfold execute_move_command sendRequest
    simp only [Prog.bind_assoc']; rfl
  rw [heq]
  have hk : Keeps (TcpOk .Robot) (TcpWeak .Robot) (sendRequest (.Move ⟨b, mm, d, d⟩) : Prog F _) := Keeps.of_rel TcpSame.keep (pres_sendRequest _)
  refine ((sendRequest_spec _ w).and ((hk w hw).and ((pres_sendRequest (T := TcpSame) _).post w))).bind ?_
  rintro r w1 ⟨h1, h2, h3⟩
  have h3 := h3.cfg
  cases r with
  | ok id =>
    obtain ⟨rfl, t, ts, -, -, -, hw1⟩ := h1
    have hv1 : visible w1.trace = visible w.trace ++ [.robotReq ⟨⟨.Move, w.net.command_id, UInt32.ofNat (RobotCommandEnum.Move).size_of_request⟩, .Move ⟨b, mm, d, d⟩⟩] := by
      rw [hw1]; exact visible_snoc _ _ rfl
    have hrob1 : w1.rob = w.rob := by rw [hw1]
    rw [after_ok]
    refine ((receive_answer_spec .Robot MoveResponse.codec w.net.command_id w1 h2).and (new_answer_view _ w1)).bind ?_
    rintro r w2 ⟨⟨g1, g2, -, g4, -, -, g7⟩, g8⟩
    cases r with
    | ok a =>
      obtain ⟨hk2, m, rest, hm, -, hd⟩ := g7
      have hmv := handle_move (F := F) a
      rw [after_ok]
      cases hf : (handle_command_response_move a : Except (FrankaException F) Unit) with
      | ok _ =>
        rw [hf] at hmv
        exact ⟨_, rfl, rfl, g2.trans h3, rfl, hk2, g1.trans hrob1, g4.trans hv1, (g8 a rfl).1, m, a, rest, hm, hd, hmv⟩
      | error e =>
        rw [hf] at hmv
        obtain ⟨msg, hm1, rfl⟩ := hmv
        exact ⟨_, rfl, rfl, g2.trans h3, hk2, g1.trans hrob1, .rejected m a rest msg hm hd hm1 (.inl rfl), g4.trans hv1⟩
    | err e => exact g7.elim
    | panic m => exact ⟨_, rfl, rfl, g2.trans h3, .inr (g4.trans hv1)⟩
    | blocked => exact ⟨_, rfl, rfl, g2.trans h3, .inr (g4.trans hv1)⟩
  | err e => exact h1.elim
  | panic m => exact ⟨⟨.Move, w.net.command_id, 0⟩, rfl, rfl, h3, .inl (by rw [h1])⟩
  | blocked => exact ⟨⟨.Move, w.net.command_id, 0⟩, rfl, rfl, h3, .inl (by rw [h1])⟩

theorem Spec.StartFailure.congr {w0' : World F} {e : FrankaException F} (h : StartFailure w w' e) (hid : w0'.net.command_id = w.net.command_id) :
    StartFailure w0' w' e := by
  cases h with
  | network m h => exact .network m h
  | rejected bs status rest msg h1 h2 h3 h4 => exact .rejected bs status rest msg (by rw [hid]; exact h1) h2 h3 h4

/-- Starting a motion. -/
theorem start_view (hw : TcpOk .Robot w) (s : RobotStateIntern F) (hs : LastState w s) (d : MoveDeviation F) (hd : d = defaultDeviation) :
    Post (start_motion call.controller k.get_motion_generator_mode d d) w fun r w' =>
      match r with
      | .ok id => id = w.net.command_id ∧ ∃ s' tr, AtPhase call c0 w s tr (.starting s') w' ∧ InLoop call w tr w' ∧ (∀ a c, .udpSend a c ∉ tr) ∧
          ∃ wa, Started k call.controller w wa w'
      | .err e => ∃ s' tr, AtPhase call c0 w s tr (.starting s') w' ∧ ¬ ShowsModes k call.controller s' ∧ StartFailure w w' e
      | _ => Follows call c0 w s (blocks r) w' := by
  unfold start_motion
  rw [post_bind, running_iff s hs]
  have h0 : AtPhase call c0 w s [] (.before s) w := ⟨hw, by simp, .nil _, hs, rfl, by simp⟩
  refine ⟨fun _ => h0.follows rfl, fun hn => ?_⟩
  subst hd
  simp only [after_ok, Bool.false_eq_true, if_false, post_bind, post_modify]
  have hidle : ¬ ShowsModes k call.controller s := by
    rintro ⟨h1, -⟩
    exact hn (.inl (by rw [h1]; exact generator_not_idle k))
  have hk1 : TcpOk .Robot { w with rob := { w.rob with current_move_motion_generator_mode := k.get_motion_generator_mode.reported, current_move_controller_mode := some call.controller.reported } } :=
    TcpSame.keep _ _ (TRob.rob w w.rob.logger w.rob.ri_version _ _) hw
  refine (move_command_view hk1 _ _ _).mono ?_
  rintro r w1 ⟨h, hh, hid, hcfg, hr⟩
  rw [requested_generator] at hr
  have hstep := Step.move (call := call) (c0 := c0) s h hn hh
  cases r with
  | ok id =>
    obtain ⟨rfl, hk, hrob, hv, hnone, hacc⟩ := hr
    rw [after_ok]
    have hat : AtPhase call c0 w s ([] ++ [.robotReq ⟨h, moveBody k call.controller⟩]) (.starting s) w1 :=
      h0.step hk hstep hv (by unfold LastState; rw [hrob]; exact hs) hcfg
    have hst : Starting call c0 w s s w1 := ⟨⟨_, hat, by simp⟩, by rw [hrob]; exact reported_generator k,
      by rw [hrob]; exact congrArg some (reported_controller _), by rw [hrob]⟩
    refine ((wait_start_view s hst).and ((pres_wait_for_motion_start (T := Again w.net.command_id) _).post w1)).bind ?_
    rintro r w2 ⟨hr, hag⟩
    cases r with
    | ok _ =>
      obtain ⟨s', ⟨tr, hat', hnc⟩, hg, hc, hl⟩ := hr
      unfold flush_logger
      simp only [after_ok, post_bind, post_gets, post_liftP]
      rw [hl]
      refine ⟨fun p hp => ?_, fun m hp => hat'.follows rfl⟩
      simp only [after_ok, post_modify, post_pure]
      refine ⟨trivial, s', tr, hat'.same ?_ rfl hat'.last rfl, ⟨hg, hc, p.1, p.2, hp, ?_⟩, hnc, w1, ⟨⟨h, hh, hid, hv⟩, hacc⟩, hnone, Pre.trans hag (.same [] (List.append_nil _).symm rfl)⟩
      · exact TcpSame.keep _ _ (TRob.rob w2 p.2 w2.rob.ri_version _ _) hat'.tcp
      · rw [cycles_nil tr hnc]; rfl
    | err e =>
      obtain ⟨s', ⟨⟨tr, hat', hnc⟩, -⟩, h2, h3⟩ := hr
      exact ⟨s', tr, hat', h2, h3⟩
    | panic m => exact hr
    | blocked => exact hr
  | err e =>
    obtain ⟨hk, hrob, hf, hv⟩ := hr
    exact ⟨s, _, h0.step hk hstep hv (by unfold LastState; rw [hrob]; exact hs) hcfg, hidle, hf.congr rfl⟩
  | panic m =>
    rcases hr with hr | hr
    · exact h0.follows hr
    · exact h0.follows1 hstep hr
  | blocked =>
    rcases hr with hr | hr
    · exact h0.follows hr
    · exact h0.follows1 hstep hr

/-! ### The loops -/

theorem TcpOk.event {e : Ev F} (h : TcpOk .Robot w) (he : (∃ k s dt m, e = Ev.motionCb k s dt m) ∨ (∃ s dt t, e = Ev.controlCb s dt t) ∨ (∃ s b, e = Ev.readCb s b)) :
    TcpOk .Robot { w with trace := w.trace ++ [e] } := (keepRobot_TcpOk (F := F) .Robot).cb w e he h

/-- The loop of a control call. -/
def loopOf (call : ControlCall F σ k) (id : UInt32) : ControlLoop F σ k where
  default_deviation := defaultDeviation
  motion_callback := call.motion
  control_callback := call.torque
  limit_rate := call.limit_rate
  cutoff_frequency := call.cutoff
  motion_id := id

/-- The motion callback. -/
theorem spin_motion_view {c : σ} {s : RobotStateIntern F} {prev : Nat} {m : MotionGeneratorCommand F} {t : ControllerCommand F} {id : UInt32}
    (h : AtPhase call c0 w0 s0 tr (.ready c s prev m t) w) (hp : prev ≤ (RobotState.ofIntern s).time) :
    Post ((loopOf call id).spin_motion c (RobotState.ofIntern s) ((RobotState.ofIntern s).time - prev) m) w fun r w' =>
      match r with
      | .ok (c', m', go) => ∃ out, call.motion c (RobotState.ofIntern s) ((RobotState.ofIntern s).time - prev) = (c', out) ∧
          out.convert_motion (RobotState.ofIntern s) m call.cutoff call.limit_rate = .ok m' ∧ out.is_finished = !go ∧
          w' = { w with trace := w.trace ++ [.motionCb k (RobotState.ofIntern s) ((RobotState.ofIntern s).time - prev) out] }
      | .err _ => False
      | _ => Follows call c0 w0 s0 (blocks r) w' := by
  unfold ControlLoop.spin_motion
  rcases hcb : call.motion c (RobotState.ofIntern s) ((RobotState.ofIntern s).time - prev) with ⟨c', out⟩
  simp only [loopOf, hcb, post_bind, post_emit, after_ok, post_liftP, post_pure]
  refine ⟨fun m' hm => ⟨out, rfl, hm, by simp, rfl⟩, fun e he => ?_⟩
  exact h.refused (.motionRefused c s prev m t _ c' out e hp rfl hcb he) (visible_snoc _ _ rfl)

/-- The torque callback. -/
theorem spin_control_view {f : σ → RobotState F → Nat → σ × Torques F} {c : σ} {s : RobotStateIntern F} {prev : Nat}
    {m : MotionGeneratorCommand F} {t : ControllerCommand F} {id : UInt32} (hf : call.torque = some f)
    (h : AtPhase call c0 w0 s0 tr (.moved c s prev m t) w) (hp : prev ≤ (RobotState.ofIntern s).time) :
    Post ((loopOf call id).spin_control f c (RobotState.ofIntern s) ((RobotState.ofIntern s).time - prev)) w fun r w' =>
      match r with
      | .ok (c', t', go) => ∃ out τ, f c (RobotState.ofIntern s) ((RobotState.ofIntern s).time - prev) = (c', out) ∧
          ControlLoop.convert_torques call.limit_rate call.cutoff (RobotState.ofIntern s) out.tau_J = .ok τ ∧ out.is_finished = !go ∧
          t' = { tau_J_d := τ } ∧
          w' = { w with trace := w.trace ++ [.controlCb (RobotState.ofIntern s) ((RobotState.ofIntern s).time - prev) out] }
      | .err _ => False
      | _ => Follows call c0 w0 s0 (blocks r) w' := by
  unfold ControlLoop.spin_control
  rcases hcb : f c (RobotState.ofIntern s) ((RobotState.ofIntern s).time - prev) with ⟨c', out⟩
  simp only [loopOf, post_bind, post_emit, after_ok, post_liftP, post_pure]
  refine ⟨fun τ hm => ⟨out, τ, rfl, hm, by simp, rfl, rfl⟩, fun e he => ?_⟩
  exact h.refused (.torqueRefused f c s prev m t _ c' out e hf hp rfl hcb he) (visible_snoc _ _ rfl)

theorem Spec.Fits.controllerOf (h : Fits call) : call.torque.isSome = true ↔ controllerOf call.controller = .ExternalController := by
  refine Iff.trans h ?_; cases call.controller <;> simp [Spec.controllerOf]

/-- Sending a command, receiving the next state and checking it. -/
theorem cycle_view {c : σ} {s : RobotStateIntern F} {m : MotionGeneratorCommand F} {t : ControllerCommand F}
    (h : AtPhase call c0 w0 s0 tr (.decided c s m t) w) (hl : InLoop call w0 tr w) (o : Option (ControllerCommand F))
    (ho : o.getD noTorques = t) (ho' : o.isSome = true ↔ controllerOf call.controller = .ExternalController) {α : Type}
    (next : RobotState F → Prog F α) (Q : Res F α → World F → Prop)
    (hok : ∀ tr' s' w', AtPhase call c0 w0 s0 tr' (.ready c s' (RobotState.ofIntern s).time m t) w' → InLoop call w0 tr' w' →
      Healthy k call.controller s' → Post (next (RobotState.ofIntern s')) w' Q)
    (herr : ∀ e w', Stops call c0 w0 s0 e w' → Q (.err e) w')
    (hpanic : ∀ m w', Follows call c0 w0 s0 false w' → Q (.panic m) w')
    (hblock : ∀ w', Follows call c0 w0 s0 true w' → Q .blocked w') :
    Post (update (some m) o >>= fun st => throw_on_motion_error st w0.net.command_id >>= fun _ => next st) w Q := by
  have hs : w.rob.message_id = s.message_id := h.last.2.2
  refine ((update_some_view m o w _ (by rw [hl.generator]; exact generator_not_idle k) hl.controller ho').and
    (keeps_update (I := TcpOk .Robot) (J := TcpWeak .Robot) (some m) o w h.tcp)).bind ?_
  rintro r w1 ⟨⟨hc, hr⟩, hk⟩
  simp only [ho, hs] at hr
  have hsend := Step.send (call := call) (c0 := c0) c s m t
  cases r with
  | ok st =>
    obtain ⟨a, s', l, rfl, hlog, hv, hrob, hlt⟩ := hr
    have hl1 : InLoop call w0 (tr ++ [.udpSend a { message_id := s.message_id, motion := m, control := t }] ++ [.accepted s']) w1 := by
      refine ⟨by rw [hrob]; exact hl.generator, by rw [hrob]; exact hl.controller, ?_⟩
      obtain ⟨old, l0, g1, g2⟩ := hl.logger
      refine ⟨old, l0, g1, ?_⟩
      rw [List.append_assoc, List.singleton_append, cycles_send, List.foldlM_append, g2]
      have : w1.rob.logger = l := by rw [hrob]
      rw [this]
      simp only [List.foldlM_cons, List.foldlM_nil]
      show (w.rob.logger.log _ _ >>= pure) = _
      exact (congrArg (· >>= pure) hlog).trans rfl
    have hat (ph' : Phase F σ) (hstep : Step call c0 (.sent c s m t) (.accepted s') ph') (hlast : ph'.last = s')
        (hn : ∀ s, ph' ≠ .refused s := by simp) : AtPhase call c0 w0 s0 (tr ++ [.udpSend a { message_id := s.message_id, motion := m, control := t }] ++ [.accepted s']) ph' w1 :=
      ⟨hk, by rw [hv, h.trace]; simp, (h.run.snoc (hsend a)).snoc hstep, by rw [hlast]; unfold LastState; rw [hrob]; exact ⟨rfl, rfl, rfl⟩,
        hc.trans h.cfg, hn⟩
    rw [after_ok]
    by_cases hh : Healthy k call.controller s'
    · have hat1 := hat _ (.next c s m t s' hlt hh) rfl
      refine (throw_view hat1 hl1).bind ?_
      intro r w2 hr2
      cases r with
      | ok _ => obtain ⟨rfl, -⟩ := hr2; exact hok _ s' _ hat1 hl1 hh
      | err e => exact absurd hh hr2.1
      | panic m => exact hpanic _ _ hr2
      | blocked => exact hblock _ hr2
    · have hat1 := hat _ (.nextBroken c s m t s' hlt hh) rfl
      refine (throw_view hat1 hl1).bind ?_
      intro r w2 hr2
      cases r with
      | ok _ => exact absurd hr2.2 hh
      | err e => exact herr _ _ ⟨_, _, hr2.2.1, trivial, hr2.2.2 trivial⟩
      | panic m => exact hpanic _ _ hr2
      | blocked => exact hblock _ hr2
  | err e =>
    obtain ⟨hrob, ⟨msg, rfl⟩, hv⟩ := hr
    refine herr _ _ ?_
    rcases hv with hv | ⟨a, hv⟩
    · exact ⟨tr, _, h.same hk hv (LastState.congr hrob h.last) hc, trivial, .network _ (fun h => h) rfl⟩
    · exact ⟨_, _, h.step hk (hsend a) hv (LastState.congr hrob h.last) hc, trivial, .network _ (fun h => h) rfl⟩
  | panic msg =>
    refine hpanic _ _ ?_
    rcases hr with hv | ⟨a, hv⟩ | ⟨a, s', hv, hlt⟩
    · exact h.follows hv
    · exact h.follows1 (hsend a) hv
    · by_cases hh : Healthy k call.controller s'
      · exact h.follows2 (hsend a) (.next c s m t s' hlt hh) hv
      · exact h.follows2 (hsend a) (.nextBroken c s m t s' hlt hh) hv
  | blocked =>
    refine hblock _ ?_
    rcases hr with hv | ⟨a, hv⟩ | ⟨a, s', hv, hlt⟩
    · exact h.follows hv
    · exact h.follows1 (hsend a) hv
    · by_cases hh : Healthy k call.controller s'
      · exact h.follows2 (hsend a) (.next c s m t s' hlt hh) hv
      · exact h.follows2 (hsend a) (.nextBroken c s m t s' hlt hh) hv

/-- A motion callback is called next. -/
structure Ready (call : ControlCall F σ k) (c0 : σ) (w0 : World F) (s0 : RobotStateIntern F) (v : ControlLoop.Locals F σ) (w : World F) : Prop where
  state : ∃ tr s, v.robot_state = RobotState.ofIntern s ∧
    AtPhase call c0 w0 s0 tr (.ready v.closure s v.previous_time v.motion_command v.control_command) w ∧ InLoop call w0 tr w ∧ Healthy k call.controller s

/-- The motion is to be finished. -/
def Ending (call : ControlCall F σ k) (c0 : σ) (w0 : World F) (s0 : RobotStateIntern F) (m : MotionGeneratorCommand F) (t : ControllerCommand F)
    (w : World F) : Prop :=
  ∃ tr s, AtPhase call c0 w0 s0 tr (.finishing s m t) w ∧ InLoop call w0 tr w ∧ Healthy k call.controller s

theorem post_durSub {α : Type} (a b : Nat) (next : Nat → Prog F α) (Q : Res F α → World F → Prop) (h1 : b ≤ a → Post (next (a - b)) w Q)
    (h2 : ∀ m, Q (.panic m) w) : Post (liftP (durSub a b) >>= next) w Q := by
  rw [post_bind, post_liftP]
  unfold durSub
  refine ⟨fun x hx => ?_, fun m _ => h2 m⟩
  split at hx
  · cases hx; rw [after_ok]; exact h1 ‹_›
  · cases hx

/-- The loop with a torque callback. -/
theorem torque_loop_view {f : σ → RobotState F → Nat → σ × Torques F} (hf : call.torque = some f) (hfit : Fits call) (v : ControlLoop.Locals F σ)
    (h : Ready call c0 w0 s0 v w) : Post ((loopOf call w0.net.command_id).torque_loop f v) w fun r w' =>
      match r with
      | .ok (m, t) => Ending call c0 w0 s0 m t w'
      | .err e => Stops call c0 w0 s0 e w'
      | _ => Follows call c0 w0 s0 (blocks r) w' := by
  unfold ControlLoop.torque_loop
  refine loop_post (fun v w' => Ready call c0 w0 s0 v w') h ?_ ?_
  · rintro ⟨c, st, prev, m, t⟩ w1 ⟨tr, s, rfl, hat, hl, hh⟩
    simp only at hat ⊢
    refine post_durSub _ _ _ _ (fun hp => ?_) (fun _ => hat.follows rfl)
    refine (spin_motion_view hat hp).bind ?_
    intro r w2 hr
    match r, hr with
    | .ok (c', m', go), ⟨out, hcb, hconv, hfin, hw2⟩ =>
      rw [after_ok]
      cases go with
      | false =>
        simp only [Bool.false_eq_true, if_false]
        have hw2k : TcpOk .Robot w2 := by rw [hw2]; exact hat.tcp.event (.inl ⟨_, _, _, _, rfl⟩)
        have hrob2 : w2.rob = w1.rob := by rw [hw2]
        have hcfg2 : w2.cfg = w1.cfg := by rw [hw2]
        have hvis2 : visible w2.trace = visible w1.trace ++ [.motionCb k (RobotState.ofIntern s) ((RobotState.ofIntern s).time - prev) out] := by rw [hw2]; exact visible_snoc _ _ rfl
        refine ⟨_, s, hat.step hw2k (.motionEnd c s prev m t _ c' out m' hp rfl hcb hconv hfin) hvis2
          (LastState.congr hrob2 hat.last) hcfg2, ?_, hh⟩
        exact hl.congr (w' := w2) (by rw [hrob2]) (by rw [hrob2]) (by rw [hrob2]) (cycles_other _ _ (by intro s h; cases h))
      | true =>
        simp only [if_true]
        have hw2k : TcpOk .Robot w2 := by rw [hw2]; exact hat.tcp.event (.inl ⟨_, _, _, _, rfl⟩)
        have hrob2 : w2.rob = w1.rob := by rw [hw2]
        have hcfg2 : w2.cfg = w1.cfg := by rw [hw2]
        have hvis2 : visible w2.trace = visible w1.trace ++ [.motionCb k (RobotState.ofIntern s) ((RobotState.ofIntern s).time - prev) out] := by rw [hw2]; exact visible_snoc _ _ rfl
        have hat2 := hat.step hw2k (.motionFirst c s prev m t _ c' out m' (by rw [hf]; simp) hp rfl hcb hconv hfin) hvis2
          (LastState.congr hrob2 hat.last) hcfg2
        have hl2 := hl.congr (w' := w2) (by rw [hrob2]) (by rw [hrob2]) (by rw [hrob2]) (cycles_other tr (.motionCb k (RobotState.ofIntern s) ((RobotState.ofIntern s).time - prev) out) (by intro s h; cases h))
        refine post_durSub _ _ _ _ (fun _ => ?_) (fun _ => hat2.follows rfl)
        refine (spin_control_view hf hat2 hp).bind ?_
        intro r w3 hr
        match r, hr with
        | .ok (c'', t', go), ⟨out', τ, hcb', hconv', hfin', ht', hw3⟩ =>
          subst ht'
          rw [after_ok]
          have hw3k : TcpOk .Robot w3 := by rw [hw3]; exact hat2.tcp.event (.inr (.inl ⟨_, _, _, rfl⟩))
          have hrob3 : w3.rob = w2.rob := by rw [hw3]
          have hcfg3 : w3.cfg = w2.cfg := by rw [hw3]
          have hvis3 : visible w3.trace = visible w2.trace ++ [.controlCb (RobotState.ofIntern s) ((RobotState.ofIntern s).time - prev) out'] := by rw [hw3]; exact visible_snoc _ _ rfl
          cases go with
          | false =>
            simp only [Bool.false_eq_true, if_false]
            refine ⟨_, s, hat2.step hw3k (.torqueEnd f c' s prev m' t _ c'' out' τ hf hp rfl hcb' hconv' hfin') hvis3
              (LastState.congr hrob3 hat2.last) hcfg3, ?_, hh⟩
            exact hl2.congr (w' := w3) (by rw [hrob3]) (by rw [hrob3]) (by rw [hrob3]) (cycles_other _ _ (by intro s h; cases h))
          | true =>
            simp only [if_true]
            have hat3 := hat2.step hw3k (.torque f c' s prev m' t _ c'' out' τ hf hp rfl hcb' hconv' hfin') hvis3
              (LastState.congr hrob3 hat2.last) hcfg3
            have hl3 := hl2.congr (w' := w3) (by rw [hrob3]) (by rw [hrob3]) (by rw [hrob3]) (cycles_other _ (.controlCb (RobotState.ofIntern s) ((RobotState.ofIntern s).time - prev) out') (by intro s h; cases h))
            refine cycle_view hat3 hl3 (some { tau_J_d := τ }) rfl (by rw [← hfit.controllerOf, hf]; simp) _ _ ?_ ?_ ?_ ?_
            · intro tr' s' w' hat' hl' hh'
              exact ⟨tr', s', rfl, hat', hl', hh'⟩
            · intro e w' hs; exact hs
            · intro _ w' hs; exact hs
            · intro w' hs; exact hs
        | .err e, hr => exact hr.elim
        | .panic m, hr => exact hr
        | .blocked, hr => exact hr
    | .err e, hr => exact hr.elim
    | .panic m, hr => exact hr
    | .blocked, hr => exact hr
  · rintro v w1 ⟨tr, s, -, hat, -⟩
    exact hat.follows rfl

/-- The loop without a torque callback. -/
theorem motion_loop_view (hf : call.torque = none) (hfit : Fits call) (v : ControlLoop.Locals F σ) (hv : v.control_command = noTorques)
    (h : Ready call c0 w0 s0 v w) : Post ((loopOf call w0.net.command_id).motion_loop v) w fun r w' =>
      match r with
      | .ok m => Ending call c0 w0 s0 m noTorques w'
      | .err e => Stops call c0 w0 s0 e w'
      | _ => Follows call c0 w0 s0 (blocks r) w' := by
  unfold ControlLoop.motion_loop
  refine loop_post (fun v w' => Ready call c0 w0 s0 v w' ∧ v.control_command = noTorques) ⟨h, hv⟩ ?_ ?_
  · rintro ⟨c, st, prev, m, t⟩ w1 ⟨⟨tr, s, rfl, hat, hl, hh⟩, rfl⟩
    simp only at hat ⊢
    refine post_durSub _ _ _ _ (fun hp => ?_) (fun _ => hat.follows rfl)
    refine (spin_motion_view hat hp).bind ?_
    intro r w2 hr
    match r, hr with
    | .ok (c', m', go), ⟨out, hcb, hconv, hfin, hw2⟩ =>
      rw [after_ok]
      have hw2k : TcpOk .Robot w2 := by rw [hw2]; exact hat.tcp.event (.inl ⟨_, _, _, _, rfl⟩)
      have hrob2 : w2.rob = w1.rob := by rw [hw2]
      have hcfg2 : w2.cfg = w1.cfg := by rw [hw2]
      have hvis2 : visible w2.trace = visible w1.trace ++ [.motionCb k (RobotState.ofIntern s) ((RobotState.ofIntern s).time - prev) out] := by rw [hw2]; exact visible_snoc _ _ rfl
      cases go with
      | false =>
        simp only [Bool.false_eq_true, if_false]
        refine ⟨_, s, hat.step hw2k (.motionEnd c s prev m _ _ c' out m' hp rfl hcb hconv hfin) hvis2
          (LastState.congr hrob2 hat.last) hcfg2, ?_, hh⟩
        exact hl.congr (w' := w2) (by rw [hrob2]) (by rw [hrob2]) (by rw [hrob2]) (cycles_other _ _ (by intro s h; cases h))
      | true =>
        simp only [if_true]
        have hat2 := hat.step hw2k (.motion c s prev m _ _ c' out m' hf hp rfl hcb hconv hfin) hvis2
          (LastState.congr hrob2 hat.last) hcfg2
        have hl2 := hl.congr (w' := w2) (by rw [hrob2]) (by rw [hrob2]) (by rw [hrob2]) (cycles_other tr (.motionCb k (RobotState.ofIntern s) ((RobotState.ofIntern s).time - prev) out) (by intro s h; cases h))
        refine cycle_view hat2 hl2 none rfl (by rw [← hfit.controllerOf, hf]; simp) _ _ ?_ ?_ ?_ ?_
        · intro tr' s' w' hat' hl' hh'
          exact ⟨⟨tr', s', rfl, hat', hl', hh'⟩, rfl⟩
        · intro e w' hs; exact hs
        · intro _ w' hs; exact hs
        · intro w' hs; exact hs
    | .err e, hr => exact hr.elim
    | .panic m, hr => exact hr
    | .blocked, hr => exact hr
  · rintro v w1 ⟨⟨tr, s, -, hat, -⟩, -⟩
    exact hat.follows rfl

/-! ### The end of a motion -/

theorem healthy_running {m : MoveControllerMode} {s : RobotStateIntern F} (h : Healthy k m s) : Running s :=
  .inl (by rw [h.2.1]; exact generator_not_idle k)

/-- Sending the finishing command until the robot stands still. -/
theorem finish_loop_view {m : MotionGeneratorCommand F} {t : ControllerCommand F} (o : Option (ControllerCommand F))
    (ho : o.getD noTorques = t) (ho' : o.isSome = true ↔ controllerOf call.controller = .ExternalController)
    (h : Ending call c0 w0 s0 m t w) : Post (finish_loop { m with motion_generation_finished := true } o) w fun r w' =>
      match r with
      | .ok st => ∃ tr s, st = some (RobotState.ofIntern s) ∧ AtPhase call c0 w0 s0 tr (.finishing s m t) w' ∧ InLoop call w0 tr w' ∧ ¬ Running s
      | .err e => Stops call c0 w0 s0 e w'
      | _ => Follows call c0 w0 s0 (blocks r) w' := by
  unfold finish_loop
  obtain ⟨tr, s, hat, hl, hh⟩ := h
  refine loop_post (fun o w' => ∃ tr s, AtPhase call c0 w0 s0 tr (.finishing s m t) w' ∧ InLoop call w0 tr w' ∧
    (o = none → Running s) ∧ (∀ st, o = some st → st = RobotState.ofIntern s)) ⟨tr, s, hat, hl, fun _ => healthy_running hh, by simp⟩ ?_ ?_
  · rintro st w1 ⟨tr, s, hat, hl, h1, h2⟩
    rw [post_bind, running_iff s hat.last]
    constructor
    · intro hrun
      simp only [after_ok, if_true]
      have hs : w1.rob.message_id = s.message_id := hat.last.2.2
      refine ((update_some_view { m with motion_generation_finished := true } o w1 _ (by rw [hl.generator]; exact generator_not_idle k) hl.controller ho').and
        (keeps_update (I := TcpOk .Robot) (J := TcpWeak .Robot) (some { m with motion_generation_finished := true }) o w1 hat.tcp)).bind ?_
      rintro r w2 ⟨⟨hc, hr⟩, hk⟩
      simp only [ho, hs] at hr
      have hsend := Step.finish (call := call) (c0 := c0) s m t
      cases r with
      | ok st =>
        obtain ⟨a, s', l, rfl, hlog, hv, hrob, hlt⟩ := hr
        simp only [after_ok, post_pure, round_inl]
        refine ⟨tr ++ [.udpSend a { message_id := s.message_id, motion := { m with motion_generation_finished := true }, control := t }] ++ [.accepted s'], s',
          ⟨hk, by rw [hv, hat.trace]; simp, (hat.run.snoc (hsend a hrun)).snoc (.finishNext s m t s' hlt), ?_, hc.trans hat.cfg, by simp⟩, ?_, by simp, by simp⟩
        · show LastState w2 s'
          unfold LastState; rw [hrob]; exact ⟨rfl, rfl, rfl⟩
        · refine ⟨by rw [hrob]; exact hl.generator, by rw [hrob]; exact hl.controller, ?_⟩
          obtain ⟨old, l0, g1, g2⟩ := hl.logger
          refine ⟨old, l0, g1, ?_⟩
          rw [List.append_assoc, List.singleton_append, cycles_send, List.foldlM_append, g2]
          have : w2.rob.logger = l := by rw [hrob]
          rw [this]
          simp only [List.foldlM_cons, List.foldlM_nil]
          show (w1.rob.logger.log _ _ >>= pure) = _
          exact (congrArg (· >>= pure) hlog).trans rfl
      | err e =>
        obtain ⟨hrob, ⟨msg, rfl⟩, hv⟩ := hr
        rcases hv with hv | ⟨a, hv⟩
        · exact ⟨tr, _, hat.same hk hv (LastState.congr hrob hat.last) hc, trivial, .network _ (fun h => h hrun) rfl⟩
        · exact ⟨_, _, hat.step hk (hsend a hrun) hv (LastState.congr hrob hat.last) hc, trivial, .network _ (fun h => h) rfl⟩
      | panic msg =>
        rcases hr with hv | ⟨a, hv⟩ | ⟨a, s', hv, hlt⟩
        · exact hat.follows hv
        · exact hat.follows1 (hsend a hrun) hv
        · exact hat.follows2 (hsend a hrun) (.finishNext s m t s' hlt) hv
      | blocked =>
        rcases hr with hv | ⟨a, hv⟩ | ⟨a, s', hv, hlt⟩
        · exact hat.follows hv
        · exact hat.follows1 (hsend a hrun) hv
        · exact hat.follows2 (hsend a hrun) (.finishNext s m t s' hlt) hv
    · intro hn
      simp only [after_ok, Bool.false_eq_true, if_false]
      cases st with
      | none => exact absurd (h1 rfl) hn
      | some st => exact ⟨tr, s, by rw [h2 st rfl], hat, hl, hn⟩
  · rintro st w1 ⟨tr, s, hat, -⟩
    exact hat.follows rfl

theorem pres_finish_loop {T : World F → World F → Prop} [TAcc T] [TRob T] [TCmd T] (m : MotionGeneratorCommand F)
    (o : Option (ControllerCommand F)) : Pres T (finish_loop m o) := by
  unfold finish_loop
  pres [pres_something_running, pres_update _ _]

/-- The end of a motion. -/
theorem finish_view {m : MotionGeneratorCommand F} {t : ControllerCommand F} (o : Option (ControllerCommand F))
    (ho : o.getD noTorques = t) (ho' : o.isSome = true ↔ controllerOf call.controller = .ExternalController)
    (h : Ending call c0 w0 s0 m t w) : Post (finish_motion w0.net.command_id (some m) o) w fun r w' =>
      match r with
      | .ok _ => ∃ tr s, AtPhase call c0 w0 s0 tr (.finishing s m t) w' ∧ Concluded w0 w w' s
      | .err e => Stops call c0 w0 s0 e w'
      | _ => Follows call c0 w0 s0 (blocks r) w' := by
  unfold finish_motion
  obtain ⟨tr, s, hat, hl, hh⟩ := h
  rw [post_bind, running_iff s hat.last]
  refine ⟨fun _ => ?_, fun hn => absurd (healthy_running hh) hn⟩
  simp only [after_ok, if_true]
  refine ((finish_loop_view o ho ho' ⟨tr, s, hat, hl, hh⟩).and ((pres_finish_loop (T := Again w0.net.command_id) _ _).post w)).bind ?_
  rintro r w1 ⟨hr, hag⟩
  cases r with
  | ok st =>
    obtain ⟨tr1, s1, rfl, hat1, hl1, hn1⟩ := hr
    simp only [after_ok, unwrapOpt, post_bind, post_pure]
    refine (move_answer_view hat1).mono ?_
    intro r w2 hr
    cases r with
    | ok a =>
      obtain ⟨hat2, hrob, ⟨bs, rest, hm, hd⟩, hnew⟩ := hr
      have hl2 : InLoop call w0 tr1 w2 := hl1.congr (by rw [hrob]) (by rw [hrob]) (by rw [hrob]) rfl
      have hfail : ∀ (base msg : String), abortMessage a.status = some msg → (base = "\"" ++ msg ++ "\"" ∨
          (a.status ≠ .ReflexAborted ∧ base = msg) ∨ (a.status = .ReflexAborted ∧ base = "Motion finished commanded, but the robot is still moving!")) →
          Post (fail_with_log base a.status (RobotState.ofIntern s1 : RobotState F).last_motion_errors : Prog F Unit) w2 fun r w' =>
            match r with
            | .ok _ => ∃ tr s, AtPhase call c0 w0 s0 tr (.finishing s m t) w' ∧ Concluded w0 w w' s
            | .err e => Stops call c0 w0 s0 e w'
            | _ => Follows call c0 w0 s0 (blocks r) w' := by
        intro base msg hmsg hb
        refine ((fail_view base a.status _ msg w2 hmsg hb).and
          (keeps_fail_with_log (I := TcpOk .Robot) (J := TcpWeak .Robot) _ _ _ w2 hat2.tcp)).mono ?_
        rintro r w3 ⟨⟨f1, f2, f3⟩, hk⟩
        cases r with
        | ok x => exact f3.elim
        | err e =>
          obtain ⟨log, l, text, f4, f5, f6, f7⟩ := f3
          refine ⟨tr1, _, hat2.same hk (by rw [f2]) (by unfold LastState; rw [f7]; exact hat2.last) f1, trivial, ?_⟩
          exact .aborted bs a rest log text hn1 (by rw [f2]; exact hm) hd f5 f6 (hl2.loggedBy f4)
        | panic m => exact hat2.follows (by rw [f2])
        | blocked => exact hat2.follows (by rw [f2])
      rw [after_ok]
      split
      · rename_i hre
        exact hfail _ "libfranka-rs: Move command aborted: motion aborted by reflex!" (by rw [hre]; rfl) (.inr (.inr ⟨hre, rfl⟩))
      · rename_i hre
        have hmv := handle_move (F := F) a
        cases hh : (handle_command_response_move a : Except (FrankaException F) Unit) with
        | ok _ =>
          rw [hh] at hmv
          unfold forget_motion
          simp only [post_modify]
          refine ⟨tr1, s1, hat2.same ?_ rfl hat2.last rfl, hn1, a, hmv, fun wa hwa hn => ?_⟩
          · exact TcpSame.keep _ _ (TRob.rob w2 w2.rob.logger w2.rob.ri_version _ _) hat2.tcp
          · exact hnew wa (Pre.trans hwa hag) hn
        | error e =>
          rw [hh] at hmv
          obtain ⟨msg, hm1, rfl⟩ := hmv
          exact hfail _ msg hm1 (.inr (.inl ⟨hre, rfl⟩))
    | err e => exact hr.elim
    | panic m => exact hr
    | blocked => exact hr
  | err e => exact hr
  | panic m => exact hr
  | blocked => exact hr

/-! ### The whole loop -/

/-- Receiving the first state of a motion. -/
theorem do_loop_view (hfit : Fits call) {s : RobotStateIntern F} (hat : AtPhase call c0 w0 s0 tr (.starting s) w) (hl : InLoop call w0 tr w)
    (hnc : ∀ a c, .udpSend a c ∉ tr) : Post ((loopOf call w0.net.command_id).do_loop c0) w fun r w' =>
      match r with
      | .ok _ => ∃ tr s m t, AtPhase call c0 w0 s0 tr (.finishing s m t) w' ∧ Concluded w0 w w' s
      | .err e => Stops call c0 w0 s0 e w'
      | _ => Follows call c0 w0 s0 (blocks r) w' := by
  unfold ControlLoop.do_loop
  have hs : w.rob.message_id = s.message_id := hat.last.2.2
  refine ((update_none_view w).and ((keeps_update (I := TcpOk .Robot) (J := TcpWeak .Robot) none none w hat.tcp).and
    ((pres_update (T := Again w0.net.command_id) none none).post w))).bind ?_
  rintro r w1 ⟨⟨hc, hr⟩, hk, hag⟩
  cases r with
  | ok st =>
    obtain ⟨s', rfl, hv, hrob, hlt⟩ := hr
    rw [hs] at hlt
    have hcyc : cycles (tr ++ [.accepted s']) = cycles tr := by
      rw [cycles_nil tr hnc]
      refine cycles_nil _ fun a c hm => ?_
      rcases List.mem_append.1 hm with hm | hm
      · exact hnc a c hm
      · simp at hm
    have hl1 : InLoop call w0 (tr ++ [.accepted s']) w1 := hl.congr (by rw [hrob]; rfl) (by rw [hrob]; rfl) (by rw [hrob]; rfl) hcyc
    rw [after_ok]
    by_cases hh : Healthy k call.controller s'
    · have hat1 := hat.step hk (.first s s' hlt hh) hv (LastState.of hrob) hc
      refine (throw_view hat1 hl1).bind ?_
      intro r w2 hr2
      cases r with
      | ok _ =>
        obtain ⟨rfl, -⟩ := hr2
        rw [after_ok]
        cases hf : call.torque with
        | none =>
          simp only [loopOf, hf]
          have := motion_loop_view hf hfit ⟨c0, RobotState.ofIntern s', (RobotState.ofIntern s').time, noMotion, noTorques⟩ rfl
            ⟨⟨_, s', rfl, hat1, hl1, hh⟩⟩
          rw [loopOf, hf] at this
          refine (this.and ((pres_motion_loop (T := Again w0.net.command_id) _ _).post w2)).bind ?_
          rintro r w3 ⟨hr3, hag3⟩
          cases r with
          | ok m =>
            rw [after_ok]
            refine (finish_view none rfl (by rw [← hfit.controllerOf, hf]; simp) hr3).mono ?_
            intro r w4 hr4
            cases r with
            | ok _ => obtain ⟨tr, s, h1, h2⟩ := hr4; exact ⟨tr, s, m, _, h1, h2.back (Pre.trans hag hag3)⟩
            | err e => exact hr4
            | panic m => exact hr4
            | blocked => exact hr4
          | err e => exact hr3
          | panic m => exact hr3
          | blocked => exact hr3
        | some f =>
          simp only [loopOf, hf]
          have := torque_loop_view hf hfit ⟨c0, RobotState.ofIntern s', (RobotState.ofIntern s').time, noMotion, noTorques⟩
            ⟨⟨_, s', rfl, hat1, hl1, hh⟩⟩
          rw [loopOf, hf] at this
          refine (this.and ((pres_torque_loop (T := Again w0.net.command_id) _ _ _).post w2)).bind ?_
          rintro r w3 ⟨hr3, hag3⟩
          match r, hr3 with
          | .ok (m, t), hr3 =>
            rw [after_ok]
            refine (finish_view (some t) rfl (by rw [← hfit.controllerOf, hf]; simp) hr3).mono ?_
            intro r w4 hr4
            cases r with
            | ok _ => obtain ⟨tr, s, h1, h2⟩ := hr4; exact ⟨tr, s, m, _, h1, h2.back (Pre.trans hag hag3)⟩
            | err e => exact hr4
            | panic m => exact hr4
            | blocked => exact hr4
          | .err e, hr3 => exact hr3
          | .panic m, hr3 => exact hr3
          | .blocked, hr3 => exact hr3
      | err e => exact absurd hh hr2.1
      | panic m => exact hr2
      | blocked => exact hr2
    · have hat1 := hat.step hk (.firstBroken s s' hlt hh) hv (LastState.of hrob) hc
      refine (throw_view hat1 hl1).bind ?_
      intro r w2 hr2
      cases r with
      | ok _ => exact absurd hr2.2 hh
      | err e => exact ⟨_, _, hr2.2.1, trivial, hr2.2.2 trivial⟩
      | panic m => exact hr2
      | blocked => exact hr2
  | err e =>
    obtain ⟨hv, hrob, m, rfl⟩ := hr
    exact ⟨tr, _, hat.same hk hv (LastState.congr hrob hat.last) hc, trivial, .network m (fun h => h) rfl⟩
  | panic m => exact hat.follows hr
  | blocked => exact hat.follows hr

/-! ### Stopping after an error -/

theorem Spec.Failure.grows {e : FrankaException F} (hf : Failure w0 tr ph w e) (h : Grows w w') : Failure w0 tr ph w' e := by
  cases hf with
  | network m h0 h => exact .network m h0 h
  | aborted bs status rest log text h0 h1 h2 h3 h4 h5 => exact .aborted bs status rest log text h0 (h.responses h1) h2 h3 h4 h5

/-- The StopMove request and its answer. -/
theorem stop_command_view (hw : TcpOk .Robot w) :
    Post (execute_stop_command : Prog F UInt32) w fun r w' => ∃ h : RobotCommandHeader, h.command = .StopMove ∧ w'.cfg = w.cfg ∧
      match r with
      | .ok _ => TcpOk .Robot w' ∧ w'.rob = w.rob ∧ visible w'.trace = visible w.trace ++ [.robotReq ⟨h, .StopMove⟩]
      | _ => visible w'.trace = visible w.trace ∨ visible w'.trace = visible w.trace ++ [.robotReq ⟨h, .StopMove⟩] := by
  have heq : execute_stop_command = (sendRequest .StopMove >>= fun id =>
      tcp_blocking_receive_response StopMoveResponse.codec id >>= fun r => ofExcept (handle_command_response_stop r) >>= fun _ => pure id : Prog F UInt32) := by
    unfold execute_stop_command sendRequest
    simp only [Prog.bind_assoc']; rfl
  rw [heq]
  have hk : Keeps (TcpOk .Robot) (TcpWeak .Robot) (sendRequest .StopMove : Prog F _) := Keeps.of_rel TcpSame.keep (pres_sendRequest _)
  refine ((sendRequest_spec _ w).and ((hk w hw).and ((pres_sendRequest (T := TcpSame) _).post w))).bind ?_
  rintro r w1 ⟨h1, h2, h3⟩
  have h3 := h3.cfg
  cases r with
  | ok id =>
    obtain ⟨rfl, t, ts, -, -, -, hw1⟩ := h1
    have hv1 : visible w1.trace = visible w.trace ++ [.robotReq ⟨⟨.StopMove, w.net.command_id, UInt32.ofNat (RobotCommandEnum.StopMove).size_of_request⟩, .StopMove⟩] := by
      rw [hw1]; exact visible_snoc _ _ rfl
    have hrob1 : w1.rob = w.rob := by rw [hw1]
    rw [after_ok]
    refine (receive_answer_spec .Robot StopMoveResponse.codec w.net.command_id w1 h2).bind ?_
    rintro r w2 ⟨g1, g2, -, g4, -, -, g7⟩
    cases r with
    | ok a =>
      obtain ⟨hk2, -⟩ := g7
      rw [after_ok]
      cases hf : (handle_command_response_stop a : Except (FrankaException F) Unit) with
      | ok _ => exact ⟨_, rfl, g2.trans h3, hk2, g1.trans hrob1, g4.trans hv1⟩
      | error e => exact ⟨_, rfl, g2.trans h3, .inr (g4.trans hv1)⟩
    | err e => exact g7.elim
    | panic m => exact ⟨_, rfl, g2.trans h3, .inr (g4.trans hv1)⟩
    | blocked => exact ⟨_, rfl, g2.trans h3, .inr (g4.trans hv1)⟩
  | err e => exact h1.elim
  | panic m => exact ⟨⟨.StopMove, 0, 0⟩, rfl, h3, .inl (by rw [h1])⟩
  | blocked => exact ⟨⟨.StopMove, 0, 0⟩, rfl, h3, .inl (by rw [h1])⟩

/-- The last state while stopping. -/
structure AtStop (call : ControlCall F σ k) (c0 : σ) (w1 : World F) (tr1 : List (Ev F)) (s1 : RobotStateIntern F) (w : World F)
    (s : RobotStateIntern F) : Prop where
  tcp : TcpOk .Robot w
  last : LastState w s
  events : ∃ tr2, visible w.trace = tr1 ++ tr2 ∧ Run call c0 (.stopping s1) tr2 (.stopping s)

theorem stop_receive_view {s1 s : RobotStateIntern F} {w1 : World F} {tr1 : List (Ev F)} (h : AtStop call c0 w1 tr1 s1 w s) :
    Post (attempt receive_robot_state : Prog F (Except (FrankaException F) (RobotStateIntern F))) w fun r w' =>
      match r with
      | .ok _ => ∃ s', AtStop call c0 w1 tr1 s1 w' s'
      | .err _ => False
      | _ => ∃ tr2 s', visible w'.trace = tr1 ++ tr2 ∧ Run call c0 (.stopping s1) tr2 (.stopping s') := by
  obtain ⟨hk, hl, tr2, hv, hr⟩ := h
  rw [post_attempt]
  refine ((receive_view w).and ((keepRobot_TcpOk (F := F) .Robot).receive w hk)).mono ?_
  rintro r w' ⟨⟨-, h1⟩, h2⟩
  cases r with
  | ok s' =>
    obtain ⟨g1, g2, g3⟩ := h1
    rw [hl.2.2] at g3
    exact ⟨s', h2, LastState.of g2, tr2 ++ [.accepted s'], by rw [g1, hv, List.append_assoc], hr.snoc (.stopped s s' g3)⟩
  | err e =>
    obtain ⟨g1, g2, g3⟩ := h1
    exact ⟨s, h2, LastState.congr g2 hl, tr2, by rw [g1, hv], hr⟩
  | panic m => exact ⟨tr2, s, by rw [h1, hv], hr⟩
  | blocked => exact ⟨tr2, s, by rw [h1, hv], hr⟩

/-- Telling the robot to stop and waiting for it. -/
theorem cancel_view (h : AtPhase call c0 w0 s0 tr ph w) (hms : ph.MayStop) : Post (cancel_motion w0.net.command_id) w fun r w' =>
      match r with
      | .ok _ => ∃ hd tr2 s, hd.command = .StopMove ∧ visible w'.trace = visible w0.trace ++ tr ++ .robotReq ⟨hd, .StopMove⟩ :: tr2 ∧
          Run call c0 (.stopping ph.last) tr2 (.stopping s) ∧ ¬ Running s ∧ LastState w' s
      | .err _ => False
      | _ => Follows call c0 w0 s0 (blocks r) w' := by
  unfold cancel_motion
  rw [post_bind, post_attempt]
  refine (stop_command_view h.tcp).mono ?_
  rintro r w1 ⟨hd, hh, -, hr⟩
  have hstep := Step.stop (call := call) (c0 := c0) ph hd hms hh
  cases r with
  | ok id =>
    obtain ⟨hk, hrob, hv⟩ := hr
    have hstop : AtStop call c0 w1 (visible w0.trace ++ tr ++ [.robotReq ⟨hd, .StopMove⟩]) ph.last w1 ph.last :=
      ⟨hk, LastState.congr hrob h.last, [], by rw [hv, h.trace]; simp, .nil _⟩
    have hfol : ∀ (b : Bool) (w' : World F) tr2 s', visible w'.trace = visible w0.trace ++ tr ++ [.robotReq ⟨hd, .StopMove⟩] ++ tr2 →
        Run call c0 (.stopping ph.last) tr2 (.stopping s') → Follows call c0 w0 s0 b w' := by
      intro b w' tr2 s' hv' hr'
      exact ⟨tr ++ [.robotReq ⟨hd, .StopMove⟩] ++ tr2, _, by rw [hv']; simp, (h.run.snoc hstep).append hr', by simp⟩
    rw [tried_ok, after_ok]
    refine (stop_receive_view hstop).bind ?_
    intro r w2 hr2
    cases r with
    | ok _ =>
      obtain ⟨s2, h2⟩ := hr2
      rw [after_ok]
      have hloop : Post (cancel_loop : Prog F Unit) w2 fun r w' =>
          match r with
          | .ok _ => ∃ s, AtStop call c0 w1 (visible w0.trace ++ tr ++ [.robotReq ⟨hd, .StopMove⟩]) ph.last w' s ∧ ¬ Running s
          | .err _ => False
          | _ => Follows call c0 w0 s0 (blocks r) w' := by
        unfold cancel_loop
        refine loop_post (fun _ w' => ∃ s, AtStop call c0 w1 (visible w0.trace ++ tr ++ [.robotReq ⟨hd, .StopMove⟩]) ph.last w' s) ⟨s2, h2⟩ ?_ ?_
        · rintro - w3 ⟨s3, h3⟩
          rw [post_bind, running_iff s3 h3.last]
          refine ⟨fun hrun => ?_, fun hn => ⟨s3, h3, hn⟩⟩
          simp only [after_ok, if_true]
          refine (stop_receive_view h3).bind ?_
          intro r w4 hr4
          cases r with
          | ok _ => exact hr4
          | err e => exact hr4.elim
          | panic m => obtain ⟨tr2, s', g1, g2⟩ := hr4; exact hfol _ _ tr2 s' g1 g2
          | blocked => obtain ⟨tr2, s', g1, g2⟩ := hr4; exact hfol _ _ tr2 s' g1 g2
        · rintro - w3 ⟨s3, -, -, tr2, g1, g2⟩
          exact hfol _ _ tr2 s3 g1 g2
      refine hloop.bind ?_
      intro r w3 hr3
      cases r with
      | ok _ =>
        obtain ⟨s3, ⟨hk3, hl3, tr3, hv3, hr3⟩, hn3⟩ := hr3
        rw [after_ok, post_bind, post_attempt]
        refine (tcp_receive_view _ _ w3 hk3).mono ?_
        rintro r w4 ⟨hq, hr4⟩
        cases r with
        | ok b =>
          rw [tried_ok, after_ok]
          unfold forget_motion
          simp only [post_modify]
          refine ⟨hd, tr3, s3, hh, ?_, hr3, hn3, ?_⟩
          · rw [hq.trace, hv3]; simp
          · have := LastState.congr hq.rob hl3
            exact this
        | err e =>
          obtain ⟨-, a, m, rest, hf, -⟩ := hr4
          cases hf
        | panic m => exact hfol _ _ tr3 s3 (hq.trace.trans hv3) hr3
        | blocked => exact hfol _ _ tr3 s3 (hq.trace.trans hv3) hr3
      | err e => exact hr3.elim
      | panic m => exact hr3
      | blocked => exact hr3
    | err e => exact hr2.elim
    | panic m => obtain ⟨tr2, s', g1, g2⟩ := hr2; exact hfol _ _ tr2 s' g1 g2
    | blocked => obtain ⟨tr2, s', g1, g2⟩ := hr2; exact hfol _ _ tr2 s' g1 g2
  | err e =>
    rw [tried_err, after_ok]
    rcases hr with hr | hr
    · exact h.follows hr
    · exact h.follows1 hstep hr
  | panic m =>
    rcases hr with hr | hr
    · exact h.follows hr
    · exact h.follows1 hstep hr
  | blocked =>
    rcases hr with hr | hr
    · exact h.follows hr
    · exact h.follows1 hstep hr

/-- The outcome of a control call after real-time scheduling was dealt with. -/
def LoopOutcome (call : ControlCall F σ k) (c0 : σ) (w : World F) (s0 : RobotStateIntern F) (r : Res F Unit) (w' : World F) : Prop :=
  ∃ tr ph, visible w'.trace = visible w.trace ++ tr ∧ Run call c0 (.before s0) tr ph ∧
    match r with
    | .ok _ => LastState w' ph.last ∧ ∃ s m t, ph = .finishing s m t ∧ Finished k call.controller w w' s
    | .err e => LastState w' ph.last ∧ (
        (∃ s, ph = .starting s ∧ ¬ ShowsModes k call.controller s ∧ StartFailure w w' e) ∨
        (∃ s, ph = .stopping s ∧ Stopped call c0 w s0 tr w' s e))
    | .panic _ => True
    | .blocked => ∀ s, ph ≠ .refused s

theorem Follows.panic {m : String} (h : Follows call c0 w0 s0 false w) : LoopOutcome call c0 w0 s0 (.panic m) w := by
  obtain ⟨tr, ph, h1, h2, -⟩ := h; exact ⟨tr, ph, h1, h2, trivial⟩

theorem Follows.blocked (h : Follows call c0 w0 s0 true w) : LoopOutcome call c0 w0 s0 .blocked w := by
  obtain ⟨tr, ph, h1, h2, h3⟩ := h; exact ⟨tr, ph, h1, h2, h3 rfl⟩

/-- `run` on the loop that was started. -/
theorem run_view (hfit : Fits call) {s : RobotStateIntern F} (hat : AtPhase call c0 w0 s0 tr (.starting s) w) (hl : InLoop call w0 tr w)
    (hnc : ∀ a c, .udpSend a c ∉ tr) {wa : World F} (hst : Started k call.controller w0 wa w) : Post ((loopOf call w0.net.command_id).run c0) w (LoopOutcome call c0 w0 s0) := by
  unfold ControlLoop.run
  rw [post_bind, post_attempt]
  refine (do_loop_view hfit hat hl hnc).mono ?_
  intro r w1 hr
  cases r with
  | ok _ =>
    obtain ⟨tr, s, m, t, h1, h2⟩ := hr
    exact ⟨tr, _, h1.trace, h1.run, h1.last, s, m, t, rfl, h2.finished hst⟩
  | err e =>
    obtain ⟨tr1, ph1, h1, h2, h3⟩ := hr
    rw [tried_err, after_ok]
    refine ((cancel_view h1 h2).and ((pres_cancel_motion (T := Grows) trivial _).post w1)).bind ?_
    rintro r w2 ⟨hr2, hg⟩
    cases r with
    | ok _ =>
      obtain ⟨hd, tr2, s, g1, g2, g3, g4, g5⟩ := hr2
      refine ⟨tr1 ++ .robotReq ⟨hd, .StopMove⟩ :: tr2, .stopping s, by rw [← List.append_assoc]; exact g2, ?_, g5, .inr ⟨s, rfl, g4, tr1, ph1, hd, tr2, rfl, h1.run, h2, g1, g3, h3.grows hg⟩⟩
      have := (h1.run.snoc (Step.stop ph1 hd h2 g1)).append g3
      simpa using this
    | err e => exact hr2.elim
    | panic m => exact Follows.panic (m := m) hr2
    | blocked => exact Follows.blocked hr2
  | panic m => exact Follows.panic (m := m) hr
  | blocked => exact Follows.blocked hr

/-- Real-time scheduling. -/
theorem new_intern_view (call : ControlCall F σ k) (w : World F) :
    Post (ControlLoop.new_intern call.motion call.torque call.limit_rate call.cutoff) w fun r w' => w' = w ∧
      match r with
      | .ok l => l = loopOf call 0 ∧ ¬ RealTimeMissing w
      | .err e => RealTimeMissing w ∧ ∃ m, e = .RealTimeException m
      | _ => False := by
  unfold ControlLoop.new_intern set_current_thread_to_highest_scheduler_priority RealTimeMissing
  rw [post_bind, post_gets, after_ok, post_ite]
  refine ⟨fun h1 => ?_, fun h1 => ⟨rfl, rfl, fun h => h1 h.1⟩⟩
  rw [post_bind, post_gets, after_ok, post_ite]
  refine ⟨fun h2 => ?_, fun h2 => ⟨rfl, ⟨h1, fun h => h2 h.1⟩, _, rfl⟩⟩
  rw [post_bind, post_bind, post_gets, after_ok, post_ite]
  refine ⟨fun h3 => ⟨rfl, ⟨h1, fun h => by simp [h.2.1] at h3⟩, _, rfl⟩, fun h3 => ?_⟩
  rw [post_ite]
  refine ⟨fun h4 => ⟨rfl, ⟨h1, fun h => by simp [h.2.2.1] at h4⟩, _, rfl⟩, fun h4 => ?_⟩
  rw [post_ite]
  refine ⟨fun h5 => ⟨rfl, ⟨h1, fun h => by simp [h.2.2.2] at h5⟩, _, rfl⟩, fun h5 => ⟨rfl, rfl, fun h => h.2 ⟨h2, ?_, ?_, ?_⟩⟩⟩
  · simpa using h3
  · simpa using h4
  · simpa using h5

/-- Every control call follows the automaton. -/
theorem control_view (call : ControlCall F σ k) (hfit : Fits call) (c0 : σ) (hw : TcpOk .Robot w) (s0 : RobotStateIntern F) (hs : LastState w s0) :
    Post (ControlLoop.new_intern call.motion call.torque call.limit_rate call.cutoff >>= fun l =>
      start_motion call.controller k.get_motion_generator_mode l.default_deviation l.default_deviation >>= fun id =>
      ({ l with motion_id := id }).run c0) w (ControlOutcome call c0 w s0) := by
  refine (new_intern_view call w).bind ?_
  rintro r w1 ⟨rfl, hr⟩
  cases r with
  | ok l =>
    obtain ⟨rfl, hrt⟩ := hr
    have key : ∀ r w', LoopOutcome call c0 w1 s0 r w' → ControlOutcome call c0 w1 s0 r w' := by
      rintro r w' ⟨tr, ph, h1, h2, h3⟩
      refine ⟨fun h => absurd h hrt, tr, ph, h1, h2, ?_⟩
      cases r with
      | ok _ => exact h3
      | err e => exact ⟨h3.1, .inr h3.2⟩
      | panic m => trivial
      | blocked => exact h3
    refine Post.mono (Q := LoopOutcome call c0 w1 s0) ?_ key
    refine (start_view (c0 := c0) hw s0 hs _ rfl).bind ?_
    intro r w2 hr2
    cases r with
    | ok id =>
      obtain ⟨rfl, s', tr, h1, h2, h3, wa, h4⟩ := hr2
      exact run_view hfit h1 h2 h3 h4
    | err e =>
      obtain ⟨s', tr, h1, h2, h3⟩ := hr2
      exact ⟨tr, _, h1.trace, h1.run, h1.last, .inl ⟨s', rfl, h2, h3⟩⟩
    | panic m => exact Follows.panic (m := m) hr2
    | blocked => exact Follows.blocked hr2
  | err e =>
    obtain ⟨h1, m, rfl⟩ := hr
    exact ⟨fun _ => ⟨rfl, m, rfl⟩, [], .before s0, by simp, .nil _, hs, .inl ⟨rfl, h1, m, rfl⟩⟩
  | panic m => exact hr.elim
  | blocked => exact hr.elim

end automaton
end Verif
