import Verif.Lemmas.Control
import Verif.Lemmas.Logger
/-! What the logger of a `Robot` holds in every history. -/
set_option linter.unusedSectionVars false
set_option linter.unusedVariables false
namespace Verif
open Prog Spec
variable {F : Type}

/-- The logger is as before and events may have been added. -/
structure LogRel (w w' : World F) : Prop where
  logger : w'.rob.logger = w.rob.logger
  trace : w.trace <+: w'.trace

instance : Pre (LogRel (F := F)) where
  refl _ := ⟨rfl, List.prefix_rfl⟩
  trans h h' := ⟨h'.1.trans h.1, h.2.trans h'.2⟩

instance : TSys (LogRel (F := F)) where
  tick _ _ _ _ := ⟨rfl, List.prefix_rfl⟩
instance : TTcp (LogRel (F := F)) where
  poll _ := ⟨rfl, List.prefix_rfl⟩
  read _ _ := ⟨rfl, List.prefix_append _ _⟩
  pend _ _ _ := ⟨rfl, List.prefix_rfl⟩
  head _ _ _ := ⟨rfl, List.prefix_rfl⟩
  store _ := ⟨rfl, List.prefix_append _ _⟩
  remove _ _ := ⟨rfl, List.prefix_rfl⟩
instance : TAcc (LogRel (F := F)) where
  upoll _ := ⟨rfl, List.prefix_rfl⟩
  recv w d ds _ := ⟨rfl, List.prefix_append _ _⟩
  addr _ _ := ⟨rfl, List.prefix_rfl⟩
  acc w s := ⟨rfl, List.prefix_append _ _⟩
instance : TCmd (LogRel (F := F)) where
  send w c := ⟨rfl, List.prefix_append _ _⟩
instance : TReq (LogRel (F := F)) (fun _ => True) where
  next _ := ⟨rfl, List.prefix_rfl⟩
  req w r _ := ⟨rfl, List.prefix_append _ _⟩

section
variable [Fl F]

theorem cycles_snoc (tr : List (Ev F)) (e : Ev F) : cycles tr <+: cycles (tr ++ [e]) := by
  induction tr using cycles.induct with
  | case1 a c s tr ih =>
    simp only [List.cons_append, cycles]
    exact (List.prefix_cons_inj _).2 ih
  | case2 x tr h ih =>
    rw [cycles.eq_2 _ _ h]
    by_cases hx : ∃ a c s, x = .udpSend a c ∧ tr = [] ∧ e = .accepted s
    · obtain ⟨a, c, s, rfl, rfl, rfl⟩ := hx
      exact List.nil_prefix
    · rw [List.cons_append, cycles.eq_2 _ _ ?_]
      · exact ih
      · rintro a1 c1 s1 tr1 rfl h2
        cases tr with
        | nil =>
          simp only [List.nil_append, List.cons.injEq] at h2
          exact hx ⟨a1, c1, s1, rfl, rfl, h2.1⟩
        | cons y tr => simp only [List.cons_append, List.cons.injEq] at h2; exact h a1 c1 s1 tr rfl (by rw [h2.1])
  | case3 => exact List.nil_prefix

theorem cycles_prefix {a b : List (Ev F)} (h : a <+: b) : cycles a <+: cycles b := by
  obtain ⟨c, rfl⟩ := h
  induction c using List.reverseRecOn with
  | nil => rw [List.append_nil]
  | append_singleton c e ih => rw [← List.append_assoc]; exact ih.trans (cycles_snoc _ _)

theorem visible_prefix {a b : List (Ev F)} (h : a <+: b) : visible a <+: visible b := by
  obtain ⟨c, rfl⟩ := h
  rw [visible_append]
  exact List.prefix_append _ _

/-- The logger was made for `L` pairs and holds only pairs of control cycles of this history, in their order. -/
structure LogOk (L : Nat) (w : World F) : Prop where
  arises : Arises L w.rob.logger
  holds : ∃ q, w.rob.logger.Holds q ∧ q.Sublist (cycles (visible w.trace))

theorem LogOk.rel {L : Nat} {w w' : World F} (h : LogRel w w') (hw : LogOk L w) : LogOk L w' := by
  obtain ⟨q, h1, h2⟩ := hw.holds
  refine ⟨by rw [h.logger]; exact hw.arises, q, by rw [h.logger]; exact h1, ?_⟩
  exact h2.trans (cycles_prefix (visible_prefix h.trace)).sublist

theorem keeps_logRel {L : Nat} {α : Type} {p : Prog F α} (h : Pres LogRel p) : Keeps (LogOk L) (fun _ => True) p :=
  Keeps.of_pres (fun _ _ => trivial) fun w => LogOk.rel (h w)

instance keepTcp_LogOk (L : Nat) : KeepTcp (F := F) (LogOk L) (fun _ => True) where
  weak _ _ := trivial
  tick w t ts hs h := h.rel (TSys.tick w t ts hs)
  tcp := keeps_logRel pres_tcp_read_from_buffer
  remove id := keeps_logRel (pres_remove_response id)

variable [Wire F]

/-- If a command is reported as sent, it was the last thing that was seen. -/
theorem send_command_sent (x : RobotCommand F) (w : World F) : Post (send_command_or_wrap x) w fun r w' => w'.rob = w.rob ∧
    ∀ o, r = .ok o → ∃ a, o = some x ∧ visible w'.trace = visible w.trace ++ [.udpSend a x] := by
  unfold send_command_or_wrap udp_send
  simp only [post_bind, post_attempt, post_sys]
  refine ⟨fun _ => ⟨rfl, fun o h => by cases h⟩, ?_⟩
  intro t ts hs
  simp only [after_ok, post_ite, post_err, tried_err, post_bind, post_gets, post_emit, post_pure, tried_ok]
  refine ⟨fun _ => ⟨trivial, fun o h => by cases h⟩, fun _ => ⟨fun hne => ⟨trivial, fun o h => by cases h⟩, fun _ => ⟨trivial, fun o h => ?_⟩⟩⟩
  cases h
  exact ⟨_, rfl, visible_snoc _ _ rfl⟩

theorem send_robot_command_sent (m : Option (MotionGeneratorCommand F)) (c : Option (ControllerCommand F)) (w : World F) :
    Post (send_robot_command m c) w fun r w' => w'.rob = w.rob ∧
      ∀ x, r = .ok (some x) → ∃ a, visible w'.trace = visible w.trace ++ [.udpSend a x] := by
  have hsend : ∀ (x : RobotCommand F), Post (send_command_or_wrap x) w fun r w' => w'.rob = w.rob ∧
      ∀ y, r = .ok (some y) → ∃ a, visible w'.trace = visible w.trace ++ [.udpSend a y] := by
    intro x
    refine (send_command_sent x w).mono ?_
    rintro r w' ⟨h1, h2⟩
    refine ⟨h1, fun y hy => ?_⟩
    obtain ⟨a, h3, h4⟩ := h2 _ hy
    cases h3
    exact ⟨a, h4⟩
  have nothing : ∀ {r : Res F (Option (RobotCommand F))}, (∀ x, r ≠ .ok (some x)) → w.rob = w.rob ∧
      ∀ x, r = .ok (some x) → ∃ a, visible w.trace = visible w.trace ++ [.udpSend a x] := fun h => ⟨rfl, fun x hx => absurd hx (h x)⟩
  have step : ∀ {α : Type} (p : Prog F α) (k : α → Prog F (Option (RobotCommand F))), Post p w (fun _ w' => w' = w) →
      (∀ a, Post (k a) w fun r w' => w'.rob = w.rob ∧ ∀ x, r = .ok (some x) → ∃ a, visible w'.trace = visible w.trace ++ [.udpSend a x]) →
      Post (p >>= k) w fun r w' => w'.rob = w.rob ∧ ∀ x, r = .ok (some x) → ∃ a, visible w'.trace = visible w.trace ++ [.udpSend a x] := by
    intro α p k hp hk
    refine hp.bind ?_
    rintro r w' rfl
    cases r with
    | ok a => exact hk a
    | err e => exact nothing fun x hx => by cases hx
    | panic m => exact nothing fun x hx => by cases hx
    | blocked => exact nothing fun x hx => by cases hx
  have hunwrap : ∀ {α : Type} (o : Option α), Post (unwrapOpt o : Prog F α) w fun _ w' => w' = w := by
    intro α o
    cases o <;> rfl
  unfold send_robot_command
  refine step _ _ rfl fun rob => ?_
  rw [post_ite]
  refine ⟨fun _ => ?_, fun _ => nothing (fun x hx => by cases hx)⟩
  rw [post_ite]
  refine ⟨fun _ => nothing (fun x hx => by cases hx), fun _ => ?_⟩
  have last : ∀ part : Bool, Post (if part = true then err .PartialCommandError else
      match m, c with
      | some m, some c => send_command_or_wrap { message_id := rob.message_id, motion := m, control := c }
      | some m, none => send_command_or_wrap { message_id := rob.message_id, motion := m, control := { tau_J_d := fun _ => Fl.lit 0 } }
      | none, _ => pure none) w fun r w' => w'.rob = w.rob ∧ ∀ x, r = .ok (some x) → ∃ a, visible w'.trace = visible w.trace ++ [.udpSend a x] := by
    intro part
    rw [post_ite]
    refine ⟨fun _ => nothing (fun x hx => by cases hx), fun _ => ?_⟩
    split
    · exact hsend _
    · exact hsend _
    · exact nothing (fun x hx => by cases hx)
  dsimp only
  have middle : ∀ missing : Bool, Post (if missing = true then err .NoControllerRunningError else
      if rob.current_move_motion_generator_mode ≠ .Idle then do
        let m_1 ← unwrapOpt rob.current_move_controller_mode
        let partial_command ← pure (decide (m_1 = .ExternalController) && (!m.isSome || !c.isSome))
        if partial_command = true then err .PartialCommandError else
          match m, c with
          | some m, some c => send_command_or_wrap { message_id := rob.message_id, motion := m, control := c }
          | some m, none => send_command_or_wrap { message_id := rob.message_id, motion := m, control := { tau_J_d := fun _ => Fl.lit 0 } }
          | none, _ => pure none
      else do
        let partial_command ← pure false
        if partial_command = true then err .PartialCommandError else
          match m, c with
          | some m, some c => send_command_or_wrap { message_id := rob.message_id, motion := m, control := c }
          | some m, none => send_command_or_wrap { message_id := rob.message_id, motion := m, control := { tau_J_d := fun _ => Fl.lit 0 } }
          | none, _ => pure none) w fun r w' => w'.rob = w.rob ∧ ∀ x, r = .ok (some x) → ∃ a, visible w'.trace = visible w.trace ++ [.udpSend a x] := by
    intro missing
    rw [post_ite]
    refine ⟨fun _ => nothing (fun x hx => by cases hx), fun _ => ?_⟩
    rw [post_ite]
    refine ⟨fun _ => ?_, fun _ => ?_⟩
    · exact step _ _ (hunwrap _) fun _ => step _ _ rfl fun _ => last _
    · exact step _ _ rfl fun _ => last _
  rw [post_ite]
  refine ⟨fun _ => ?_, fun _ => ?_⟩
  · exact step _ _ (hunwrap _) fun _ => step _ _ rfl fun _ => middle _
  · exact step _ _ rfl fun _ => middle _

theorem keeps_log_flush {L : Nat} : Keeps (LogOk (F := F) L) (fun _ => True) (flush_logger : Prog F (List (Record F))) := by
  intro w hw
  unfold flush_logger
  simp only [post_bind, post_gets, after_ok, post_liftP]
  refine ⟨fun x hx => ?_, fun m hm => trivial⟩
  obtain ⟨r, l⟩ := x
  simp only [after_ok, post_modify, post_pure]
  obtain ⟨q, h1, h2⟩ := hw.holds
  refine ⟨hw.arises.flush r hx, q, ?_, h2⟩
  unfold Logger.flush at hx
  cases hf : w.rob.logger.flushLoop (List.range w.rob.logger.ring_size) with
  | error e => rw [hf] at hx; cases hx
  | ok out => rw [hf] at hx; cases hx; exact ⟨h1.states, h1.commands⟩

theorem keeps_log_update {L : Nat} (m : Option (MotionGeneratorCommand F)) (c : Option (ControllerCommand F)) :
    Keeps (LogOk (F := F) L) (fun _ => True) (update m c) := by
  intro w hw
  unfold update
  refine ((send_robot_command_sent m c w).and ((pres_send_robot_command (T := LogRel) m c).post w)).bind ?_
  rintro r w1 ⟨⟨hr, hs⟩, hrel⟩
  cases r with
  | ok o =>
    rw [after_ok]
    refine ((receive_view w1).and ((pres_receive_robot_state (T := LogRel)).post w1)).bind ?_
    rintro r w2 ⟨⟨-, hv⟩, hrel2⟩
    have h2 : LogOk L w2 := (hw.rel hrel).rel hrel2
    cases r with
    | ok s =>
      rw [after_ok]
      cases o with
      | none => exact h2
      | some x =>
        obtain ⟨a, ha⟩ := hs x rfl
        simp only [post_bind, post_gets, after_ok, post_liftP]
        refine ⟨fun l hl => ?_, fun m hm => trivial⟩
        simp only [after_ok, post_modify, post_pure]
        have hlog := Logger.log_inv hl
        rw [hrel2.logger, hrel.logger] at hl hlog
        obtain ⟨q, g1, g2⟩ := hw.holds
        obtain ⟨l', e1, e2, -⟩ := Logger.log_eq g1 hlog (RobotState.ofIntern s) x
        rw [hl] at e1
        cases e1
        refine ⟨hw.arises.log _ _ hl, _, e2, ?_⟩
        have hc : cycles (visible w2.trace) = cycles (visible w.trace) ++ [(RobotState.ofIntern s, x)] := by
          rw [hv.1, ha, List.append_assoc]
          exact cycles_send _ _ _ _
        show List.Sublist _ (cycles (visible w2.trace))
        rw [hc]
        have hsub : (q ++ [(RobotState.ofIntern s, x)]).Sublist (cycles (visible w.trace) ++ [(RobotState.ofIntern s, x)]) :=
          List.Sublist.append g2 (List.Sublist.refl _)
        split
        · exact (List.tail_sublist _).trans hsub
        · exact hsub
    | err e => exact h2
    | panic m => trivial
    | blocked => trivial
  | err e => exact hw.rel hrel
  | panic m => trivial
  | blocked => trivial

instance keepRobot_LogOk (L : Nat) : KeepRobot (F := F) (LogOk L) (fun _ => True) where
  request b _ := keeps_logRel (pres_sendRequest b)
  start cm mm a b := by
    refine keeps_start_motion (I := LogOk L) (J := fun _ => True) cm mm a b (fun m => keeps_logRel (pres_sendRequest _))
      (keeps_log_update none none) keeps_log_flush ?_
    intro w m c h
    exact LogOk.rel (w := w) ⟨rfl, List.prefix_rfl⟩ h
  receive := keeps_logRel pres_receive_robot_state
  discard := keeps_logRel pres_discard_available
  update m c := keeps_log_update m c
  flush := keeps_log_flush
  forget := keeps_logRel fun w => ⟨rfl, List.prefix_rfl⟩
  cb w e _ h := LogOk.rel (w := w) ⟨rfl, List.prefix_append _ _⟩ h
  file w f h := LogOk.rel (w := w) ⟨rfl, List.prefix_rfl⟩ h

/-- The logger in every history of a robot. -/
theorem session_log [Geo F] (rc : Option RealtimeConfig) (ls : Option Nat) (cs : List (RobotCall F)) (w : World F) (hw : Fresh w) :
    Post (robotSession rc ls cs) w fun r w' => match r with
      | .ok _ => LogOk (ls.getD 50) w'
      | _ => True := by
  refine post_robotSession (I := LogOk (ls.getD 50)) (J := fun _ => True) rc ls cs w ?_
  refine post_robot_new (I := LogOk (ls.getD 50)) (J := fun _ => True) (K := LogOk (ls.getD 50)) rc ls w (fun _ _ => trivial) ?_
    (fun b _ => keeps_logRel (pres_sendRequest b)) ?_ ?_
  · intro t ts r hs
    exact ⟨.new, [], ⟨rfl, rfl⟩, List.nil_sublist _⟩
  · intro w v h
    exact LogOk.rel (w := w) ⟨rfl, List.prefix_rfl⟩ h
  · intro w1 h1
    refine ((pres_udp_blocking_receive (T := LogRel) _ _).post w1).mono ?_
    intro r w2 h2
    cases r with
    | ok s => exact LogOk.rel (w := w2) ⟨rfl, List.prefix_append _ _⟩ (h1.rel h2)
    | err e => trivial
    | panic m => trivial
    | blocked => trivial

end
end Verif
