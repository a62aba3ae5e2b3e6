import Verif.Lemmas.SafeCalls
import Verif.Props.Log
import Verif.Props.Stream
/-!
# When control calls panic
-/
set_option linter.unusedSectionVars false
namespace Verif
open Prog Spec
variable {F : Type}

/-! ## The log of a reflex -/

/-- The last two elements of a strictly increasing list. -/
theorem sorted_last_two {α : Type} (f : α → Nat) {l t : List α} {a b : α} (h : l.Pairwise fun x y => f x < f y) (hr : l.reverse = a :: b :: t) :
    f b < f a := by
  have : l = t.reverse ++ [b, a] := by
    have := congrArg List.reverse hr
    simpa using this
  rw [this, List.pairwise_append] at h
  simpa using h.2.1

/-- The last two of the log are in order, except in the case of `ControlFault.reflex`. -/
theorem rotated_last_two {α : Type} (f : α → Nat) {X t : List α} {a b : α} {n L : Nat} (h : X.Pairwise fun x y => f x < f y)
    (hX : X.length = min n L) (hr : (X.rotate (n % L)).reverse = a :: b :: t) : f b < f a ∨ (2 ≤ L ∧ L < n ∧ n % L = 1) := by
  have hlen : 2 ≤ X.length := by
    have := congrArg List.length hr
    simp only [List.length_reverse, List.length_rotate, List.length_cons] at this
    omega
  by_cases hn : n ≤ L
  · left
    have e : X.rotate (n % L) = X := by
      rcases Nat.eq_or_lt_of_le hn with he | hl
      · rw [he, Nat.mod_self, List.rotate_zero]
      · have : X.length = n := by omega
        rw [Nat.mod_eq_of_lt hl, ← this, List.rotate_length]
    rw [e] at hr
    exact sorted_last_two f h hr
  · have hL : 2 ≤ L := by omega
    have hm : n % L < L := Nat.mod_lt _ (by omega)
    rcases Nat.lt_trichotomy (n % L) 1 with h0 | h1 | h2
    · left
      have : n % L = 0 := by omega
      rw [this, List.rotate_zero] at hr
      exact sorted_last_two f h hr
    · exact .inr ⟨hL, by omega, h1⟩
    · left
      rw [List.rotate_eq_drop_append_take (by omega), List.reverse_append] at hr
      have hlt : 2 ≤ (X.take (n % L)).reverse.length := by rw [List.length_reverse, List.length_take]; omega
      match hc : (X.take (n % L)).reverse, hlt with
      | x :: y :: r, _ =>
        rw [hc] at hr
        simp only [List.cons_append, List.cons.injEq] at hr
        obtain ⟨rfl, rfl, -⟩ := hr
        exact sorted_last_two f (h.sublist (List.take_sublist _ _)) hc

section
variable [Fl F]

theorem success_rate_error {checks : Bool} {previous last : Record F} {m : String} (h : success_rate_text checks previous last = .error m) :
    ¬ previous.state.time < last.state.time := by
  intro hlt
  unfold success_rate_text lost_packets_of durSub at h
  rw [if_pos (Nat.le_of_lt hlt)] at h
  have h0 : last.state.time - previous.state.time ≠ 0 := by omega
  simp only [bind, Except.bind, if_neg h0, pure, Except.pure] at h
  cases h

theorem exception_error {checks : Bool} {message : String} {status : MoveStatus} {reasons : FrankaErrors} {log : List (Record F)} {m : String}
    (h : create_control_exception checks message status reasons log = .error m) :
    status = .ReflexAborted ∧ ∃ a b t, log.reverse = a :: b :: t ∧ ¬ b.state.time < a.state.time := by
  unfold create_control_exception at h
  split at h
  · rename_i hs
    refine ⟨hs, ?_⟩
    split at h
    · rename_i a b t hl
      refine ⟨a, b, t, hl, ?_⟩
      cases ht : success_rate_text checks b a with
      | ok x => rw [ht] at h; cases h
      | error e => exact success_rate_error ht
    · cases h
  · cases h

theorem cycles_states (tr : List (Ev F)) : ((cycles tr).map (·.1)).Sublist ((accepted tr).map RobotState.ofIntern) := by
  induction tr using cycles.induct with
  | case1 a c s tr ih =>
    rw [cycles]
    have : accepted (.udpSend a c :: .accepted s :: tr) = s :: accepted tr := rfl
    rw [this, List.map_cons, List.map_cons]
    exact ih.cons_cons _
  | case2 x tr h ih =>
    rw [cycles.eq_2 _ _ h]
    have : accepted (x :: tr) = accepted [x] ++ accepted tr := accepted_append [x] tr
    rw [this, List.map_append]
    exact ih.trans (List.sublist_append_right _ _)
  | case3 => exact List.nil_sublist _
end

/-! ## What holds during a control call -/
section
variable [Fl F] [Wire F] [LawfulWire F] [Geo F] {σ : Type} {k : MotionKind}

/-- During a call that began in `w0`, of a robot with a log of size `L`. -/
structure Live (L : Nat) (c : Bool) (w0 w : World F) : Prop where
  inside : Inside .Robot c w0 w
  log : LogOk L w
  last : ∃ s, lastAccepted w.trace = some s ∧ LastState w s
  ids : (accepted w.trace).Pairwise fun a b => a.message_id < b.message_id

/-- The Move request was made. -/
def Asked (call : ControlCall F σ k) (w0 w : World F) : Prop :=
  ∃ h : RobotCommandHeader, .robotReq ⟨h, moveBody k call.controller⟩ ∈ newEvents w0 w ∧ h.command_id = w0.net.command_id

/-- In the control loop. -/
structure InCall (call : ControlCall F σ k) (L : Nat) (c : Bool) (w0 w : World F) : Prop where
  live : Live L c w0 w
  asked : Asked call w0 w
  loop : InLoop call w0 (newEvents w0 w) w

/-- Why a control call panics. -/
def Fault (call : ControlCall F σ k) (L : Nat) (w0 w : World F) : Prop := RequestFault w0 w ∨ ControlFault L call w0 w

variable {call : ControlCall F σ k} {L : Nat} {c : Bool} {w0 w w' : World F}

theorem accepted_of_visible {tr tr' es : List (Ev F)} (h : visible tr' = visible tr ++ es) : accepted tr' = accepted tr ++ accepted es := by
  rw [← accepted_visible, h, accepted_append, accepted_visible]

theorem Asked.mono (h : Asked call w0 w) (h0 : Grows w0 w) (h' : Grows w w') : Asked call w0 w' := by
  obtain ⟨hd, h1, h2⟩ := h
  exact ⟨hd, (Grows.newEvents_prefix h0 h').subset h1, h2⟩

/-- Nothing happens that concerns the motion. -/
theorem Live.quiet (h : Live L c w0 w) (hi : Inside .Robot c w0 w') (hr : w'.rob = w.rob) (hv : visible w'.trace = visible w.trace) : Live L c w0 w' := by
  have ha : accepted w'.trace = accepted w.trace := by rw [← accepted_visible, hv, accepted_visible]
  obtain ⟨s, h1, h2⟩ := h.last
  obtain ⟨h3, q, h4, h5⟩ := h.log
  exact ⟨hi, ⟨by rw [hr]; exact h3, q, by rw [hr]; exact h4, by rw [hv]; exact h5⟩,
    ⟨s, by unfold lastAccepted at *; rw [ha]; exact h1, LastState.congr hr h2⟩, by rw [ha]; exact h.ids⟩

theorem newEvents_visible (h : Inside .Robot c w0 w) (hi : Inside .Robot c w0 w') {es : List (Ev F)} (hv : visible w'.trace = visible w.trace ++ es) :
    newEvents w0 w' = newEvents w0 w ++ es := by
  refine newEvents_eq hi.since ?_
  rw [hv, newEvents_of_grows h.since, List.append_assoc]

theorem InCall.quiet (h : InCall call L c w0 w) (hi : Inside .Robot c w0 w') (hr : w'.rob = w.rob) (hv : visible w'.trace = visible w.trace) :
    InCall call L c w0 w' := by
  have hn : newEvents w0 w' = newEvents w0 w := by
    rw [newEvents_visible h.live.inside hi (es := []) (by rw [hv, List.append_nil]), List.append_nil]
  refine ⟨h.live.quiet hi hr hv, ?_, ?_⟩
  · unfold Asked; rw [hn]; exact h.asked
  · exact h.loop.congr (by rw [hr]) (by rw [hr]) (by rw [hr]) (by rw [hn])

/-- One more state. -/
theorem Live.state (h : Live L c w0 w) (hi : Inside .Robot c w0 w') (hl : LogOk L w') {s : RobotStateIntern F} {es : List (Ev F)}
    (hes : accepted es = [s]) (hv : visible w'.trace = visible w.trace ++ es) (hs : LastState w' s) (hlt : w.rob.message_id < s.message_id) :
    Live L c w0 w' ∧ lastAccepted w'.trace = some s := by
  have ha : accepted w'.trace = accepted w.trace ++ [s] := by rw [accepted_of_visible hv, hes]
  have hla : lastAccepted w'.trace = some s := by unfold lastAccepted; rw [ha]; simp
  refine ⟨⟨hi, hl, ⟨s, hla, hs⟩, ?_⟩, hla⟩
  rw [ha, List.pairwise_append]
  refine ⟨h.ids, by simp, ?_⟩
  intro a haa b hb
  rw [List.mem_singleton.1 hb]
  obtain ⟨s1, h1, h2⟩ := h.last
  unfold lastAccepted at h1
  obtain ⟨l, hl⟩ := List.getLast?_eq_some_iff.1 h1
  have hids := h.ids
  rw [hl, List.pairwise_append] at hids
  rw [hl] at haa
  rw [h2.2.2] at hlt
  rcases List.mem_append.1 haa with hm | hm
  · exact UInt64.lt_trans (hids.2.2 a hm s1 (by simp)) hlt
  · rw [List.mem_singleton.1 hm]; exact hlt

theorem Live.known (h : Live L c w0 w) {s : RobotStateIntern F} (hs : lastAccepted w.trace = some s) : LastState w s := by
  obtain ⟨s', h1, h2⟩ := h.last
  rw [hs] at h1
  cases h1
  exact h2

/-- A state is received. -/
theorem receive_live (w : World F) (hw : Live L c w0 w) : Post (receive_robot_state : Prog F (RobotStateIntern F)) w fun r w' => match r with
    | .ok s => Live L c w0 w' ∧ lastAccepted w'.trace = some s ∧ visible w'.trace = visible w.trace ++ [.accepted s] ∧ w'.rob = withState w.rob s ∧
        w.rob.message_id < s.message_id
    | .err _ => Live L c w0 w' ∧ w'.rob = w.rob ∧ visible w'.trace = visible w.trace
    | .panic _ => False
    | .blocked => True := by
  have hk : KeepRobot (F := F) (LogOk L) (fun _ => True) := inferInstance
  refine ((receive_view w).and ((calm_inside_receive (c := c) (w0 := w0) w hw.inside).and
    ((calm_receive_robot_state w hw.inside.sane).and (hk.receive w hw.log)))).mono ?_
  rintro r w' ⟨⟨h0, h1⟩, h2, h3, h4⟩
  cases r with
  | ok s =>
    obtain ⟨g1, g2, g3⟩ := h1
    obtain ⟨g4, g5⟩ := hw.state h2 h4 (es := [.accepted s]) rfl g1 (LastState.of g2) g3
    exact ⟨g4, g5, g1, g2, g3⟩
  | err e => exact ⟨hw.quiet h2 h1.2.1 h1.1, h1.2.1, h1.1⟩
  | panic m => exact h3
  | blocked => trivial

/-- A state is received without sending a command. -/
theorem update_none_live (w : World F) (hw : Live L c w0 w) : Post (update none none : Prog F (RobotState F)) w fun r w' => match r with
    | .ok st => ∃ s, st = RobotState.ofIntern s ∧ Live L c w0 w' ∧ lastAccepted w'.trace = some s ∧
        visible w'.trace = visible w.trace ++ [.accepted s] ∧ w'.rob = withState w.rob s ∧ w.rob.message_id < s.message_id
    | .err _ => Live L c w0 w' ∧ w'.rob = w.rob ∧ visible w'.trace = visible w.trace
    | .panic _ => False
    | .blocked => True := by
  unfold update send_robot_command
  simp only [Option.isSome_none, Bool.or_self, Bool.false_eq_true, if_false, post_bind, post_gets, after_ok, post_pure]
  refine (receive_live w hw).mono ?_
  intro r w' h
  cases r with
  | ok s => exact ⟨s, rfl, h⟩
  | err e => exact h
  | panic m => exact h
  | blocked => exact h

/-- Sending does not panic. -/
theorem send_calm (m : MotionGeneratorCommand F) (o : Option (ControllerCommand F)) (w : World F) (cm : ControllerMode)
    (h2 : w.rob.current_move_controller_mode = some cm) : Post (send_robot_command (some m) o) w fun r _ => ∀ m, r ≠ .panic m := by
  have hsend : ∀ (x : RobotCommand F), Post (send_command_or_wrap x) w fun r _ => ∀ m, r ≠ .panic m := by
    intro x
    unfold send_command_or_wrap udp_send
    simp only [post_bind, post_attempt, post_sys]
    refine ⟨fun _ m h => (by cases h), ?_⟩
    intro t ts hs
    simp only [after_ok, post_ite, post_err, tried_err, post_bind, post_gets, post_emit, post_pure, tried_ok]
    refine ⟨fun _ m h => (by cases h), fun _ => ⟨fun hne m h => (by cases h), fun _ m h => (by cases h)⟩⟩
  unfold send_robot_command
  rw [post_bind, post_gets, after_ok]
  simp only [Option.isSome_some, Bool.true_or, if_true, Bool.true_and, decide_eq_true_eq]
  rw [h2]
  split
  · intro m h; cases h
  · cases o with
    | none =>
      simp only [Option.isSome_none, Bool.false_eq_true, if_false, unwrapOpt, post_bind, post_pure, after_ok, post_ite]
      repeat' first | exact hsend _ | (intro m h; cases h; done) | constructor | intro _
    | some o =>
      simp only [Option.isSome_some, if_true, unwrapOpt, post_bind, post_pure, after_ok, post_ite]
      repeat' first | exact hsend _ | (intro m h; cases h; done) | constructor | intro _

theorem log_panic {l : Logger F} (hl : Arises L l) {s : RobotState F} {x : RobotCommand F} {m : String} (h : l.log s x = .error m) : L = 0 := by
  obtain ⟨h1, ⟨q, hq, hk⟩, h2⟩ := hl.ok
  by_contra h0
  obtain ⟨l', g1, -⟩ := Logger.log_eq hq (by rw [h1]; omega) s x
  rw [g1] at h
  cases h

theorem keepLog (L : Nat) : KeepRobot (F := F) (LogOk L) (fun _ => True) := inferInstance
theorem keepSane : KeepRobot (F := F) (Sane .Robot) (fun _ => True) := inferInstance

/-- A command is sent and the next state received. -/
theorem update_some_live (m : MotionGeneratorCommand F) (o : Option (ControllerCommand F))
    (ho' : o.isSome = true ↔ controllerOf call.controller = .ExternalController) (w : World F) (hw : InCall call L c w0 w) :
    Post (update (some m) o) w fun r w' => match r with
      | .ok st => ∃ s, st = RobotState.ofIntern s ∧ InCall call L c w0 w' ∧ lastAccepted w'.trace = some s ∧ w.rob.message_id < s.message_id
      | .err _ => Live L c w0 w' ∧ Asked call w0 w'
      | .panic _ => Fault call L w0 w'
      | .blocked => True := by
  have hk : Post (update (some m) o) w fun r w' => match r with
      | .ok _ | .err _ => Inside .Robot c w0 w' ∧ LogOk L w' ∧ Grows w w'
      | _ => True := by
    refine (((keepSane (F := F)).update (some m) o w hw.live.inside.sane).and (((keepReq c).update (some m) o w hw.live.inside.req).and
      (((keepSince w0).update (some m) o w hw.live.inside.since).and (((keepLog L).update (some m) o w hw.live.log).and
      ((keepSince w).update (some m) o w (Pre.refl (T := Grows) w)))))).mono ?_
    rintro r w' ⟨h1, h2, h3, h4, h5⟩
    cases r with
    | ok _ => exact ⟨⟨h1, h2, h3⟩, h4, h5⟩
    | err _ => exact ⟨⟨h1, h2, h3⟩, h4, h5⟩
    | panic _ => trivial
    | blocked => trivial
  have hp : Post (update (some m) o) w fun r w' => ∀ msg, r = .panic msg → L = 0 ∧ Grows w0 w' ∧
      ∃ a x s, visible w'.trace = visible w.trace ++ [.udpSend a x, .accepted s] := by
    unfold update
    refine ((send_view m o w _ (by rw [hw.loop.generator]; exact generator_not_idle k) hw.loop.controller ho').and
      ((send_calm m o w _ hw.loop.controller).and ((Keeps.of_rel (I := Sane .Robot) (J := fun _ => True) SaneStep.keep (pres_send_robot_command (some m) o) w hw.live.inside.sane).and
      ((pres_send_robot_command (T := Grows) (some m) o).post w)))).bind ?_
    rintro r w1 ⟨⟨hc, h⟩, hn, hs, hg⟩
    have hg : Since w0 w1 := Pre.trans (T := Grows) hw.live.inside.since hg
    cases r with
    | ok y =>
      obtain ⟨a, rfl, hr, hv⟩ := h
      rw [after_ok]
      refine ((receive_view w1).and ((calm_receive_robot_state w1 hs).and ((keepSince w0).receive w1 hg))).bind ?_
      rintro r w2 ⟨⟨hc2, h⟩, h3, h4⟩
      cases r with
      | ok s =>
        obtain ⟨g1, g2, g3⟩ := h
        simp only [after_ok, post_bind, post_gets, post_liftP]
        refine ⟨fun l _ msg h => (by cases h), fun e he msg _ => ?_⟩
        refine ⟨?_, h4, a, _, s, by rw [g1, hv, List.append_assoc]; rfl⟩
        have : w2.rob.logger = w.rob.logger := by rw [g2, hr]; rfl
        rw [this] at he
        exact log_panic hw.live.log.arises he
      | err e => intro msg h; cases h
      | panic msg => exact h3.elim
      | blocked => intro msg h; cases h
    | err e => intro msg h; cases h
    | panic msg => exact absurd rfl (hn msg)
    | blocked => intro msg h; cases h
  refine ((update_some_view m o w _ (by rw [hw.loop.generator]; exact generator_not_idle k) hw.loop.controller ho').and (hk.and hp)).mono ?_
  rintro r w' ⟨⟨hc, hr⟩, hk, hp⟩
  cases r with
  | ok st =>
    obtain ⟨a, s, l, rfl, hlog, hv, hrob, hlt⟩ := hr
    obtain ⟨hi, hl, hg⟩ := hk
    obtain ⟨g1, g2⟩ := hw.live.state hi hl (s := s) rfl hv (by unfold LastState; rw [hrob]; exact ⟨rfl, rfl, rfl⟩) hlt
    refine ⟨s, rfl, ⟨g1, hw.asked.mono hw.live.inside.since hg, ?_⟩, g2, hlt⟩
    rw [newEvents_visible hw.live.inside hi hv]
    refine ⟨by rw [hrob]; exact hw.loop.generator, by rw [hrob]; exact hw.loop.controller, ?_⟩
    obtain ⟨old, l0, e1, e2⟩ := hw.loop.logger
    refine ⟨old, l0, e1, ?_⟩
    rw [cycles_send, List.foldlM_append, e2]
    have : w'.rob.logger = l := by rw [hrob]
    rw [this]
    simp only [List.foldlM_cons, List.foldlM_nil]
    show (w.rob.logger.log _ _ >>= pure) = _
    exact (congrArg (· >>= pure) hlog).trans rfl
  | err e =>
    obtain ⟨hrob, -, hv⟩ := hr
    obtain ⟨hi, hl, hg⟩ := hk
    refine ⟨?_, hw.asked.mono hw.live.inside.since hg⟩
    have ha : accepted w'.trace = accepted w.trace := by
      rcases hv with hv | ⟨a, hv⟩
      · rw [← accepted_visible, hv, accepted_visible]
      · rw [accepted_of_visible hv]; exact List.append_nil _
    obtain ⟨s, h1, h2⟩ := hw.live.last
    exact ⟨hi, hl, ⟨s, by unfold lastAccepted at *; rw [ha]; exact h1, LastState.congr hrob h2⟩, by rw [ha]; exact hw.live.ids⟩
  | panic msg =>
    obtain ⟨hL, hg, a, x, s, hv⟩ := hp msg rfl
    refine .inr (.noLog hL ?_)
    have : newEvents w0 w' = newEvents w0 w ++ [.udpSend a x, .accepted s] := newEvents_eq hg (by
      rw [hv, newEvents_of_grows hw.live.inside.since, List.append_assoc])
    rw [this]
    unfold commands
    simp
  | blocked => trivial

/-! ## The answer to the Move request -/

/-- This was taken as the answer to the Move request. -/
def Got (call : ControlCall F σ k) (w0 w : World F) (a : MoveResponse) : Prop :=
  ∃ m, (w0.net.command_id, m) ∈ responses w.trace ∧ (m = MoveResponse.codec.enc a ∨ ¬ Answers (F := F) (moveBody k call.controller) m)

theorem Got.cases {a : MoveResponse} (h : Got call w0 w a) (ha : Asked call w0 w) :
    RequestFault w0 w ∨ AnsweredWith (fun b => b = moveBody k call.controller) w0 w (MoveResponse.codec.enc a) := by
  obtain ⟨m, h1, h2⟩ := h
  obtain ⟨hd, h3, h4⟩ := ha
  rcases h2 with rfl | h2
  · exact .inr ⟨hd, _, rfl, h3, by rw [h4]; exact h1⟩
  · exact .inl (.answer ⟨hd, _⟩ m h3 (by show (hd.command_id, m) ∈ _; rw [h4]; exact h1) h2)

theorem got_of_dec {m rest : Bytes} {a : MoveResponse} (hm : (w0.net.command_id, m) ∈ responses w.trace)
    (hd : MoveResponse.codec.dec m = some (a, rest)) : Got call w0 w a := by
  refine ⟨m, hm, ?_⟩
  have hs := MoveResponse.codec_lawful.sound _ _ _ hd
  cases rest with
  | nil => left; rw [hs, List.append_nil]
  | cons x rest =>
    right
    rintro ⟨a', ha'⟩
    have h1 := MoveResponse.codec_lawful.len a
    have h2 := MoveResponse.codec_lawful.len a'
    have := congrArg List.length (hs.symm.trans ha')
    rw [List.length_append, List.length_cons, h1, h2] at this
    omega

theorem answer_live (w : World F) (hi : Inside .Robot c w0 w) (ha : Asked call w0 w) :
    Post (tcp_blocking_receive_response MoveResponse.codec w0.net.command_id : Prog F MoveResponse) w fun r w' => match r with
      | .ok a => Inside .Robot c w0 w' ∧ w'.rob = w.rob ∧ visible w'.trace = visible w.trace ∧ Got call w0 w' a
      | .err _ => False
      | .panic _ => RequestFault w0 w'
      | .blocked => True := by
  have hq : Pres QuietStep (wait_for_response_to_arrive w0.net.command_id : Prog F Bytes) := pres_wait_for_response_to_arrive _
  unfold tcp_blocking_receive_response
  refine ((wait_calm w0.net.command_id w hi).and (hq.post w)).bind ?_
  rintro r w1 ⟨h1, h2⟩
  cases r with
  | ok m =>
    obtain ⟨g1, g2, -, g3⟩ := h1
    rw [after_ok]
    unfold deserialize
    cases hd : MoveResponse.codec.dec m with
    | none =>
      obtain ⟨hd', h3, h4⟩ := ha
      exact .answer ⟨hd', _⟩ m (g3.subset h3) (by show (hd'.command_id, m) ∈ _; rw [h4]; exact g2) (lawful_none MoveResponse.codec_lawful hd)
    | some p => exact ⟨g1, h2.rob, h2.trace, got_of_dec g2 hd⟩
  | err e => exact h1
  | panic m => exact h1.elim
  | blocked => trivial

/-! ## Reporting an error -/

theorem flush_live (hl : Arises L w.rob.logger) : ∃ log l, w.rob.logger.flush = .ok (log, l) := by
  obtain ⟨h1, ⟨q, hq, hk⟩, h2⟩ := hl.ok
  exact ⟨_, _, Logger.flush_eq hq hk⟩

theorem logged_last_two (h0 : LogOk L w0) (hw : InCall call L c w0 w) {log t : List (Record F)} {a b : Record F} {l : Logger F}
    (hl : w.rob.logger.flush = .ok (log, l)) (hr : log.reverse = a :: b :: t) (hlt : ¬ b.state.time < a.state.time) :
    2 ≤ L ∧ L < (cycles (newEvents w0 w)).length ∧ (cycles (newEvents w0 w)).length % L = 1 := by
  obtain ⟨q, hq, hsub⟩ := h0.holds
  have he := loggedBy_eq h0.arises hq (hw.loop.loggedBy hl)
  generalize hps : cycles (newEvents w0 w) = ps at *
  generalize hX : ((q ++ ps).drop (ps.length - L)).take (min ps.length L) = X at he
  have hlen : X.length = min ps.length L := by
    rw [← hX, List.length_take, List.length_drop, List.length_append]
    omega
  have hsort : (q ++ ps).Pairwise fun x y => x.1.time < y.1.time := by
    have h1 : ((q ++ ps).map (·.1)).Sublist ((accepted w.trace).map RobotState.ofIntern) := by
      rw [accepted_of_visible (newEvents_of_grows hw.live.inside.since), List.map_append, List.map_append, ← hps]
      exact ((hsub.map _).trans ((cycles_states _).trans (by rw [accepted_visible]))).append (cycles_states _)
    have h2 : ((accepted w.trace).map RobotState.ofIntern).Pairwise fun x y : RobotState F => x.time < y.time := by
      rw [List.pairwise_map]
      exact hw.live.ids.imp fun h => h
    have h3 := h2.sublist h1
    rwa [List.pairwise_map] at h3
  have hsX : X.Pairwise fun x y => x.1.time < y.1.time := by
    rw [← hX]
    exact hsort.sublist ((List.take_sublist _ _).trans (List.drop_sublist _ _))
  rw [he, ← List.map_reverse] at hr
  match hc : (X.rotate (ps.length % L)).reverse, hr with
  | x :: y :: r, hr =>
    simp only [List.map_cons, List.cons.injEq] at hr
    obtain ⟨rfl, rfl, -⟩ := hr
    rcases rotated_last_two (fun p : RobotState F × RobotCommand F => p.1.time) hsX hlen hc with h | h
    · exact absurd h hlt
    · exact h

theorem fail_live {α : Type} (base : String) (reasons : FrankaErrors) {a : MoveResponse} (h0 : LogOk L w0) (hw : InCall call L c w0 w)
    (hg : Got call w0 w a) : Post (fail_with_log base a.status reasons : Prog F α) w fun r w' => match r with
      | .ok _ => False
      | .err _ => Live L c w0 w' ∧ Asked call w0 w'
      | .panic _ => Fault call L w0 w'
      | .blocked => True := by
  obtain ⟨log, l, hl⟩ := flush_live hw.live.log.arises
  have hk : Post (fail_with_log base a.status reasons : Prog F α) w fun r w' => match r with
      | .ok _ | .err _ => Inside .Robot c w0 w' ∧ LogOk L w'
      | _ => True := by
    refine ((keeps_fail_with_log (I := Sane .Robot) (J := fun _ => True) _ _ _ w hw.live.inside.sane).and
      ((keeps_fail_with_log (I := ReqOk c) (J := ReqWeak c) _ _ _ w hw.live.inside.req).and
      ((keeps_fail_with_log (I := Since w0) (J := fun _ => True) _ _ _ w hw.live.inside.since).and
      (keeps_fail_with_log (I := LogOk L) (J := fun _ => True) _ _ _ w hw.live.log)))).mono ?_
    rintro r w' ⟨h1, h2, h3, h4⟩
    cases r with
    | ok _ => exact ⟨⟨h1, h2, h3⟩, h4⟩
    | err _ => exact ⟨⟨h1, h2, h3⟩, h4⟩
    | panic _ => trivial
    | blocked => trivial
  have hp : Post (fail_with_log base a.status reasons : Prog F α) w fun r w' => w'.trace = w.trace ∧ LastState w' = LastState w ∧ match r with
      | .ok _ => False
      | .panic _ => Fault call L w0 w'
      | _ => True := by
    unfold fail_with_log flush_logger
    simp only [post_bind, post_gets, after_ok, post_liftP, hl]
    refine ⟨?_, fun m h => (by cases h)⟩
    rintro p hp
    cases hp
    simp only [after_ok, post_bind, post_modify, post_pure, post_gets, post_liftP]
    refine ⟨fun e he => ⟨rfl, rfl, trivial⟩, fun m hm => ⟨rfl, rfl, ?_⟩⟩
    obtain ⟨h1, x, y, t, h2, h3⟩ := exception_error hm
    obtain ⟨g1, g2, g3⟩ := logged_last_two h0 hw hl h2 h3
    rcases hg.cases hw.asked with hf | hf
    · left
      cases hf with
      | numbers h h' => exact .numbers h h'
      | answer r m h h' h'' => exact .answer r m h h' h''
    · right
      exact .reflex a _ hf h1 g1 g2 g3 rfl
  refine (hk.and hp).mono ?_
  rintro r w' ⟨h1, h2, h3, h4⟩
  cases r with
  | ok _ => exact h4
  | err e =>
    obtain ⟨s, g1, g2⟩ := hw.live.last
    refine ⟨⟨h1.1, h1.2, ⟨s, by rw [h2]; exact g1, by rw [h3]; exact g2⟩, by rw [h2]; exact hw.live.ids⟩, ?_⟩
    exact hw.asked.mono hw.live.inside.since ⟨[], by rw [h2, List.append_nil]⟩
  | panic m => exact h4
  | blocked => trivial

/-- The check of a state. -/
theorem throw_live (h0 : LogOk L w0) {s : RobotStateIntern F} (hw : InCall call L c w0 w) (hs : lastAccepted w.trace = some s) :
    Post (throw_on_motion_error (RobotState.ofIntern s) w0.net.command_id) w fun r w' => match r with
      | .ok _ => w' = w
      | .err _ => Live L c w0 w' ∧ Asked call w0 w'
      | .panic _ => Fault call L w0 w'
      | .blocked => True := by
  unfold throw_on_motion_error
  rw [post_bind, post_motion_error hw.loop _ (hw.live.known hs)]
  refine ⟨fun _ => rfl, fun hn => ?_⟩
  simp only [after_ok, if_true]
  refine (answer_live w hw.live.inside hw.asked).bind ?_
  intro r w1 hr
  cases r with
  | ok a =>
    obtain ⟨g1, g2, g3, g4⟩ := hr
    have hw1 := hw.quiet g1 g2 g3
    rw [after_ok]
    have hm := handle_move (F := F) a
    cases hh : (handle_command_response_move a : Except (FrankaException F) Unit) with
    | ok _ =>
      rw [hh] at hm
      show Fault call L w0 w1
      rcases g4.cases hw1.asked with hf | hf
      · exact .inl hf
      · refine .inr (.unexpected s a ?_ hn hf hm)
        rw [← hs]
        unfold lastAccepted
        rw [← accepted_visible, g3, accepted_visible]
    | error e =>
      refine (fail_live _ _ h0 hw1 g4).mono ?_
      intro r w2 h
      cases r with
      | ok _ => exact h.elim
      | err e => exact h
      | panic m => exact h
      | blocked => trivial
  | err e => exact hr.elim
  | panic m => exact .inl hr
  | blocked => trivial

/-! ## The loops -/

/-- A callback was called. -/
theorem InCall.event {e : Ev F} (h : InCall call L c w0 w) (he : (∃ s dt m, e = Ev.motionCb k s dt m) ∨ (∃ s dt t, e = Ev.controlCb s dt t)) :
    InCall call L c w0 { w with trace := w.trace ++ [e] } ∧ newEvents w0 { w with trace := w.trace ++ [e] } = newEvents w0 w ++ [e] ∧
      lastAccepted (w.trace ++ [e]) = lastAccepted w.trace := by
  have hv : visible (w.trace ++ [e]) = visible w.trace ++ [e] := by
    rcases he with ⟨_, _, _, rfl⟩ | ⟨_, _, _, rfl⟩ <;> exact visible_snoc _ _ rfl
  have hi : Inside .Robot c w0 { w with trace := w.trace ++ [e] } := by
    rcases he with ⟨_, _, _, rfl⟩ | ⟨_, _, _, rfl⟩ <;> exact h.live.inside.event rfl rfl rfl rfl rfl
  have ha : accepted [e] = [] := by rcases he with ⟨_, _, _, rfl⟩ | ⟨_, _, _, rfl⟩ <;> rfl
  have hla : lastAccepted (w.trace ++ [e]) = lastAccepted w.trace := lastAccepted_other _ _ ha
  have hn := newEvents_visible (w' := { w with trace := w.trace ++ [e] }) h.live.inside hi hv
  obtain ⟨s, h1, h2⟩ := h.live.last
  refine ⟨⟨⟨hi, LogOk.rel (w := w) ⟨rfl, List.prefix_append _ _⟩ h.live.log, ⟨s, by rw [← h1]; exact hla, h2⟩, ?_⟩, ?_, ?_⟩, hn, hla⟩
  · show (accepted (w.trace ++ [e])).Pairwise _
    rw [accepted_append, ha, List.append_nil]
    exact h.live.ids
  · exact h.asked.mono h.live.inside.since ⟨[e], rfl⟩
  · rw [hn]
    refine InLoop.congr (w := w) (w' := { w with trace := w.trace ++ [e] }) h.loop rfl rfl rfl (cycles_other _ e ?_)
    rcases he with ⟨_, _, _, rfl⟩ | ⟨_, _, _, rfl⟩ <;> intro s h <;> cases h

/-- The motion callback. -/
theorem spin_motion_live {id : UInt32} (x : σ) (s : RobotStateIntern F) (dt : Nat) (m : MotionGeneratorCommand F) (hw : InCall call L c w0 w)
    (hs : lastAccepted w.trace = some s) : Post ((loopOf call id).spin_motion x (RobotState.ofIntern s) dt m) w fun r w' => match r with
      | .ok _ => InCall call L c w0 w' ∧ lastAccepted w'.trace = some s
      | .err _ => False
      | .panic _ => Fault call L w0 w'
      | .blocked => True := by
  unfold ControlLoop.spin_motion
  rcases hcb : call.motion x (RobotState.ofIntern s) dt with ⟨x', out⟩
  simp only [loopOf, hcb, post_bind, post_emit, after_ok, post_liftP, post_pure]
  obtain ⟨h1, h2, h3⟩ := hw.event (e := .motionCb k (RobotState.ofIntern s) dt out) (.inl ⟨_, _, _, rfl⟩)
  refine ⟨fun m' hm => ⟨h1, h3.trans hs⟩, fun e he => .inr (.refused _ _ h2 ⟨m, e, he⟩)⟩

/-- The torque callback. -/
theorem spin_control_live {id : UInt32} (f : σ → RobotState F → Nat → σ × Torques F) (x : σ) (s : RobotStateIntern F) (dt : Nat)
    (hw : InCall call L c w0 w) (hs : lastAccepted w.trace = some s) :
    Post ((loopOf call id).spin_control f x (RobotState.ofIntern s) dt) w fun r w' => match r with
      | .ok _ => InCall call L c w0 w' ∧ lastAccepted w'.trace = some s
      | .err _ => False
      | .panic _ => Fault call L w0 w'
      | .blocked => True := by
  unfold ControlLoop.spin_control
  rcases hcb : f x (RobotState.ofIntern s) dt with ⟨x', out⟩
  simp only [loopOf, post_bind, post_emit, after_ok, post_liftP, post_pure]
  obtain ⟨h1, h2, h3⟩ := hw.event (e := .controlCb (RobotState.ofIntern s) dt out) (.inr ⟨_, _, _, rfl⟩)
  refine ⟨fun τ hm => ⟨h1, h3.trans hs⟩, fun e he => .inr (.refused _ _ h2 ⟨e, he⟩)⟩

/-- The results of the parts of a control loop. -/
def LoopPost (call : ControlCall F σ k) (L : Nat) (c : Bool) (w0 : World F) {α : Type} (r : Res F α) (w' : World F) : Prop :=
  match r with
  | .ok _ => InCall call L c w0 w'
  | .err _ => Live L c w0 w' ∧ Asked call w0 w'
  | .panic _ => Fault call L w0 w'
  | .blocked => True

/-- The loop variables. -/
def ReadyLive (call : ControlCall F σ k) (L : Nat) (c : Bool) (w0 : World F) (v : ControlLoop.Locals F σ) (w : World F) : Prop :=
  InCall call L c w0 w ∧ ∃ s, v.robot_state = RobotState.ofIntern s ∧ lastAccepted w.trace = some s ∧ v.previous_time ≤ v.robot_state.time

theorem post_durSub_le {α : Type} (a b : Nat) (h : b ≤ a) (next : Nat → Prog F α) (Q : Res F α → World F → Prop) (h1 : Post (next (a - b)) w Q) :
    Post (liftP (durSub a b) >>= next) w Q := by
  rw [post_bind, post_liftP]
  unfold durSub
  rw [if_pos h]
  refine ⟨fun x hx => ?_, fun m h => (by cases h)⟩
  cases hx
  exact h1

/-- Sending, receiving, checking. -/
theorem cycle_live (h0 : LogOk L w0) (m : MotionGeneratorCommand F) (o : Option (ControllerCommand F))
    (ho' : o.isSome = true ↔ controllerOf call.controller = .ExternalController) {s : RobotStateIntern F} (hw : InCall call L c w0 w)
    (hs : lastAccepted w.trace = some s) {α : Type} (next : RobotState F → Prog F α) (Q : Res F α → World F → Prop)
    (hok : ∀ s' w', InCall call L c w0 w' → lastAccepted w'.trace = some s' → s.message_id < s'.message_id → Post (next (RobotState.ofIntern s')) w' Q)
    (herr : ∀ e w', Live L c w0 w' → Asked call w0 w' → Q (.err e) w') (hpanic : ∀ m w', Fault call L w0 w' → Q (.panic m) w')
    (hblock : ∀ w', Q .blocked w') :
    Post (update (some m) o >>= fun st => throw_on_motion_error st w0.net.command_id >>= fun _ => next st) w Q := by
  refine (update_some_live m o ho' w hw).bind ?_
  intro r w1 hr
  cases r with
  | ok st =>
    obtain ⟨s', rfl, h1, h2, h3⟩ := hr
    rw [(hw.live.known hs).2.2] at h3
    rw [after_ok]
    refine (throw_live h0 h1 h2).bind ?_
    intro r w2 hr2
    cases r with
    | ok _ => cases hr2; exact hok s' _ h1 h2 h3
    | err e => exact herr _ _ hr2.1 hr2.2
    | panic m => exact hpanic _ _ hr2
    | blocked => exact hblock _
  | err e => exact herr _ _ hr.1 hr.2
  | panic m => exact hpanic _ _ hr
  | blocked => exact hblock _

theorem torque_loop_live (h0 : LogOk L w0) {f : σ → RobotState F → Nat → σ × Torques F} (hf : call.torque = some f) (hfit : Fits call)
    (v : ControlLoop.Locals F σ) (h : ReadyLive call L c w0 v w) :
    Post ((loopOf call w0.net.command_id).torque_loop f v) w (LoopPost call L c w0) := by
  unfold ControlLoop.torque_loop
  refine loop_post (fun v w' => ReadyLive call L c w0 v w') h ?_ (fun _ _ _ => trivial)
  rintro ⟨x, st, prev, m, t⟩ w1 ⟨hw, s, rfl, hs, hp⟩
  refine post_durSub_le _ _ hp _ _ ?_
  refine (spin_motion_live x s _ m hw hs).bind ?_
  intro r w2 hr
  match r, hr with
  | .ok (x', m', go), ⟨h1, h2⟩ =>
    rw [after_ok]
    cases go with
    | false => exact h1
    | true =>
      simp only [if_true]
      refine post_durSub_le _ _ hp _ _ ?_
      refine (spin_control_live f x' s _ h1 h2).bind ?_
      intro r w3 hr
      match r, hr with
      | .ok (x'', t', go), ⟨h3, h4⟩ =>
        rw [after_ok]
        cases go with
        | false => exact h3
        | true =>
          simp only [if_true]
          refine cycle_live h0 m' (some t') (by rw [← hfit.controllerOf, hf]; simp) h3 h4 _ _ ?_ ?_ ?_ ?_
          · intro s' w' g1 g2 g3
            exact ⟨g1, s', rfl, g2, Nat.le_of_lt g3⟩
          · intro e w' g1 g2; exact ⟨g1, g2⟩
          · intro _ w' g; exact g
          · intro w'; trivial
      | .err e, hr => exact hr.elim
      | .panic m, hr => exact hr
      | .blocked, hr => trivial
  | .err e, hr => exact hr.elim
  | .panic m, hr => exact hr
  | .blocked, hr => trivial

theorem motion_loop_live (h0 : LogOk L w0) (hf : call.torque = none) (hfit : Fits call) (v : ControlLoop.Locals F σ) (h : ReadyLive call L c w0 v w) :
    Post ((loopOf call w0.net.command_id).motion_loop v) w (LoopPost call L c w0) := by
  unfold ControlLoop.motion_loop
  refine loop_post (fun v w' => ReadyLive call L c w0 v w') h ?_ (fun _ _ _ => trivial)
  rintro ⟨x, st, prev, m, t⟩ w1 ⟨hw, s, rfl, hs, hp⟩
  refine post_durSub_le _ _ hp _ _ ?_
  refine (spin_motion_live x s _ m hw hs).bind ?_
  intro r w2 hr
  match r, hr with
  | .ok (x', m', go), ⟨h1, h2⟩ =>
    rw [after_ok]
    cases go with
    | false => exact h1
    | true =>
      simp only [if_true]
      refine cycle_live h0 m' none (by rw [← hfit.controllerOf, hf]; simp) h1 h2 _ _ ?_ ?_ ?_ ?_
      · intro s' w' g1 g2 g3
        exact ⟨g1, s', rfl, g2, Nat.le_of_lt g3⟩
      · intro e w' g1 g2; exact ⟨g1, g2⟩
      · intro _ w' g; exact g
      · intro w'; trivial
  | .err e, hr => exact hr.elim
  | .panic m, hr => exact hr
  | .blocked, hr => trivial

/-! ## The end of a motion -/

theorem finish_loop_live (m : MotionGeneratorCommand F) (o : Option (ControllerCommand F))
    (ho' : o.isSome = true ↔ controllerOf call.controller = .ExternalController) (hw : InCall call L c w0 w) {s : RobotStateIntern F}
    (hs : lastAccepted w.trace = some s) (hrun : Running s) : Post (finish_loop m o) w fun r w' => match r with
      | .ok st => st.isSome = true ∧ InCall call L c w0 w'
      | .err _ => Live L c w0 w' ∧ Asked call w0 w'
      | .panic _ => Fault call L w0 w'
      | .blocked => True := by
  unfold finish_loop
  refine loop_post (fun st w' => InCall call L c w0 w' ∧ ∃ s, lastAccepted w'.trace = some s ∧ (st = none → Running s)) ⟨hw, s, hs, fun _ => hrun⟩ ?_
    (fun _ _ _ => trivial)
  rintro st w1 ⟨h1, s1, h2, h3⟩
  rw [post_bind, running_iff s1 (h1.live.known h2)]
  constructor
  · intro _
    simp only [after_ok, if_true]
    refine (update_some_live m o ho' w1 h1).bind ?_
    intro r w2 hr
    cases r with
    | ok st' =>
      obtain ⟨s', rfl, g1, g2, -⟩ := hr
      exact ⟨g1, s', g2, fun h => by cases h⟩
    | err e => exact hr
    | panic m => exact hr
    | blocked => trivial
  · intro hn
    simp only [after_ok, Bool.false_eq_true, if_false]
    cases st with
    | none => exact absurd (h3 rfl) hn
    | some st => exact ⟨rfl, h1⟩

theorem finish_live (h0 : LogOk L w0) (m : MotionGeneratorCommand F) (o : Option (ControllerCommand F))
    (ho' : o.isSome = true ↔ controllerOf call.controller = .ExternalController) (hw : InCall call L c w0 w) :
    Post (finish_motion w0.net.command_id (some m) o) w fun r w' => match r with
      | .ok _ => True
      | .err _ => Live L c w0 w' ∧ Asked call w0 w'
      | .panic _ => Fault call L w0 w'
      | .blocked => True := by
  unfold finish_motion
  obtain ⟨s, hs, hl⟩ := hw.live.last
  rw [post_bind, running_iff s hl]
  refine ⟨fun hrun => ?_, fun _ => trivial⟩
  simp only [after_ok, if_true]
  refine (finish_loop_live _ o ho' hw hs hrun).bind ?_
  intro r w1 hr
  cases r with
  | ok st =>
    obtain ⟨h1, h2⟩ := hr
    obtain ⟨st, rfl⟩ := Option.isSome_iff_exists.1 h1
    simp only [after_ok, unwrapOpt, post_bind, post_pure]
    refine (answer_live w1 h2.live.inside h2.asked).mono ?_
    intro r w2 hr
    cases r with
    | ok a =>
      obtain ⟨g1, g2, g3, g4⟩ := hr
      have hw2 := h2.quiet g1 g2 g3
      have hfail : ∀ base, Post (fail_with_log base a.status st.last_motion_errors : Prog F Unit) w2 fun r w' => match r with
          | .ok _ => True
          | .err _ => Live L c w0 w' ∧ Asked call w0 w'
          | .panic _ => Fault call L w0 w'
          | .blocked => True := by
        intro base
        refine (fail_live base _ h0 hw2 g4).mono ?_
        intro r w3 h
        cases r with
        | ok _ => trivial
        | err e => exact h
        | panic m => exact h
        | blocked => trivial
      rw [after_ok]
      split
      · exact hfail _
      · have hmv := handle_move (F := F) a
        cases hh : (handle_command_response_move a : Except (FrankaException F) Unit) with
        | ok _ => trivial
        | error e =>
          rw [hh] at hmv
          obtain ⟨msg, -, rfl⟩ := hmv
          exact hfail _
    | err e => exact hr.elim
    | panic m => exact .inl hr
    | blocked => trivial
  | err e => exact hr
  | panic m => exact hr
  | blocked => trivial

theorem do_loop_live (h0 : LogOk L w0) (hfit : Fits call) (x : σ) (hw : InCall call L c w0 w) (hn : ∀ a y, .udpSend a y ∉ newEvents w0 w) :
    Post ((loopOf call w0.net.command_id).do_loop x) w fun r w' => match r with
      | .ok _ => True
      | .err _ => Live L c w0 w' ∧ Asked call w0 w'
      | .panic _ => Fault call L w0 w'
      | .blocked => True := by
  unfold ControlLoop.do_loop
  refine (update_none_live w hw.live).bind ?_
  intro r w1 hr
  cases r with
  | ok st =>
    obtain ⟨s, rfl, h1, h2, h3, h4, -⟩ := hr
    have hne := newEvents_visible hw.live.inside h1.inside h3
    have hw1 : InCall call L c w0 w1 := by
      refine ⟨h1, ?_, ?_⟩
      · obtain ⟨hd, g1, g2⟩ := hw.asked
        exact ⟨hd, by rw [hne]; exact List.mem_append_left _ g1, g2⟩
      · refine hw.loop.congr (by rw [h4]; rfl) (by rw [h4]; rfl) (by rw [h4]; rfl) ?_
        rw [hne, cycles_nil _ hn]
        refine cycles_nil _ fun a y hm => ?_
        rcases List.mem_append.1 hm with hm | hm
        · exact hn a y hm
        · simp at hm
    rw [after_ok]
    refine (throw_live h0 hw1 h2).bind ?_
    intro r w2 hr2
    cases r with
    | ok _ =>
      cases hr2
      rw [after_ok]
      cases hf : call.torque with
      | none =>
        simp only [loopOf, hf]
        have := motion_loop_live h0 hf hfit ⟨x, RobotState.ofIntern s, (RobotState.ofIntern s).time, noMotion, noTorques⟩ ⟨hw1, s, rfl, h2, Nat.le_refl _⟩
        rw [loopOf, hf] at this
        refine this.bind ?_
        intro r w3 hr3
        cases r with
        | ok m => exact finish_live h0 m none (by rw [← hfit.controllerOf, hf]; simp) hr3
        | err e => exact hr3
        | panic m => exact hr3
        | blocked => trivial
      | some f =>
        simp only [loopOf, hf]
        have := torque_loop_live h0 hf hfit ⟨x, RobotState.ofIntern s, (RobotState.ofIntern s).time, noMotion, noTorques⟩ ⟨hw1, s, rfl, h2, Nat.le_refl _⟩
        rw [loopOf, hf] at this
        refine this.bind ?_
        intro r w3 hr3
        match r, hr3 with
        | .ok (m, t), hr3 => exact finish_live h0 m (some t) (by rw [← hfit.controllerOf, hf]; simp) hr3
        | .err e, hr3 => exact hr3
        | .panic m, hr3 => exact hr3
        | .blocked, hr3 => trivial
    | err e => exact hr2
    | panic m => exact hr2
    | blocked => trivial
  | err e =>
    have := hw.quiet hr.1.inside hr.2.1 hr.2.2
    exact ⟨this.live, this.asked⟩
  | panic m => exact hr.elim
  | blocked => trivial

/-! ## Stopping -/

theorem Live.more (h : Live L c w0 w) (hi : Inside .Robot c w0 w') (hr : w'.rob = w.rob) {es : List (Ev F)} (hes : accepted es = [])
    (hg : Grows w w') (hv : visible w'.trace = visible w.trace ++ es) : Live L c w0 w' := by
  have ha : accepted w'.trace = accepted w.trace := by rw [accepted_of_visible hv, hes, List.append_nil]
  obtain ⟨s, h1, h2⟩ := h.last
  exact ⟨hi, LogOk.rel ⟨by rw [hr], by obtain ⟨es, hg⟩ := hg; exact ⟨es, hg.symm⟩⟩ h.log,
    ⟨s, by unfold lastAccepted at *; rw [ha]; exact h1, LastState.congr hr h2⟩, by rw [ha]; exact h.ids⟩

theorem Asked.more (h : Asked call w0 w) (hi : Inside .Robot c w0 w) (hi' : Inside .Robot c w0 w') {es : List (Ev F)}
    (hv : visible w'.trace = visible w.trace ++ es) : Asked call w0 w' := by
  obtain ⟨hd, g1, g2⟩ := h
  exact ⟨hd, by rw [newEvents_visible hi hi' hv]; exact List.mem_append_left _ g1, g2⟩

/-- Looking for the answer to the Move request. -/
theorem tcp_receive_live (f : MoveResponse → Except (FrankaException F) Unit) (w : World F) (hw : Live L c w0 w) (ha : Asked call w0 w) :
    Post (tcp_receive_response w0.net.command_id f : Prog F Bool) w fun r w' => match r with
      | .ok _ => Live L c w0 w' ∧ Asked call w0 w' ∧ w'.rob = w.rob
      | .err e => Live L c w0 w' ∧ Asked call w0 w' ∧ w'.rob = w.rob ∧ ∃ a, f a = .error e
      | .panic _ => RequestFault w0 w'
      | .blocked => True := by
  have hk : Keeps (Inside .Robot c w0) (fun _ => True) (tcp_receive_response w0.net.command_id f : Prog F Bool) := by
    intro w hw
    have h0 : Keeps (Sane .Robot) (fun _ => True) (tcp_receive_response w0.net.command_id f : Prog F Bool) := keeps_tcp_receive_response _ _
    have h1 : Keeps (ReqOk c) (ReqWeak c) (tcp_receive_response w0.net.command_id f : Prog F Bool) := keeps_tcp_receive_response _ _
    have h2 : Keeps (Since w0) (fun _ => True) (tcp_receive_response w0.net.command_id f : Prog F Bool) := keeps_tcp_receive_response _ _
    refine ((h0 w hw.sane).and ((h1 w hw.req).and (h2 w hw.since))).mono ?_
    rintro r w' ⟨g1, g2, g3⟩
    cases r <;> first | exact ⟨g1, g2, g3⟩ | trivial
  have hp : Post (tcp_receive_response w0.net.command_id f : Prog F Bool) w fun r w' => match r with
      | .panic _ => RequestFault w0 w'
      | _ => True := by
    unfold tcp_receive_response
    have hr : Keeps (Since w0) (fun _ => True) (tcp_read_from_buffer : Prog F Unit) := (keepSince w0).tcp
    refine ((calm_tcp_read_from_buffer w hw.inside.sane).and ((pres_tcp_read_from_buffer (T := Grows)).post w)).bind ?_
    rintro r w1 ⟨hc, hg⟩
    cases r with
    | ok _ =>
      have hc : Sane .Robot w1 := hc
      simp only [after_ok, post_bind, post_gets]
      cases ht : w1.net.received_responses w0.net.command_id with
      | none => trivial
      | some m =>
        have hbad : (∀ a, m ≠ MoveResponse.codec.enc a) → RequestFault w0 w1 := by
          intro hm
          obtain ⟨hd, h1, h2⟩ := ha
          refine .answer ⟨hd, _⟩ m ((hw.inside.since.newEvents_prefix hg).subset h1) ?_ ?_
          · show (hd.command_id, m) ∈ _; rw [h2]; exact hc.tcp.table _ _ ht
          · rintro ⟨a, rfl⟩; exact hm a rfl
        simp only [post_ite, post_bind]
        refine ⟨fun hl => hbad fun a h => ?_, fun _ => ?_⟩
        · rw [h, MoveResponse.codec_lawful.len] at hl
          exact hl rfl
        unfold deserialize
        cases hd : MoveResponse.codec.dec m with
        | none => exact hbad fun a h => lawful_none MoveResponse.codec_lawful hd ⟨a, h⟩
        | some p =>
          simp only [post_pure, after_ok]
          cases hf : f p.1 with
          | ok _ =>
            refine Post.bind (calm_remove_response (nt := .Robot) w0.net.command_id w1 hc) ?_
            intro r w2 hr
            cases r <;> trivial
          | error e' => trivial
    | err e => trivial
    | panic m => exact hc.elim
    | blocked => trivial
  refine ((tcp_receive_view _ f w hw.inside.sane.tcp).and ((hk w hw.inside).and hp)).mono ?_
  rintro r w' ⟨⟨h1, h2⟩, h3, h4⟩
  cases r with
  | ok b => exact ⟨hw.quiet h3 h1.rob h1.trace, ha.more hw.inside h3 (es := []) (by rw [h1.trace, List.append_nil]), h1.rob⟩
  | err e =>
    obtain ⟨-, a, -, -, h5, -⟩ := h2
    exact ⟨hw.quiet h3 h1.rob h1.trace, ha.more hw.inside h3 (es := []) (by rw [h1.trace, List.append_nil]), h1.rob, a, h5⟩
  | panic m => exact h4
  | blocked => trivial

/-- Stopping. -/
theorem stop_live (w : World F) (hw : Live L c w0 w) (ha : Asked call w0 w) :
    Post (execute_stop_command : Prog F UInt32) w fun r w' => match r with
      | .ok _ => Live L c w0 w' ∧ Asked call w0 w'
      | .err _ | .panic _ => Fault call L w0 w'
      | .blocked => True := by
  have hp : Post (execute_stop_command : Prog F UInt32) w fun r w' => match r with
      | .ok _ => Inside .Robot c w0 w'
      | .err _ | .panic _ => Fault call L w0 w'
      | .blocked => True := by
    have heq : execute_stop_command = (sendRequest .StopMove >>= fun id =>
        tcp_blocking_receive_response StopMoveResponse.codec id >>= fun r => ofExcept (handle_command_response_stop r) >>= fun _ => pure id : Prog F UInt32) := by
      unfold execute_stop_command sendRequest
      simp only [Prog.bind_assoc']; rfl
    rw [heq]
    refine (sendRequest_calm _ w hw.inside).bind ?_
    intro r w1 h1
    cases r with
    | ok id =>
      obtain ⟨g1, hd, rfl, g3⟩ := h1
      rw [after_ok]
      unfold tcp_blocking_receive_response
      rw [Prog.bind_assoc']
      refine (wait_calm hd.command_id w1 g1).bind ?_
      intro r w2 h2
      cases r with
      | ok m =>
        obtain ⟨f1, f2, -, f3⟩ := h2
        have hbad : (¬ ∃ a, m = StopMoveResponse.codec.enc a) → RequestFault w0 w2 := fun h => .answer ⟨hd, .StopMove⟩ m (f3.subset g3) f2 h
        rw [after_ok]
        unfold deserialize
        cases hdec : StopMoveResponse.codec.dec m with
        | none => exact .inl (hbad (lawful_none StopMoveResponse.codec_lawful hdec))
        | some p =>
          simp only [post_bind, post_pure, after_ok]
          cases hh : (handle_command_response_stop p.1 : Except (FrankaException F) Unit) with
          | ok _ => exact f1
          | error e =>
            by_cases hm : ∃ a, m = StopMoveResponse.codec.enc a
            · obtain ⟨a, rfl⟩ := hm
              have := StopMoveResponse.codec_lawful.rt a []
              rw [List.append_nil, hdec] at this
              cases this
              refine .inr (.stop a ⟨hd, _, rfl, f3.subset g3, f2⟩ fun hs => ?_)
              unfold handle_command_response_stop at hh
              rw [hs] at hh
              cases hh
            · exact .inl (hbad hm)
      | err e => exact h2.elim
      | panic m => exact h2.elim
      | blocked => trivial
    | err e => exact h1.elim
    | panic m => exact .inl h1.1.fault
    | blocked => trivial
  refine (hp.and ((stop_command_view hw.inside.sane.tcp).and ((pres_execute_stop_command (T := Grows) trivial).post w))).mono ?_
  rintro r w' ⟨h1, ⟨hd, -, -, h2⟩, h3⟩
  cases r with
  | ok id =>
    obtain ⟨-, g1, g2⟩ := h2
    exact ⟨hw.more h1 g1 rfl h3 g2, ha.more hw.inside h1 g2⟩
  | err e => exact h1
  | panic m => exact h1
  | blocked => trivial

theorem receive_asked (w : World F) (hw : Live L c w0 w) (ha : Asked call w0 w) :
    Post (receive_robot_state : Prog F (RobotStateIntern F)) w fun r w' => match r with
      | .ok _ | .err _ => Live L c w0 w' ∧ Asked call w0 w'
      | .panic _ => False
      | .blocked => True := by
  refine (receive_live w hw).mono ?_
  intro r w' h
  cases r with
  | ok s => exact ⟨h.1, ha.more hw.inside h.1.inside h.2.2.1⟩
  | err e => exact ⟨h.1, ha.more hw.inside h.1.inside (es := []) (by rw [h.2.2, List.append_nil])⟩
  | panic m => exact h
  | blocked => trivial

theorem cancel_loop_live (w : World F) (hw : Live L c w0 w) (ha : Asked call w0 w) :
    Post (cancel_loop : Prog F Unit) w fun r w' => match r with
      | .ok _ => Live L c w0 w' ∧ Asked call w0 w'
      | .err _ | .panic _ => False
      | .blocked => True := by
  unfold cancel_loop
  refine loop_post (fun _ w' => Live L c w0 w' ∧ Asked call w0 w') ⟨hw, ha⟩ ?_ (fun _ _ _ => trivial)
  rintro - w1 ⟨h1, h2⟩
  obtain ⟨s, hs, hl⟩ := h1.last
  rw [post_bind, running_iff s hl]
  refine ⟨fun _ => ?_, fun _ => ⟨h1, h2⟩⟩
  simp only [after_ok, if_true, post_bind, post_attempt]
  refine (receive_asked w1 h1 h2).mono ?_
  intro r w2 h
  cases r with
  | ok s => exact h
  | err e => exact h
  | panic m => exact h.elim
  | blocked => trivial

theorem cancel_live (w : World F) (hw : Live L c w0 w) (ha : Asked call w0 w) :
    Post (cancel_motion w0.net.command_id : Prog F Unit) w fun r w' => match r with
      | .panic _ => Fault call L w0 w'
      | _ => True := by
  unfold cancel_motion
  rw [post_bind, post_attempt]
  refine (stop_live w hw ha).mono ?_
  intro r w1 h1
  cases r with
  | ok id =>
    simp only [tried_ok, after_ok, post_bind, post_attempt]
    refine (receive_asked w1 h1.1 h1.2).mono ?_
    intro r w2 h2
    have key : ∀ w2, Live L c w0 w2 ∧ Asked call w0 w2 → Post (do
        cancel_loop
        match ← attempt (tcp_receive_response w0.net.command_id fun _ => .ok ()) with
        | .error _ => Prog.panic "This should be impossible as the handler always returns Ok(())"
        | .ok _ => forget_motion : Prog F Unit) w2 fun r w' => match r with
          | .panic _ => Fault call L w0 w'
          | _ => True := by
      rintro w2 ⟨h1, h2⟩
      refine (cancel_loop_live w2 h1 h2).bind ?_
      intro r w3 h3
      cases r with
      | ok _ =>
        rw [after_ok, post_bind, post_attempt]
        refine (tcp_receive_live _ w3 h3.1 h3.2).mono ?_
        intro r w4 h4
        cases r with
        | ok b => trivial
        | err e => obtain ⟨-, -, -, a, h⟩ := h4; cases h
        | panic m => exact .inl h4
        | blocked => trivial
      | err e => trivial
      | panic m => exact h3.elim
      | blocked => trivial
    cases r with
    | ok s => exact key w2 h2
    | err e => exact key w2 h2
    | panic m => exact h2.elim
    | blocked => trivial
  | err e => exact h1
  | panic m => exact h1
  | blocked => trivial

theorem run_live (h0 : LogOk L w0) (hfit : Fits call) (x : σ) (hw : InCall call L c w0 w) (hn : ∀ a y, .udpSend a y ∉ newEvents w0 w) :
    Post ((loopOf call w0.net.command_id).run x) w fun r w' => match r with
      | .panic _ => Fault call L w0 w'
      | _ => True := by
  unfold ControlLoop.run
  rw [post_bind, post_attempt]
  refine (do_loop_live h0 hfit x hw hn).mono ?_
  intro r w1 h1
  cases r with
  | ok _ => trivial
  | err e =>
    simp only [tried_err, after_ok]
    refine (cancel_live w1 h1.1 h1.2).bind ?_
    intro r w2 h2
    cases r with
    | ok _ => trivial
    | err e => trivial
    | panic m => exact h2
    | blocked => trivial
  | panic m => exact h1
  | blocked => trivial

/-! ## Starting -/

theorem move_live (d : MoveDeviation F) (hd : d = defaultDeviation) (hw : Live L c w0 w) (hid : w.net.command_id = w0.net.command_id) :
    Post (execute_move_command call.controller k.get_motion_generator_mode d d) w fun r w' => match r with
      | .ok id => id = w0.net.command_id ∧ Live L c w0 w' ∧ Asked call w0 w' ∧ w'.rob = w.rob
      | .err _ => True
      | .panic _ => RequestFault w0 w'
      | .blocked => True := by
  subst hd
  have hp : Post (execute_move_command call.controller k.get_motion_generator_mode defaultDeviation defaultDeviation) w fun r w' => match r with
      | .ok _ => Inside .Robot c w0 w'
      | .err _ => True
      | .panic _ => RequestFault w0 w'
      | .blocked => True := by
    have heq : execute_move_command call.controller k.get_motion_generator_mode defaultDeviation defaultDeviation =
        (sendRequest (moveBody k call.controller) >>= fun id =>
        tcp_blocking_receive_response MoveResponse.codec id >>= fun r => ofExcept (handle_command_response_move r) >>= fun _ => pure id : Prog F UInt32) := by
      unfold execute_move_command sendRequest moveBody
      rw [requested_generator]
      simp only [Prog.bind_assoc']; rfl
    rw [heq]
    refine (sendRequest_calm _ w hw.inside).bind ?_
    intro r w1 h1
    cases r with
    | ok id =>
      obtain ⟨g1, hd, rfl, g3⟩ := h1
      rw [after_ok]
      unfold tcp_blocking_receive_response
      rw [Prog.bind_assoc']
      refine (wait_calm hd.command_id w1 g1).bind ?_
      intro r w2 h2
      cases r with
      | ok m =>
        obtain ⟨f1, f2, -, f3⟩ := h2
        rw [after_ok]
        unfold deserialize
        cases hdec : MoveResponse.codec.dec m with
        | none => exact .answer ⟨hd, moveBody k call.controller⟩ m (f3.subset g3) f2 (lawful_none MoveResponse.codec_lawful hdec)
        | some p =>
          simp only [post_bind, post_pure, after_ok]
          cases hh : (handle_command_response_move p.1 : Except (FrankaException F) Unit) with
          | ok _ => exact f1
          | error e => trivial
      | err e => exact h2.elim
      | panic m => exact h2.elim
      | blocked => trivial
    | err e => exact h1.elim
    | panic m => exact h1.1.fault
    | blocked => trivial
  refine (hp.and ((move_command_view hw.inside.sane.tcp _ _ _).and ((pres_execute_move_command (T := Grows) _ _ _ _ trivial).post w))).mono ?_
  rintro r w' ⟨h1, ⟨hd, -, hdid, -, h2⟩, h3⟩
  rw [requested_generator] at h2
  cases r with
  | ok id =>
    obtain ⟨rfl, -, g1, g2, -⟩ := h2
    refine ⟨hid, hw.more h1 g1 rfl h3 g2, ⟨hd, ?_, hdid.trans hid⟩, g1⟩
    rw [newEvents_visible hw.inside h1 g2]
    exact List.mem_append_right _ (List.mem_singleton.2 rfl)
  | err e => trivial
  | panic m => exact h1
  | blocked => trivial

theorem wait_start_live (hw : Live L c w0 w) (ha : Asked call w0 w) (hg : w.rob.current_move_motion_generator_mode = generatorOf k)
    (hc : w.rob.current_move_controller_mode = some (controllerOf call.controller)) :
    Post (wait_for_motion_start w0.net.command_id : Prog F Unit) w fun r w' => match r with
      | .ok _ => Live L c w0 w' ∧ Asked call w0 w'
      | .err _ => True
      | .panic _ => RequestFault w0 w'
      | .blocked => True := by
  unfold wait_for_motion_start
  refine loop_post (fun _ w' => Live L c w0 w' ∧ Asked call w0 w' ∧ w'.rob.current_move_motion_generator_mode = generatorOf k ∧
    w'.rob.current_move_controller_mode = some (controllerOf call.controller)) ⟨hw, ha, hg, hc⟩ ?_ (fun _ _ _ => trivial)
  rintro - w1 ⟨h1, h2, h3, h4⟩
  obtain ⟨s, hs, hl⟩ := h1.last
  rw [post_bind, post_modes_differ s hl h3 h4]
  refine ⟨fun _ => ⟨h1, h2⟩, fun hd => ?_⟩
  simp only [after_ok, if_true, post_bind, post_attempt]
  refine (tcp_receive_live _ w1 h1 h2).mono ?_
  intro r w2 hr
  cases r with
  | ok b =>
    obtain ⟨g1, g2, g3⟩ := hr
    cases b with
    | true => exact ⟨g1, g2⟩
    | false =>
      simp only [tried_ok, after_ok, post_bind]
      refine (update_none_live w2 g1).mono ?_
      intro r w3 hr3
      cases r with
      | ok st =>
        obtain ⟨s3, -, f1, f2, f3, f4, -⟩ := hr3
        have e1 : w3.rob.current_move_motion_generator_mode = w1.rob.current_move_motion_generator_mode := by rw [f4, ← g3]; rfl
        have e2 : w3.rob.current_move_controller_mode = w1.rob.current_move_controller_mode := by rw [f4, ← g3]; rfl
        exact ⟨f1, g2.more g1.inside f1.inside f3, e1.trans h3, e2.trans h4⟩
      | err e => trivial
      | panic m => exact hr3.elim
      | blocked => trivial
  | err e =>
    obtain ⟨-, -, -, a, hf⟩ := hr
    have hmv := handle_move (F := F) a
    rw [hf] at hmv
    obtain ⟨msg, -, rfl⟩ := hmv
    trivial
  | panic m => exact hr
  | blocked => trivial

theorem Inside.rob (rob) (hw : Inside .Robot c w0 w) : Inside .Robot c w0 { w with rob := rob } := by
  refine ⟨⟨?_, hw.sane.line.congr rfl rfl rfl rfl⟩, ?_, ?_⟩
  · exact TcpSame.keep w _ ⟨rfl, rfl, rfl, rfl, rfl, rfl, rfl, rfl⟩ hw.sane.tcp
  · exact ReqSame.keep w _ (ReqSame.same w _ rfl rfl rfl) hw.req
  · obtain ⟨es, h⟩ := hw.since
    exact ⟨es, h⟩

theorem start_live (d : MoveDeviation F) (hd : d = defaultDeviation) (hw : Live L c w w) :
    Post (start_motion call.controller k.get_motion_generator_mode d d) w fun r w' => match r with
      | .ok _ => Live L c w w' ∧ Asked call w w'
      | .err _ => True
      | .panic _ => Fault call L w w'
      | .blocked => True := by
  unfold start_motion
  obtain ⟨s, hs, hl⟩ := hw.last
  rw [post_bind, running_iff s hl]
  refine ⟨fun hrun => .inr (.busy s hs hrun ?_), fun _ => ?_⟩
  · show visible (w.trace.drop w.trace.length) = []
    rw [List.drop_length]; rfl
  simp only [after_ok, Bool.false_eq_true, if_false, post_bind, post_modify]
  have h1 : Live L c w { w with rob := { w.rob with current_move_motion_generator_mode := k.get_motion_generator_mode.reported, current_move_controller_mode := some call.controller.reported } } :=
    ⟨hw.inside.rob _, LogOk.rel (w := w) ⟨rfl, List.prefix_rfl⟩ hw.log, ⟨s, hs, hl⟩, hw.ids⟩
  refine (move_live (call := call) (w0 := w) d hd h1 rfl).mono ?_
  intro r w1 hr
  cases r with
  | ok id =>
    obtain ⟨rfl, g1, g2, g3⟩ := hr
    rw [after_ok]
    refine (wait_start_live g1 g2 (by rw [g3]; exact reported_generator k) (by rw [g3]; exact congrArg some (reported_controller _))).bind ?_
    intro r w2 hr2
    cases r with
    | ok _ =>
      obtain ⟨f1, f2⟩ := hr2
      rw [after_ok, post_bind]
      have hp : Post (flush_logger : Prog F (List (Record F))) w2 fun r w' => match r with
          | .ok _ => Live L c w w' ∧ Asked call w w'
          | .err _ | .panic _ => False
          | .blocked => True := by
        obtain ⟨log, l, hlog⟩ := flush_live f1.log.arises
        have hk := (keepLog (F := F) L).flush w2 f1.log
        revert hk
        unfold flush_logger
        simp only [post_bind, post_gets, after_ok, post_liftP, post_modify, post_pure]
        intro hk
        refine ⟨fun p hp => ?_, fun m hm => ?_⟩
        · have hk := hk.1 p hp
          obtain ⟨s2, e1, e2⟩ := f1.last
          exact ⟨⟨f1.inside.rob _, hk, ⟨s2, e1, e2⟩, f1.ids⟩, f2⟩
        · rw [hlog] at hm; cases hm
      refine hp.mono ?_
      intro r w3 hr3
      cases r with
      | ok _ => exact hr3
      | err e => exact hr3.elim
      | panic m => exact hr3.elim
      | blocked => trivial
    | err e => trivial
    | panic m => exact .inl hr2
    | blocked => trivial
  | err e => trivial
  | panic m => exact .inl hr
  | blocked => trivial

/-- A control call panics only for the reasons of `Fault`. -/
theorem control_live (call : ControlCall F σ k) (hfit : Fits call) (x : σ) (hw : Live L c w w) :
    Post (ControlLoop.new_intern call.motion call.torque call.limit_rate call.cutoff >>= fun l =>
      start_motion call.controller k.get_motion_generator_mode l.default_deviation l.default_deviation >>= fun id =>
      ({ l with motion_id := id }).run x) w fun r w' => match r with
        | .panic _ => Fault call L w w'
        | _ => True := by
  refine (new_intern_view call w).bind ?_
  rintro r w1 ⟨rfl, hr⟩
  cases r with
  | ok l =>
    obtain ⟨rfl, -⟩ := hr
    obtain ⟨s, hs, hl⟩ := hw.last
    rw [after_ok]
    refine ((start_live (loopOf call 0).default_deviation rfl hw).and (start_view (c0 := x) hw.inside.sane.tcp s hl _ rfl)).bind ?_
    rintro r w2 ⟨h1, h2⟩
    cases r with
    | ok id =>
      obtain ⟨rfl, s', tr, g1, g2, g3, -⟩ := h2
      have hn : newEvents w1 w2 = tr := newEvents_eq h1.1.inside.since g1.trace
      rw [after_ok]
      exact run_live hw.log hfit x ⟨h1.1, h1.2, by rw [hn]; exact g2⟩ (by rw [hn]; exact g3)
    | err e => trivial
    | panic m => exact h1
    | blocked => trivial
  | err e => trivial
  | panic m => exact hr.elim
  | blocked => trivial

end
end Verif
