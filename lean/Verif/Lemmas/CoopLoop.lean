import Verif.Lemmas.Coop
import Verif.Lemmas.Progress
/-!
# The control loop with a robot that cooperates
-/
set_option linter.unusedSectionVars false
namespace Verif
open Prog Spec
variable {F : Type} [Fl F] [Wire F] [Geo F]

theorem shorter_then {α β : Type} {p : Prog F α} (hp : Pres Shorter p) {f : α → Prog F β} {w : World F} {Q : Res F β → World F → Prop}
    (h0 : ∀ r w', (∀ b, r ≠ .ok b) → Q r w') (h : ∀ a w', w'.script.length ≤ w.script.length → Post (f a) w' Q) : Post (p >>= f) w Q := by
  refine (hp.post w).bind ?_
  intro r w' hr
  cases r with
  | ok a => exact h a w' hr
  | err e => exact h0 _ _ (by simp)
  | panic m => exact h0 _ _ (by simp)
  | blocked => exact h0 _ _ (by simp)

section consumes
variable {σ : Type} {k : MotionKind}

theorem consumes_motion_loop (l : ControlLoop F σ k) : Consumes (fun v : ControlLoop.Locals F σ => (do
    let dt ← liftP (durSub v.robot_state.time v.previous_time)
    let (c, motion_command, go) ← l.spin_motion v.closure v.robot_state dt v.motion_command
    if go then do
      let robot_state ← update (some motion_command) none
      throw_on_motion_error robot_state l.motion_id
      pure (.inl { v with closure := c, robot_state := robot_state, previous_time := v.robot_state.time, motion_command := motion_command })
    else pure (.inr motion_command) : Prog F (ControlLoop.Locals F σ ⊕ MotionGeneratorCommand F))) := by
  apply consumes_of_post
  intro v w
  refine shorter_then (Pres.liftP _) (by rintro (_ | _ | _ | _) w' h <;> first | trivial | exact absurd rfl (h _)) fun dt w1 h1 => ?_
  refine shorter_then (pres_spin_motion (T := Shorter) _ _ _ _ _) (by rintro (_ | _ | _ | _) w' h <;> first | trivial | exact absurd rfl (h _)) ?_
  rintro ⟨c, m, go⟩ w2 h2
  cases go with
  | false => trivial
  | true =>
    simp only [if_true]
    refine (update_eats_ok _ _ w2).bind ?_
    intro r w3 h3
    cases r with
    | ok x =>
      rw [after_ok]
      refine shorter_then (pres_throw_on_motion_error (T := Shorter) _ _) (by rintro (_ | _ | _ | _) w' h <;> first | trivial | exact absurd rfl (h _)) ?_
      intro _ w4 h4
      simp only [post_pure] at h3 ⊢
      omega
    | _ => trivial

theorem consumes_torque_loop (l : ControlLoop F σ k) (f : σ → RobotState F → Nat → σ × Torques F) : Consumes (fun v : ControlLoop.Locals F σ => (do
    let dt ← liftP (durSub v.robot_state.time v.previous_time)
    let (c, motion_command, go) ← l.spin_motion v.closure v.robot_state dt v.motion_command
    if go then do
      let dt ← liftP (durSub v.robot_state.time v.previous_time)
      let (c, control_command, go) ← l.spin_control f c v.robot_state dt
      if go then do
        let robot_state ← update (some motion_command) (some control_command)
        throw_on_motion_error robot_state l.motion_id
        pure (.inl { closure := c, robot_state, previous_time := v.robot_state.time, motion_command, control_command })
      else pure (.inr (motion_command, control_command))
    else pure (.inr (motion_command, v.control_command)) : Prog F (ControlLoop.Locals F σ ⊕ (MotionGeneratorCommand F × ControllerCommand F)))) := by
  apply consumes_of_post
  intro v w
  refine shorter_then (Pres.liftP _) (by rintro (_ | _ | _ | _) w' h <;> first | trivial | exact absurd rfl (h _)) fun dt w1 h1 => ?_
  refine shorter_then (pres_spin_motion (T := Shorter) _ _ _ _ _) (by rintro (_ | _ | _ | _) w' h <;> first | trivial | exact absurd rfl (h _)) ?_
  rintro ⟨c, m, go⟩ w2 h2
  cases go with
  | false => trivial
  | true =>
    simp only [if_true]
    refine shorter_then (Pres.liftP _) (by rintro (_ | _ | _ | _) w' h <;> first | trivial | exact absurd rfl (h _)) fun dt w3 h3 => ?_
    refine shorter_then (pres_spin_control (T := Shorter) _ _ _ _ _) (by rintro (_ | _ | _ | _) w' h <;> first | trivial | exact absurd rfl (h _)) ?_
    rintro ⟨c, t, go⟩ w4 h4
    cases go with
    | false => trivial
    | true =>
      simp only [if_true]
      refine (update_eats_ok _ _ w4).bind ?_
      intro r w5 h5
      cases r with
      | ok x =>
        rw [after_ok]
        refine shorter_then (pres_throw_on_motion_error (T := Shorter) _ _) (by rintro (_ | _ | _ | _) w' h <;> first | trivial | exact absurd rfl (h _)) ?_
        intro _ w6 h6
        simp only [post_pure] at h5 ⊢
        omega
      | _ => trivial

end consumes

/-! ## One step -/

theorem Spec.Run.nil_inv {σ : Type} {k : MotionKind} {call : ControlCall F σ k} {c0 : σ} {ph ph' : Phase F σ} (h : Run call c0 ph [] ph') : ph' = ph := by
  generalize hl : ([] : List (Ev F)) = l at h
  cases h with
  | nil => rfl
  | snoc => simp at hl

theorem Spec.Run.cons_inv {σ : Type} {k : MotionKind} {call : ControlCall F σ k} {c0 : σ} {ph ph' : Phase F σ} {e : Ev F} {tr : List (Ev F)}
    (h : Run call c0 ph (e :: tr) ph') : ∃ ph1, Step call c0 ph e ph1 ∧ Run call c0 ph1 tr ph' := by
  generalize hl : e :: tr = l at h
  induction h generalizing e tr with
  | nil => cases hl
  | @snoc tr0 ph1 e1 ph2 h hs ih =>
    cases tr0 with
    | nil =>
      cases hl
      cases h.nil_inv
      exact ⟨_, hs, .nil _⟩
    | cons x tr0 =>
      simp only [List.cons_append, List.cons.injEq] at hl
      obtain ⟨rfl, rfl⟩ := hl
      obtain ⟨p, g1, g2⟩ := ih rfl
      exact ⟨p, g1, g2.snoc hs⟩

variable {σ : Type} {k : MotionKind}

/-- The robot object in the middle of a motion. -/
structure Steady (call : ControlCall F σ k) (L : Nat) (s : RobotStateIntern F) (w : World F) : Prop where
  last : LastState w s
  generator : w.rob.current_move_motion_generator_mode = generatorOf k
  controller : w.rob.current_move_controller_mode = some (controllerOf call.controller)
  logger : w.rob.logger.Ok L
  size : 0 < L

variable {call : ControlCall F σ k} {c0 : σ} {L : Nat} {s : RobotStateIntern F} {w : World F}

theorem Steady.congr (h : Steady call L s w) {w' : World F} (hr : w'.rob = w.rob) : Steady call L s w' :=
  ⟨LastState.congr hr h.last, by rw [hr]; exact h.generator, by rw [hr]; exact h.controller, by rw [hr]; exact h.logger, h.size⟩

theorem Steady.next (h : Steady call L s w) {w' : World F} {s' : RobotStateIntern F} (hr : w'.rob = withState w.rob s') : Steady call L s' w' :=
  ⟨LastState.of hr, by rw [hr]; exact h.generator, by rw [hr]; exact h.controller, by rw [hr]; exact h.logger, h.size⟩

theorem Steady.motion_ok (h : Steady call L s w) (id : UInt32) (hh : Healthy k call.controller s) :
    Post (throw_on_motion_error (RobotState.ofIntern s) id) w fun r w' => r = .ok () ∧ w' = w := by
  unfold throw_on_motion_error
  rw [post_bind]
  obtain ⟨h1, h2, -⟩ := h.last
  obtain ⟨ha, hb, hc⟩ := hh
  have hm : (RobotState.ofIntern s : RobotState F).robot_mode = s.robot_mode := rfl
  unfold motion_error
  simp [post_bind, post_gets, after_ok, h1, unwrapOpt, post_pure, h2, hm, h.generator, h.controller, ha, hb, hc]

theorem send_supplied (m : MotionGeneratorCommand F) (o : Option (ControllerCommand F)) {t : Tick} {ts : List Tick} (hs : w.script = t :: ts)
    (hf : t.fail = false ∧ t.eof = false) (h : Steady call L s w) (ho : o.isSome = true ↔ controllerOf call.controller = .ExternalController) :
    Post (send_robot_command (some m) o) w fun r w' => ∃ a, r = .ok (some ⟨s.message_id, m, o.getD noTorques⟩) ∧
      Moves [t] [.udpSend a ⟨s.message_id, m, o.getD noTorques⟩] w w' ∧ w'.script = ts ∧ w'.rob = w.rob ∧ w'.ker.udpRx = w.ker.udpRx ++ t.udpIn ∧
      (t.udpIn ≠ [] → w'.ker.udpEdge = true) := by
  have hsend : ∀ x : RobotCommand F, Post (send_command_or_wrap x) w fun r w' => ∃ a, r = .ok (some x) ∧ Moves [t] [.udpSend a x] w w' ∧ w'.script = ts ∧
      w'.rob = w.rob ∧ w'.ker.udpRx = w.ker.udpRx ++ t.udpIn ∧ (t.udpIn ≠ [] → w'.ker.udpEdge = true) := by
    intro x
    have hl : ((RobotCommand.codec F).enc x).length = size_of_RobotCommand := RobotCommand.codec_sized x
    unfold send_command_or_wrap udp_send
    rw [post_bind, post_attempt, post_bind, post_sys_cons hs]
    simp only [after_ok, hf.1, Bool.false_eq_true, if_false, post_bind, post_gets, post_emit, hl, ne_eq, not_true_eq_false, post_pure, tried_ok]
    refine ⟨_, trivial, .one hs hf.2 rfl rfl rfl rfl rfl rfl rfl rfl rfl, trivial, trivial, rfl, fun h => ?_⟩
    have : t.udpIn.isEmpty = false := by simpa using h
    simp [Kernel.arrive, this]
  have hg := h.generator
  have hi : w.rob.message_id = s.message_id := h.last.2.2
  have hni : w.rob.current_move_motion_generator_mode ≠ .Idle := by rw [hg]; exact generator_not_idle k
  unfold send_robot_command
  simp only [post_bind, post_gets, after_ok, Option.isSome_some, Bool.true_or, if_true, Bool.true_and, decide_eq_true_eq, hni, if_false]
  cases o with
  | none =>
    have hne : controllerOf call.controller ≠ .ExternalController := fun e => by simpa using ho.2 e
    simp only [Option.isSome_none, Bool.false_eq_true, if_false, post_pure, after_ok, ne_eq, hni, not_false_eq_true, if_true, post_bind, h.controller, unwrapOpt, hne,
      decide_false, Bool.false_and]
    rw [hi]
    exact hsend _
  | some c =>
    have he : controllerOf call.controller = .ExternalController := ho.1 rfl
    simp only [Option.isSome_some, if_true, post_pure, after_ok, ne_eq, hni, not_false_eq_true, post_bind, h.controller, unwrapOpt, he, Bool.false_eq_true,
      not_true_eq_false, decide_false, if_false, Bool.not_true, Bool.or_self, Bool.and_false]
    rw [hi]
    exact hsend _

/-- One cycle: the command is sent and the next state received. -/
theorem update_supplied (m : MotionGeneratorCommand F) (o : Option (ControllerCommand F)) {t : Tick} {ts rest : List Tick} {s' : RobotStateIntern F}
    (hs : w.script = t :: ts ++ rest) (hf : Fine [t]) (h : Steady call L s w) (ho : o.isSome = true ↔ controllerOf call.controller = .ExternalController)
    (hq : w.ker.udpRx = []) (ha : StateArrives s' t.udpIn ts) (hnew : s.message_id < s'.message_id) :
    Post (update (some m) o) w fun r w' => ∃ a, r = .ok (RobotState.ofIntern s') ∧
      Moves (t :: ts) [.udpSend a ⟨s.message_id, m, o.getD noTorques⟩, .accepted s'] w w' ∧ w'.script = rest ∧ Steady call L s' w' ∧ w'.ker.udpRx = [] := by
  unfold update
  rw [post_bind]
  refine (send_supplied m o (by simpa using hs) (hf t (by simp)) h ho).mono ?_
  rintro r w1 ⟨a, rfl, m1, s1, r1, q1, e1⟩
  rw [hq] at q1
  simp only [after_ok, post_bind]
  refine (receive_supplied ha s1 (by simpa using q1) e1 (by rw [r1, h.last.2.2]; exact hnew)).mono ?_
  rintro r w2 ⟨rfl, m2, s2, r2, q2⟩
  have h2 : Steady call L s' w2 := (h.congr r1).next (by rw [r2])
  obtain ⟨q, hq, hk⟩ := h2.logger.holds
  obtain ⟨l', g1, -⟩ := Logger.log_eq hq (by rw [h2.logger.log_size]; exact h2.size) (RobotState.ofIntern s') ⟨s.message_id, m, o.getD noTorques⟩
  simp only [after_ok, post_bind, post_gets, g1, post_liftP]
  refine ⟨fun x hx => ?_, fun e he => by cases he⟩
  cases hx
  simp only [after_ok, post_modify, post_pure]
  have := m1.trans m2
  exact ⟨a, trivial, ⟨this.script, this.cfg, this.id, this.pending, this.table, this.tcp, this.edge, this.eof, this.trace⟩, s2,
    ⟨⟨h2.last.1, h2.last.2.1, h2.last.2.2⟩, h2.generator, h2.controller, h2.logger.log g1, h2.size⟩, q2⟩

theorem update_none_supplied {ts rest : List Tick} {q : List Datagram} {s' : RobotStateIntern F} (hs : w.script = ts ++ rest) (h : Steady call L s w)
    (hq : w.ker.udpRx = q) (hedge : q ≠ [] → w.ker.udpEdge = true) (ha : StateArrives s' q ts) (hnew : s.message_id < s'.message_id) :
    Post (update none none) w fun r w' => r = .ok (RobotState.ofIntern s') ∧ Moves ts [.accepted s'] w w' ∧ w'.script = rest ∧ Steady call L s' w' ∧
      w'.ker.udpRx = [] := by
  unfold update send_robot_command
  simp only [post_bind, post_gets, after_ok, Option.isSome_none, Bool.or_self, Bool.false_eq_true, if_false, post_pure]
  refine (receive_supplied ha hs hq hedge (by rw [h.last.2.2]; exact hnew)).mono ?_
  rintro r w2 ⟨rfl, m2, s2, r2, q2⟩
  simp only [after_ok, post_pure, true_and]
  exact ⟨m2, s2, h.next r2, q2⟩

/-! ## The loops -/

/-- No request is written. -/
def NoRequest (tr : List (Ev F)) : Prop := ∀ r, .robotReq r ∉ tr

theorem NoRequest.tail {e : Ev F} {tr : List (Ev F)} (h : NoRequest (e :: tr)) : NoRequest tr := fun r hr => h r (List.mem_cons_of_mem _ hr)

theorem refused_stuck {s : RobotStateIntern F} {tr : List (Ev F)} {s' : RobotStateIntern F} {m t} (h : Run call c0 (.refused s) tr (.finishing s' m t)) : False := by
  cases tr with
  | nil => cases h.nil_inv
  | cons e tr =>
    obtain ⟨ph, hs, -⟩ := h.cons_inv
    cases hs with
    | stop _ _ hm _ => exact hm

theorem broken_stuck {s : RobotStateIntern F} {tr : List (Ev F)} {s' : RobotStateIntern F} {m t} (h : Run call c0 (.broken s) tr (.finishing s' m t))
    (hn : NoRequest tr) : False := by
  cases tr with
  | nil => cases h.nil_inv
  | cons e tr =>
    obtain ⟨ph, hs, -⟩ := h.cons_inv
    cases hs with
    | stop => exact hn _ List.mem_cons_self

/-- What is left after a part of a run: the rest of the events and of the schedule. -/
structure Left (call : ControlCall F σ k) (c0 : σ) (L : Nat) (tr : List (Ev F)) (ts rest : List Tick) (sF : RobotStateIntern F) (mF : MotionGeneratorCommand F)
    (tF : ControllerCommand F) (w : World F) (m : MotionGeneratorCommand F) (t : ControllerCommand F) (w' : World F) : Prop where
  left : ∃ tr1 tr2 ts1 ts2 s1 es, tr = tr1 ++ tr2 ∧ ts = ts1 ++ ts2 ∧ Supplies [] tr2 ts2 ∧ Run call c0 (.finishing s1 m t) tr2 (.finishing sF mF tF) ∧
    Steady call L s1 w' ∧ Running s1 ∧ Moves ts1 es w w' ∧ List.Forall₂ Alike tr1 es ∧ w'.script = ts2 ++ rest
  rx : w'.ker.udpRx = []

theorem Left.before {tr : List (Ev F)} {ts rest : List Tick} {sF : RobotStateIntern F} {mF : MotionGeneratorCommand F} {tF : ControllerCommand F} {w1 w2 : World F}
    {m : MotionGeneratorCommand F} {t : ControllerCommand F} (h : Left call c0 L tr ts rest sF mF tF w1 m t w2) {ts0 : List Tick} {tr0 es0 : List (Ev F)}
    (hm : Moves ts0 es0 w w1) (ha : List.Forall₂ Alike tr0 es0) : Left call c0 L (tr0 ++ tr) (ts0 ++ ts) rest sF mF tF w m t w2 := by
  obtain ⟨⟨tr1, tr2, ts1, ts2, s1, es, rfl, rfl, h3, h4, h5, h6, h7, h8, h9⟩, h10⟩ := h
  exact ⟨⟨tr0 ++ tr1, tr2, ts0 ++ ts1, ts2, s1, es0 ++ es, by simp, by simp, h3, h4, h5, h6, hm.trans h7, List.rel_append ha h8, h9⟩, h10⟩

theorem alike_self (e : Ev F) (h : IsCallback e ∨ ∃ s, e = .accepted s) : Alike e e := by
  cases e <;> first | rfl | (rcases h with h | ⟨s, h⟩ <;> cases h)

theorem Moves.event {e : Ev F} (w : World F) (he : visible [e] = [e]) : Moves [] [e] w { w with trace := w.trace ++ [e] } :=
  ⟨rfl, rfl, rfl, rfl, rfl, by simp, fun h => h, rfl, [e], rfl, he⟩

theorem healthy_runs (h : Healthy k call.controller s) : Running s := .inl (by rw [h.2.1]; exact generator_not_idle k)

theorem supplies_cb {q : List Datagram} {e : Ev F} {tr : List (Ev F)} {ts : List Tick} (h : Supplies q (e :: tr) ts) (he : IsCallback e) : Supplies q tr ts := by
  generalize hl : e :: tr = l at h
  cases h with
  | nil => cases hl
  | state => cases hl; exact he.elim
  | command => cases hl; exact he.elim
  | callback _ h => cases hl; exact h

theorem supplies_cycle {q : List Datagram} {a c s} {tr : List (Ev F)} {ts : List Tick} (h : Supplies q (.udpSend a c :: .accepted s :: tr) ts) :
    ∃ t ts1 ts2, ts = t :: ts1 ++ ts2 ∧ Fine [t] ∧ StateArrives s (q ++ t.udpIn) ts1 ∧ Supplies [] tr ts2 := by
  cases h with
  | command hf h =>
    cases h with
    | state h1 h2 => exact ⟨_, _, _, by simp, hf, h1, h2⟩
    | callback h => exact h.elim
  | callback h => exact h.elim

theorem supplies_state {q : List Datagram} {s} {tr : List (Ev F)} {ts : List Tick} (h : Supplies q (.accepted s :: tr) ts) :
    ∃ ts1 ts2, ts = ts1 ++ ts2 ∧ StateArrives s q ts1 ∧ Supplies [] tr ts2 := by
  cases h with
  | state h1 h2 => exact ⟨_, _, rfl, h1, h2⟩
  | callback h => exact h.elim

/-- After the decision of the callbacks comes a command and a state. -/
theorem decided_next {c : σ} {m : MotionGeneratorCommand F} {t : ControllerCommand F} {tr : List (Ev F)} {sF mF tF}
    (h : Run call c0 (.decided c s m t) tr (.finishing sF mF tF)) (hn : NoRequest tr) : ∃ a s' tr', tr = .udpSend a ⟨s.message_id, m, t⟩ :: .accepted s' :: tr' ∧
      s.message_id < s'.message_id ∧ Healthy k call.controller s' ∧ Run call c0 (.ready c s' (RobotState.ofIntern s).time m t) tr' (.finishing sF mF tF) := by
  cases tr with
  | nil => cases h.nil_inv
  | cons e tr =>
    obtain ⟨ph, hs, h⟩ := h.cons_inv
    cases hs with
    | stop => exact absurd List.mem_cons_self (hn _)
    | send _ _ _ _ a =>
      cases tr with
      | nil => cases h.nil_inv
      | cons e tr =>
        obtain ⟨ph, hs, h⟩ := h.cons_inv
        cases hs with
        | stop => exact absurd (List.mem_cons_of_mem _ List.mem_cons_self) (hn _)
        | next _ _ _ _ s' h1 h2 => exact ⟨_, _, _, rfl, h1, h2, h⟩
        | nextBroken => exact (broken_stuck h hn.tail.tail).elim

theorem durSub_ok {a b : Nat} (h : b ≤ a) : durSub a b = .ok (a - b) := by unfold durSub; rw [if_pos h]

theorem spin_motion_ok {c c' : σ} {st : RobotState F} {dt : Nat} {out : Motion F k} {m m' : MotionGeneratorCommand F} {id : UInt32} (h1 : call.motion c st dt = (c', out))
    (h2 : out.convert_motion st m call.cutoff call.limit_rate = .ok m') (w : World F) : Post ((loopOf call id).spin_motion c st dt m) w fun r w' =>
      r = .ok (c', m', !out.is_finished) ∧ w' = { w with trace := w.trace ++ [.motionCb k st dt out] } := by
  unfold ControlLoop.spin_motion loopOf
  simp only [h1, post_bind, post_emit, after_ok, h2, post_liftP_ok, post_pure, and_self]

theorem spin_control_ok {f : σ → RobotState F → Nat → σ × Torques F} {c c' : σ} {st : RobotState F} {dt : Nat} {out : Torques F} {τ : Arr F 7} {id : UInt32}
    (h1 : f c st dt = (c', out)) (h2 : ControlLoop.convert_torques call.limit_rate call.cutoff st out.tau_J = .ok τ) (w : World F) :
    Post ((loopOf call id).spin_control f c st dt) w fun r w' =>
      r = .ok (c', { tau_J_d := τ }, !out.is_finished) ∧ w' = { w with trace := w.trace ++ [.controlCb st dt out] } := by
  unfold ControlLoop.spin_control loopOf
  simp only [h1, post_bind, post_emit, after_ok, h2, post_liftP_ok, post_pure, and_self]

theorem motion_loop_supplied (hfit : call.torque = none) (ho : controllerOf call.controller ≠ .ExternalController) {id : UInt32} {rest : List Tick}
    {sF : RobotStateIntern F} {mF : MotionGeneratorCommand F} {tF : ControllerCommand F} (n : Nat) :
    ∀ (tr : List (Ev F)) (c : σ) (s : RobotStateIntern F) (prev : Nat) (m : MotionGeneratorCommand F) (ts : List Tick) (w : World F), tr.length ≤ n →
    Steady call L s w → Healthy k call.controller s → w.ker.udpRx = [] → w.script = ts ++ rest → Supplies [] tr ts →
    Run call c0 (.ready c s prev m noTorques) tr (.finishing sF mF tF) → NoRequest tr →
    Post ((loopOf call id).motion_loop ⟨c, RobotState.ofIntern s, prev, m, noTorques⟩) w fun r w' => ∃ m', r = .ok m' ∧
      Left call c0 L tr ts rest sF mF tF w m' noTorques w' := by
  induction n with
  | zero =>
    intro tr c s prev m ts w hn _ _ _ _ _ hr _
    rw [List.length_eq_zero_iff.1 (Nat.le_zero.1 hn)] at hr
    cases hr.nil_inv
  | succ n ih =>
    intro tr c s prev m ts w hn hw hh hq hs hsup hr hnr
    cases tr with
    | nil => cases hr.nil_inv
    | cons e tr =>
    obtain ⟨ph, hst, hr'⟩ := hr.cons_inv
    have hu : (loopOf call id).motion_loop ⟨c, RobotState.ofIntern s, prev, m, noTorques⟩ = _ := loop_unfold (consumes_motion_loop (loopOf call id)) _
    rw [hu]
    simp only [post_bind]
    cases hst with
    | motion _ _ _ _ _ dt c' out m' h1 h2 h3 h4 h5 h6 =>
      subst h3
      obtain ⟨a, s', tr', rfl, g1, g2, g3⟩ := decided_next hr' hnr.tail
      obtain ⟨t, ts1, ts2, rfl, k1, k2, k3⟩ := supplies_cycle (supplies_cb hsup trivial)
      rw [durSub_ok h2, post_liftP_ok, after_ok, post_bind]
      refine (spin_motion_ok h4 h5 w).mono ?_
      rintro r w1 ⟨rfl, hw1⟩
      have hst1 : Steady call L s w1 := hw.congr (by rw [hw1])
      have hq1 : w1.ker.udpRx = [] := by rw [hw1]; exact hq
      have hs1 : w1.script = w.script := by rw [hw1]
      have hm1 : Moves [] [.motionCb k (RobotState.ofIntern s) ((RobotState.ofIntern s).time - prev) out] w w1 := hw1 ▸ Moves.event w rfl
      simp only [after_ok, h6, Bool.not_false, if_true, post_bind]
      refine (update_supplied (call := call) (L := L) (s := s) m' none (t := t) (ts := ts1) (rest := ts2 ++ rest) (s' := s') (by rw [hs1, hs]; simp) k1 hst1
        (by simp [ho]) hq1 (by simpa using k2) g1).mono ?_
      rintro r w2 ⟨b, rfl, m1, s1, st1, q1⟩
      rw [after_ok, post_bind]
      refine (st1.motion_ok id g2).mono ?_
      rintro r w2 ⟨rfl, rfl⟩
      rw [after_ok, post_pure, after_ok]
      refine Post.mono (ih tr' c' s' (RobotState.ofIntern s).time m' ts2 w2 (by simp at hn; omega) st1 g2 q1 s1 k3 g3 hnr.tail.tail.tail) ?_
      rintro r w3 ⟨m'', rfl, hl⟩
      refine ⟨m'', rfl, ?_⟩
      have hm := hm1.trans m1
      exact hl.before (tr0 := [.motionCb k (RobotState.ofIntern s) ((RobotState.ofIntern s).time - prev) out, .udpSend a ⟨s.message_id, m', noTorques⟩, .accepted s']) hm
        (.cons rfl (.cons ⟨b, rfl⟩ (.cons rfl .nil)))
    | motionFirst _ _ _ _ _ dt c' out m' h1 h2 h3 h4 h5 h6 => exact absurd hfit h1
    | motionEnd _ _ _ _ _ dt c' out m' h2 h3 h4 h5 h6 =>
      subst h3
      rw [durSub_ok h2, post_liftP_ok, after_ok, post_bind]
      refine (spin_motion_ok h4 h5 w).mono ?_
      rintro r w1 ⟨rfl, hw1⟩
      have hst1 : Steady call L s w1 := hw.congr (by rw [hw1])
      have hq1 : w1.ker.udpRx = [] := by rw [hw1]; exact hq
      have hs1 : w1.script = w.script := by rw [hw1]
      have hm1 : Moves [] [.motionCb k (RobotState.ofIntern s) ((RobotState.ofIntern s).time - prev) out] w w1 := hw1 ▸ Moves.event w rfl
      simp only [after_ok, h6, Bool.not_true, Bool.false_eq_true, if_false, post_pure]
      refine ⟨m', rfl, ⟨[.motionCb k (RobotState.ofIntern s) ((RobotState.ofIntern s).time - prev) out], tr, [], ts, s, _, rfl, rfl, supplies_cb hsup trivial, hr',
        hst1, healthy_runs hh, hm1, .cons rfl .nil, by rw [hs1, hs]⟩, hq1⟩
    | motionRefused => exact (refused_stuck hr').elim
    | stop _ _ hm _ => exact hm.elim

theorem torque_loop_supplied {f : σ → RobotState F → Nat → σ × Torques F} (hfit : call.torque = some f) (ho : controllerOf call.controller = .ExternalController)
    {id : UInt32} {rest : List Tick} {sF : RobotStateIntern F} {mF : MotionGeneratorCommand F} {tF : ControllerCommand F} (n : Nat) :
    ∀ (tr : List (Ev F)) (c : σ) (s : RobotStateIntern F) (prev : Nat) (m : MotionGeneratorCommand F) (t0 : ControllerCommand F) (ts : List Tick) (w : World F),
    tr.length ≤ n → Steady call L s w → Healthy k call.controller s → w.ker.udpRx = [] → w.script = ts ++ rest → Supplies [] tr ts →
    Run call c0 (.ready c s prev m t0) tr (.finishing sF mF tF) → NoRequest tr →
    Post ((loopOf call id).torque_loop f ⟨c, RobotState.ofIntern s, prev, m, t0⟩) w fun r w' => ∃ m' t', r = .ok (m', t') ∧
      Left call c0 L tr ts rest sF mF tF w m' t' w' := by
  induction n with
  | zero =>
    intro tr c s prev m t0 ts w hn _ _ _ _ _ hr _
    rw [List.length_eq_zero_iff.1 (Nat.le_zero.1 hn)] at hr
    cases hr.nil_inv
  | succ n ih =>
    intro tr c s prev m t0 ts w hn hw hh hq hs hsup hr hnr
    cases tr with
    | nil => cases hr.nil_inv
    | cons e tr =>
    obtain ⟨ph, hst, hr'⟩ := hr.cons_inv
    have hu : (loopOf call id).torque_loop f ⟨c, RobotState.ofIntern s, prev, m, t0⟩ = _ := loop_unfold (consumes_torque_loop (loopOf call id) f) _
    rw [hu]
    simp only [post_bind]
    cases hst with
    | motion _ _ _ _ _ dt c' out m' h1 h2 h3 h4 h5 h6 =>
      rw [hfit] at h1
      cases h1
    | motionFirst _ _ _ _ _ dt c' out m' h1 h2 h3 h4 h5 h6 =>
      subst h3
      rw [durSub_ok h2, post_liftP_ok, after_ok, post_bind]
      refine (spin_motion_ok h4 h5 w).mono ?_
      rintro r w1 ⟨rfl, hw1⟩
      have hst1 : Steady call L s w1 := hw.congr (by rw [hw1])
      have hq1 : w1.ker.udpRx = [] := by rw [hw1]; exact hq
      have hs1 : w1.script = w.script := by rw [hw1]
      have hm1 : Moves [] [.motionCb k (RobotState.ofIntern s) ((RobotState.ofIntern s).time - prev) out] w w1 := hw1 ▸ Moves.event w rfl
      simp only [after_ok, h6, Bool.not_false, if_true, post_bind]
      cases tr with
      | nil => cases hr'.nil_inv
      | cons e2 tr =>
      obtain ⟨ph, hst, hr2⟩ := hr'.cons_inv
      simp only [post_liftP_ok, after_ok, post_bind]
      cases hst with
      | torque g _ _ _ _ _ dt c2 out2 τ i0 i1 i2 i3 i4 i5 =>
        subst i2
        rw [hfit] at i0
        cases i0
        obtain ⟨a, s', tr', rfl, g1, g2, g3⟩ := decided_next hr2 hnr.tail.tail
        obtain ⟨t, ts1, ts2, rfl, k1, k2, k3⟩ := supplies_cycle (supplies_cb (supplies_cb hsup trivial) trivial)
        refine (spin_control_ok i3 i4 _).mono ?_
        rintro r w2 ⟨rfl, hw2⟩
        have hst2 : Steady call L s w2 := hst1.congr (by rw [hw2])
        have hq2 : w2.ker.udpRx = [] := by rw [hw2]; exact hq1
        have hs2 : w2.script = w.script := by rw [hw2]; exact hs1
        have hm2 := hm1.trans (hw2 ▸ Moves.event w1 rfl : Moves [] [.controlCb (RobotState.ofIntern s) ((RobotState.ofIntern s).time - prev) out2] w1 w2)
        simp only [after_ok, i5, Bool.not_false, if_true, post_bind]
        refine (update_supplied (call := call) (L := L) (s := s) m' (some { tau_J_d := τ }) (t := t) (ts := ts1) (rest := ts2 ++ rest) (s' := s') (by rw [hs2, hs]; simp) k1
          hst2 (by simp [ho]) hq2 (by simpa using k2) g1).mono ?_
        rintro r w3 ⟨b, rfl, m1, s1, st1, q1⟩
        rw [after_ok, post_bind]
        refine (st1.motion_ok id g2).mono ?_
        rintro r w3 ⟨rfl, rfl⟩
        rw [after_ok, post_pure, after_ok]
        refine Post.mono (ih tr' c2 s' (RobotState.ofIntern s).time m' _ ts2 w3 (by simp at hn; omega) st1 g2 q1 s1 k3 g3 hnr.tail.tail.tail.tail) ?_
        rintro r w4 ⟨m'', t'', rfl, hl⟩
        refine ⟨m'', t'', rfl, ?_⟩
        have hm := hm2.trans m1
        exact hl.before (tr0 := [.motionCb k (RobotState.ofIntern s) ((RobotState.ofIntern s).time - prev) out,
          .controlCb (RobotState.ofIntern s) ((RobotState.ofIntern s).time - prev) out2, .udpSend a ⟨s.message_id, m', { tau_J_d := τ }⟩, .accepted s']) hm
          (.cons rfl (.cons rfl (.cons ⟨b, rfl⟩ (.cons rfl .nil))))
      | torqueEnd g _ _ _ _ _ dt c2 out2 τ i0 i1 i2 i3 i4 i5 =>
        subst i2
        rw [hfit] at i0
        cases i0
        refine (spin_control_ok i3 i4 _).mono ?_
        rintro r w2 ⟨rfl, hw2⟩
        have hst2 : Steady call L s w2 := hst1.congr (by rw [hw2])
        have hq2 : w2.ker.udpRx = [] := by rw [hw2]; exact hq1
        have hs2 : w2.script = w.script := by rw [hw2]; exact hs1
        have hm2 := hm1.trans (hw2 ▸ Moves.event w1 rfl : Moves [] [.controlCb (RobotState.ofIntern s) ((RobotState.ofIntern s).time - prev) out2] w1 w2)
        simp only [after_ok, i5, Bool.not_true, Bool.false_eq_true, if_false, post_pure]
        exact ⟨m', { tau_J_d := τ }, rfl, ⟨[.motionCb k (RobotState.ofIntern s) ((RobotState.ofIntern s).time - prev) out,
          .controlCb (RobotState.ofIntern s) ((RobotState.ofIntern s).time - prev) out2], tr, [], ts, s, _, rfl, rfl,
          supplies_cb (supplies_cb hsup trivial) trivial, hr2, hst2, healthy_runs hh, hm2, .cons rfl (.cons rfl .nil),
          by rw [hs2, hs]⟩, hq2⟩
      | torqueRefused => exact (refused_stuck hr2).elim
      | stop _ _ hm _ => exact hm.elim
    | motionEnd _ _ _ _ _ dt c' out m' h2 h3 h4 h5 h6 =>
      subst h3
      rw [durSub_ok h2, post_liftP_ok, after_ok, post_bind]
      refine (spin_motion_ok h4 h5 w).mono ?_
      rintro r w1 ⟨rfl, hw1⟩
      have hst1 : Steady call L s w1 := hw.congr (by rw [hw1])
      have hq1 : w1.ker.udpRx = [] := by rw [hw1]; exact hq
      have hs1 : w1.script = w.script := by rw [hw1]
      have hm1 : Moves [] [.motionCb k (RobotState.ofIntern s) ((RobotState.ofIntern s).time - prev) out] w w1 := hw1 ▸ Moves.event w rfl
      simp only [after_ok, h6, Bool.not_true, Bool.false_eq_true, if_false, post_pure]
      refine ⟨m', t0, rfl, ⟨[.motionCb k (RobotState.ofIntern s) ((RobotState.ofIntern s).time - prev) out], tr, [], ts, s, _, rfl, rfl, supplies_cb hsup trivial, hr',
        hst1, healthy_runs hh, hm1, .cons rfl .nil, by rw [hs1, hs]⟩, hq1⟩
    | motionRefused => exact (refused_stuck hr').elim
    | stop _ _ hm _ => exact hm.elim

/-- The finishing command is sent until the robot stands still. -/
theorem finish_loop_supplied (o : Option (ControllerCommand F)) (ho : o.isSome = true ↔ controllerOf call.controller = .ExternalController)
    {rest : List Tick} {sF : RobotStateIntern F} {m mF : MotionGeneratorCommand F} {tF : ControllerCommand F} (hF : ¬ Running sF) (n : Nat) :
    ∀ (tr : List (Ev F)) (s : RobotStateIntern F) (l : Option (RobotState F)) (ts : List Tick) (w : World F), tr.length ≤ n →
    Steady call L s w → w.ker.udpRx = [] → w.script = ts ++ rest → Supplies [] tr ts →
    Run call c0 (.finishing s m (o.getD noTorques)) tr (.finishing sF mF tF) → NoRequest tr → (Running s ∨ l.isSome = true) →
    Post (loop (fun robot_state : Option (RobotState F) => (do
      if ← something_running then do
        let s ← update (some { m with motion_generation_finished := true }) o
        pure (.inl (some s))
      else pure (.inr robot_state) : Prog F (Option (RobotState F) ⊕ Option (RobotState F)))) l) w fun r w' => ∃ st es, r = .ok (some st) ∧
        Steady call L sF w' ∧ Moves ts es w w' ∧ List.Forall₂ Alike tr es ∧ w'.script = rest ∧ w'.ker.udpRx = [] := by
  have stop : ∀ (s : RobotStateIntern F) (l : Option (RobotState F)) (ts : List Tick) (w : World F),
      Steady call L s w → w.ker.udpRx = [] → w.script = ts ++ rest → Supplies [] ([] : List (Ev F)) ts →
      Run call c0 (.finishing s m (o.getD noTorques)) [] (.finishing sF mF tF) → (Running s ∨ l.isSome = true) →
      Post (loop (fun robot_state : Option (RobotState F) => (do
        if ← something_running then do
          let s ← update (some { m with motion_generation_finished := true }) o
          pure (.inl (some s))
        else pure (.inr robot_state) : Prog F (Option (RobotState F) ⊕ Option (RobotState F)))) l) w fun r w' => ∃ st es, r = .ok (some st) ∧
          Steady call L sF w' ∧ Moves ts es w w' ∧ List.Forall₂ Alike ([] : List (Ev F)) es ∧ w'.script = rest ∧ w'.ker.udpRx = [] := by
    intro s l ts w hw hq hs hsup hr hl
    have he := hr.nil_inv
    injection he with he
    subst he
    cases hsup
    rw [loop_unfold (consumes_finish_loop _ _) l, post_bind, post_bind, running_iff _ hw.last]
    refine ⟨fun h => absurd h hF, fun _ => ?_⟩
    obtain ⟨x, rfl⟩ := Option.isSome_iff_exists.1 (hl.resolve_left hF)
    simp only [after_ok, Bool.false_eq_true, if_false, post_pure]
    exact ⟨x, [], rfl, hw, Moves.nil w, .nil, hs, hq⟩
  induction n with
  | zero =>
    intro tr s l ts w hn hw hq hs hsup hr hnr hl
    have : tr = [] := List.length_eq_zero_iff.1 (Nat.le_zero.1 hn)
    subst this
    exact stop s l ts w hw hq hs hsup hr hl
  | succ n ih =>
    intro tr s l ts w hn hw hq hs hsup hr hnr hl
    cases tr with
    | nil => exact stop s l ts w hw hq hs hsup hr hl
    | cons e tr =>
      obtain ⟨ph, hst, hr1⟩ := hr.cons_inv
      cases hst with
      | stop => exact absurd List.mem_cons_self (hnr _)
      | finish _ _ _ a hrun =>
        cases tr with
        | nil => cases hr1.nil_inv
        | cons e tr =>
          obtain ⟨ph, hst, hr2⟩ := hr1.cons_inv
          cases hst with
          | stop => exact absurd (List.mem_cons_of_mem _ List.mem_cons_self) (hnr _)
          | finishNext _ _ _ s' h1 =>
            obtain ⟨t, ts1, ts2, rfl, k1, k2, k3⟩ := supplies_cycle hsup
            rw [loop_unfold (consumes_finish_loop _ _) l, post_bind, post_bind, running_iff s hw.last]
            refine ⟨fun _ => ?_, fun h => absurd hrun h⟩
            simp only [after_ok, if_true, post_bind]
            refine (update_supplied (call := call) (L := L) (s := s) _ o (t := t) (ts := ts1) (rest := ts2 ++ rest) (s' := s') (by rw [hs]; simp) k1 hw ho hq
              (by simpa using k2) h1).mono ?_
            rintro r w1 ⟨b, rfl, m1, s1, st1, q1⟩
            simp only [after_ok, post_pure]
            refine Post.mono (ih tr s' (some (RobotState.ofIntern s')) ts2 w1 (by simp at hn; omega) st1 q1 s1 k3 hr2 hnr.tail.tail (.inr rfl)) ?_
            rintro r w2 ⟨st, es, rfl, g1, g2, g3, g4, g5⟩
            exact ⟨st, _, rfl, g1, m1.trans g2, .cons ⟨b, rfl⟩ (.cons rfl g3), g4, g5⟩

end Verif
