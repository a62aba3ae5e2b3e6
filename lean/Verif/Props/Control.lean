import Verif.Lemmas.Protocol
import Verif.Lemmas.ToyMotion
import Verif.Lemmas.Next
import Verif.Lemmas.Convert
/-!
# Motions: C23 - C31, C33 - C36, C38

`w` is a world in which a `Robot` exists (`RobotReachable`): the constructor and any number of other calls have returned. `c` is a control
method with its arguments, and `IsControl c call c0` says which callbacks, controller mode, rate limiting and cutoff frequency the user asked
for. `newEvents w (c.run w).2` is what the robot and the callbacks see of the call. Nothing is assumed about the behaviour of the robot,
of the network and of the callbacks, and nothing about how the call ends, unless a theorem says so.
-/
set_option linter.unusedSectionVars false
namespace Verif
open Prog Spec
variable {F : Type} [Fl F] [Wire F] [Geo F]

/-! ## C23 -/

theorem rule_C23 : EventRule (F := F) fun pre e => IsMove e → ∃ s, lastAccepted pre = some s ∧ ¬ Running s where
  request pre r hr := by rintro ⟨h, m, he⟩; cases he; exact absurd rfl (hr m)
  accepted pre s h := absurd h (not_move_accepted s)
  shown pre s b := by rintro ⟨h, m, he⟩; cases he
  control call c0 s ctx pre ph ph' e hf hs hr he hm := by
    cases he
    case move s' hd hn hc => exact ⟨s', hr.last (ph0 := .before s) hs, hn⟩
    all_goals (obtain ⟨h, m, he⟩ := hm; cases he)

/-- C23: in every history, each Move request is written only if the state received last shows neither a running motion nor an external
controller. -/
theorem C23_one_motion_at_a_time (rc : Option RealtimeConfig) (ls : Option Nat) (cs : List (RobotCall F)) (w : World F) (hw : Fresh w) :
    Before (fun pre e => IsMove e → ∃ s, lastAccepted pre = some s ∧ ¬ Running s) (visible (robotSession rc ls cs w).2.trace) :=
  rule_C23.session rc ls cs w hw

section
variable {w : World F} (hw : RobotReachable w) {c : RobotCall F} {σ : Type} {k : MotionKind} {call : ControlCall F σ k} {c0 : σ}
  (hc : IsControl c call c0)
include hw hc

/-! ## C24 -/

/-- C24: the first event of a control call is its Move request, with the modes of the method and the default deviations, and there is no
other Move request. -/
theorem C24_one_move_request : newEvents w (c.run w).2 = [] ∨
    ∃ h tr, newEvents w (c.run w).2 = .robotReq ⟨h, moveBody k call.controller⟩ :: tr ∧ h.command = .Move ∧ ∀ e ∈ tr, ¬ IsMove e := by
  obtain ⟨s0, ph, -, -, hr, -⟩ := control_events hw hc
  rcases run_move hr with ⟨h, -⟩ | ⟨hd, tr', h1, h2, h3, -, -⟩
  · exact .inl h
  · exact .inr ⟨hd, tr', h1, h2, h3⟩

/-! ## C26 -/

/-- The state a callback was called with. -/
def callbackState : Ev F → Option (RobotState F)
  | .motionCb _ s _ _ => some s
  | .controlCb s _ _ => some s
  | _ => none

/-- C26: every command carries the message id of the state received last in this call; unless it has the finished flag, it follows directly
after a callback, and that callback was called with this state. -/
theorem C26_commands_answer_latest_state : Before (fun pre e => ∀ a x, e = .udpSend a x →
    ∃ s, lastAccepted pre = some s ∧ x.message_id = s.message_id ∧
      (x.motion.motion_generation_finished = false → pre.getLast?.bind callbackState = some (RobotState.ofIntern s)))
    (newEvents w (c.run w).2) := by
  obtain ⟨s0, ph, -, -, hr, -⟩ := control_events hw hc
  rintro pre e post h a x rfl
  obtain ⟨ph1, ph2, h1, h2⟩ := hr.before_all pre _ post h
  have hh := run_health h1
  have hsh := run_shape h1
  cases h2 with
  | send c s m t a =>
    refine ⟨s, hh.1, rfl, fun _ => ?_⟩
    rcases hsh with ⟨-, -, pre', dt, out, m0, rfl, -⟩ | ⟨-, pre', dt, out, out', m0, rfl, -⟩ <;> simp [callbackState]
  | finish s m t a hrun => exact ⟨s, hh, rfl, fun h => by cases h⟩

/-! ## C27 -/

/-- C27: the duration given to the motion callback is zero in the first call of the motion and afterwards the positive difference of the
time stamps of the state and the one of the call before; the torque callback gets the same states and durations. -/
theorem C27_callback_timing : Timed (motionCalls (newEvents w (c.run w).2)) ∧ Timed (torqueCalls (newEvents w (c.run w).2)) ∧
    torqueCalls (newEvents w (c.run w).2) <+: motionCalls (newEvents w (c.run w).2) := by
  obtain ⟨s0, ph, -, -, hr, -⟩ := control_events hw hc
  have h1 := run_clock hr
  have h2 := (run_both hr).2
  have h3 : Timed (motionCalls (newEvents w (c.run w).2)) := by
    cases ph <;> unfold Clock at h1 <;> first | exact h1 | exact h1.1 | (rw [h1]; exact .nil)
  refine ⟨h3, ?_, h2⟩
  obtain ⟨x, hx⟩ := h2
  rw [← hx] at h3
  exact h3.prefix

/-! ## C28 -/

/-- C28: directly after a callback that did not end the motion comes either the command with its values, or, if the motion callback is
followed by a torque callback, the torque callback with the same state and duration; or the sending of the command failed and the robot is
told to stop. No state is read in between. -/
theorem C28_callback_gives_command : Adjacent (fun e f =>
    (∀ k' st dt out, e = .motionCb k' st dt out → out.is_finished = false →
      if call.torque = none then
        (∃ a x m, f = .udpSend a x ∧ out.convert_motion st m call.cutoff call.limit_rate = .ok x.motion) ∨ IsStop f
      else ∃ out', f = .controlCb st dt out') ∧
    (∀ st dt out, e = .controlCb st dt out → out.is_finished = false →
      (∃ a x, f = .udpSend a x ∧ ControlLoop.convert_torques call.limit_rate call.cutoff st out.tau_J = .ok x.control.tau_J_d) ∨ IsStop f))
    (newEvents w (c.run w).2) := by
  obtain ⟨s0, ph, -, -, hr, -⟩ := control_events hw hc
  intro pre e f post h
  rw [h] at hr
  obtain ⟨ph1, h1, h2⟩ := hr.split
  obtain ⟨ph2, h3, h4⟩ := h2.step_of_cons
  obtain ⟨ph3, h5, -⟩ := h4.step_of_cons
  constructor
  · rintro k' st dt out rfl hf
    cases h3 with
    | motion c s prev m t _ c' _ m' g1 g2 g3 g4 g5 g6 =>
      rw [if_pos g1]
      cases h5 with
      | send _ _ _ _ a => exact .inl ⟨a, _, m, rfl, g5⟩
      | stop _ hd _ _ => exact .inr ⟨hd, rfl⟩
    | motionFirst c s prev m t _ c' _ m' g1 g2 g3 g4 g5 g6 =>
      subst g3
      rw [if_neg g1]
      cases h5 with
      | torque f c s prev m t dt c' out' τ j1 j2 j3 j4 j5 j6 => subst j3; exact ⟨out', rfl⟩
      | torqueEnd f c s prev m t dt c' out' τ j1 j2 j3 j4 j5 j6 => subst j3; exact ⟨out', rfl⟩
      | torqueRefused f c s prev m t dt c' out' e j1 j2 j3 j4 j5 => subst j3; exact ⟨out', rfl⟩
      | stop _ hd hm _ => exact hm.elim
    | motionEnd c s prev m t _ c' _ m' g2 g3 g4 g5 g6 => rw [hf] at g6; cases g6
    | motionRefused c s prev m t _ c' _ m' g2 g3 g4 g5 =>
      have := run_from_refused h4
      simp at this
  · rintro st dt out rfl hf
    cases h3 with
    | torque f c s prev m t _ c' _ τ j1 j2 j3 j4 j5 j6 =>
      cases h5 with
      | send _ _ _ _ a => exact .inl ⟨a, _, rfl, j5⟩
      | stop _ hd _ _ => exact .inr ⟨hd, rfl⟩
    | torqueEnd f c s prev m t _ c' _ τ j1 j2 j3 j4 j5 j6 => rw [hf] at j6; cases j6
    | torqueRefused f c s prev m t _ c' _ e j1 j2 j3 j4 j5 =>
      have := run_from_refused h4
      simp at this

/-- C28: every command without the finished flag stands directly after the callback (the two callbacks) it is built from. -/
theorem C28_command_comes_from_callback : Before (fun pre e => ∀ a x, e = .udpSend a x → x.motion.motion_generation_finished = false →
    (call.torque = none ∧ x.control = noTorques ∧ ∃ pre' st dt out m0, pre = pre' ++ [.motionCb k st dt out] ∧
      out.convert_motion st m0 call.cutoff call.limit_rate = .ok x.motion ∧ out.is_finished = false) ∨
    (call.torque ≠ none ∧ ∃ pre' st dt out out' m0, pre = pre' ++ [.motionCb k st dt out, .controlCb st dt out'] ∧
      out.convert_motion st m0 call.cutoff call.limit_rate = .ok x.motion ∧ out.is_finished = false ∧
      ControlLoop.convert_torques call.limit_rate call.cutoff st out'.tau_J = .ok x.control.tau_J_d ∧ out'.is_finished = false))
    (newEvents w (c.run w).2) := by
  obtain ⟨s0, ph, -, -, hr, -⟩ := control_events hw hc
  rintro pre e post h a x rfl hx
  obtain ⟨ph1, ph2, h1, h2⟩ := hr.before_all pre _ post h
  have hsh := run_shape h1
  cases h2 with
  | send c s m t a =>
    rcases hsh with ⟨g1, g2, pre', dt, out, m0, g3⟩ | ⟨g1, pre', dt, out, out', m0, g3⟩
    · exact .inl ⟨g1, g2, pre', _, dt, out, m0, g3⟩
    · exact .inr ⟨g1, pre', _, dt, out, out', m0, g3⟩
  | finish s m t a hrun => cases hx

/-- C28: without rate limiting and with a cutoff frequency that is not below the maximum, the command has exactly the values the callbacks
returned. -/
theorem C28_values_unchanged (hl : call.limit_rate = false) (hf : Fl.flt call.cutoff (Fl.lit 1000 : F) = false) :
    Before (fun pre e => ∀ a x, e = .udpSend a x → x.motion.motion_generation_finished = false →
      (∃ pre' st dt out, pre = pre' ++ [.motionCb k st dt out] ∧ Carries out x.motion) ∨
      (∃ pre' st dt out out', pre = pre' ++ [.motionCb k st dt out, .controlCb st dt out'] ∧ Carries out x.motion ∧
        x.control.tau_J_d = out'.tau_J)) (newEvents w (c.run w).2) := by
  intro pre e post h a x he hx
  rcases C28_command_comes_from_callback hw hc pre e post h a x he hx with ⟨-, -, pre', st, dt, out, m0, h1, h2, -⟩ |
    ⟨-, pre', st, dt, out, out', m0, h1, h2, -, h3, -⟩
  · rw [hl] at h2
    exact .inl ⟨pre', st, dt, out, h1, carries_of h2 hf⟩
  · rw [hl] at h2 h3
    exact .inr ⟨pre', st, dt, out, out', h1, carries_of h2 hf, torques_same h3 hf⟩

/-! ## C29 -/

/-- C29: after a callback that ended the motion no callback is called any more, and every later command has the finished flag and the
values of this callback (and of the motion callback before it). -/
theorem C29_after_the_end : ∀ pre e post, newEvents w (c.run w).2 = pre ++ e :: post → EndsMotion e → post = [] ∨ ∃ m t,
    (∀ f ∈ post, ¬ IsCallback f ∧ ∀ a x, f = .udpSend a x → x.motion = { m with motion_generation_finished := true } ∧ x.control = t) ∧
    (∀ k' st dt out, e = .motionCb k' st dt out → ∃ m0, out.convert_motion st m0 call.cutoff call.limit_rate = .ok m) ∧
    (∀ st dt out, e = .controlCb st dt out → ControlLoop.convert_torques call.limit_rate call.cutoff st out.tau_J = .ok t.tau_J_d ∧
      ∃ pre' out' m0, pre = pre' ++ [.motionCb k st dt out'] ∧ out'.convert_motion st m0 call.cutoff call.limit_rate = .ok m) := by
  obtain ⟨s0, ph, -, -, hr, -⟩ := control_events hw hc
  intro pre e post h he
  rw [h] at hr
  obtain ⟨ph1, h1, h2⟩ := hr.split
  obtain ⟨ph2, h3, h4⟩ := h2.step_of_cons
  have key : ∀ s m t, Run call c0 (.finishing s m t) post ph →
      ∀ f ∈ post, ¬ IsCallback f ∧ ∀ a x, f = .udpSend a x → x.motion = { m with motion_generation_finished := true } ∧ x.control = t := by
    intro s m t hrun f hf
    rcases (run_from_finishing hrun).2 f hf with ⟨s', rfl⟩ | ⟨hd, rfl⟩ | ⟨a, x, rfl, g1, g2⟩
    · exact ⟨fun h => h, by simp⟩
    · exact ⟨fun h => h, by simp⟩
    · exact ⟨fun h => h, by intro a' x' hx; cases hx; exact ⟨g1, g2⟩⟩
  have hsh := run_shape h1
  cases h3
  case motionEnd c s prev m t dt c' out m' j2 j3 j4 j5 j6 =>
    exact .inr ⟨m', t, key _ _ _ h4, by intro k' st dt' out' hx; cases hx; exact ⟨m, j5⟩, by simp⟩
  case torqueEnd f c s prev m t dt c' out τ j1 j2 j3 j4 j5 j6 =>
    subst j3
    obtain ⟨-, pre', out1, m0, g1, g2, g3⟩ := hsh
    exact .inr ⟨m, _, key _ _ _ h4, by simp, by intro st dt' out' hx; cases hx; exact ⟨j5, pre', out1, m0, g1, g2⟩⟩
  case motionRefused => exact .inl (run_from_refused h4)
  case torqueRefused => exact .inl (run_from_refused h4)
  case motion hf => unfold EndsMotion at he; simp [hf] at he
  case motionFirst hf => unfold EndsMotion at he; simp [hf] at he
  case torque hf => unfold EndsMotion at he; simp [hf] at he
  all_goals exact he.elim

/-- C29: a command has the finished flag only after a callback ended the motion. -/
theorem C29_flag_only_after_the_end : Before (fun pre e => ∀ a x, e = .udpSend a x →
    (x.motion.motion_generation_finished = true ↔ ∃ f ∈ pre, EndsMotion f)) (newEvents w (c.run w).2) := by
  obtain ⟨s0, ph, -, -, hr, -⟩ := control_events hw hc
  rintro pre e post h a x rfl
  obtain ⟨ph1, ph2, h1, h2⟩ := hr.before_all pre _ post h
  have hv := run_values h1
  have he := run_ended h1
  cases h2 with
  | send c s m t a =>
    obtain ⟨-, out, -, hm⟩ := hv
    refine ⟨fun h => ?_, fun ⟨f, hf, hf'⟩ => absurd hf' (he.1 f hf)⟩
    have := hm.ok.flag
    simp only at h
    rw [this] at h; cases h
  | finish s m t a hrun => exact ⟨fun _ => he, fun _ => rfl⟩

/-- A positive answer to a Move request. -/
def Positive (status : MoveStatus) : Prop := status = .Success ∨ status = .MotionStarted

omit [Fl F] [Wire F] [Geo F] hw hc in
theorem positive_of {status : MoveStatus} (h : abortMessage status = none) : Positive status := by
  cases status <;> simp_all [abortMessage, Positive]

/-- C29: a control call returns Ok only after a callback ended the motion, the robot reported that it stands still, and answered the Move
request twice with success: once before the first callback, and once again after that. -/
theorem C29_ok_means_finished (hok : (c.run w).1 = .ok ()) : (∃ e ∈ newEvents w (c.run w).2, EndsMotion e) ∧
    (∃ s, lastAccepted (newEvents w (c.run w).2) = some s ∧ ¬ Running s) ∧
    ∃ tr1 tr2 bs1 bs2 st1 st2 r1 r2, (c.run w).2.trace = tr1 ++ tr2 ∧
      (∃ h, visible tr1 = visible w.trace ++ [.robotReq ⟨h, moveBody k call.controller⟩] ∧ h.command_id = w.net.command_id) ∧
      (w.net.command_id, bs1) ∈ responses tr1 ∧ MoveResponse.codec.dec bs1 = some (st1, r1) ∧ Positive st1.status ∧
      (w.net.command_id, bs2) ∈ responses tr2 ∧ MoveResponse.codec.dec bs2 = some (st2, r2) ∧ Positive st2.status := by
  obtain ⟨s0, ph, -, -, hr, -, hres⟩ := control_events hw hc
  rw [hok] at hres
  obtain ⟨-, s, m, t, rfl, hfin⟩ := hres
  refine ⟨run_ended hr, ⟨s, run_health hr, hfin.still⟩, ?_⟩
  obtain ⟨wa, es, bs2, st2, r2, hacc, g1, g2, g3, g4⟩ := hfin.answer
  obtain ⟨⟨h, -, h2, h3⟩, bs1, st1, r1, f1, f2, f3⟩ := hacc
  exact ⟨wa.trace, es, bs1, bs2, st1, st2, r1, r2, g1, ⟨h, h3, h2⟩, f1, f2, positive_of f3, g2, g3, positive_of g4⟩

/-! ## C25 -/

/-- C25: a real-time command is sent only after the Move request of this call was written and a positive answer with its number was
received. -/
theorem C25_only_after_acceptance (pre post : List (Ev F)) (a : Addr) (x : RobotCommand F)
    (h : (c.run w).2.trace = w.trace ++ pre ++ .udpSend a x :: post) :
    ∃ h bs status rest, .robotReq ⟨h, moveBody k call.controller⟩ ∈ pre ∧ h.command = .Move ∧ h.command_id = w.net.command_id ∧
      (h.command_id, bs) ∈ responses (w.trace ++ pre) ∧ MoveResponse.codec.dec bs = some (status, rest) ∧ Positive status.status := by
  obtain ⟨hk, s0, hh, hs⟩ := RobotReachable.alive hw
  rcases control_accepts hc w hk s0 hs with ⟨es, h1, h2⟩ | ⟨wa, hacc, ⟨es, h1, h2⟩, fs, h3⟩
  · rw [h, List.append_assoc] at h1
    have := List.append_cancel_left h1
    exact absurd rfl ((h2 _ (by rw [← this]; simp)).1 a x)
  · rw [h, h1, List.append_assoc, List.append_assoc] at h3
    have h3 := List.append_cancel_left h3
    have hpre : es <+: pre := by
      rcases List.prefix_or_prefix_of_prefix (l₃ := es ++ fs) ⟨_, rfl⟩ ⟨_, h3⟩ with h | ⟨y, hy⟩
      · exact h
      · cases y with
        | nil => rw [← hy]; simp
        | cons z zs =>
          rw [← hy, List.append_assoc] at h3
          have := List.append_cancel_left h3
          simp only [List.cons_append, List.cons.injEq] at this
          exact absurd this.1.symm ((h2 z (by rw [← hy]; simp)).1 a x)
    obtain ⟨y, rfl⟩ := hpre
    obtain ⟨⟨hd, g1, g2, g3⟩, bs, status, rest, f1, f2, f3⟩ := hacc
    refine ⟨hd, bs, status, rest, ?_, g1, g2, ?_, f2, positive_of f3⟩
    · rw [h1, visible_append] at g3
      have := List.append_cancel_left g3
      have hm : Ev.robotReq ⟨hd, moveBody k call.controller⟩ ∈ visible es := by rw [this]; simp
      exact List.mem_append_left _ (List.mem_of_mem_filter hm)
    · rw [g2, ← List.append_assoc, ← h1, responses_append]
      exact List.mem_append_left _ f1

end

/-- C25: no other method sends a command, calls a control callback or starts a motion, in whatever world it is called. -/
theorem C25_no_command_elsewhere (c : RobotCall F) (hc : ¬ IsControlMethod c) (w : World F) :
    ∃ es, (c.run w).2.trace = w.trace ++ es ∧ ∀ e ∈ es, ¬ IsMove e ∧ ¬ IsCommand e ∧ ¬ IsCallback e :=
  (plain_call c hc).post w

/-- The last request in this list of events is a Move request. -/
def LastRequestIsMove (tr : List (Ev F)) : Prop := ∃ a h m b, tr = a ++ .robotReq ⟨h, .Move m⟩ :: b ∧ ∀ f ∈ b, ∀ r, f ≠ .robotReq r

theorem rule_C25 : EventRule (F := F) fun pre e => IsCommand e ∨ IsCallback e → LastRequestIsMove pre where
  request pre r hr h := by rcases h with h | h <;> exact h.elim
  accepted pre s h := by rcases h with h | h <;> exact h.elim
  shown pre s b h := by rcases h with h | h <;> exact h.elim
  control call c0 s ctx pre ph ph' e hf hs hr he hcb := by
    have hcalm := run_calm hr
    rcases run_move hr with ⟨rfl, rfl⟩ | ⟨hd, tr', rfl, -, h3, -, -⟩
    · cases he with
      | move => rcases hcb with h | h <;> exact h.elim
      | stop _ _ hm _ => exact hm.elim
    · refine ⟨ctx, hd, _, tr', rfl, ?_⟩
      rintro f hf r rfl
      have hreq := run_requests hr (List.mem_cons_of_mem _ hf)
      have hnostop : ∀ e ∈ tr', ¬ IsStop e := by
        cases ph <;> unfold Calm at hcalm <;> first
          | exact fun e he => hcalm e (List.mem_cons_of_mem _ he)
          | exact fun e he => (hcalm e (List.mem_cons_of_mem _ he)).2.2
          | (exfalso; cases he <;> rcases hcb with h | h <;> exact h.elim)
      rcases hreq with h | h
      · exact h3 _ hf h
      · exact hnostop _ hf h

/-- C25: in every history, the last request before a command or a control callback is a Move request: none is sent by the constructor, or
after another request. -/
theorem C25_every_history (rc : Option RealtimeConfig) (ls : Option Nat) (cs : List (RobotCall F)) (w : World F) (hw : Fresh w) :
    Before (fun pre e => IsCommand e ∨ IsCallback e → LastRequestIsMove pre) (visible (robotSession rc ls cs w).2.trace) :=
  rule_C25.session rc ls cs w hw

section
variable {w : World F} (hw : RobotReachable w) {c : RobotCall F} {σ : Type} {k : MotionKind} {call : ControlCall F σ k} {c0 : σ}
  (hc : IsControl c call c0)
include hw hc

/-! ## C30 -/

/-- C30: whatever the outcome, a control call sends at most one StopMove request, and nothing is commanded and no callback called after it. -/
theorem C30_nothing_after_stop (pre post : List (Ev F)) (h : RobotCommandHeader)
    (he : newEvents w (c.run w).2 = pre ++ .robotReq ⟨h, .StopMove⟩ :: post) :
    (∀ e ∈ pre, ¬ IsStop e) ∧ ∀ e ∈ post, ∃ s, e = .accepted s := by
  obtain ⟨s0, ph, -, -, hr, -⟩ := control_events hw hc
  rw [he] at hr
  exact ⟨(run_stop hr).1, (run_stop hr).2.2⟩

/-- C30, without the errors that occur before the first callback: if a control call that has called a callback or sent a command returns an
error, then it has sent one StopMove request, and, with the state `s` received last before it: either `s` shows a running motion and the error
is the failure of the connection, or `s` shows that the motion is not executed any more, and the error tells how the robot answered the Move
request. Missing: an error while waiting for the start of a motion that the robot has accepted is
returned without StopMove, see `C30_start_error_without_stop`. -/
theorem C30_errors_stop_the_robot_partial (e : FrankaException F) (herr : (c.run w).1 = .err e)
    (hs : ∃ f ∈ newEvents w (c.run w).2, IsCommand f ∨ IsCallback f) :
    ∃ pre h post s, newEvents w (c.run w).2 = pre ++ .robotReq ⟨h, .StopMove⟩ :: post ∧ h.command = .StopMove ∧
      (∀ f ∈ pre, ¬ IsStop f) ∧ (∀ f ∈ post, ∃ s, f = .accepted s) ∧ lastAccepted (visible w.trace ++ pre) = some s ∧
      (Running s ∧ (∃ m, e = .NetworkException m) ∨ ¬ Healthy k call.controller s ∧ ∃ bs status rest log text,
        (w.net.command_id, bs) ∈ responses (c.run w).2.trace ∧ MoveResponse.codec.dec bs = some (status, rest) ∧ ¬ Positive status.status ∧
        e = .ControlException (some log) text ∧ AbortText status.status (RobotState.ofIntern s).last_motion_errors log text) := by
  obtain ⟨s0, ph, hlast, -, hr, -, hres⟩ := control_events hw hc
  rw [herr] at hres
  obtain ⟨f, hf, hf'⟩ := hs
  rcases hres.2 with ⟨h, -⟩ | ⟨s, rfl, -⟩ | ⟨s, rfl, hst⟩
  · rw [h] at hf; simp at hf
  · have := run_calm hr f hf
    rcases hf' with h | h
    · exact absurd h this.1
    · exact absurd h this.2.1
  · obtain ⟨tr1, ph1, h, tr2, g1, g2, g3, g4, g5, g6⟩ := hst.events
    have hr' := hr
    rw [g1] at hr'
    refine ⟨tr1, h, tr2, ph1.last, g1, g4, (run_stop hr').1, (run_stop hr').2.2, g2.last (ph0 := .before _) hlast, ?_⟩
    have hmv := run_moving g2
    have hcalm := run_calm g2
    have hin : f ∈ tr1 := by
      rw [g1, List.mem_append, List.mem_cons] at hf
      rcases hf with h | rfl | h
      · exact h
      · rcases hf' with h | h <;> exact h.elim
      · obtain ⟨s', rfl⟩ := (run_stop hr').2.2 f h
        rcases hf' with h | h <;> exact h.elim
    cases g6 with
    | network m ho hm =>
      refine .inl ⟨?_, m, hm⟩
      cases ph1 <;> first
        | exact g3.elim
        | (rcases hf' with h | h
           · exact absurd h (hcalm f hin).1
           · exact absurd h (hcalm f hin).2.1)
        | exact healthy_running hmv
        | exact absurd trivial ho
        | exact hmv
        | exact not_not.1 ho
    | aborted bs status rest log text ho h1 h2 h3 h4 h5 =>
      refine .inr ⟨?_, bs, status, rest, log, text, h1, h2, ?_, h3, h4⟩
      · cases ph1 <;> first
          | exact ho.elim
          | exact hmv
          | exact fun h => ho (healthy_running h)
      obtain ⟨msg, _, _, h, -⟩ := h4
      rintro (hp | hp) <;> rw [hp] at h <;> cases h

/-! ## C31 -/

/-- C31: a callback is called only with the state received last in this call, and only if this state shows the robot in Move mode with the
requested motion generator and controller. -/
theorem C31_callbacks_see_a_running_motion : Before (fun pre e => ∀ st, callbackState e = some st →
    ∃ s, lastAccepted pre = some s ∧ st = RobotState.ofIntern s ∧ s.robot_mode = .Move ∧ s.motion_generator_mode = generatorOf k ∧
      s.controller_mode = controllerOf call.controller) (newEvents w (c.run w).2) := by
  obtain ⟨s0, ph, -, -, hr, -⟩ := control_events hw hc
  intro pre e post he st hst
  obtain ⟨ph1, ph2, h1, h2⟩ := hr.before_all pre e post he
  have hh := run_health h1
  cases h2 <;> simp only [callbackState, Option.some.injEq, reduceCtorEq] at hst <;> subst hst <;>
    exact ⟨_, hh.1, rfl, hh.2.1, hh.2.2.1, hh.2.2.2⟩

/-! ## C32 -/

omit hw hc in
/-- A state after an open command that does not show the motion breaks it. -/
theorem broken_of {s0 s : RobotStateIntern F} {pre : List (Ev F)} {ph : Phase F σ} {a : Addr} {x : RobotCommand F}
    (hr : Run call c0 (.before s0) (pre ++ [.udpSend a x, .accepted s]) ph) (hx : x.motion.motion_generation_finished = false)
    (hn : ¬ Healthy k call.controller s) : ph = .broken s := by
  obtain ⟨ph1, -, h2⟩ := hr.split
  obtain ⟨ph2, h3, h4⟩ := h2.step_of_cons
  obtain ⟨ph3, h5, h6⟩ := h4.step_of_cons
  rcases run_cases h6 with ⟨-, rfl⟩ | ⟨_, _, _, h, -⟩
  · cases h3 with
    | send =>
      cases h5 with
      | next _ _ _ _ _ _ hh => exact absurd hh hn
      | nextBroken => rfl
    | finish => cases hx
  · simp at h

/-- C32, without the cases in which the process is aborted: if a state that follows a command (without finished flag) shows that the robot does
not execute the motion any more, then no callback is called any more, the call does not return Ok, and if it returns then with a
`ControlException` that carries the text for the answer of the robot to the Move request and, after a reflex, the errors of this state. Missing: the
call may also panic (`C32_reflex_report_panics`, `C32_positive_answer_panics`, `C32_rejected_stop_panics`). -/
theorem C32_abort_is_reported_partial (pre post : List (Ev F)) (a : Addr) (x : RobotCommand F) (s : RobotStateIntern F)
    (he : newEvents w (c.run w).2 = pre ++ .udpSend a x :: .accepted s :: post) (hx : x.motion.motion_generation_finished = false)
    (hn : ¬ Healthy k call.controller s) :
    (∀ e ∈ post, ¬ IsCallback e ∧ ¬ IsCommand e) ∧
    match (c.run w).1 with
    | .ok _ => False
    | .err e => ∃ bs status rest log text, (w.net.command_id, bs) ∈ responses (c.run w).2.trace ∧
        MoveResponse.codec.dec bs = some (status, rest) ∧ ¬ Positive status.status ∧ e = .ControlException (some log) text ∧
        AbortText status.status (RobotState.ofIntern s).last_motion_errors log text
    | _ => True := by
  obtain ⟨s0, ph, hlast, -, hr, -, hres⟩ := control_events hw hc
  have he' : newEvents w (c.run w).2 = (pre ++ [.udpSend a x, .accepted s]) ++ post := by rw [he]; simp
  have hr' := hr
  rw [he'] at hr'
  obtain ⟨ph1, h1, h2⟩ := hr'.split
  obtain rfl := broken_of h1 hx hn
  have key : (post = [] ∧ ph = .broken s) ∨ ∃ hd post' s', post = .robotReq ⟨hd, .StopMove⟩ :: post' ∧ (∀ e ∈ post', ∃ s, e = .accepted s) ∧ ph = .stopping s' := by
    cases post with
    | nil =>
      rcases run_cases h2 with ⟨-, rfl⟩ | ⟨_, _, _, h, -⟩
      · exact .inl ⟨rfl, rfl⟩
      · simp at h
    | cons e post' =>
      obtain ⟨ph2, h3, h4⟩ := h2.step_of_cons
      cases h3 with
      | stop _ hd hm hc =>
        obtain ⟨⟨s', g3⟩, g4⟩ := run_from_stopping h4
        exact .inr ⟨hd, post', s', rfl, g4, g3⟩
  constructor
  · rcases key with ⟨rfl, -⟩ | ⟨hd, post', s', rfl, g, -⟩
    · simp
    · intro e hm
      rcases List.mem_cons.1 hm with rfl | hm
      · exact ⟨fun h => h, fun h => h⟩
      · obtain ⟨s'', rfl⟩ := g e hm
        exact ⟨fun h => h, fun h => h⟩
  · cases hrun : (c.run w).1 with
    | ok _ =>
      rw [hrun] at hres
      obtain ⟨-, s1, m, t, hph, -⟩ := hres
      rcases key with ⟨-, h⟩ | ⟨_, _, _, _, _, h⟩ <;> rw [h] at hph <;> cases hph
    | err e =>
      rw [hrun] at hres
      rcases hres.2 with ⟨h, -⟩ | ⟨s1, h, -⟩ | ⟨s1, h, hst⟩
      · rw [he'] at h; simp at h
      · rcases key with ⟨-, h'⟩ | ⟨_, _, _, _, _, h'⟩ <;> rw [h'] at h <;> cases h
      · rcases key with ⟨-, h'⟩ | ⟨hd, post', s', rfl, -, -⟩
        · rw [h'] at h; cases h
        · obtain ⟨tr1, ph1, hd1, tr2, g1, g2, g3, g4, g5, g6⟩ := hst.events
          have hs1 : ∀ e ∈ tr1, ¬ IsStop e := by rw [g1] at hr; exact (run_stop hr).1
          have hs2 : ∀ e ∈ pre ++ [.udpSend a x, .accepted s], ¬ IsStop e := by rw [he'] at hr; exact (run_stop hr).1
          have heq : tr1 = pre ++ [.udpSend a x, .accepted s] := by
            rw [g1] at he'
            rcases List.append_eq_append_iff.1 he' with ⟨y, hy, hz⟩ | ⟨y, hy, hz⟩
            · cases y with
              | nil => simpa using hy.symm
              | cons z zs =>
                simp only [List.cons_append, List.cons.injEq] at hz
                exact absurd ⟨_, hz.1.symm⟩ (hs2 z (by rw [hy]; simp))
            · cases y with
              | nil => simpa using hy
              | cons z zs =>
                simp only [List.cons_append, List.cons.injEq] at hz
                exact absurd ⟨_, hz.1.symm⟩ (hs1 z (by rw [hy]; simp))
          subst heq
          obtain rfl := broken_of g2 hx hn
          cases g6 with
          | network m ho _ => exact absurd trivial ho
          | aborted bs status rest log text ho f1 f2 f3 f4 f5 =>
            refine ⟨bs, status, rest, log, text, f1, f2, ?_, f3, f4⟩
            obtain ⟨msg, _, _, h, -⟩ := f4
            rintro (hp | hp) <;> rw [hp] at h <;> cases h
    | panic m => trivial
    | blocked => trivial

/-! ## C33 -/

/-- C33: if a control call returns Ok, or an error after it told the robot to stop, the last known state shows no motion. -/
theorem C33_left_idle (h : (c.run w).1 = .ok () ∨ (∃ e, (c.run w).1 = .err e) ∧ ∃ f ∈ newEvents w (c.run w).2, IsStop f) :
    ∃ s, lastAccepted (visible (c.run w).2.trace) = some s ∧ ¬ Running s := by
  obtain ⟨s0, ph, hlast, -, hr, -, hres⟩ := control_events hw hc
  have hv : visible (c.run w).2.trace = visible w.trace ++ newEvents w (c.run w).2 := by
    obtain ⟨es, he⟩ := call_grows c w
    unfold newEvents
    rw [he, List.drop_left, visible_append]
  have hl : lastAccepted (visible (c.run w).2.trace) = some ph.last := by rw [hv]; exact hr.last (ph0 := .before _) hlast
  refine ⟨ph.last, hl, ?_⟩
  rcases h with hok | ⟨⟨e, herr⟩, f, hf, hf'⟩
  · rw [hok] at hres
    obtain ⟨-, s, m, t, rfl, hfin⟩ := hres
    exact hfin.still
  · rw [herr] at hres
    rcases hres.2 with ⟨h, -⟩ | ⟨s, rfl, -⟩ | ⟨s, rfl, hst⟩
    · rw [h] at hf; simp at hf
    · exact absurd hf' (run_calm hr f hf).2.2
    · exact hst.still

/-- C33: after such an end, the next control call writes its Move request, if the system accepts it: nothing in the library is in the way
(real-time scheduling is available or not demanded, the write succeeds and the request numbers are not used up). -/
theorem C33_next_motion_can_start (h : (c.run w).1 = .ok () ∨ (∃ e, (c.run w).1 = .err e) ∧ ∃ f ∈ newEvents w (c.run w).2, IsStop f)
    {c' : RobotCall F} {σ' : Type} {k' : MotionKind} {call' : ControlCall F σ' k'} {c0' : σ'} (hc' : IsControl c' call' c0')
    (hrt : ¬ RealTimeMissing (c.run w).2) (t : Tick) (ts : List Tick) (hs : (c.run w).2.script = t :: ts) (hf : t.fail = false)
    (hid : (c.run w).2.net.command_id ≠ 0xffffffff) :
    ∃ hd tr, newEvents (c.run w).2 (c'.run (c.run w).2).2 = .robotReq ⟨hd, moveBody k' call'.controller⟩ :: tr := by
  have hreach : RobotReachable (c.run w).2 := hw.after c (h.imp (fun h => h) fun h => h.1)
  obtain ⟨s, h1, h2⟩ := C33_left_idle hw hc h
  obtain ⟨s', ph, h3, h4, -⟩ := control_events hreach hc'
  rw [h1] at h3
  cases h3
  obtain ⟨hd, es, he⟩ := control_starts hc' s h4 h2 hrt t ts hs hf hid
  refine ⟨hd, visible es, ?_⟩
  unfold newEvents
  rw [he, List.drop_left]
  rfl

/-! ## C34 -/

end

/-- What a command satisfies that is sent after the events `pre`. -/
theorem command_values {σ : Type} {k : MotionKind} {call : ControlCall F σ k} {c0 : σ} {s : RobotStateIntern F} {pre : List (Ev F)} {ph ph' : Phase F σ}
    {a : Addr} {x : RobotCommand F} (hr : Run call c0 (.before s) pre ph) (he : Step call c0 ph (.udpSend a x) ph') :
    ∃ out m b id, TorqueOk call x.control ∧ LastOutput pre k out ∧ Converted k out m ∧
      x = { message_id := id, motion := { m with motion_generation_finished := b }, control := x.control } := by
  have hv := run_values hr
  cases he with
  | send c s m t a =>
    obtain ⟨h1, out, h2, h3⟩ := hv
    refine ⟨out, m, false, s.message_id, h1, h2, h3, ?_⟩
    have := h3.ok.flag
    cases m
    simp only at this
    rw [this]
  | finish s m t a hrun =>
    obtain ⟨h1, out, h2, h3⟩ := hv
    exact ⟨out, m, true, s.message_id, h1, h2, h3, rfl⟩

theorem rule_C34 (hz : Fl.isFinite (Fl.lit 0 : F) = true) : EventRule (F := F) fun _ e => ∀ a x, e = .udpSend a x → FiniteCommand x where
  request pre r _ := by simp
  accepted pre s := by simp
  shown pre s b := by simp
  control call c0 s ctx pre ph ph' e _ _ hr he := by
    rintro a x rfl
    obtain ⟨out, m, b, id, h1, -, h2, hx⟩ := command_values hr he
    rw [hx]
    exact h2.ok.finite hz id b x.control (h1.finite hz)

/-- C34: in every history, every command sent has only finite components. The arithmetic is arbitrary; only that the constant 0 is
finite is assumed. -/
theorem C34_commands_are_finite (hz : Fl.isFinite (Fl.lit 0 : F) = true) (rc : Option RealtimeConfig) (ls : Option Nat) (cs : List (RobotCall F))
    (w : World F) (hw : Fresh w) : ∀ a x, .udpSend a x ∈ (robotSession rc ls cs w).2.trace → FiniteCommand x := by
  intro a x hx
  have hx : Ev.udpSend a x ∈ visible (robotSession rc ls cs w).2.trace := List.mem_filter.2 ⟨hx, rfl⟩
  obtain ⟨pre, post, h⟩ := List.append_of_mem hx
  exact (rule_C34 hz).session rc ls cs w hw pre _ post h a x rfl

section
variable {w : World F} (hw : RobotReachable w) {c : RobotCall F} {σ : Type} {k : MotionKind} {call : ControlCall F σ k} {c0 : σ}
  (hc : IsControl c call c0)
include hw hc

/-! ## C35, C36, C37 -/

/-- C35: the motion fields of a command are zero but for the kind of the motion, it has a valid elbow if and only if the motion callback that
was called last gave one, and without a torque callback the torques are zero. -/
theorem C35_only_the_commanded_quantity : Before (fun pre e => ∀ a x, e = .udpSend a x → OnlyKind k x.motion ∧
    (∃ out, LastOutput pre k out ∧ x.motion.valid_elbow = (elbowOf out).isSome) ∧ (call.torque = none → Zero x.control.tau_J_d))
    (newEvents w (c.run w).2) := by
  obtain ⟨s0, ph, -, -, hr, -⟩ := control_events hw hc
  rintro pre e post h a x rfl
  obtain ⟨ph1, ph2, h1, h2⟩ := hr.before_all pre _ post h
  obtain ⟨out, m, b, id, g1, g2, g3, hx⟩ := command_values h1 h2
  rw [hx]
  refine ⟨⟨g3.ok.only.q, g3.ok.only.dq, g3.ok.only.pose, g3.ok.only.twist, g3.ok.only.elbow⟩, ⟨out, g2, g3.elbow⟩, fun ht i => ?_⟩
  rw [g1.zero ht]; rfl

/-- C36: a command with a valid elbow is sent only if the absolute value of the elbow's sign compares equal to 1. -/
theorem C36_elbow_is_valid : ∀ a x, .udpSend a x ∈ newEvents w (c.run w).2 → x.motion.valid_elbow = true →
    Fl.feq (Fl.fabs (x.motion.elbow_c 1)) (Fl.lit 1) = true := by
  obtain ⟨s0, ph, -, -, hr, -⟩ := control_events hw hc
  intro a x hx hv
  obtain ⟨pre, post, h⟩ := List.append_of_mem hx
  obtain ⟨ph1, ph2, h1, h2⟩ := hr.before_all pre _ post h
  obtain ⟨out, m, b, id, g1, g2, g3, hx⟩ := command_values h1 h2
  rw [hx] at hv ⊢
  exact (g3.ok.elbow hv).2

/-- C36, C37: if the values a motion callback returned can not be converted, the call panics directly afterwards, before anything is sent. -/
theorem C36_refused_values_panic (pre post : List (Ev F)) (st : RobotState F) (dt : Nat) (out : Motion F k)
    (h : newEvents w (c.run w).2 = pre ++ .motionCb k st dt out :: post)
    (hbad : ∀ m m', out.convert_motion st m call.cutoff call.limit_rate ≠ .ok m') : post = [] ∧ ∃ msg, (c.run w).1 = .panic msg := by
  obtain ⟨s0, ph, -, -, hr, -, hres⟩ := control_events hw hc
  rw [h] at hr
  obtain ⟨ph1, h1, h2⟩ := hr.split
  obtain ⟨ph2, h3, h4⟩ := h2.step_of_cons
  cases h3 with
  | motion _ _ _ m _ _ _ _ m' _ _ _ _ hok => exact absurd hok (hbad m m')
  | motionFirst _ _ _ m _ _ _ _ m' _ _ _ _ hok => exact absurd hok (hbad m m')
  | motionEnd _ _ _ m _ _ _ _ m' _ _ _ hok => exact absurd hok (hbad m m')
  | motionRefused _ s =>
    have hp := run_from_refused h4
    refine ⟨hp, ?_⟩
    subst hp
    have hph : ph = .refused s := by
      rcases run_cases h4 with ⟨-, h⟩ | ⟨_, _, _, h, -⟩
      · exact h
      · simp at h
    subst hph
    cases hres1 : (c.run w).1 with
    | ok _ => rw [hres1] at hres; obtain ⟨-, s, m, t, h, -⟩ := hres; cases h
    | err e =>
      rw [hres1] at hres
      rcases hres.2 with ⟨h', -⟩ | ⟨s, h, -⟩ | ⟨s, h, -⟩
      · rw [h] at h'; simp at h'
      · cases h
      · cases h
    | panic m => exact ⟨m, rfl⟩
    | blocked => rw [hres1] at hres; exact absurd rfl (hres s)

/-- C36: if a motion callback returns an elbow whose sign is neither +1 nor -1, the call panics directly afterwards, before anything is sent. -/
theorem C36_wrong_sign_panics (pre post : List (Ev F)) (st : RobotState F) (dt : Nat) (out : Motion F k) (elbow : Arr F 2)
    (h : newEvents w (c.run w).2 = pre ++ .motionCb k st dt out :: post) (he : elbowOf out = some elbow)
    (hbad : Fl.feq (Fl.fabs (elbow 1)) (Fl.lit 1) = false) : post = [] ∧ ∃ msg, (c.run w).1 = .panic msg := by
  refine C36_refused_values_panic hw hc pre post st dt out h fun m m' hm => ?_
  rw [(convert_motion_sign hm he).2] at hbad
  cases hbad

/-- C37, first part: a command of a Cartesian pose motion is sent only if its pose passes the test for homogeneous transformations, and has
only finite components. -/
theorem C37_pose_is_checked (hk : k = .CartesianPose) : ∀ a x, .udpSend a x ∈ newEvents w (c.run w).2 →
    AllFinite x.motion.O_T_EE_c ∧ is_homogeneous_transformation x.motion.O_T_EE_c = true := by
  obtain ⟨s0, ph, -, -, hr, -⟩ := control_events hw hc
  intro a x hx
  obtain ⟨pre, post, h⟩ := List.append_of_mem hx
  obtain ⟨ph1, ph2, h1, h2⟩ := hr.before_all pre _ post h
  obtain ⟨out, m, b, id, g1, g2, g3, hx⟩ := command_values h1 h2
  rw [hx]
  exact g3.pose hk

/-! ## C38 -/

/-- C38: if real-time scheduling is demanded and not available, a control call returns a `RealTimeException` and changes nothing: no
message is sent or received. -/
theorem C38_enforced (h : RealTimeMissing w) : (c.run w).2 = w ∧ ∃ m, (c.run w).1 = .err (.RealTimeException m) := by
  obtain ⟨s0, ph, -, -, -, hrt, -⟩ := control_events hw hc
  exact hrt h

/-- C38: otherwise a control call never returns a `RealTimeException`. -/
theorem C38_ignored (h : ¬ RealTimeMissing w) (m : String) : (c.run w).1 ≠ .err (.RealTimeException m) := by
  obtain ⟨s0, ph, -, -, hr, -, hres⟩ := control_events hw hc
  intro he
  rw [he] at hres
  rcases hres.2 with ⟨-, h', -⟩ | ⟨s, -, -, hs⟩ | ⟨s, -, hs⟩
  · exact h h'
  · cases hs with
    | network m h => cases h
    | rejected bs status rest msg h1 h2 h3 h4 => rcases h4 with h | h <;> cases h
  · obtain ⟨_, _, _, _, _, _, _, _, _, hf⟩ := hs.events
    cases hf with
    | network m _ h => cases h
    | aborted _ _ _ _ _ _ _ _ h => cases h

end

/-- C38 for whole histories: `rc` is what the user gave to the constructor (by default real-time scheduling is demanded) and `w.cfg` the machine
before the connection was made. After any calls, a control call fails with a `RealTimeException` without doing anything if real-time
scheduling is demanded and the machine is not capable of it, and otherwise never fails with it. -/
theorem C38_whole_history (rc : Option RealtimeConfig) (ls : Option Nat) (cs : List (RobotCall F)) (w w1 : World F) (hw : Fresh w)
    (h : robotSession rc ls cs w = (.ok (), w1)) {c : RobotCall F} {σ : Type} {k : MotionKind} {call : ControlCall F σ k} {c0 : σ}
    (hc : IsControl c call c0) :
    (rc.getD .Enforce = .Enforce ∧ ¬ RealTimeCapable w.cfg → (c.run w1).2 = w1 ∧ ∃ m, (c.run w1).1 = .err (.RealTimeException m)) ∧
    (rc.getD .Enforce = .Ignore ∨ RealTimeCapable w.cfg → ∀ m, (c.run w1).1 ≠ .err (.RealTimeException m)) := by
  have hreach : RobotReachable w1 := ⟨rc, ls, cs, w, hw, h⟩
  obtain ⟨h1, h2⟩ := (session_setup rc ls cs w).reach h
  have h3 : RealTimeMissing w1 ↔ rc.getD .Enforce = .Enforce ∧ ¬ RealTimeCapable w.cfg := by
    unfold RealTimeMissing RealTimeCapable
    rw [h1, h2]
  refine ⟨fun h => C38_enforced hreach hc (h3.2 h), fun h m => C38_ignored hreach hc (fun h' => ?_) m⟩
  obtain ⟨g1, g2⟩ := h3.1 h'
  rcases h with h | h
  · rw [h] at g1; cases g1
  · exact g2 h

/-! ## Refutations -/

/-- C30 fails in the start phase: the robot has accepted the motion, the state stream stops, and the call returns an error without a StopMove
request. -/
theorem C30_start_error_without_stop : ∃ w : World UInt64, RobotReachable w ∧
    ((Toy.call 9).run w).1 = .err (.NetworkException "libfranka-rs: UDP receive: timeout") ∧
    (∃ h m, newEvents w ((Toy.call 9).run w).2 = [.robotReq ⟨h, .Move m⟩]) ∧
    ∃ bs status, (w.net.command_id, bs) ∈ responses ((Toy.call 9).run w).2.trace ∧ MoveResponse.codec.dec bs = some (status, []) ∧
      Positive status.status := by
  refine ⟨Toy.robot Toy.neverStarted, Toy.robot_reachable _, Toy.network_of (Toy.res_of Toy.neverStarted_shown), ?_, ?_⟩
  · have h := Toy.events_of Toy.neverStarted_shown
    obtain ⟨pre, e, post, h1, h2, h3, h4⟩ := Toy.split_of (a := []) h
    obtain ⟨r, rfl, -, -, g⟩ := Toy.request_of h3
    obtain ⟨m, g⟩ := g rfl
    rw [List.map_eq_nil_iff] at h2 h4
    obtain ⟨hd, rq⟩ := r
    cases g
    exact ⟨hd, m, by rw [h1, h2, h4]; rfl⟩
  · have h : responses ((Toy.call 9).run (Toy.robot Toy.neverStarted)).2.trace = [(0, Toy.connected), (1, Toy.response 1 1 1)] := by kernel_rfl
    rw [h, Toy.robot_id]
    exact ⟨Toy.response 1 1 1, ⟨⟨.Move, 1, 13⟩, .MotionStarted⟩, by simp, rfl, .inr rfl⟩

/-- A state after a command of this call shows that the robot does not execute the motion any more. -/
def Aborted (w : World UInt64) : Prop := ∃ pre a x s post, newEvents w ((Toy.call 9).run w).2 = pre ++ .udpSend a x :: .accepted s :: post ∧
  x.motion.motion_generation_finished = false ∧ ¬ Healthy .JointPositions .JointImpedance s

theorem aborted_of {w : World UInt64} {a : Nat × String} {es bs : List (List Nat)} {i q n : Nat}
    (h : Toy.shown (Toy.call 9) w = (a, es ++ [3, i, q, 0] :: [1, n, 0] :: bs)) : Aborted w := by
  obtain ⟨pre, e, post, h1, -, h3, h4⟩ := Toy.split_of (Toy.events_of h)
  obtain ⟨pre', f, post', rfl, h5, h6, -⟩ := Toy.split_of (a := []) h4
  obtain ⟨ad, x, rfl, -, -, h7⟩ := Toy.send_of h3
  obtain ⟨s, rfl, -, h8⟩ := Toy.accepted_of h6
  rw [List.map_eq_nil_iff] at h5
  subst h5
  refine ⟨pre, ad, x, s, post', h1, by simpa using h7, fun hh => ?_⟩
  simpa using h8.1 hh.1

/-- C32 fails: with a log of two entries and three cycles, building the report about a reflex panics. -/
theorem C32_reflex_report_panics : ∃ w : World UInt64, RobotReachable w ∧ Aborted w ∧
    ((Toy.call 9).run w).1 = .panic "overflow when subtracting durations" :=
  ⟨_, Toy.robotL_reachable 2 Toy.reflex, aborted_of Toy.reflexLog_shown, Toy.panic_of (Toy.res_of Toy.reflexLog_shown)⟩

/-- C32 fails: if the robot answers the Move request with success although the motion was aborted, the call panics. -/
theorem C32_positive_answer_panics : ∃ w : World UInt64, RobotReachable w ∧ Aborted w ∧
    ((Toy.call 9).run w).1 = .panic "Unexpected reply to a Move command" :=
  ⟨_, Toy.robot_reachable Toy.reflexSuccess, aborted_of Toy.reflexSuccess_shown, Toy.panic_of (Toy.res_of Toy.reflexSuccess_shown)⟩

/-- C30, C32 fail: if the robot rejects the StopMove request, the call panics instead of reporting the error of the motion. -/
theorem C32_rejected_stop_panics : ∃ w : World UInt64, RobotReachable w ∧ (∃ f ∈ newEvents w ((Toy.call 9).run w).2, IsStop f) ∧
    ((Toy.call 9).run w).1 = .panic "error while canceling motion" := by
  refine ⟨_, Toy.robot_reachable Toy.stopRejected, ?_, Toy.panic_of (Toy.res_of Toy.stopRejected_shown)⟩
  obtain ⟨pre, e, post, h1, -, h3, -⟩ := Toy.split_of (a := Toy.movingEvents ++ [[3, 5, 14, 0]]) (x := [0, 2, 2]) (b := [])
    ((Toy.events_of Toy.stopRejected_shown).trans rfl)
  obtain ⟨⟨hd, r⟩, rfl, -, g, -⟩ := Toy.request_of h3
  exact ⟨.robotReq ⟨hd, r⟩, by rw [h1]; simp, hd, by cases (g rfl : r = _); rfl⟩

/-! ## Examples

The motions of `Lemmas/ToyMotion.lean` meet the hypotheses of the theorems of this file. A summary of an event is a list of numbers: `[0, 1, n]`
is the Move request and `[0, 2, n]` the StopMove request with number `n`, `[1, i, b]` a state with message id `i` (`b = 1` in Move mode), `[2, dt]` a
call of the motion callback, `[4, dt]` a call of the torque callback, `[3, i, q, b]` a command that answers the state `i`, where `q` is the position of
the first joint and `b` the finished flag. -/

section examples
open Toy

/-- A motion that finishes: C23 - C29, C31, C33 - C35. -/
example : RobotReachable (robot finished) ∧ IsControl (call 2) (asked 2) 0 ∧ ((call 2).run (robot finished)).1 = .ok () ∧
    (newEvents (robot finished) ((call 2).run (robot finished)).2).map show1 =
      [[0, 1, 1], [1, 2, 1], [1, 3, 1], [2, 0], [3, 3, 0, 0], [1, 4, 1], [2, 1], [3, 4, 7, 0], [1, 5, 1], [2, 1], [3, 5, 14, 1], [1, 6, 1],
       [3, 6, 14, 1], [1, 7, 0]] :=
  ⟨robot_reachable _, call_control 2, ok_of (res_of finished_shown), events_of finished_shown⟩

/-- A motion with torques: C27, C28, C29, C35. -/
example : RobotReachable (robot torqueFinished) ∧ IsControl (torqueCall 2) (torqueAsked 2) 0 ∧
    ((torqueCall 2).run (robot torqueFinished)).1 = .ok () ∧
    (newEvents (robot torqueFinished) ((torqueCall 2).run (robot torqueFinished)).2).map show1 =
      [[0, 1, 1], [1, 2, 1], [1, 3, 1], [2, 0], [4, 0], [3, 3, 0, 0], [1, 4, 1], [2, 1], [4, 1], [3, 4, 7, 0], [1, 5, 1], [2, 1], [3, 5, 14, 1],
       [1, 6, 0]] :=
  ⟨robot_reachable _, torque_control 2, ok_of (res_of torque_shown), events_of torque_shown⟩

/-- C30: the state stream is interrupted, the robot is told to stop, and the call returns the error. -/
example : RobotReachable (robot lost) ∧ ((call 9).run (robot lost)).1 = .err (.NetworkException "libfranka-rs: UDP receive: timeout") ∧
    (newEvents (robot lost) ((call 9).run (robot lost)).2).map show1 = movingEvents ++ [[3, 5, 14, 0], [0, 2, 2], [1, 9, 0]] :=
  ⟨robot_reachable _, network_of (res_of lost_shown), events_of lost_shown⟩

/-- C30, C32: a reflex stops the robot, and the call returns what the robot reported. -/
example : RobotReachable (robot reflex) ∧ Aborted (robot reflex) ∧ (∃ log, ((call 9).run (robot reflex)).1 = .err (.ControlException log
      "\"libfranka-rs: Move command aborted: motion aborted by reflex!\" [\ncontrol_command_success_rate: 0")) ∧
    (newEvents (robot reflex) ((call 9).run (robot reflex)).2).map show1 = movingEvents ++ [[3, 5, 14, 0], [1, 6, 0], [0, 2, 2], [1, 9, 0]] :=
  ⟨robot_reachable _, aborted_of reflex_shown, control_of (res_of reflex_shown), events_of reflex_shown⟩

/-- C36, C37: a pose with a valid elbow is sent. -/
example : RobotReachable (robot poseStarted) ∧ IsControl (poseCall 1) (poseAsked 1) 0 ∧
    ∃ a x, .udpSend a x ∈ newEvents (robot poseStarted) ((poseCall 1).run (robot poseStarted)).2 ∧ x.motion.valid_elbow = true := by
  refine ⟨robot_reachable _, pose_control 1, ?_⟩
  obtain ⟨pre, e, post, h1, -, h3, -⟩ := split_of (a := [[0, 1, 1], [1, 2, 1], [1, 3, 1], [2, 0]]) (x := [3, 3, 0, 0])
    (b := [[1, 4, 1], [2, 1]]) (events_of pose_shown)
  obtain ⟨a, x, rfl, -⟩ := send_of h3
  have hx := C35_only_the_commanded_quantity (robot_reachable poseStarted) (pose_control 1) pre _ post h1 a x rfl
  obtain ⟨-, ⟨out, ⟨p', st, dt, q', hq, -⟩, hv⟩, -⟩ := hx
  refine ⟨a, x, by rw [h1]; simp, ?_⟩
  have hcb := C36_elbow_is_valid (robot_reachable poseStarted) (pose_control 1) a x (by rw [h1]; simp)
  rw [hv]
  have : ∀ (k : MotionKind) (s : RobotState UInt64) dt (o : Motion UInt64 k), .motionCb k s dt o ∈
      newEvents (robot poseStarted) ((poseCall 1).run (robot poseStarted)).2 → (elbowOf o).isSome = true := by
    have h : (newEvents (robot poseStarted) ((poseCall 1).run (robot poseStarted)).2).all (fun e => match e with
        | .motionCb k s dt o => (elbowOf o).isSome
        | _ => true) = true := by kernel_rfl
    intro k s dt o ho
    exact List.all_eq_true.1 h _ ho
  exact this _ st dt out (by rw [h1, hq]; simp)

/-- C36: an elbow with a wrong sign panics, and no command was sent. -/
example : RobotReachable (robot poseStarted) ∧ ((poseCall 2).run (robot poseStarted)).1 = .panic "assertion failed: CartesianPose::is_valid_elbow(elbow)" ∧
    (newEvents (robot poseStarted) ((poseCall 2).run (robot poseStarted)).2).map show1 = [[0, 1, 1], [1, 2, 1], [1, 3, 1], [2, 0]] :=
  ⟨robot_reachable _, panic_of (res_of badElbow_shown), events_of badElbow_shown⟩

end examples

end Verif
