import Verif.Lemmas.Protocol
import Verif.Lemmas.ToyStream
import Verif.Props.Control
import Verif.Lemmas.States
/-!
# The state stream: C11 - C16, C22

`udpArrived w.script` are the datagrams that arrive after the world `w`, in order; `datagrams tr` are those which were taken from the socket
and `accepted tr` the states that were taken as the new robot state. Datagrams may be lost, duplicated, delayed and reordered in any way; the
theorems that need more say so (`ExactSize`, `InOrder`, `OneSource`). `NoFail` excludes failing system calls.
-/
set_option linter.unusedSectionVars false
namespace Verif
open Prog Spec
variable {F : Type} [Fl F] [Wire F] [LawfulWire F] [Geo F]

/-! ## C11 -/

/-- The states shown to the callbacks of `read` and to the motion callbacks, in order. (A torque callback gets the state of the motion
callback before it, see `C27_callback_timing`.) -/
def handedOut (tr : List (Ev F)) : List (RobotState F) := tr.filterMap fun
  | .readCb s _ => some s
  | .motionCb _ s _ _ => some s
  | _ => none

theorem ready_accepted {σ : Type} {k : MotionKind} {call : ControlCall F σ k} {c0 c : σ} {s0 s : RobotStateIntern F} {tr : List (Ev F)} {prev : Nat}
    {m : MotionGeneratorCommand F} {t : ControllerCommand F} (h : Run call c0 (.before s0) tr (.ready c s prev m t)) :
    ∃ tr', tr = tr' ++ [.accepted s] := by
  rcases run_cases h with ⟨-, h⟩ | ⟨tr', ph', e, rfl, -, h2⟩
  · cases h
  · cases h2 <;> exact ⟨tr', rfl⟩

/-- A state is shown directly after it was accepted. -/
def ShownAt (pre : List (Ev F)) (e : Ev F) : Prop :=
  ∀ st ∈ handedOut [e], ∃ pre' s, pre = pre' ++ [.accepted s] ∧ st = RobotState.ofIntern s

theorem rule_C11 : EventRule (F := F) ShownAt where
  request pre r _ := by intro st h; simp [handedOut] at h
  accepted pre s := by intro st h; simp [handedOut] at h
  shown pre s b := by
    intro st h
    simp only [handedOut, List.filterMap_cons, List.filterMap_nil, List.mem_singleton] at h
    exact ⟨pre, s, rfl, h⟩
  control call c0 s ctx pre ph ph' e hf hs hr he := by
    intro st h
    have key : ∀ {c s' prev m t}, ph = .ready c s' prev m t → st = RobotState.ofIntern s' →
        ∃ pre' s, ctx ++ pre = pre' ++ [.accepted s] ∧ st = RobotState.ofIntern s := by
      rintro c s' prev m t rfl rfl
      obtain ⟨pre', rfl⟩ := ready_accepted hr
      exact ⟨ctx ++ pre', s', by simp, rfl⟩
    cases he <;> simp only [handedOut, List.filterMap_cons, List.filterMap_nil, List.mem_singleton, List.not_mem_nil] at h <;>
      exact key rfl h

theorem handedOut_sublist (tr : List (Ev F)) (h : Before ShownAt tr) :
    (handedOut tr).Sublist ((accepted tr).map RobotState.ofIntern) ∧
    ∀ tr' s, tr = tr' ++ [.accepted s] → (handedOut tr).Sublist ((accepted tr').map RobotState.ofIntern) := by
  induction tr using List.reverseRecOn with
  | nil => exact ⟨by simp [handedOut], by simp⟩
  | append_singleton tr e ih =>
    obtain ⟨h1, h2⟩ := (before_snoc _ _ _).1 h
    obtain ⟨i1, i2⟩ := ih h1
    have ho : handedOut (tr ++ [e]) = handedOut tr ++ handedOut [e] := by simp [handedOut, List.filterMap_append]
    cases hh : handedOut [e] with
    | nil =>
      rw [ho, hh, List.append_nil]
      refine ⟨i1.trans (by rw [accepted_append, List.map_append]; exact List.sublist_append_left _ _), ?_⟩
      intro tr' s ht
      obtain ⟨rfl, -⟩ := List.append_inj' ht rfl
      exact i1
    | cons st rest =>
      have hrest : rest = [] := by cases e <;> simp [handedOut] at hh <;> exact hh.2
      subst hrest
      obtain ⟨pre', s, rfl, rfl⟩ := h2 st (by rw [hh]; simp)
      have hacc : accepted [e] = [] := by cases e <;> simp [handedOut] at hh <;> rfl
      constructor
      · rw [ho, hh, accepted_append, hacc, List.append_nil, accepted_append, List.map_append]
        exact (i2 pre' s rfl).append (List.Sublist.refl _)
      · intro tr' s' ht
        obtain ⟨-, ht⟩ := List.append_inj' ht rfl
        cases ht
        simp [handedOut] at hh

theorem handedOut_visible (tr : List (Ev F)) : handedOut (visible tr) = handedOut tr := by
  induction tr with
  | nil => rfl
  | cons e tr ih =>
    have : visible (e :: tr) = visible [e] ++ visible tr := visible_append [e] tr
    rw [this]
    have h2 : ∀ a b : List (Ev F), handedOut (a ++ b) = handedOut a ++ handedOut b := fun a b => by simp [handedOut, List.filterMap_append]
    rw [h2, ih, show handedOut (e :: tr) = handedOut [e] ++ handedOut tr from h2 [e] tr]
    congr 1
    cases e <;> rfl

theorem accepted_visible (tr : List (Ev F)) : accepted (visible tr) = accepted tr := by
  induction tr with
  | nil => rfl
  | cons e tr ih =>
    have : visible (e :: tr) = visible [e] ++ visible tr := visible_append [e] tr
    rw [this, accepted_append, ih, show accepted (e :: tr) = accepted [e] ++ accepted tr from accepted_append [e] tr]
    congr 1
    cases e <;> rfl

/-- C11: in every history the time stamps of the states that are taken as new robot state increase strictly, and so do those of the states
that are shown to the callbacks. -/
theorem C11_states_are_newer (rc : Option RealtimeConfig) (ls : Option Nat) (cs : List (RobotCall F)) (w : World F) (hw : Fresh w) :
    ((accepted (robotSession rc ls cs w).2.trace).Pairwise fun a b => a.message_id < b.message_id) ∧
    ((handedOut (robotSession rc ls cs w).2.trace).Pairwise fun a b => a.time < b.time) := by
  have h1 := (session_states_weak rc ls cs w hw).ids
  refine ⟨h1, ?_⟩
  have h2 := (handedOut_sublist _ (rule_C11.session rc ls cs w hw)).1
  rw [handedOut_visible, accepted_visible] at h2
  refine List.Pairwise.sublist h2 ?_
  rw [List.pairwise_map]
  exact h1.imp fun {a b} h => UInt64.lt_iff_toNat_lt.1 h

/-- C11: what `read_once` returns is a state with a greater time stamp than all states taken before. -/
theorem C11_read_once_is_newer {w w' : World F} (hw : RobotReachable w) {st : RobotState F} (h : Robot.read_once w = (.ok st, w')) :
    ∃ s, st = RobotState.ofIntern s ∧ accepted w'.trace = accepted w.trace ++ [s] ∧ ∀ s' ∈ accepted w.trace, s'.message_id < s.message_id := by
  obtain ⟨rc, ls, cs, w0, h0, hr⟩ := hw
  have hok := (session_states rc ls cs w0 h0).reach hr
  obtain ⟨-, s0, hh, hs⟩ := RobotReachable.alive ⟨rc, ls, cs, w0, h0, hr⟩
  obtain ⟨s, h1, h2, h3, h4⟩ := (read_once_view w s0 hs).reach h
  have h5 : accepted w'.trace = accepted w.trace ++ [s] := by
    rw [← accepted_visible, h3, accepted_append, accepted_visible]; rfl
  refine ⟨s, h1, h5, fun s' hs' => ?_⟩
  have h6 := hok.last s' hs'
  rw [hs.2.2] at h6
  exact UInt64.lt_of_le_of_lt h6 h2

section
variable (rc : Option RealtimeConfig) (ls : Option Nat) (cs : List (RobotCall F)) (w : World F) (hw : Fresh w)
include hw

theorem session_received (d : Datagram) (hd : d ∈ datagrams (robotSession rc ls cs w).2.trace) : d ∈ udpArrived w.script := by
  obtain ⟨used, es, h1, h2, -, h4⟩ := session_conserve rc ls cs w
  rw [hw.1, List.nil_append] at h2
  rw [h2] at hd
  rw [hw.2] at h4
  rw [h1, udpArrived_append, List.mem_append]
  left
  have h5 : udpArrived used = datagrams es ++ (robotSession rc ls cs w).2.ker.udpRx := h4
  rw [h5]
  exact List.mem_append_left _ hd

/-! ## C12 -/

/-- C12, for datagrams that arrive complete and in order: a state that is taken as the new robot state is the newest one among all datagrams
received before. Missing: a datagram that arrives in a burst after a newer one replaces it, see `C12_reordered_burst`. -/
theorem C12_newest_state_is_used_partial (hx : ExactSize (udpArrived w.script)) (hn : NoFail w.script) (ho : InOrder (udpArrived w.script)) :
    Before (fun pre e => ∀ s, e = .accepted s → ∀ d ∈ datagrams pre, stamp d ≤ s.message_id.toNat) (robotSession rc ls cs w).2.trace :=
  (session_states_weak rc ls cs w hw).newest hx hn ho

/-! ## C13 -/

/-- C13, for datagrams of the right size: a state that is taken as the new robot state is the content of one datagram received before, field
by field. Missing: a datagram of another size that follows in the same burst overwrites the beginning of the state, see `C13_torn_state`, and
one that is too long is cut, see `C13_oversized_accepted`. -/
theorem C13_state_is_one_datagram_partial (hx : ExactSize (udpArrived w.script)) :
    Before (fun pre e => ∀ s, e = .accepted s → ∃ d ∈ datagrams pre, d.data.length = 2373 ∧ StateLayout d.data s) (robotSession rc ls cs w).2.trace := by
  intro pre e post h s he
  obtain ⟨d, h1, h2⟩ := (session_states_weak rc ls cs w hw).single hx pre e post h s he
  exact ⟨d, h1, hx d (session_received rc ls cs w hw d (by rw [h, datagrams_append]; simp [h1])), h2⟩

/-! ## C15 -/

/-- C15: in every history a command is sent to an address from which a datagram was received before; in particular none is sent before the
first state was received. -/
theorem C15_commands_go_to_a_sender : Before (fun pre e => ∀ a c, e = .udpSend a c → ∃ d ∈ datagrams pre, d.src = a)
    (robotSession rc ls cs w).2.trace := (session_states_weak rc ls cs w hw).sent

/-- C15, for datagrams of one sender: every command is sent to the address of the datagram received last. Missing: after a burst of datagrams of
several senders the command goes to the first of them, see `C15_burst_of_two_senders`. -/
theorem C15_commands_go_to_the_robot_partial (a : Addr) (ho : OneSource a (udpArrived w.script)) :
    Before (fun pre e => ∀ a' c, e = .udpSend a' c → ∃ d, (datagrams pre).getLast? = some d ∧ d.src = a') (robotSession rc ls cs w).2.trace := by
  intro pre e post h a' c he
  obtain ⟨d, h1, rfl⟩ := C15_commands_go_to_a_sender rc ls cs w hw pre e post h a' c he
  have hsub : ∀ d ∈ datagrams (robotSession rc ls cs w).2.trace, d.src = a := fun d hd => ho d (session_received rc ls cs w hw d hd)
  have hall : ∀ d ∈ datagrams pre, d.src = a := fun d hd => hsub d (by rw [h, datagrams_append]; simp [hd])
  have hne : datagrams pre ≠ [] := by intro h; rw [h] at h1; simp at h1
  refine ⟨(datagrams pre).getLast hne, List.getLast?_eq_some_getLast hne, ?_⟩
  rw [hall _ (List.getLast_mem hne), hall _ h1]

end

/-! ## C14 -/

/-- C14: if a datagram waits in the socket between two calls, the next blocking receive takes it from there and reports no timeout. -/
theorem C14_waiting_datagram_is_seen (rc : Option RealtimeConfig) (ls : Option Nat) (cs : List (RobotCall F)) (w0 w : World F) (hw : Fresh w0)
    (hn : NoFail w0.script) (h : robotSession rc ls cs w0 = (.ok (), w)) (d : Datagram) (ds : List Datagram) (hd : w.ker.udpRx = d :: ds)
    (r : Res F (RobotStateIntern F)) (w' : World F) (hr : udp_blocking_receive (RobotStateIntern.codec F) size_of_RobotStateIntern w = (r, w')) :
    match r with
    | .ok _ => d ∈ datagrams (w'.trace.drop w.trace.length)
    | .err e => e ≠ .NetworkException "libfranka-rs: UDP receive: timeout" ∧ d ∈ datagrams (w'.trace.drop w.trace.length)
    | _ => True := by
  have hok := (session_states rc ls cs w0 hw).reach h
  have hc : Conserve w w' := by
    have := (pres_udp_blocking_receive (T := Conserve (F := F)) (RobotStateIntern.codec F) size_of_RobotStateIntern w)
    rw [hr] at this; exact this
  obtain ⟨used, es, -, c2, -, c4⟩ := hc
  rw [hd] at c4
  have key : ∀ d' ds', w'.trace = w.trace ++ (d' :: ds').map .udpRecv → d ∈ datagrams (w'.trace.drop w.trace.length) := by
    intro d' ds' ht
    have : es = (d' :: ds').map .udpRecv := List.append_cancel_left (c2.symm.trans ht)
    rw [this, datagrams_map] at c4
    have h0 : d = d' := (List.cons_eq_cons.1 (by simpa using c4)).1
    subst h0
    rw [ht, List.drop_left, datagrams_map]; simp
  have hsp := (blocking_receive_spec (RobotStateIntern.codec F) size_of_RobotStateIntern w).reach hr
  cases r with
  | ok s =>
    obtain ⟨d', ds', -, ht, -⟩ := hsp
    exact key d' ds' ht
  | err e =>
    rcases hsp with ⟨-, ht, -, hrx⟩ | ⟨d', ds', ht, -, -, -, hne⟩ | ⟨hnf, -⟩
    · have h1 := hrx (hok.ready hn)
      have h2 : es = [] := by
        rw [ht] at c2
        exact List.append_cancel_left (as := w.trace) (by rw [List.append_nil]; exact c2.symm)
      rw [h1, h2] at c4
      exact absurd c4 (by simp [datagrams])
    · exact ⟨hne, key d' ds' ht⟩
    · exact absurd (hok.nofail hn) hnf
  | panic m => trivial
  | blocked => trivial

/-- C14: if `read_once` or `read` returns an error, nothing waits in the socket: every datagram that arrived so far has been received. (The
error of a control call is reported later, see `C30_errors_stop_the_robot_partial`.) -/
theorem C14_error_means_nothing_waits (rc : Option RealtimeConfig) (ls : Option Nat) (cs : List (RobotCall F)) (w0 w w' : World F) (hw : Fresh w0)
    (hn : NoFail w0.script) (h : robotSession rc ls cs w0 = (.ok (), w)) (e : FrankaException F) {σ : Type} (cb : σ → RobotState F → σ × Bool) (c : σ)
    (hr : Robot.read_once w = (.err e, w') ∨ Robot.read cb c w = (.err e, w')) :
    w'.ker.udpRx = [] ∧ datagrams w'.trace ++ udpArrived w'.script = udpArrived w0.script := by
  have hok := (session_states rc ls cs w0 hw).reach h
  have key : ∀ {w' : World F}, StateOk (udpArrived w0.script) (NoFail w0.script) True w' ∧ (NoFail w0.script → w'.ker.udpRx = []) →
      w'.ker.udpRx = [] ∧ datagrams w'.trace ++ udpArrived w'.script = udpArrived w0.script := by
    rintro w' ⟨h1, h2⟩
    refine ⟨h2 hn, ?_⟩
    have := h1.conserve
    rw [h2 hn, List.append_nil] at this
    exact this
  rcases hr with hr | hr
  · refine key (Post.reach (Q := fun r w' => ∀ e, r = .err e → StateOk (udpArrived w0.script) (NoFail w0.script) True w' ∧
      (NoFail w0.script → w'.ker.udpRx = [])) ?_ hr e rfl)
    unfold Robot.read_once RobotImpl.read_once
    have hnd : NoErr (discard_available : Prog F Unit) := by
      unfold discard_available
      noerr [fun w => (udp_receive_spec _ _ w).mono (by rintro (_ | e | _ | _) w' h <;> first | exact h.elim | (intro e he; cases he))]
    refine ((keeps_discard_state w hok).and (hnd w)).bind ?_
    rintro r w1 ⟨h1, h1'⟩
    cases r with
    | ok _ =>
      rw [after_ok]
      refine (state_update w1 trivial h1).bind ?_
      intro r w2 h2
      cases r with
      | ok s => intro e he; cases he
      | err e => intro e' he; exact ⟨h2.1, h2.2.2⟩
      | panic m => intro e he; cases he
      | blocked => intro e he; cases he
    | err e => exact absurd rfl (h1' e)
    | panic m => intro e he; cases he
    | blocked => intro e he; cases he
  · refine key (Post.reach (Q := fun r w' => ∀ e, r = .err e → StateOk (udpArrived w0.script) (NoFail w0.script) True w' ∧
      (NoFail w0.script → w'.ker.udpRx = [])) ?_ hr e rfl)
    unfold Robot.read
    refine loop_post (fun _ w' => StateOk (udpArrived w0.script) (NoFail w0.script) True w') hok ?_ (fun _ _ _ e he => by cases he)
    intro c1 w1 h1
    unfold update send_robot_command
    simp only [Option.isSome_none, Bool.or_self, Bool.false_eq_true, if_false, post_bind, post_gets, after_ok, post_pure]
    refine (state_update w1 trivial h1).mono ?_
    intro r w2 h2
    cases r with
    | ok s =>
      have h3 : ∀ b, StateOk (udpArrived w0.script) (NoFail w0.script) True { w2 with trace := w2.trace ++ [.readCb (RobotState.ofIntern s) b] } :=
        fun b => StateOk.event (.readCb (RobotState.ofIntern s) b) rfl rfl rfl rfl rfl rfl rfl h2.1
      simp only [after_ok, post_pure, post_bind, post_emit]
      cases hcb : (cb c1 (RobotState.ofIntern s)).2 with
      | true => exact h3 true
      | false => intro e he; cases he
    | err e => intro e' he; exact ⟨h2.1, h2.2.2⟩
    | panic m => intro e he; cases he
    | blocked => intro e he; cases he

/-! ## C16 -/

theorem loop_leave {β γ : Type} {body : β → Prog F (β ⊕ γ)} {b : β} {w w' : World F} {g : γ} (h : body b w = (.ok (.inr g), w')) :
    loop body b w = (.ok g, w') := by
  unfold loop
  simp only [loopFuel, Prog.bind, h]
  rfl

theorem loop_err {β γ : Type} {body : β → Prog F (β ⊕ γ)} {b : β} {w w' : World F} {e : FrankaException F} (h : body b w = (.err e, w')) :
    loop body b w = (.err e, w') := by
  unfold loop
  simp only [loopFuel, Prog.bind, h]

/-- In this tick no datagram arrives and nothing fails. -/
def Silent (t : Tick) : Prop := t.udpIn = [] ∧ t.fail = false

theorem bind_of {α β : Type} {p : Prog F α} {k : α → Prog F β} {w w' : World F} {a : α} (h : p w = (.ok a, w')) : (p >>= k) w = k a w' := by
  show Prog.bind p k w = _
  simp only [Prog.bind, h]

theorem bind_err {α β : Type} {p : Prog F α} {k : α → Prog F β} {w w' : World F} {e : FrankaException F} (h : p w = (.err e, w')) :
    (p >>= k) w = (.err e, w') := by
  show Prog.bind p k w = _
  simp only [Prog.bind, h]

theorem silent_peek {α : Type} (c : Codec α) (n : Nat) (w : World F) (t : Tick) (ts : List Tick) (hs : w.script = t :: ts) (ht : Silent t)
    (hrx : w.ker.udpRx = []) : ∃ w', udp_receive c n w = (.ok none, w') ∧ w'.script = ts ∧ w'.ker.udpRx = [] ∧ w'.trace = w.trace := by
  refine ⟨{ w with script := ts, ker := w.ker.arrive t }, ?_, rfl, by simp [Kernel.arrive, hrx, ht.1], rfl⟩
  have h1 : (sys : Prog F Tick) w = (.ok t, { w with script := ts, ker := w.ker.arrive t }) := by simp [sys, hs]
  have h2 : udp_peek n w = (.ok none, { w with script := ts, ker := w.ker.arrive t }) := by
    unfold udp_peek
    rw [bind_of h1]
    simp only [ht.2, Bool.false_eq_true, if_false]
    have h3 : (gets fun w : World F => w.ker.udpRx) { w with script := ts, ker := w.ker.arrive t } =
        (.ok [], { w with script := ts, ker := w.ker.arrive t }) := by simp [gets, Kernel.arrive, hrx, ht.1]
    rw [bind_of h3]
    rfl
  unfold udp_receive
  rw [bind_of h2]
  rfl

theorem silent_poll {α : Type} (c : Codec α) (n : Nat) (w : World F) (t : Tick) (ts : List Tick) (hs : w.script = t :: ts) (ht : Silent t)
    (hrx : w.ker.udpRx = []) : ∃ w', udp_blocking_receive c n w = (.err udpTimeout, w') ∧ w'.trace = w.trace := by
  refine ⟨{ w with script := ts, ker := { w.ker.arrive t with udpEdge := false } }, ?_, rfl⟩
  have h1 : (sys : Prog F Tick) w = (.ok t, { w with script := ts, ker := w.ker.arrive t }) := by simp [sys, hs]
  have h2 : (udp_poll : Prog F Bool) w = (.ok false, { w with script := ts, ker := { w.ker.arrive t with udpEdge := false } }) := by
    unfold udp_poll
    rw [bind_of h1]
    simp only [ht.2, Bool.false_eq_true, if_false]
    have h3 : (gets fun w : World F => w.ker) { w with script := ts, ker := w.ker.arrive t } =
        (.ok (w.ker.arrive t), { w with script := ts, ker := w.ker.arrive t }) := rfl
    rw [bind_of h3]
    have h4 : (w.ker.arrive t).udpRx = [] := by simp [Kernel.arrive, hrx, ht.1]
    have h5 : ((w.ker.arrive t).udpEdge && !(w.ker.arrive t).udpRx.isEmpty) = false := by rw [h4]; simp
    simp only [h5]
    rfl
  unfold udp_blocking_receive
  rw [bind_of h2]
  rfl

theorem silent_receive (w : World F) (t1 t2 : Tick) (ts : List Tick) (hs : w.script = t1 :: t2 :: ts) (h1 : Silent t1) (h2 : Silent t2)
    (hrx : w.ker.udpRx = []) : ∃ w', (receive_robot_state : Prog F (RobotStateIntern F)) w = (.err udpTimeout, w') ∧ w'.trace = w.trace := by
  obtain ⟨w1, e1, e2, e3, e4⟩ := silent_peek (RobotStateIntern.codec F) size_of_RobotStateIntern w t1 _ hs h1 hrx
  obtain ⟨w2, e5, e6⟩ := silent_poll (RobotStateIntern.codec F) size_of_RobotStateIntern w1 t2 _ e2 h2 e3
  refine ⟨w2, ?_, e6.trans e4⟩
  have g1 : (receive_available : Prog F _) w = (.ok none, w1) := loop_leave (by rw [bind_of e1]; rfl)
  have g2 : (receive_newer none : Prog F (RobotStateIntern F)) w1 = (.err udpTimeout, w2) := loop_err (bind_err e5)
  unfold receive_robot_state
  rw [bind_of g1, bind_err g2]

/-- C16, for `read_once` and `read`: if no datagram waits and none arrives within the timeout, the call returns a NetworkException and no state is
taken. Missing: `Robot::new` panics, see `C16_new_panics`, and a control call waits for ever, see `C16_control_waits`. -/
theorem C16_lost_stream_is_reported_partial (w : World F) (hrx : w.ker.udpRx = []) (t1 t2 t3 : Tick) (ts : List Tick)
    (hs : w.script = t1 :: t2 :: t3 :: ts) (h1 : Silent t1) (h2 : Silent t2) (h3 : Silent t3) :
    (∃ w', Robot.read_once w = (.err (.NetworkException "libfranka-rs: UDP receive: timeout"), w') ∧ w'.trace = w.trace) ∧
    ∀ (σ : Type) (cb : σ → RobotState F → σ × Bool) (c : σ),
      ∃ w', Robot.read cb c w = (.err (.NetworkException "libfranka-rs: UDP receive: timeout"), w') ∧ w'.trace = w.trace := by
  constructor
  · obtain ⟨w1, e1, e2, e3, e4⟩ := silent_peek (RobotStateIntern.codec F) size_of_RobotStateIntern w t1 _ hs h1 hrx
    obtain ⟨w2, g1, g2⟩ := silent_receive w1 t2 t3 ts e2 h2 h3 e3
    refine ⟨w2, ?_, g2.trans e4⟩
    have h0 : (discard_available : Prog F Unit) w = (.ok (), w1) := loop_leave (by rw [bind_of e1]; rfl)
    unfold Robot.read_once RobotImpl.read_once
    rw [bind_of h0, bind_err g1]
    rfl
  · intro σ cb c
    obtain ⟨w2, g1, g2⟩ := silent_receive w t1 t2 _ hs h1 h2 hrx
    refine ⟨w2, ?_, g2⟩
    refine loop_err (bind_err ?_)
    unfold update
    have h0 : (send_robot_command none none : Prog F _) w = (.ok none, w) := rfl
    rw [bind_of h0, bind_err g1]
    rfl

/-- C16 fails for control calls: a call that has called a callback or sent a command returns only after it has received a state that shows no
motion. If the stream has ended, it never returns. -/
theorem C16_control_waits {w : World F} (hw : RobotReachable w) {c : RobotCall F} {σ : Type} {k : MotionKind} {call : ControlCall F σ k} {c0 : σ}
    (hc : IsControl c call c0) (hs : ∃ f ∈ newEvents w (c.run w).2, IsCommand f ∨ IsCallback f)
    (hl : ∀ s, lastAccepted (visible (c.run w).2.trace) = some s → Running s) :
    (c.run w).1 ≠ .ok () ∧ ∀ e, (c.run w).1 ≠ .err e := by
  constructor
  · intro h
    obtain ⟨s, h1, h2⟩ := C33_left_idle hw hc (.inl h)
    exact h2 (hl s h1)
  · intro e h
    obtain ⟨pre, hd, post, s, h1, -⟩ := C30_errors_stop_the_robot_partial hw hc e h hs
    obtain ⟨s, h1, h2⟩ := C33_left_idle hw hc (.inr ⟨⟨e, h⟩, _, by rw [h1]; simp, hd, rfl⟩)
    exact h2 (hl s h1)

/-! ## C22 -/

/-- Every datagram has the size of a gripper state. -/
def GripperSize (ds : List Datagram) : Prop := ∀ d ∈ ds, d.data.length = 23

/-- The datagrams come in the order of their time stamps, their first four bytes, and none comes twice. -/
def GripperOrder (ds : List Datagram) : Prop := ds.Pairwise fun d e => natAt d.data 0 4 < natAt e.data 0 4

theorem pres_gripper_read_once {T : World F → World F → Prop} [TGripper T] : Pres T (Gripper.read_once : Prog F (Gripper.GripperState F)) := by
  unfold Gripper.read_once Gripper.discard_available
  pres [pres_udp_receive _ _, pres_udp_blocking_receive _ _]

theorem gripper_read (w w' : World F) (st : Gripper.GripperState F) (hx : GripperSize (w.ker.udpRx ++ udpArrived w.script))
    (h : Gripper.read_once w = (.ok st, w')) :
    ∃ ds d s, datagrams w'.trace = datagrams w.trace ++ ds ++ [d] ∧ GripperStateLayout d.data s ∧ st = Gripper.GripperState.ofIntern s := by
  have hc : Conserve w w' := by
    have := pres_gripper_read_once (T := Conserve (F := F)) w
    rw [h] at this; exact this
  refine Post.reach (Q := fun r w' => ∀ st, r = .ok st → Conserve w w' → ∃ ds d s, datagrams w'.trace = datagrams w.trace ++ ds ++ [d] ∧
    GripperStateLayout d.data s ∧ st = Gripper.GripperState.ofIntern s) ?_ h st rfl hc
  unfold Gripper.read_once
  have hd : Pres UdpStep (Gripper.discard_available : Prog F Unit) := by
    unfold Gripper.discard_available
    pres [pres_udp_receive _ _]
  refine (hd.post w).bind ?_
  intro r w1 h1
  cases r with
  | ok _ =>
    obtain ⟨ds1, h1⟩ := h1.trace
    rw [after_ok]
    refine (blocking_receive_spec _ _ w1).bind ?_
    intro r w2 h2
    cases r with
    | ok s =>
      obtain ⟨d, ds, rest, g1, -, g3, -⟩ := h2
      rintro st hst ⟨used, es, c1, c2, -, c4⟩
      cases hst
      have ht : w2.trace = w.trace ++ (ds1 ++ (d :: ds)).map .udpRecv := by rw [g1, h1]; simp
      have hes : es = (ds1 ++ (d :: ds)).map .udpRecv := List.append_cancel_left (c2.symm.trans ht)
      rw [hes, datagrams_map] at c4
      have hex : ∀ e ∈ d :: ds, e.data.length = 23 := by
        intro e he
        apply hx
        rw [c1, udpArrived_append, ← List.append_assoc, c4]
        simp only [List.mem_append]
        exact .inl (.inl (.inr he))
      rw [fold_exact _ d ds (by rw [List.length_replicate]; exact hex)] at g3
      refine ⟨ds1 ++ (d :: ds).dropLast, (d :: ds).getLast (by simp), s, ?_, ?_, rfl⟩
      · show datagrams w2.trace = _
        rw [ht, datagrams_append, datagrams_map, List.append_assoc, List.append_assoc, List.dropLast_concat_getLast]
      · have h0 := Gripper.GripperStateIntern.codec_lawful.sound _ _ _ g3
        exact gripperStateLayout_of_at ⟨[], rest, h0, rfl⟩
    | err e => intro st hst; cases hst
    | panic m => intro st hst; cases hst
    | blocked => intro st hst; cases hst
  | err e => intro st hst; cases hst
  | panic m => intro st hst; cases hst
  | blocked => intro st hst; cases hst

/-- C22, for datagrams that arrive complete, in order and only once: what a later `read_once` returns, with any calls in between, is newer.
Missing: `read_once` does not compare time stamps, so a delayed or repeated datagram is returned as a new state, see `C22_older_state`. -/
theorem C22_gripper_states_are_newer_partial (cs cs' : List (GripperCall F)) (w0 w w1 w2 w3 : World F) (hw : Fresh w0)
    (hx : GripperSize (udpArrived w0.script)) (ho : GripperOrder (udpArrived w0.script)) (h : gripperSession cs w0 = (.ok (), w))
    (st st' : Gripper.GripperState F) (h1 : Gripper.read_once w = (.ok st, w1)) (h2 : gripperCalls cs' w1 = (.ok (), w2))
    (h3 : Gripper.read_once w2 = (.ok st', w3)) : st.time < st'.time := by
  have k0 : Conserve w0 w := by have := gripper_session_conserve cs w0; rw [h] at this; exact this
  have k1 : Conserve w w1 := by have := pres_gripper_read_once (T := Conserve (F := F)) w; rw [h1] at this; exact this
  have k2 : Conserve w1 w2 := by
    have := pres_gripperCalls (T := Conserve (F := F)) cs' w1; rw [h2] at this; exact this
  have k3 : Conserve w2 w3 := by have := pres_gripper_read_once (T := Conserve (F := F)) w2; rw [h3] at this; exact this
  have sub : ∀ {v : World F}, Conserve w0 v → datagrams v.trace ++ (v.ker.udpRx ++ udpArrived v.script) = udpArrived w0.script := by
    rintro v ⟨used, es, c1, c2, -, c4⟩
    rw [hw.1, List.nil_append] at c2
    rw [hw.2] at c4
    rw [c2, c1, udpArrived_append, ← List.append_assoc, ← c4]
    rfl
  have k02 := Pre.trans (Pre.trans k0 k1) k2
  have k03 := Pre.trans k02 k3
  obtain ⟨ds, d, s, e1, e2, rfl⟩ := gripper_read w w1 st (fun d hd => hx d (by rw [← sub k0]; exact List.mem_append_right _ hd)) h1
  obtain ⟨ds', d', s', e1', e2', rfl⟩ := gripper_read w2 w3 st' (fun d hd => hx d (by rw [← sub k02]; exact List.mem_append_right _ hd)) h3
  obtain ⟨-, es, -, c2, -⟩ := k2
  have hl : datagrams w3.trace = (datagrams w.trace ++ ds) ++ d :: (datagrams es ++ ds' ++ [d']) := by
    rw [e1', c2, datagrams_append, e1]; simp
  have ho' : GripperOrder (datagrams w3.trace) := ho.sublist (by rw [← sub k03]; exact List.sublist_append_left _ _)
  rw [hl] at ho'
  have := (List.pairwise_cons.1 (List.pairwise_append.1 ho').2.1).1 d' (by simp)
  rw [e2.message_id, e2'.message_id] at this
  exact this

/-! ## Where the full statements fail -/

/-- C12 fails: a state that arrives together with a newer one, but after it, is returned. -/
theorem C12_reordered_burst : ∃ (w w' : World UInt64) (st : RobotState UInt64), RobotReachable w ∧ Robot.read_once w = (.ok st, w') ∧
    st.time = 4 ∧ ∃ d ∈ datagrams w'.trace, d.data.length = 2373 ∧ stamp d = 5 := by
  obtain ⟨st, w', h1, h2, h3⟩ := Toy.read_of Toy.reordered_shown
  refine ⟨_, w', st, Toy.waiting_reachable _, h1, h2, ?_⟩
  have : (5, 2373) ∈ (datagrams w'.trace).map fun d => (stamp d, d.data.length) := by rw [h3]; simp
  obtain ⟨d, hd, he⟩ := List.mem_map.1 this
  simp only [Prod.mk.injEq] at he
  exact ⟨d, hd, he.2, he.1⟩

/-- C13 fails: a short datagram that follows in the same burst overwrites the beginning of a state. The state that is returned has a time stamp
which no complete datagram carries. -/
theorem C13_torn_state : ∃ (w w' : World UInt64) (st : RobotState UInt64), RobotReachable w ∧ Robot.read_once w = (.ok st, w') ∧
    ∀ d ∈ datagrams w'.trace, d.data.length = 2373 → stamp d ≠ st.time := by
  obtain ⟨st, w', h1, h2, h3⟩ := Toy.read_of Toy.torn_shown
  refine ⟨_, w', st, Toy.waiting_reachable _, h1, ?_⟩
  intro d hd hl hs
  have : (stamp d, d.data.length) ∈ (datagrams w'.trace).map fun d => (stamp d, d.data.length) := List.mem_map.2 ⟨d, hd, rfl⟩
  rw [h3, hs, hl, h2] at this
  simp at this

/-- C13 fails: a datagram that is too long is cut and accepted. -/
theorem C13_oversized_accepted : ∃ (w w' : World UInt64) (st : RobotState UInt64), RobotReachable w ∧ Robot.read_once w = (.ok st, w') ∧
    ∀ d ∈ datagrams w'.trace, d.data.length = 2373 → stamp d ≠ st.time := by
  obtain ⟨st, w', h1, h2, h3⟩ := Toy.read_of Toy.oversized_shown
  refine ⟨_, w', st, Toy.waiting_reachable _, h1, ?_⟩
  intro d hd hl hs
  have : (stamp d, d.data.length) ∈ (datagrams w'.trace).map fun d => (stamp d, d.data.length) := List.mem_map.2 ⟨d, hd, rfl⟩
  rw [h3, hs, hl, h2] at this
  simp at this

/-- C15 fails: in a burst of datagrams of two senders the command that follows is sent to the first of them, although the datagram received
last came from the other one. -/
theorem C15_burst_of_two_senders : ∃ w : World UInt64, RobotReachable w ∧
    ∃ pre d mid a c post, ((Toy.call 9).run w).2.trace.drop w.trace.length = pre ++ .udpRecv d :: mid ++ .udpSend a c :: post ∧
      datagrams mid = [] ∧ d.src ≠ a := by
  refine ⟨_, Toy.robot_reachable Toy.twoSenders, ?_⟩
  have h := Toy.twoSenders_shown
  unfold Toy.addresses at h
  generalize ((Toy.call 9).run (Toy.robot Toy.twoSenders)).2.trace.drop (Toy.robot Toy.twoSenders).trace.length = tr at h
  obtain ⟨l1, x1, t1, rfl, -, -, h⟩ := List.filterMap_eq_cons_iff.1 h
  obtain ⟨l2, x2, t2, rfl, -, -, h⟩ := List.filterMap_eq_cons_iff.1 h
  obtain ⟨l3, x3, t3, rfl, -, g3, h⟩ := List.filterMap_eq_cons_iff.1 h
  obtain ⟨l4, x4, t4, rfl, f4, g4, -⟩ := List.filterMap_eq_cons_iff.1 h
  obtain ⟨d, rfl⟩ : ∃ d, x3 = .udpRecv d := by cases x3 <;> first | exact ⟨_, rfl⟩ | cases g3
  obtain ⟨a, c, rfl⟩ : ∃ a c, x4 = .udpSend a c := by cases x4 <;> first | exact ⟨_, _, rfl⟩ | cases g4
  simp only [Option.some.injEq, Prod.mk.injEq] at g3 g4
  refine ⟨l1 ++ x1 :: (l2 ++ x2 :: l3), d, l4, a, c, t4, by simp, ?_, by rw [g3.2, g4.2]; decide⟩
  unfold datagrams
  rw [List.filterMap_eq_nil_iff]
  intro e he
  have := f4 e he
  cases e <;> first | rfl | cases this

/-- C16 fails for the constructor: without a state it panics. -/
theorem C16_new_panics : ∃ w : World UInt64, Fresh w ∧ udpArrived w.script = [] ∧ NoFail w.script ∧
    (robotSession none none [] w).1 = .panic "called `Result::unwrap()` on an `Err` value: NetworkException" := by
  refine ⟨Toy.world Toy.noState, Toy.fresh _ _ _, rfl, ?_, Toy.panic_of Toy.noState_shown⟩
  intro t ht
  simp only [Toy.noState, Toy.world, List.cons_append, List.nil_append, List.mem_cons, List.mem_replicate] at ht
  rcases ht with rfl | rfl | rfl | ⟨-, rfl⟩ <;> rfl

/-- C22 fails: two calls of `read_once` return an older state after a newer one. -/
theorem C22_older_state : ∃ (w w1 w2 : World UInt64) (st st' : Gripper.GripperState UInt64), GripperReachable w ∧
    Gripper.read_once w = (.ok st, w1) ∧ Gripper.read_once w1 = (.ok st', w2) ∧ st'.time < st.time := by
  obtain ⟨st, w1, st', w2, h1, h2, h3, h4⟩ := Toy.gripper_of Toy.gripperOld_shown
  exact ⟨_, w1, w2, st, st', Toy.gripper_reachable _, h1, h2, by rw [h3, h4]; decide⟩

/-! ## Examples -/

section examples
open Toy

/-- A history in which two states arrive complete, in order and from one sender: C12 - C15. -/
example : Fresh (world (handshake ++ [quiet, quiet, atOnce [⟨7, state 4⟩, ⟨7, state 5⟩]] ++ List.replicate 5 quiet)) ∧
    readShown (waiting [⟨7, state 4⟩, ⟨7, state 5⟩]) = (some (5, false), [(1, 2373), (4, 2373), (5, 2373)]) ∧
    udpArrived (handshake ++ ([quiet, quiet, atOnce [⟨7, state 4⟩, ⟨7, state 5⟩]] ++ List.replicate 5 quiet)) =
      [⟨7, state 1⟩, ⟨7, state 4⟩, ⟨7, state 5⟩] ∧
    ExactSize [⟨7, state 1⟩, ⟨7, state 4⟩, ⟨7, state 5⟩] ∧ InOrder [⟨7, state 1⟩, ⟨7, state 4⟩, ⟨7, state 5⟩] ∧
    OneSource 7 [⟨7, state 1⟩, ⟨7, state 4⟩, ⟨7, state 5⟩] ∧
    NoFail (handshake ++ ([quiet, quiet, atOnce [⟨7, state 4⟩, ⟨7, state 5⟩]] ++ List.replicate 5 quiet)) := by
  refine ⟨fresh _ _ _, inOrder_shown, rfl, ?_, ?_, ?_, ?_⟩
  · intro d hd
    simp only [List.mem_cons, List.not_mem_nil, or_false] at hd
    rcases hd with rfl | rfl | rfl <;> kernel_rfl
  · have h1 : stamp ⟨7, state 1⟩ = 1 := by kernel_rfl
    have h4 : stamp ⟨7, state 4⟩ = 4 := by kernel_rfl
    have h5 : stamp ⟨7, state 5⟩ = 5 := by kernel_rfl
    simp only [InOrder, List.pairwise_cons, List.mem_cons, List.not_mem_nil, or_false, forall_eq_or_imp, forall_eq, h1, h4, h5, false_implies, implies_true,
      List.Pairwise.nil, and_true]
    decide
  · intro d hd
    simp only [List.mem_cons, List.not_mem_nil, or_false] at hd
    rcases hd with rfl | rfl | rfl <;> rfl
  · intro t ht
    simp only [handshake, List.cons_append, List.nil_append, List.mem_cons, List.mem_append, List.mem_replicate, List.not_mem_nil, or_false] at ht
    aesop (add simp [quiet, tcp, udp, atOnce])

/-- C16: a connected robot that stops sending states. -/
example : RobotReachable (robot [quiet, quiet, quiet]) ∧ (robot [quiet, quiet, quiet]).ker.udpRx = [] ∧
    (robot [quiet, quiet, quiet]).script = [quiet, quiet, quiet] ∧ Silent quiet :=
  ⟨robot_reachable _, by kernel_rfl, robot_script _, rfl, rfl⟩

/-- C16: a motion that loses its states for good does not return. -/
example : RobotReachable (robot lostForGood) ∧ (∃ f ∈ newEvents (robot lostForGood) ((call 9).run (robot lostForGood)).2, IsCommand f ∨ IsCallback f) ∧
    ((call 9).run (robot lostForGood)).1 = .blocked := by
  refine ⟨robot_reachable _, ?_, ?_⟩
  · obtain ⟨pre, e, post, h1, -, h3, -⟩ := split_of (a := [[0, 1, 1], [1, 2, 1], [1, 3, 1]]) (x := [2, 0])
      (b := movingEvents.drop 4 ++ [[3, 5, 14, 0], [0, 2, 2]]) ((events_of lostForGood_shown).trans rfl)
    obtain ⟨k, s, out, rfl⟩ := callback_of h3
    exact ⟨.motionCb k s 0 out, by rw [h1]; simp, .inr trivial⟩
  · have := res_of lostForGood_shown
    unfold show2 at this
    split at this <;> simp_all

/-- C22: two calls that return a newer state. -/
example : ∃ (w w1 w2 : World UInt64) (st st' : Gripper.GripperState UInt64), GripperReachable w ∧
    Gripper.read_once w = (.ok st, w1) ∧ Gripper.read_once w1 = (.ok st', w2) ∧ st.time < st'.time := by
  obtain ⟨st, w1, st', w2, h1, h2, h3, h4⟩ := gripper_of gripperNew_shown
  exact ⟨_, w1, w2, st, st', gripper_reachable _, h1, h2, by rw [h3, h4]; decide⟩

end examples

end Verif
