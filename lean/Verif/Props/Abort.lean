import Verif.Props.Complete
import Verif.Props.Log
import Verif.Lemmas.AbortCall
import Verif.Lemmas.SafeControl
/-!
# A motion the robot aborts: C73

`w` is a world in which a `Robot` exists (after `Robot::new` and any calls), `c` a control method with its arguments. `Run` (Spec/Control.lean) says
what happens in a motion, `Aborts` (Spec/Abort.lean) what the robot does.
-/
set_option linter.unusedSectionVars false
namespace Verif
open Prog Spec

section
variable {F : Type} [Fl F] [Wire F] [LawfulWire F] [Geo F]

theorem step_ids {σ : Type} {k : MotionKind} {call : ControlCall F σ k} {c0 : σ} {ph ph' : Phase F σ} {e : Ev F} (h : Step call c0 ph e ph') :
    (∃ s, e = .accepted s ∧ ph'.last = s ∧ ph.last.message_id < s.message_id) ∨ (accepted [e] = [] ∧ ph'.last = ph.last) := by
  cases h <;> first | exact .inr ⟨rfl, rfl⟩ | exact .inl ⟨_, rfl, rfl, by assumption⟩

/-- The states of a motion have increasing numbers. -/
theorem run_ids {σ : Type} {k : MotionKind} {call : ControlCall F σ k} {c0 : σ} {ph ph' : Phase F σ} {tr : List (Ev F)} (h : Run call c0 ph tr ph') :
    (ph.last :: accepted tr).Pairwise fun a b => a.message_id < b.message_id := by
  induction tr generalizing ph with
  | nil => simp [accepted]
  | cons e tr ih =>
    have hcons : accepted (e :: tr) = accepted [e] ++ accepted tr := accepted_append [e] tr
    obtain ⟨ph1, h1, h2⟩ := h.cons_inv
    have ih := ih h2
    rcases step_ids h1 with ⟨s, rfl, h2, h3⟩ | ⟨h2, h3⟩
    · rw [hcons]
      rw [h2] at ih
      refine List.pairwise_cons.2 ⟨fun x hx => ?_, ih⟩
      rcases List.mem_cons.1 hx with rfl | hx
      · exact h3
      · exact UInt64.lt_trans h3 ((List.pairwise_cons.1 ih).1 x hx)
    · rw [hcons, h2, List.nil_append, ← h3]
      exact ih

/-- The states of the records of a log are in order, but for the wrap. -/
theorem logged_sorted {L : Nat} {w : World F} {tr : List (Ev F)} (h0 : LogOk L w) (hids : (accepted w.trace ++ accepted tr).Pairwise fun a b => a.message_id < b.message_id)
    {log : List (Record F)} (hlog : LoggedBy w.rob.logger (cycles tr) log) :
    ∃ X : List (RobotState F × RobotCommand F), X.Pairwise (fun x y => x.1.time < y.1.time) ∧ X.length = min (cycles tr).length L ∧
      log = (X.rotate ((cycles tr).length % L)).map fun p => Logger.record p.1 p.2 := by
  obtain ⟨q, hq, hsub⟩ := h0.holds
  have he := loggedBy_eq h0.arises hq hlog
  refine ⟨_, ?_, ?_, he⟩
  · have hsort : (q ++ cycles tr).Pairwise fun x y => x.1.time < y.1.time := by
      have h1 : ((q ++ cycles tr).map (·.1)).Sublist ((accepted w.trace ++ accepted tr).map RobotState.ofIntern) := by
        rw [List.map_append, List.map_append]
        exact ((hsub.map _).trans ((cycles_states _).trans (by rw [accepted_visible]))).append (cycles_states _)
      have h2 : ((accepted w.trace ++ accepted tr).map RobotState.ofIntern).Pairwise fun x y : RobotState F => x.time < y.time := by
        rw [List.pairwise_map]
        exact hids.imp fun h => h
      have h3 := h2.sublist h1
      rwa [List.pairwise_map] at h3
    exact hsort.sublist ((List.take_sublist _ _).trans (List.drop_sublist _ _))
  · rw [List.length_take, List.length_drop, List.length_append]
    omega

/-- If the log wraps between them, the last record is older than the one before. -/
theorem rotated_wraps {α : Type} (f : α → Nat) {X : List α} {n L : Nat} (h : X.Pairwise fun x y => f x < f y) (hX : X.length = min n L)
    (hw : LogWraps L n) : ∃ a b t, (X.rotate (n % L)).reverse = a :: b :: t ∧ f a < f b := by
  obtain ⟨h1, h2, h3⟩ := hw
  rw [h3]
  match X, hX with
  | [], hX => simp at hX; omega
  | [x], hX => simp at hX; omega
  | x :: y :: X, hX =>
    rw [List.rotate_cons_succ, List.rotate_zero, List.reverse_append]
    have hr : ((y :: X).reverse) ≠ [] := by simp
    obtain ⟨b, t, hb⟩ := List.exists_cons_of_ne_nil hr
    refine ⟨x, b, t, by rw [hb]; rfl, (List.pairwise_cons.1 h).1 b ?_⟩
    rw [← List.mem_reverse, hb]
    exact List.mem_cons_self

variable {rc : Option RealtimeConfig} {ls : Option Nat} {cs : List (RobotCall F)} {w0 w : World F} (hw0 : Fresh w0)
  (hs : robotSession rc ls cs w0 = (.ok (), w)) {c : RobotCall F} {σ : Type} {k : MotionKind} {call : ControlCall F σ k} {c0 : σ}
  (hc : IsControl c call c0)
include hw0 hs hc

/-- How the call ends, with the order of the records of the log. -/
theorem aborted_end (hlog : ls ≠ some 0) (hrt : ¬ RealTimeMissing w) (hidle : Resting w) (hnext : w.net.command_id + 1 ≠ 0xffffffff)
    (habs : w.net.received_responses w.net.command_id = none) (habs2 : w.net.received_responses (w.net.command_id + 1) = none) {s0 first sB sE : RobotStateIntern F}
    {request stop : RobotReq F} {waiting halting : List (RobotStateIntern F)} {tr : List (Ev F)} {status : MoveStatus} {msg : String}
    (hlast : LastState w s0)
    (hrun : Run call c0 (.before s0) (.robotReq request :: (waiting.map .accepted ++ .accepted first :: tr)) (.broken sB))
    (hno : ∀ r, .robotReq r ∉ tr) (hstarted : ∃ s, waiting.getLast? = some s ∧ ShowsModes k call.controller s)
    (hstop : Run call c0 (.broken sB) (.robotReq stop :: halting.map .accepted) (.stopping sE)) (hhalt : Halts halting)
    (hmsg : abortMessage status = some msg)
    {p : Plan} {sp : StopPlan} (hscript : w.script = p.script)
    (habort : Aborts w.net.command_id status w.ker.udpRx waiting (.accepted first :: tr) halting p sp) :
    ∃ (X : List (RobotState F × RobotCommand F)) (log : List (Record F)), X.Pairwise (fun x y => x.1.time < y.1.time) ∧
      X.length = min (cycles tr).length (ls.getD 50) ∧ log = (X.rotate ((cycles tr).length % ls.getD 50)).map (fun p => Logger.record p.1 p.2) ∧
      ((∃ m, create_control_exception w.cfg.overflow_checks ("\"" ++ msg ++ "\"") status (RobotState.ofIntern sB : RobotState F).last_motion_errors log = .error m ∧
        (c.run w).1 = .panic m) ∨
      ∃ e, create_control_exception w.cfg.overflow_checks ("\"" ++ msg ++ "\"") status (RobotState.ofIntern sB : RobotState F).last_motion_errors log = .ok e ∧
        (c.run w).1 = .err e ∧
        (Ends (ls.getD 50) sE sp.look.udpIn sp.rest w (c.run w).2 ∧ (c.run w).2.net.command_id = w.net.command_id + 1 + 1) ∧
        List.Forall₂ Alike ((.robotReq request :: (waiting.map .accepted ++ .accepted first :: tr)) ++ .robotReq stop :: halting.map .accepted)
          (newEvents w (c.run w).2)) := by
  have hw : RobotReachable w := ⟨rc, ls, cs, w0, hw0, hs⟩
  obtain ⟨hk, -⟩ := RobotReachable.alive hw
  have hl : LogOk (ls.getD 50) w := by
    have := session_log rc ls cs w0 hw0
    unfold Post at this
    rw [hs] at this
    exact this
  have hst : StateOk (udpArrived w0.script) (NoFail w0.script) True w := by
    have := session_states rc ls cs w0 hw0
    unfold Post at this
    rw [hs] at this
    exact this
  have hpos : 0 < ls.getD 50 := by
    cases ls with
    | none => decide
    | some n => exact Nat.pos_of_ne_zero fun h => hlog (congrArg some h)
  obtain ⟨he, hfit⟩ := IsControl.run_eq hc
  have := control_aborted (c0 := c0) hfit hk hidle habs habs2 hnext hrt hlast hl.arises.ok hpos hrun hno hstarted hstop hhalt hmsg
    hscript habort
  unfold Post at this
  rw [← he] at this
  obtain ⟨old, l0, l1, x, h1, h2, h3, h4⟩ := this
  have hids : (accepted w.trace ++ accepted tr).Pairwise fun a b => a.message_id < b.message_id := by
    have h := run_ids hrun
    refine List.pairwise_append.2 ⟨hst.ids, ?_, fun a ha b hb => ?_⟩
    · have hsub : (accepted tr).Sublist (s0 :: accepted (.robotReq request :: (waiting.map .accepted ++ .accepted first :: tr))) := by
        refine List.Sublist.cons _ ?_
        unfold accepted
        refine List.Sublist.filterMap _ ?_
        exact ((List.sublist_cons_self _ _).trans (List.sublist_append_right _ _)).trans (List.sublist_cons_self _ _)
      exact h.sublist hsub
    · refine UInt64.lt_of_le_of_lt (hlast.2.2 ▸ hst.last a ha) ((List.pairwise_cons.1 h).1 b ?_)
      unfold accepted at hb ⊢
      obtain ⟨e, h1, h2⟩ := List.mem_filterMap.1 hb
      exact List.mem_filterMap.2 ⟨e, List.mem_cons_of_mem _ (List.mem_append_right _ (List.mem_cons_of_mem _ h1)), h2⟩
  cases x with
  | inl e =>
    obtain ⟨log, l', g1, g2⟩ := h3
    obtain ⟨g3, g4, es, g5, g6⟩ := h4
    obtain ⟨X, k1, k2, k3⟩ := logged_sorted hl hids ⟨old, l0, l1, l', h1, h2, g1⟩
    exact ⟨X, log, k1, k2, k3, .inr ⟨e, g2, g3, g4, by rw [newEvents_eq (call_grows c w) g5]; exact g6⟩⟩
  | inr m =>
    obtain ⟨log, l', g1, g2⟩ := h3
    obtain ⟨X, k1, k2, k3⟩ := logged_sorted hl hids ⟨old, l0, l1, l', h1, h2, g1⟩
    exact ⟨X, log, k1, k2, k3, .inl ⟨m, g2, h4⟩⟩

/-- C73 for a world that is given by its contents instead of its history; the world after the call is described in the same way. -/
theorem aborted_settled (hlog : ls ≠ some 0) (hrt : ¬ RealTimeMissing w) (hidle : Resting w) (hnext : w.net.command_id + 1 ≠ 0xffffffff)
    (habs : w.net.received_responses w.net.command_id = none) (habs2 : w.net.received_responses (w.net.command_id + 1) = none) {s0 first sB sE : RobotStateIntern F}
    {request stop : RobotReq F} {waiting halting : List (RobotStateIntern F)} {tr : List (Ev F)} {status : MoveStatus}
    (hlast : LastState w s0)
    (hrun : Run call c0 (.before s0) (.robotReq request :: (waiting.map .accepted ++ .accepted first :: tr)) (.broken sB))
    (hno : ∀ r, .robotReq r ∉ tr) (hstarted : ∃ s, waiting.getLast? = some s ∧ ShowsModes k call.controller s)
    (hstop : Run call c0 (.broken sB) (.robotReq stop :: halting.map .accepted) (.stopping sE)) (hhalt : Halts halting)
    (hstatus : abortMessage status ≠ none)
    {p : Plan} {sp : StopPlan} (hscript : w.script = p.script)
    (habort : Aborts w.net.command_id status w.ker.udpRx waiting (.accepted first :: tr) halting p sp)
    (hreport : ¬ (status = .ReflexAborted ∧ LogWraps (ls.getD 50) (cycles tr).length)) :
    (∃ log text, (c.run w).1 = .err (.ControlException (some log) text) ∧
      AbortText status (RobotState.ofIntern sB : RobotState F).last_motion_errors log text) ∧
    (Ends (ls.getD 50) sE sp.look.udpIn sp.rest w (c.run w).2 ∧ (c.run w).2.net.command_id = w.net.command_id + 1 + 1) ∧
    List.Forall₂ Alike ((.robotReq request :: (waiting.map .accepted ++ .accepted first :: tr)) ++ .robotReq stop :: halting.map .accepted)
      (newEvents w (c.run w).2) := by
  obtain ⟨msg, hmsg⟩ := Option.ne_none_iff_exists'.1 hstatus
  obtain ⟨X, log, h1, h2, h3, ⟨m, h4, -⟩ | ⟨e, h4, h5, h6, h7⟩⟩ :=
    aborted_end hw0 hs hc hlog hrt hidle hnext habs habs2 hlast hrun hno hstarted hstop hhalt hmsg hscript habort
  · exfalso
    obtain ⟨rfl, a, b, t, g3, g4⟩ := exception_error h4
    refine hreport ⟨rfl, ?_⟩
    rw [h3, ← List.map_reverse] at g3
    match hx : (X.rotate ((cycles tr).length % ls.getD 50)).reverse, g3 with
    | x :: y :: r, g3 =>
      simp only [List.map_cons, List.cons.injEq] at g3
      obtain ⟨rfl, rfl, -⟩ := g3
      rcases rotated_last_two (fun p : RobotState F × RobotCommand F => p.1.time) h1 h2 hx with h | h
      · exact absurd h g4
      · exact h
  · obtain ⟨text, rfl, h8⟩ := exception_text _ status _ log msg _ hmsg (.inl rfl) e h4
    exact ⟨⟨log, text, h5, h8⟩, h6, h7⟩

theorem absent_of (id : UInt32) (hid : ∀ bs, (id, bs) ∉ responses w.trace) : w.net.received_responses id = none := by
  obtain ⟨hk, -⟩ := RobotReachable.alive (show RobotReachable w from ⟨rc, ls, cs, w0, hw0, hs⟩)
  cases h : w.net.received_responses id with
  | none => rfl
  | some bs => exact absurd (hk.table _ _ h) (hid bs)

/-- **C73.** Let `request`, `waiting`, `first` and `tr` be the events of a motion until a state `sB` shows that the robot does not execute it any more, and
`stop` and `halting` the StopMove request and states until the robot stands still. If the robot does its part - it accepts the request,
sends these states, reports why the motion ended, and answers the StopMove request - a control call on an idle connection ends. It returns a
`ControlException` whose text has the reason the robot reported and, after a reflex, the errors of `sB`; and these events, with the numbers and addresses
of the connection, are what happens. The exception is a log that wraps in an inconvenient place, see `C73_else_it_panics`. -/
theorem C73_an_aborted_motion_is_reported (hlog : ls ≠ some 0) (hrt : ¬ RealTimeMissing w) (hidle : Idle w) (hnext : w.net.command_id + 1 ≠ 0xffffffff)
    (habsent : ∀ bs, (w.net.command_id + 1, bs) ∉ responses w.trace) {s0 first sB sE : RobotStateIntern F}
    {request stop : RobotReq F} {waiting halting : List (RobotStateIntern F)} {tr : List (Ev F)} {status : MoveStatus}
    (hlast : LastState w s0)
    (hrun : Run call c0 (.before s0) (.robotReq request :: (waiting.map .accepted ++ .accepted first :: tr)) (.broken sB))
    (hno : ∀ r, .robotReq r ∉ tr) (hstarted : ∃ s, waiting.getLast? = some s ∧ ShowsModes k call.controller s)
    (hstop : Run call c0 (.broken sB) (.robotReq stop :: halting.map .accepted) (.stopping sE)) (hhalt : Halts halting)
    (hstatus : abortMessage status ≠ none)
    {p : Plan} {sp : StopPlan} (hscript : w.script = p.script)
    (habort : Aborts w.net.command_id status w.ker.udpRx waiting (.accepted first :: tr) halting p sp)
    (hreport : ¬ (status = .ReflexAborted ∧ LogWraps (ls.getD 50) (cycles tr).length)) :
    (∃ log text, (c.run w).1 = .err (.ControlException (some log) text) ∧
      AbortText status (RobotState.ofIntern sB : RobotState F).last_motion_errors log text) ∧
    LastState (c.run w).2 sE ∧
    List.Forall₂ Alike ((.robotReq request :: (waiting.map .accepted ++ .accepted first :: tr)) ++ .robotReq stop :: halting.map .accepted)
      (newEvents w (c.run w).2) := by
  have h := aborted_settled hw0 hs hc hlog hrt hidle.resting hnext (absent_of hw0 hs hc _ hidle.absent) (absent_of hw0 hs hc _ habsent) hlast hrun hno hstarted hstop hhalt
    hstatus hscript habort hreport
  exact ⟨h.1, h.2.1.1.last, h.2.2⟩

/-- The rest of C73: if the reason is a reflex and the log wraps between its last two records, the call panics. -/
theorem C73_else_it_panics (hlog : ls ≠ some 0) (hrt : ¬ RealTimeMissing w) (hidle : Idle w) (hnext : w.net.command_id + 1 ≠ 0xffffffff)
    (habsent : ∀ bs, (w.net.command_id + 1, bs) ∉ responses w.trace) {s0 first sB sE : RobotStateIntern F}
    {request stop : RobotReq F} {waiting halting : List (RobotStateIntern F)} {tr : List (Ev F)}
    (hlast : LastState w s0)
    (hrun : Run call c0 (.before s0) (.robotReq request :: (waiting.map .accepted ++ .accepted first :: tr)) (.broken sB))
    (hno : ∀ r, .robotReq r ∉ tr) (hstarted : ∃ s, waiting.getLast? = some s ∧ ShowsModes k call.controller s)
    (hstop : Run call c0 (.broken sB) (.robotReq stop :: halting.map .accepted) (.stopping sE)) (hhalt : Halts halting)
    {p : Plan} {sp : StopPlan} (hscript : w.script = p.script)
    (habort : Aborts w.net.command_id .ReflexAborted w.ker.udpRx waiting (.accepted first :: tr) halting p sp)
    (hwraps : LogWraps (ls.getD 50) (cycles tr).length) :
    ∃ m, (c.run w).1 = .panic m := by
  obtain ⟨X, log, h1, h2, h3, ⟨m, -, h4⟩ | ⟨e, h4, -⟩⟩ :=
    aborted_end hw0 hs hc hlog hrt hidle.resting hnext (absent_of hw0 hs hc _ hidle.absent) (absent_of hw0 hs hc _ habsent) hlast hrun hno hstarted hstop hhalt (status := .ReflexAborted) rfl hscript habort
  · exact ⟨m, h4⟩
  · exfalso
    obtain ⟨a, b, t, h5, h6⟩ := rotated_wraps (fun p : RobotState F × RobotCommand F => p.1.time) h1 h2 hwraps
    have h7 : log.reverse = Logger.record a.1 a.2 :: Logger.record b.1 b.2 :: t.map fun p => Logger.record p.1 p.2 := by
      rw [h3, ← List.map_reverse, h5]; rfl
    have h8 : ¬ (Logger.record b.1 b.2).state.time ≤ (Logger.record a.1 a.2).state.time := Nat.not_le.2 h6
    unfold create_control_exception success_rate_text lost_packets_of durSub at h4
    simp only [if_true, h7, if_neg h8, bind, Except.bind] at h4
    cases h4

end

/-! ## Every such motion happens -/

namespace Realize
variable {F : Type} [Fl F] [Wire F] [Geo F]
open Toy

theorem aborts {waiting halting : List (RobotStateIntern F)} {tr : List (Ev F)} (status : MoveStatus) (hw : ∀ s ∈ waiting, ∃ data, HoldsState s data)
    (ht : ∀ e ∈ tr, Plain e) (hh : ∀ s ∈ halting, ∃ data, HoldsState s data) : ∃ p sp, Aborts 1 status [] waiting tr halting p sp := by
  obtain ⟨start, h1, h2⟩ := suppliedStart hw
  obtain ⟨motion, h3, h4⟩ := supplied ht
  obtain ⟨halt, h5, h6⟩ := supplied (tr := halting.map .accepted) fun e he => by
    obtain ⟨s, hs, rfl⟩ := List.mem_map.1 he
    exact hh s hs
  refine ⟨⟨quiet, [], tcp (response 1 1 1), quiet, quiet, quiet, start, motion, [], tcp (MoveResponse.codec.enc ⟨⟨.Move, 1, 13⟩, status⟩), quiet, quiet, quiet,
    StopPlan.script ⟨quiet, [], tcp (response 2 2 0), quiet, quiet, quiet, halt, quiet, []⟩⟩,
    ⟨quiet, [], tcp (response 2 2 0), quiet, quiet, quiet, halt, quiet, []⟩, ?_⟩
  constructor
  case rest => rfl
  case fine =>
    refine ⟨?_, ?_, ?_, fine_quiet 1⟩
    all_goals
      intro t ht
      simp only [Plan.opening, Plan.closing, StopPlan.opening, List.cons_append, List.nil_append, List.mem_cons, List.not_mem_nil, or_false] at ht
    · rcases ht with rfl | rfl | rfl | rfl | rfl <;> exact ⟨rfl, rfl⟩
    · rcases ht with rfl | rfl | rfl | rfl <;> exact ⟨rfl, rfl⟩
    · rcases ht with rfl | rfl | rfl | rfl | rfl <;> exact ⟨rfl, rfl⟩
  case accepts =>
    refine ⟨_, answer_ok 1 (.inr rfl), rfl, ?_⟩
    intro t ht
    simp only [List.cons_append, List.nil_append, List.mem_cons, List.not_mem_nil, or_false, or_self] at ht
    rw [ht]; rfl
  case starts => exact ⟨h1, h2⟩
  case moves => exact h3
  case aborts =>
    refine ⟨_, rfl, ?_, .inl ⟨?_, rfl⟩⟩
    · intro t ht
      simp only [List.mem_cons, List.not_mem_nil, or_false, or_self] at ht
      rw [ht]; rfl
    · rw [List.append_nil]; exact h4
  case obeys =>
    refine ⟨response 2 2 0, by unfold IsStopAnswer; kernel_rfl, rfl, ?_⟩
    intro t ht
    simp only [List.cons_append, List.nil_append, List.mem_cons, List.not_mem_nil, or_false, or_self] at ht
    rw [ht]; rfl
  case halts =>
    refine ⟨h5, fun t ht => ?_⟩
    rcases List.mem_append.1 ht with ht | ht
    · exact h6 t ht
    · rw [List.mem_singleton.1 ht]; rfl

theorem robot_absent (rest : List Tick) : ∀ bs, ((2 : UInt32), bs) ∉ responses (robot (F := F) rest).trace := by
  have h := robot_facts (F := F) rest
  generalize robot (F := F) rest = w at h ⊢
  simp only [Prod.mk.injEq] at h
  obtain ⟨-, -, h1, -, -, -, -, h6, -⟩ := h
  intro bs h
  rw [h6] at h
  simp at h

end Realize

/-- C73, without a hypothesis on the robot: every motion that is aborted and whose states fit into datagrams happens with some schedule. (`Realize.s1` is the state
that is received in `Robot::new`; the log has its default size.) -/
theorem C73_every_such_abort_happens {F : Type} [Fl F] [Wire F] [LawfulWire F] [Geo F] {c : RobotCall F} {σ : Type} {k : MotionKind} {call : ControlCall F σ k} {c0 : σ}
    (hc : IsControl c call c0) {first sB sE : RobotStateIntern F} {request stop : RobotReq F} {waiting halting : List (RobotStateIntern F)} {tr : List (Ev F)}
    {status : MoveStatus}
    (hrun : Run call c0 (.before (Realize.s1 F)) (.robotReq request :: (waiting.map .accepted ++ .accepted first :: tr)) (.broken sB))
    (hno : ∀ r, .robotReq r ∉ tr) (hstarted : ∃ s, waiting.getLast? = some s ∧ ShowsModes k call.controller s)
    (hstop : Run call c0 (.broken sB) (.robotReq stop :: halting.map .accepted) (.stopping sE)) (hhalt : Halts halting)
    (hstatus : abortMessage status ≠ none) (hreport : ¬ (status = .ReflexAborted ∧ LogWraps 50 (cycles tr).length))
    (hdata : ∀ s, .accepted s ∈ waiting.map .accepted ++ .accepted first :: tr → ∃ data, HoldsState s data)
    (hdata' : ∀ s ∈ halting, ∃ data, HoldsState s data) :
    ∃ w, RobotReachable w ∧ (∃ log text, (c.run w).1 = .err (.ControlException (some log) text) ∧
      AbortText status (RobotState.ofIntern sB : RobotState F).last_motion_errors log text) ∧
      List.Forall₂ Alike ((.robotReq request :: (waiting.map .accepted ++ .accepted first :: tr)) ++ .robotReq stop :: halting.map .accepted)
        (newEvents w (c.run w).2) := by
  obtain ⟨p, sp, hp⟩ := Realize.aborts (waiting := waiting) (tr := .accepted first :: tr) (halting := halting) status
    (fun s hs => hdata s (List.mem_append_left _ (List.mem_map_of_mem hs))) (fun e he => by
      rcases Realize.run_event hrun e (List.mem_cons_of_mem _ (List.mem_append_right _ he)) with ⟨r, rfl⟩ | ⟨s, rfl⟩ | ⟨a, x, rfl⟩ | h
      · rcases List.mem_cons.1 he with h | h
        · cases h
        · exact absurd h (hno r)
      · exact hdata s (List.mem_append_right _ he)
      · trivial
      · cases e <;> first | exact h | cases h) hdata'
  refine ⟨Realize.robot p.script, Realize.robot_reachable _, ?_⟩
  have := C73_an_aborted_motion_is_reported (Realize.fresh _) (Realize.robot_session p.script) hc (by simp) (Realize.robot_rt _) (Realize.robot_idle _)
    (by rw [Realize.robot_id]; decide) (by rw [Realize.robot_id]; exact Realize.robot_absent _)
    (Realize.robot_lastState _) hrun hno hstarted hstop hhalt hstatus (Realize.robot_script _) (by rw [Realize.robot_id, Realize.robot_udp]; exact hp) hreport
  exact ⟨this.1, this.2.2⟩

/-! ## Example

The motion `reflex` of the examples for the other properties. -/

section example_
open Toy

namespace Toy

/-- The states of the end of the motion. -/
@[irreducible] def r6 : RobotStateIntern UInt64 := stateOf (state 6 0 3 4) (by kernel_rfl)
@[irreducible] def r9 : RobotStateIntern UInt64 := stateOf (state 9 0 3 1) (by kernel_rfl)

/-- The events of the motion. -/
@[irreducible] def abortEvents : List (Ev UInt64) := newEvents (robot reflex) ((call 9).run (robot reflex)).2
/-- One of them. -/
@[irreducible] def abortEvent (i : Nat) : Ev UInt64 := abortEvents.getD i (.response 0 [])

/-- The events between the first state and the StopMove request. -/
abbrev abortTr : List (Ev UInt64) := [abortEvent 3, abortEvent 4, .accepted s4, abortEvent 6, abortEvent 7, .accepted s5, abortEvent 9, abortEvent 10, .accepted r6]

theorem abortEvents_eq : abortEvents = (abortEvent 0 :: ([s2].map .accepted ++ .accepted s3 :: abortTr)) ++ abortEvent 12 :: [r9].map .accepted := by kernel_rfl

/-- The plan of the motion. -/
def abortPlan : Plan where
  write := quiet
  ask := []
  a1 := tcp (response 1 1 1)
  a2 := quiet
  a3 := quiet
  a4 := quiet
  start := [quiet] ++ st 2 1 0 2
  motion := st 3 1 0 2 ++ ([quiet] ++ (st 4 1 0 2 ++ ([quiet] ++ (st 5 1 0 2 ++ ([quiet] ++ (st 6 0 3 4 ++ []))))))
  await := []
  l1 := tcp (response 1 1 6)
  l2 := quiet
  l3 := quiet
  l4 := quiet
  rest := halted

/-- The plan of its end. -/
def stopPlan : StopPlan where
  write := quiet
  ask := []
  b1 := tcp (response 2 2 0)
  b2 := quiet
  b3 := quiet
  b4 := quiet
  halt := st 9 0 3 1
  look := quiet
  rest := []

theorem abortPlan_script : reflex = abortPlan.script := by kernel_rfl

theorem a6 : HoldsState r6 (state 6 0 3 4) := ⟨by kernel_rfl, by kernel_rfl⟩
theorem a9 : HoldsState r9 (state 9 0 3 1) := ⟨by kernel_rfl, by kernel_rfl⟩

theorem show_abort (i : Nat) : show1 (abortEvent i) = (movingEvents ++ [[3, 5, 14, 0], [1, 6, 0], [0, 2, 2], [1, 9, 0]]).getD i [5] := by
  rw [← events_of reflex_shown]
  unfold abortEvent abortEvents
  rw [List.getD_eq_getElem?_getD, List.getD_eq_getElem?_getD, List.getElem?_map]
  cases (newEvents (robot reflex) ((call 9).run (robot reflex)).2)[i]? <;> rfl

theorem abort_cycle {i j : Nat} {dt a b f : Nat} {id m c md : UInt8} {s : RobotStateIntern UInt64} {tr : List (Ev UInt64)} {ts : List Tick}
    (h1 : show1 (abortEvent i) = [2, dt]) (h2 : show1 (abortEvent j) = [3, a, b, f]) (h3 : HoldsState s (state id m c md))
    (h : Supplies [] tr ts) : Supplies [] (abortEvent i :: abortEvent j :: .accepted s :: tr) ([quiet] ++ (st id m c md ++ ts)) := by
  obtain ⟨a, x, h4, -⟩ := send_of h2
  obtain ⟨k, s', out, h6⟩ := callback_of h1
  have h5 : Supplies ([] ++ quiet.udpIn) (.accepted s :: tr) (st id m c md ++ ts) := .state (st_arrives _ _ _ _ _ h3) h
  rw [h4, h6]
  exact .callback trivial (.command fine_quiet1 h5)

theorem abort_supplies : Supplies [] (.accepted s3 :: abortTr) abortPlan.motion :=
  .state (st_arrives _ _ _ _ _ e3) (abort_cycle (show_abort 3) (show_abort 4) e4 (abort_cycle (show_abort 6) (show_abort 7) e5
    (abort_cycle (show_abort 9) (show_abort 10) a6 (.nil _))))

theorem aborts : Aborts 1 .ReflexAborted [] [s2] (.accepted s3 :: abortTr) [r9] abortPlan stopPlan where
  rest := by kernel_rfl
  fine := by
    refine ⟨?_, ?_, ?_, fine_quiet1⟩
    all_goals
      intro t ht
      simp only [Plan.opening, abortPlan, Plan.closing, StopPlan.opening, stopPlan, List.cons_append, List.nil_append, List.mem_cons, List.not_mem_nil, or_false] at ht
    · rcases ht with rfl | rfl | rfl | rfl | rfl <;> exact ⟨rfl, rfl⟩
    · rcases ht with rfl | rfl | rfl | rfl <;> exact ⟨rfl, rfl⟩
    · rcases ht with rfl | rfl | rfl | rfl | rfl <;> exact ⟨rfl, rfl⟩
  accepts := by
    refine ⟨_, answer_ok 1 (.inr rfl), rfl, ?_⟩
    intro t ht
    simp only [abortPlan, List.cons_append, List.nil_append, List.mem_cons, List.not_mem_nil, or_false, or_self] at ht
    rw [ht]; rfl
  starts := by
    refine ⟨?_, fun t ht => ?_⟩
    · have h : SuppliesStart ([] : List Datagram) [s2] (quiet :: st 2 1 0 2 ++ []) := .state fine_quiet1 (st_arrives _ _ _ _ _ e2) (.nil _)
      exact h
    · rcases List.mem_append.1 ht with ht | ht
      · exact silent_quiet t ht
      · exact silent_st _ _ _ _ t ht
  moves := abort_supplies
  aborts := by
    refine ⟨response 1 1 6, by unfold IsMoveReply; kernel_rfl, ?_, .inl ⟨?_, rfl⟩⟩
    · intro t ht
      simp only [abortPlan, List.mem_cons, List.not_mem_nil, or_false, or_self] at ht
      rw [ht]; rfl
    · intro t ht
      simp only [abortPlan, List.append_nil, List.mem_append] at ht
      rcases ht with ht | ht | ht | ht | ht | ht | ht <;> first | exact silent_st _ _ _ _ t ht | exact silent_quiet t ht
  obeys := by
    refine ⟨response 2 2 0, by unfold IsStopAnswer; kernel_rfl, rfl, ?_⟩
    intro t ht
    simp only [stopPlan, List.cons_append, List.nil_append, List.mem_cons, List.not_mem_nil, or_false, or_self] at ht
    rw [ht]; rfl
  halts := by
    refine ⟨?_, fun t ht => ?_⟩
    · have h : Supplies ([] : List Datagram) [.accepted r9] (st 9 0 3 1 ++ []) := .state (st_arrives _ _ _ _ _ a9) (.nil _)
      exact h
    · rcases List.mem_append.1 ht with ht | ht
      · exact silent_st _ _ _ _ t ht
      · exact silent_quiet t ht

theorem run_of {F σ : Type} [Fl F] [Wire F] [Geo F] {w : World F} (hw : RobotReachable w) {c : RobotCall F} {k : MotionKind}
    {call : ControlCall F σ k} {c0 : σ} (hc : IsControl c call c0) {es : List (Ev F)} (he : newEvents w (c.run w).2 = es) :
    ∃ s0 ph, LastState w s0 ∧ Run call c0 (.before s0) es ph := by
  obtain ⟨s0, ph, -, hlast, hrun, -⟩ := control_events hw hc
  exact ⟨s0, ph, hlast, he ▸ hrun⟩

theorem abortEvents_def : newEvents (robot reflex) ((call 9).run (robot reflex)).2 = abortEvents := by unfold abortEvents; rfl

theorem split_run {F σ : Type} [Fl F] [Wire F] [Geo F] {k : MotionKind} {call : ControlCall F σ k} {c0 : σ} {ph ph' : Phase F σ} {tr tr' : List (Ev F)}
    (h : Run call c0 ph (tr ++ tr') ph') : ∃ ph1, Run call c0 ph tr ph1 ∧ Run call c0 ph1 tr' ph' := by
  induction tr generalizing ph with
  | nil => exact ⟨ph, .nil _, h⟩
  | cons e tr ih =>
    obtain ⟨ph1, h1, h2⟩ := h.cons_inv
    obtain ⟨ph2, h3, h4⟩ := ih h2
    exact ⟨ph2, Spec.Run.append (.snoc (.nil _) h1) h3, h4⟩

/-- After a command without finished flag, a state that shows no motion. -/
theorem broken_of {F σ : Type} [Fl F] [Wire F] [Geo F] {k : MotionKind} {call : ControlCall F σ k} {c0 : σ} {ph0 ph : Phase F σ} {tr : List (Ev F)} {a : Addr}
    {x : RobotCommand F} {s : RobotStateIntern F} (h : Run call c0 ph0 (tr ++ [.udpSend a x, .accepted s]) ph)
    (hx : x.motion.motion_generation_finished = false) (hs : ¬ Healthy k call.controller s) : ph = .broken s := by
  obtain ⟨ph1, -, h⟩ := split_run h
  obtain ⟨ph2, h1, h⟩ := h.cons_inv
  obtain ⟨ph3, h2, h⟩ := h.cons_inv
  rw [h.nil_inv]
  cases h1 with
  | send =>
    cases h2 with
    | next _ _ _ _ _ _ hh => exact absurd hh hs
    | nextBroken => rfl
  | finish => cases hx

/-- After the StopMove request. -/
theorem stopping_of {F σ : Type} [Fl F] [Wire F] [Geo F] {k : MotionKind} {call : ControlCall F σ k} {c0 : σ} {ph : Phase F σ} {r : RobotReq F} {s s' : RobotStateIntern F}
    (h : Run call c0 (.broken s) (.robotReq r :: [s'].map .accepted) ph) : ph = .stopping s' := by
  obtain ⟨ph2, h3, h4⟩ := h.cons_inv
  obtain ⟨ph3, h5, h6⟩ := h4.cons_inv
  rw [h6.nil_inv]
  cases h3
  cases h5
  rfl

theorem not_abort {r : RobotReq UInt64} {i : Nat} (h : ∀ n, (movingEvents ++ [[3, 5, 14, 0], [1, 6, 0], [0, 2, 2], [1, 9, 0]]).getD i [5] ≠ [0, 1, n] ∧
    (movingEvents ++ [[3, 5, 14, 0], [1, 6, 0], [0, 2, 2], [1, 9, 0]]).getD i [5] ≠ [0, 2, n] ∧
    (movingEvents ++ [[3, 5, 14, 0], [1, 6, 0], [0, 2, 2], [1, 9, 0]]).getD i [5] ≠ [0, 9, n]) : .robotReq r ≠ abortEvent i := by
  intro hi
  rw [← show_abort, ← hi] at h
  simp only [show1] at h
  split at h <;> simp at h

theorem no_abort_request (r : RobotReq UInt64) : .robotReq r ∉ abortTr := by
  simp only [List.mem_cons, List.not_mem_nil, or_false, not_or]
  refine ⟨not_abort ?_, not_abort ?_, nofun, not_abort ?_, not_abort ?_, nofun, not_abort ?_, not_abort ?_, nofun⟩ <;>
  exact fun n => by simp [movingEvents]

theorem s2_modes9 : ShowsModes .JointPositions (asked 9).controller s2 := ⟨by kernel_rfl, by kernel_rfl⟩

theorem r6_mode : r6.robot_mode = .Reflex := by kernel_rfl
theorem r9_motion : r9.motion_generator_mode = .Idle := by kernel_rfl
theorem r9_controller : r9.controller_mode = .Other := by kernel_rfl

theorem r9_halts : Halts [r9] := by
  refine ⟨by simp, r9, rfl, ?_⟩
  rintro (h | h)
  · exact h r9_motion
  · rw [r9_controller] at h; cases h

theorem reflex_cfg : (robot reflex).cfg = cfg := by kernel_rfl
theorem reflex_responses : responses (robot reflex).trace = [(0, connected)] := by kernel_rfl
theorem reflex_udp : (robot reflex).ker.udpRx = [] := by kernel_rfl
theorem reflex_eof : (robot reflex).ker.tcpEof = false := by kernel_rfl

theorem reflex_idle : Spec.Idle (robot reflex) where
  rx := robot_rx _
  eof := reflex_eof
  pending := robot_pending _
  absent bs h := by rw [reflex_responses, robot_id] at h; simp at h
  ids := by rw [robot_id]; decide
  ready h := absurd reflex_udp h

theorem cycles_length {F : Type} [Fl F] (tr : List (Ev F)) : (cycles tr).length ≤ tr.length := by
  induction tr using cycles.induct with
  | case1 a c s tr ih => simp only [cycles, List.length_cons]; omega
  | case2 x tr h ih => rw [cycles.eq_2 _ _ h, List.length_cons]; omega
  | case3 => exact Nat.le_refl _

theorem abortTr_cycles : ¬ LogWraps 50 (cycles abortTr).length := by
  rintro ⟨-, h, -⟩
  have h' := cycles_length abortTr
  have h9 : abortTr.length = 9 := rfl
  omega

theorem abort_run {s0 : RobotStateIntern UInt64} {ph : Phase UInt64 Nat}
    (hrun : Run (asked 9) 0 (.before s0) ((abortEvent 0 :: ([s2].map .accepted ++ .accepted s3 :: abortTr)) ++ abortEvent 12 :: [r9].map .accepted) ph) :
    ∃ request stop, Run (asked 9) 0 (.before s0) (.robotReq request :: ([s2].map .accepted ++ .accepted s3 :: abortTr)) (.broken r6) ∧
      Run (asked 9) 0 (.broken r6) (.robotReq stop :: [r9].map .accepted) (.stopping r9) := by
  obtain ⟨request, hr, -⟩ := request_of (show_abort 0)
  obtain ⟨stop, hr', -⟩ := request_of (show_abort 12)
  obtain ⟨a, x, hx, -, -, hf⟩ := send_of (show_abort 10)
  obtain ⟨ph1, h1, h2⟩ := split_run hrun
  have hb : ph1 = .broken r6 := by
    have : abortEvent 0 :: ([s2].map .accepted ++ .accepted s3 :: abortTr) = (abortEvent 0 :: ([s2].map .accepted ++ [.accepted s3, abortEvent 3, abortEvent 4,
      .accepted s4, abortEvent 6, abortEvent 7, .accepted s5, abortEvent 9])) ++ [.udpSend a x, .accepted r6] := by rw [← hx]; rfl
    rw [this] at h1
    refine broken_of h1 (by simpa using hf) ?_
    have : r6.robot_mode ≠ .Move := by rw [r6_mode]; simp
    exact fun hh => this hh.1
  subst hb
  rw [hr] at h1
  rw [hr'] at h2
  rw [stopping_of h2] at h2
  exact ⟨request, stop, h1, h2⟩

end Toy

/-- C73: the hypotheses are met by the motion `reflex`: after three calls of the callback a state shows that the robot does not move any more, and it reports a reflex. -/
example : ∃ s0 request stop, LastState (robot reflex) s0 ∧ ¬ RealTimeMissing (robot reflex) ∧ Spec.Idle (robot reflex) ∧
    (robot reflex).net.command_id + 1 ≠ 0xffffffff ∧ (∀ bs, ((robot reflex).net.command_id + 1, bs) ∉ responses (robot reflex).trace) ∧
    Run (asked 9) 0 (.before s0) (.robotReq request :: ([s2].map .accepted ++ .accepted s3 :: abortTr)) (.broken r6) ∧
    (∀ r, .robotReq r ∉ abortTr) ∧ ShowsModes .JointPositions (asked 9).controller s2 ∧
    Run (asked 9) 0 (.broken r6) (.robotReq stop :: [r9].map .accepted) (.stopping r9) ∧ Halts [r9] ∧ (robot reflex).script = abortPlan.script ∧
    Aborts (robot reflex).net.command_id .ReflexAborted (robot reflex).ker.udpRx [s2] (.accepted s3 :: abortTr) [r9] abortPlan stopPlan ∧
    ¬ LogWraps 50 (cycles abortTr).length := by
  obtain ⟨s0, ph, hlast, hrun⟩ := run_of (robot_reachable reflex) (call_control 9) (abortEvents_def.trans abortEvents_eq)
  obtain ⟨request, stop, h1, h2⟩ := abort_run hrun
  refine ⟨s0, request, stop, hlast, ?_, reflex_idle, by rw [robot_id]; decide, ?_, h1, no_abort_request, s2_modes9, h2, r9_halts, ?_, ?_, abortTr_cycles⟩
  · rintro ⟨-, h⟩
    rw [reflex_cfg] at h
    exact h ⟨rfl, rfl, rfl, rfl⟩
  · intro bs h
    rw [reflex_responses, robot_id] at h
    simp at h
  · rw [robot_script]; exact abortPlan_script
  · rw [robot_id, reflex_udp]
    exact aborts

/-- C73_else_it_panics: the same motion with a log of two records is such a case; `C32_reflex_report_panics` is what happens then. -/
example : LogWraps 2 (cycles abortTr).length := by
  obtain ⟨a4, x4, h4, -⟩ := send_of (show_abort 4)
  obtain ⟨a7, x7, h7, -⟩ := send_of (show_abort 7)
  obtain ⟨a10, x10, h10, -⟩ := send_of (show_abort 10)
  obtain ⟨_, _, _, h3⟩ := callback_of (show_abort 3)
  obtain ⟨_, _, _, h6⟩ := callback_of (show_abort 6)
  obtain ⟨_, _, _, h9⟩ := callback_of (show_abort 9)
  have : (cycles abortTr).length = 3 := by
    unfold abortTr
    rw [h3, h4, h6, h7, h9, h10]
    simp [cycles]
  rw [this]
  exact ⟨by decide, by decide, rfl⟩

end example_
end Verif
