import Verif.Lemmas.CoopSession
import Verif.Props.Abort
import Verif.Props.Connect
import Verif.Lemmas.Setup
/-!
# C74: a whole session with a robot that does its part
-/
set_option linter.unusedSectionVars false
namespace Verif
open Prog Spec

section
variable {F : Type} [Fl F] [Wire F] [LawfulWire F] [Geo F]
variable {rc : Option RealtimeConfig} {ls : Option Nat} {w0 : World F}

omit [LawfulWire F] in
theorem session_real_time {cs : List (RobotCall F)} {w : World F} (hs : robotSession rc ls cs w0 = (.ok (), w)) : RealTimeMissing w ↔ ¬ RealTimeGranted rc w0 := by
  have := session_setup rc ls cs w0
  unfold Post at this
  rw [hs] at this
  obtain ⟨h1, h2⟩ := this
  unfold RealTimeMissing RealTimeGranted
  rw [h1, h2]
  cases rc.getD .Enforce <;> simp

/-- One more call of a story. -/
theorem story_step {c : RobotCall F} {P : Outcome F Unit → Prop} {cs : List (RobotCall F × (Outcome F Unit → Prop))} {tr0 tr : List (Ev F)} {id' : UInt32}
    {s' : RobotStateIntern F} {q' : List Datagram} {ts' : List Tick} {cs0 : List (RobotCall F)} {w : World F} (hs : robotSession rc ls cs0 w0 = (.ok (), w))
    (h : Post c.run w fun r w' => ∃ o, P o ∧ Did o tr0 id' s' q' ts' w r w')
    (ih : ∀ {cs0 : List (RobotCall F)} {w : World F}, robotSession rc ls cs0 w0 = (.ok (), w) → Between id' s' q' ts' w →
      Post (robotHistory (cs.map Prod.fst)) w fun r w' => ∃ os, r = .ok os ∧ List.Forall₂ (fun c o => c.2 o) cs os ∧
        ∃ es, visible w'.trace = visible w.trace ++ es ∧ List.Forall₂ Alike tr es) :
    Post (robotHistory (((c, P) :: cs).map Prod.fst)) w fun r w' => ∃ os, r = .ok os ∧ List.Forall₂ (fun c o => c.2 o) ((c, P) :: cs) os ∧
      ∃ es, visible w'.trace = visible w.trace ++ es ∧ List.Forall₂ Alike (tr0 ++ tr) es := by
  simp only [List.map_cons, robotHistory, post_bind, post_attempt]
  obtain ⟨o, h1, h2, h3, es, h5, h6⟩ := h
  have hs' := session_snoc hs c (by rw [h2]; cases o <;> simp [returned])
  show Tried _ (c.run w).1 (c.run w).2
  have hgo : After (fun o => robotHistory (cs.map Prod.fst) >>= fun os => pure (o :: os)) (fun r w' => ∃ os, r = .ok os ∧ List.Forall₂ (fun c o => c.2 o) ((c, P) :: cs) os ∧
      ∃ es, visible w'.trace = visible w.trace ++ es ∧ List.Forall₂ Alike (tr0 ++ tr) es) (.ok o) (c.run w).2 := by
    rw [after_ok, post_bind]
    refine (ih hs' h3).mono ?_
    rintro r w2 ⟨os, rfl, g1, es2, g2, g3⟩
    simp only [after_ok, post_pure]
    exact ⟨o :: os, rfl, .cons h1 g1, es ++ es2, by rw [g2, h5, List.append_assoc], List.rel_append h6 g3⟩
  rw [h2]
  cases o with
  | ok v => exact hgo
  | error e => exact hgo

theorem goes_history (hw0 : Fresh w0) (hlog : ls ≠ some 0) {id : UInt32} {s : RobotStateIntern F} {q : List Datagram} {ts : List Tick}
    {cs : List (RobotCall F × (Outcome F Unit → Prop))} {tr : List (Ev F)} (h : Goes (ls.getD 50) (RealTimeGranted rc w0) id s q ts cs tr) :
    ∀ {cs0 : List (RobotCall F)} {w : World F}, robotSession rc ls cs0 w0 = (.ok (), w) → Between id s q ts w →
      Post (robotHistory (cs.map Prod.fst)) w fun r w' => ∃ os, r = .ok os ∧ List.Forall₂ (fun c o => c.2 o) cs os ∧
        ∃ es, visible w'.trace = visible w.trace ++ es ∧ List.Forall₂ Alike tr es := by
  have hnt : ∀ {cs0 : List (RobotCall F)} {w : World F}, robotSession rc ls cs0 w0 = (.ok (), w) → w.cfg.network_type = .Robot := fun {cs0 w} hs =>
    (RobotReachable.alive (show RobotReachable w from ⟨rc, ls, cs0, w0, hw0, hs⟩)).1.type
  have hpos : 0 < ls.getD 50 := by
    cases ls with
    | none => decide
    | some n => exact Nat.pos_of_ne_zero fun h => hlog (congrArg some h)
  induction h with
  | done id s q ts =>
    intro cs0 w hs hb
    exact ⟨[], rfl, .nil, [], by simp [robotHistory]; rfl, .nil⟩
  | version _ ih =>
    intro cs0 w hs hb
    refine story_step (tr0 := []) hs ?_ ih
    obtain ⟨-, v, -, -, hv⟩ := C67_robot_server_version rc ls cs0 w0 w hw0 hs
    show Post (Robot.server_version >>= fun _ => pure ()) w _
    rw [post_bind, post_of_eq hv]
    exact ⟨.ok (), rfl, rfl, hb, [], (List.append_nil _).symm, .nil⟩
  | request h h1 h2 h3 h4 _ ih =>
    intro cs0 w hs hb
    exact story_step (tr0 := [_]) hs ((request_did h1 h2 h3 h4 hb (hnt hs)).mono fun r w' h => ⟨_, rfl, h⟩) ih
  | defaults h1 _ ih =>
    intro cs0 w hs hb
    refine story_step hs ?_ ih
    show Post Robot.set_default_behavior w _
    rw [set_default_behavior_eq]
    exact (setters_did h1 hb (hnt hs)).mono fun r w' h => ⟨_, rfl, h⟩
  | read_once h1 h2 h3 h4 _ ih =>
    intro cs0 w hs hb
    exact story_step (tr0 := [_]) hs ((read_once_did h1 h2 h3 h4 hb).mono fun r w' h => ⟨_, rfl, h⟩) ih
  | read c h1 _ ih =>
    intro cs0 w hs hb
    exact story_step hs (Post.mono (p := Robot.read _ c) (read_did h1 hb) fun r w' h => ⟨_, rfl, h⟩) ih
  | @motion id s q cs tr c σ k call c0 r waiting first tr0 sF mF tF p h1 h2 h3 h4 h5 h6 h7 h8 _ ih =>
    intro cs0 w hs hb
    refine story_step hs ?_ ih
    have hl := session_log rc ls cs0 w0 hw0
    unfold Post at hl
    rw [hs] at hl
    obtain ⟨he, hfit⟩ := IsControl.run_eq h3
    rw [he]
    have hn := hb.number
    refine (control_supplied (c0 := c0) hfit h5 (hb.resting h2) hb.absent (hnt hs) (fun h => (session_real_time hs).1 h h1) hb.last hl.arises.ok hpos h4 h6 h7 hb.script
      (by rw [hn, hb.udp]; exact h8)).mono ?_
    rintro res w' ⟨rfl, ⟨hE, hid⟩, es, i1, i2⟩
    refine ⟨_, rfl, rfl, ⟨by rw [hid, hn], hE.last, hE.script, hE.rx, hE.eof, hE.pending, fun i hi => by rw [hE.table]; exact hb.table i (le_of_succ_le h2 hi), hE.udp, hE.ready⟩,
      es, i1, i2⟩
  | @aborted id s q cs tr c σ k call c0 r waiting first tr0 sB stop halting sE status p sp h1 h2 h3 h4 h5 h6 h7 h8 h9 h10 h11 h12 _ ih =>
    intro cs0 w hs hb
    refine story_step hs ?_ ih
    have hn := hb.number
    have hle : id ≤ id + 1 := le_of_succ_le h2 (UInt32.le_refl _)
    obtain ⟨⟨log, text, g1, g2⟩, ⟨hE, hid⟩, g3⟩ := aborted_settled hw0 hs h4 hlog (fun h => (session_real_time hs).1 h h1) (hb.resting h2) (by rw [hn]; exact h3) hb.absent
      (hb.table _ (by rw [hn]; exact hle)) hb.last h5 h6 h7 h8 h9 h10 hb.script (by rw [hn, hb.udp]; exact h12) h11
    refine ⟨.error (.ControlException (some log) text), ⟨log, text, rfl, g2⟩, g1, ⟨by rw [hid, hn], hE.last, hE.script, hE.rx, hE.eof, hE.pending,
      fun i hi => by rw [hE.table]; exact hb.table i (le_of_succ_le h2 (le_of_succ_le h3 hi)), hE.udp, hE.ready⟩, _, newEvents_of_grows (call_grows c w), g3⟩
  | refused h h1 h2 h3 h4 h5 h6 h7 h8 _ ih =>
    intro cs0 w hs hb
    exact story_step (tr0 := [_]) hs ((refused_did (fun h => (session_real_time hs).1 h h1) h2 h3 h4 h5 h6 h7 h8 hb (hnt hs)).mono fun r w' h => ⟨_, rfl, h⟩) ih
  | unscheduled h1 h2 _ ih =>
    intro cs0 w hs hb
    refine story_step (tr0 := []) hs ?_ ih
    rw [(IsControl.run_eq h2).1]
    unfold controlProgram
    rw [post_bind]
    refine (new_intern_view _ w).mono ?_
    rintro res w1 ⟨rfl, hres⟩
    cases res with
    | err e =>
      obtain ⟨-, m, rfl⟩ := hres
      exact ⟨.error (.RealTimeException m), ⟨m, rfl⟩, rfl, hb, [], by simp, .nil⟩
    | panic m => exact hres.elim
    | blocked => exact hres.elim
    | ok l => exact absurd ((session_real_time hs).2 h1) hres.2

/-- **C74.** A whole session with a robot that does its part. The robot accepts the connection and sends a first state `s`; after that it does what `Goes` says:
it answers the requests (positively or not), sends the states that are awaited, executes motions to their end, aborts them or refuses them. Then every call
of the session returns, to each call the user is told what `Goes` says, and what happens is the handshake followed by exactly the events
`tr`, with the numbers and addresses of the connection. -/
theorem C74_a_session_goes_as_the_robot_says {w : World F} (hw : Fresh w) (hlog : ls ≠ some 0) {g : Greeting} {a : ConnectResponse} {m : Bytes} {s : RobotStateIntern F}
    {ts0 ts : List Tick} {cs : List (RobotCall F × (Outcome F Unit → Prop))} {tr : List (Ev F)} (hs : w.script = g.script ++ (ts0 ++ ts)) (hg : g.Brings m)
    (hm : RobotAnswer a m) (hok : a.status = .Success) (hst : FirstState s (udpArrived g.script) ts0) (hq : TcpSilent ts0)
    (hgo : Goes (ls.getD 50) (RealTimeGranted rc w) 1 s [] ts cs tr) :
    ∃ os w', robotStory rc ls (cs.map Prod.fst) w = (.ok os, w') ∧ List.Forall₂ (fun c o => c.2 o) cs os ∧
      ∃ (h : RobotCommandHeader) (es : List (Ev F)), h.command = .Connect ∧ visible w'.trace = .robotReq ⟨h, robotHello w⟩ :: .accepted s :: es ∧ List.Forall₂ Alike tr es := by
  obtain ⟨w1, h1, -, h2, ⟨h, h3, -, h4⟩, hidle, h5, h6, h7, h8⟩ := robot_connected hw rc ls hs hg hm hok hst hq
  have hses : robotSession rc ls [] w = (.ok (), w1) := by
    unfold robotSession
    show Prog.bind _ _ w = _
    unfold Prog.bind
    rw [h1]
    rfl
  have hb : Between 1 s [] ts w1 :=
    { number := h6
      last := h2
      script := h5
      rx := hidle.rx
      eof := hidle.eof
      pending := hidle.pending
      table := fun i hi => by
        cases hx : w1.net.received_responses i with
        | none => rfl
        | some bs =>
          obtain ⟨hk, -⟩ := RobotReachable.alive (show RobotReachable w1 from ⟨rc, ls, [], w, hw, hses⟩)
          have := hk.table _ _ hx
          rw [h8, List.mem_singleton] at this
          rw [(Prod.mk.inj this).1] at hi
          exact absurd hi (by decide)
      udp := h7
      ready := fun h => absurd h7 h }
  have hgo := goes_history hw hlog hgo hses hb
  have : Post (robotStory rc ls (cs.map Prod.fst)) w fun r w' => ∃ os, r = .ok os ∧ List.Forall₂ (fun c o => c.2 o) cs os ∧
      ∃ es, visible w'.trace = visible w1.trace ++ es ∧ List.Forall₂ Alike tr es := by
    unfold robotStory
    rw [post_bind, post_of_eq h1, after_ok]
    exact hgo
  obtain ⟨os, g1, g2, es, g3, g4⟩ := this
  exact ⟨os, _, Prod.ext g1 rfl, g2, h, es, h3, by rw [g3, h4]; rfl, g4⟩

end

/-! ## Example

The motion `finished` of the examples for the other properties; then the robot refuses a load and a motion. -/

section example_
open Toy

namespace Toy

@[irreducible] def s1 : RobotStateIntern UInt64 := stateOf (state 1) (by kernel_rfl)
@[irreducible] def s8 : RobotStateIntern UInt64 := stateOf (state 8 0 3 1) (by kernel_rfl)
theorem e1 : HoldsState s1 (state 1) := ⟨by kernel_rfl, by kernel_rfl⟩
theorem e8 : HoldsState s8 (state 8 0 3 1) := ⟨by kernel_rfl, by kernel_rfl⟩
theorem finished_last : lastAccepted (visible (robot finished).trace) = some s1 := by kernel_rfl

/-- A request without delay. -/
def asking (m : Bytes) : Asking := ⟨quiet, [], tcp m, quiet, quiet, quiet⟩

theorem asking_brings (m : Bytes) : (asking m).Brings m where
  fine t ht := by
    simp only [Asking.script, asking, List.cons_append, List.nil_append, List.mem_cons, List.not_mem_nil, or_false] at ht
    rcases ht with rfl | rfl | rfl | rfl | rfl <;> exact ⟨rfl, rfl⟩
  bytes := rfl
  silent t ht := by
    simp only [asking, List.cons_append, List.nil_append, List.mem_cons, List.not_mem_nil, or_false, or_self] at ht
    rw [ht]; rfl

/-- What follows the motion: a load is refused, a state is read, a motion is refused. -/
def afterwards : List Tick := (asking (response 10 2 2)).script ++ ([quiet] ++ (st 8 0 3 1 ++ ((asking (response 1 3 3)).script ++ [])))

/-- The whole motion. -/
abbrev movingTr : List (Ev UInt64) := [event 3, event 4, .accepted s4, event 6, event 7, .accepted s5, event 9, event 10, .accepted s6, event 12, .accepted s7]

theorem plan_cooperates (rest : List Tick) : Cooperates 1 [] [s2] (.accepted s3 :: movingTr) { plan with rest } :=
  ⟨cooperates.1, cooperates.2, cooperates.3, cooperates.4, cooperates.5⟩

/-- The last state of a motion. -/
theorem finishing_last {F σ : Type} [Fl F] [Wire F] [Geo F] {k : MotionKind} {call : ControlCall F σ k} {c0 : σ} {ph : Phase F σ} {tr : List (Ev F)}
    {s sF : RobotStateIntern F} {m t} (h : Run call c0 ph (tr ++ [.accepted s]) (.finishing sF m t)) : sF = s := by
  obtain ⟨ph1, -, h⟩ := split_run h
  obtain ⟨ph2, h1, h⟩ := h.cons_inv
  cases h.nil_inv
  cases h1; rfl

theorem run_of_last {F σ : Type} [Fl F] [Wire F] [Geo F] {w : World F} (hw : RobotReachable w) {c : RobotCall F} {k : MotionKind} {call : ControlCall F σ k}
    {c0 : σ} {s0 : RobotStateIntern F} (hc : IsControl c call c0) (hok : (c.run w).1 = .ok ()) {es : List (Ev F)} (he : newEvents w (c.run w).2 = es)
    (hl : lastAccepted (visible w.trace) = some s0) : ∃ sF mF tF, Run call c0 (.before s0) es (.finishing sF mF tF) ∧ ¬ Running sF := by
  obtain ⟨s, ph, h1, -, hrun, -, h⟩ := control_events hw hc
  rw [hl] at h1
  cases h1
  rw [hok] at h
  obtain ⟨-, sF, mF, tF, rfl, hF⟩ := h
  exact ⟨sF, mF, tF, he ▸ hrun, hF.still⟩

theorem moving_run : ∃ request mF tF, Run (asked 2) 0 (.before s1) (.robotReq request :: ([s2].map .accepted ++ .accepted s3 :: movingTr)) (.finishing s7 mF tF) ∧
    ¬ Running s7 := by
  obtain ⟨sF, mF, tF, hrun, hF⟩ := run_of_last (robot_reachable finished) (call_control 2) (ok_of (res_of finished_shown)) (events_def.trans events_eq) finished_last
  obtain ⟨request, hr, -⟩ := request_of (show_event 0)
  rw [hr] at hrun
  have h7 : sF = s7 := finishing_last (tr := .robotReq request :: ([s2].map .accepted ++ .accepted s3 :: [event 3, event 4, .accepted s4, event 6, event 7,
    .accepted s5, event 9, event 10, .accepted s6, event 12])) hrun
  rw [h7] at hrun hF
  exact ⟨request, mF, tF, hrun, hF⟩

theorem s7_s8 : s7.message_id < s8.message_id := by
  have h7 : s7.message_id = 7 := by kernel_rfl
  have h8 : s8.message_id = 8 := by kernel_rfl
  rw [h7, h8]; decide

theorem s8_still : ¬ Running s8 := by
  have h1 : s8.motion_generator_mode = .Idle := by kernel_rfl
  have h2 : s8.controller_mode = .Other := by kernel_rfl
  rintro (h | h)
  · exact h h1
  · rw [h2] at h; cases h

theorem load_answer : IsAnswer 2 (response 10 2 2) := ⟨⟨by decide, rfl, rfl⟩, rfl, by decide⟩
theorem silent_read : TcpSilent ([quiet] ++ st 8 0 3 1) := fun t ht => by
  rcases List.mem_append.1 ht with ht | ht
  · exact silent_quiet t ht
  · exact silent_st _ _ _ _ t ht

theorem first : FirstState s1 (udpArrived (greeting connected).script) (udp (state 1) :: List.replicate 3 quiet) := by
  refine .arrives [⟨7, state 2 1 0 2⟩] 7 (state 1) _ _ e1 rfl ?_ ?_ ?_ rfl
  · intro d hd
    rw [List.mem_singleton] at hd
    rw [hd]; kernel_rfl
  · intro t ht
    rcases List.mem_cons.1 ht with rfl | ht
    · exact ⟨rfl, rfl⟩
    · exact fine_quiet 3 t ht
  · intro t ht
    rw [List.eq_of_mem_replicate ht]; rfl


theorem asking_udp (m : Bytes) : udpArrived (asking m).script = [] := by
  simp [udpArrived, Asking.script, asking, quiet, tcp]

theorem plan_udp (rest : List Tick) : udpArrived { plan with rest }.closing = [] := by
  simp [udpArrived, Plan.closing, plan, quiet, tcp]

theorem goes_refused {rt : Prop} (hrt : rt) : ∃ tr, Goes 50 rt 3 s8 [] ((asking (response 1 3 3)).script ++ [])
    [(call 9, (· = .error (.CommandException "libfranka-rs: Move command rejected: command not possible in the current mode!")))] tr :=
  ⟨_, .refused (p := asking (response 1 3 3)) (status := .CommandNotPossibleRejected) ⟨.Move, 3, 0⟩ hrt (by decide) (call_control 9) s8_still rfl
      (by unfold IsMoveReply; kernel_rfl) rfl (asking_brings _) (.done _ _ _ _)⟩

variable {rt : Prop} {ts : List Tick} {cs : List (RobotCall UInt64 × (Outcome UInt64 Unit → Prop))} {tr : List (Ev UInt64)}

theorem goes_read {id : UInt32} (h : Goes 50 rt id s8 [] ts cs tr) :
    ∃ tr, Goes 50 rt id s7 [] ([quiet] ++ (st 8 0 3 1 ++ ts)) ((.read_once, (· = .ok ())) :: cs) tr :=
  ⟨_, .read_once (.nothing _ rfl fine_quiet1) (st_arrives _ _ _ _ _ e8) silent_read s7_s8 h⟩

theorem goes_load {s : RobotStateIntern UInt64} (mass : UInt64) (x : Fin 3 → UInt64) (inertia : Fin 9 → UInt64) (h : Goes 50 rt 3 s [] ts cs tr) :
    ∃ tr, Goes 50 rt 2 s [] ((asking (response 10 2 2)).script ++ ts)
      ((.set_load mass x inertia, (· = .error (.CommandException "libfranka-rs: command rejected: invalid argument!"))) :: cs) tr := by
  refine ⟨_, .request (tr := tr) (p := asking (response 10 2 2)) ⟨.SetLoad, 2, 0⟩ (by decide) rfl (.setter rfl load_answer rfl) (asking_brings _) ?_⟩
  rw [asking_udp]
  exact h

theorem goes_moved (hrt : rt) (h : Goes 50 rt 2 s7 [] ts cs tr) :
    ∃ tr, Goes 50 rt 1 s1 [] { plan with rest := ts }.script ((call 2, (· = .ok ())) :: cs) tr := by
  obtain ⟨request, mF, tF, hrun, hstill⟩ := moving_run
  refine ⟨_, .motion (tr := tr) (p := { plan with rest := ts }) hrt (by decide) (call_control 2) hrun hstill no_request ⟨s2, rfl, s2_modes⟩ (plan_cooperates _) ?_⟩
  rw [plan_udp]
  exact h

theorem goes_all (hrt : rt) (mass : UInt64) (x : Fin 3 → UInt64) (inertia : Fin 9 → UInt64) : ∃ tr, Goes 50 rt 1 s1 [] { plan with rest := afterwards }.script
    [(call 2, (· = .ok ())), (.set_load mass x inertia, (· = .error (.CommandException "libfranka-rs: command rejected: invalid argument!"))),
      (.read_once, (· = .ok ())),
      (call 9, (· = .error (.CommandException "libfranka-rs: Move command rejected: command not possible in the current mode!")))] tr := by
  obtain ⟨tr1, h1⟩ := goes_refused hrt
  obtain ⟨tr2, h2⟩ := goes_read h1
  obtain ⟨tr3, h3⟩ := goes_load mass x inertia h2
  obtain ⟨tr4, h4⟩ := goes_moved hrt h3
  exact ⟨tr4, h4⟩

end Toy

/-- C74: a session of this kind with four calls. The first motion is executed; the robot refuses the load; a state is read; the robot refuses the second motion. -/
example (mass : UInt64) (x inertia) : let w := world ((greeting connected).script ++ ((udp (state 1) :: List.replicate 3 quiet) ++ { plan with rest := afterwards }.script))
    ∃ tr, Fresh w ∧ (greeting connected).Brings connected ∧ RobotAnswer ⟨⟨.Connect, 0, 15⟩, .Success, 5⟩ connected ∧
      FirstState s1 (udpArrived (greeting connected).script) (udp (state 1) :: List.replicate 3 quiet) ∧ TcpSilent (udp (state 1) :: List.replicate 3 quiet) ∧
      Goes 50 (RealTimeGranted none w) 1 s1 [] { plan with rest := afterwards }.script
        [(call 2, (· = .ok ())), (.set_load mass x inertia, (· = .error (.CommandException "libfranka-rs: command rejected: invalid argument!"))),
          (.read_once, (· = .ok ())),
          (call 9, (· = .error (.CommandException "libfranka-rs: Move command rejected: command not possible in the current mode!")))] tr := by
  intro w
  obtain ⟨tr, h⟩ := goes_all (show RealTimeGranted none w from .inr ⟨rfl, rfl, rfl, rfl⟩) mass x inertia
  refine ⟨tr, fresh _ _ _, greeting_brings _ (by decide), ⟨by kernel_rfl, rfl, rfl⟩, Toy.first, ?_, h⟩
  intro t ht
  rcases List.mem_cons.1 ht with rfl | ht
  · rfl
  · rw [List.eq_of_mem_replicate ht]; rfl

end example_
end Verif
