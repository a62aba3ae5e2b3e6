import Verif.Props.Control
import Verif.Lemmas.CoopCall
import Verif.Lemmas.LogSession
import Verif.Lemmas.Realize
/-!
# A motion the robot executes to its end: C65

`w` is a world in which a `Robot` exists (after `Robot::new` and any calls), `c` a control method with its arguments. `Run` (Spec/Control.lean) says
what happens in a motion, `Cooperates` (Spec/Coop.lean) that the robot does its part.
-/
set_option linter.unusedSectionVars false
namespace Verif
open Prog Spec

section
variable {F : Type} [Fl F] [Wire F] [Geo F]
variable {rc : Option RealtimeConfig} {ls : Option Nat} {cs : List (RobotCall F)} {w0 w : World F} (hw0 : Fresh w0)
  (hs : robotSession rc ls cs w0 = (.ok (), w)) {c : RobotCall F} {σ : Type} {k : MotionKind} {call : ControlCall F σ k} {c0 : σ}
  (hc : IsControl c call c0)
include hw0 hs hc

/-- **C65.** Let `request`, `waiting`, `first` and `tr` be the events of a motion that goes well: the Move request, the states until one shows the requested
modes, the first state of the motion, and then callbacks, commands and states until a callback has ended the motion and the robot stands still. If
the robot cooperates - it accepts the request, sends these states, and confirms the end - a control call on an idle connection returns Ok, and
these events, with the numbers and addresses of the connection, are what happens. -/
theorem C65_a_supported_motion_succeeds (hlog : ls ≠ some 0) (hrt : ¬ RealTimeMissing w) (hidle : Idle w) {s0 first sF : RobotStateIntern F}
    {request : RobotReq F} {waiting : List (RobotStateIntern F)} {tr : List (Ev F)} {mF : MotionGeneratorCommand F} {tF : ControllerCommand F}
    (hlast : LastState w s0)
    (hrun : Run call c0 (.before s0) (.robotReq request :: (waiting.map .accepted ++ .accepted first :: tr)) (.finishing sF mF tF))
    (hstill : ¬ Running sF) (hstop : ∀ r, .robotReq r ∉ tr) (hstarted : ∃ s, waiting.getLast? = some s ∧ ShowsModes k call.controller s)
    {p : Plan} (hscript : w.script = p.script) (hcoop : Cooperates w.net.command_id w.ker.udpRx waiting (.accepted first :: tr) p) :
    (c.run w).1 = .ok () ∧
      List.Forall₂ Alike (.robotReq request :: (waiting.map .accepted ++ .accepted first :: tr)) (newEvents w (c.run w).2) := by
  have hw : RobotReachable w := ⟨rc, ls, cs, w0, hw0, hs⟩
  obtain ⟨hk, -⟩ := RobotReachable.alive hw
  have hl : LogOk (ls.getD 50) w := by
    have := session_log rc ls cs w0 hw0
    unfold Post at this
    rw [hs] at this
    exact this
  have hpos : 0 < ls.getD 50 := by
    cases ls with
    | none => decide
    | some n => exact Nat.pos_of_ne_zero fun h => hlog (congrArg some h)
  have habs : w.net.received_responses w.net.command_id = none := by
    cases h : w.net.received_responses w.net.command_id with
    | none => rfl
    | some bs => exact absurd (hk.table _ _ h) (hidle.absent bs)
  obtain ⟨he, hfit⟩ := IsControl.run_eq hc
  have := control_supplied (c0 := c0) hfit hstill hidle.resting habs hk.type hrt hlast hl.arises.ok hpos hrun hstop hstarted hscript hcoop
  unfold Post at this
  rw [← he] at this
  obtain ⟨h1, -, es, h2, h3⟩ := this
  exact ⟨h1, by rw [newEvents_eq (call_grows c w) h2]; exact h3⟩

end

/-- C65, without a hypothesis on the robot: every motion that goes well and whose states fit into datagrams happens with some schedule. So what `Run` allows is
not more than what the library does. (`Realize.s1` is the state that is received in `Robot::new`.) -/
theorem C65_every_such_motion_happens {F : Type} [Fl F] [Wire F] [Geo F] {c : RobotCall F} {σ : Type} {k : MotionKind} {call : ControlCall F σ k} {c0 : σ}
    (hc : IsControl c call c0) {first sF : RobotStateIntern F} {request : RobotReq F} {waiting : List (RobotStateIntern F)} {tr : List (Ev F)}
    {mF : MotionGeneratorCommand F} {tF : ControllerCommand F}
    (hrun : Run call c0 (.before (Realize.s1 F)) (.robotReq request :: (waiting.map .accepted ++ .accepted first :: tr)) (.finishing sF mF tF))
    (hstill : ¬ Running sF) (hstop : ∀ r, .robotReq r ∉ tr) (hstarted : ∃ s, waiting.getLast? = some s ∧ ShowsModes k call.controller s)
    (hdata : ∀ s, .accepted s ∈ waiting.map .accepted ++ .accepted first :: tr → ∃ data, HoldsState s data) :
    ∃ w, RobotReachable w ∧ (c.run w).1 = .ok () ∧
      List.Forall₂ Alike (.robotReq request :: (waiting.map .accepted ++ .accepted first :: tr)) (newEvents w (c.run w).2) := by
  obtain ⟨p, hp⟩ := Realize.cooperates (waiting := waiting) (tr := .accepted first :: tr)
    (fun s hs => hdata s (List.mem_append_left _ (List.mem_map_of_mem hs))) (fun e he => by
      rcases Realize.run_event hrun e (List.mem_cons_of_mem _ (List.mem_append_right _ he)) with ⟨r, rfl⟩ | ⟨s, rfl⟩ | ⟨a, x, rfl⟩ | h
      · rcases List.mem_cons.1 he with h | h
        · cases h
        · exact absurd h (hstop r)
      · exact hdata s (List.mem_append_right _ he)
      · trivial
      · cases e <;> first | exact h | cases h)
  refine ⟨Realize.robot p.script, Realize.robot_reachable _, ?_⟩
  refine C65_a_supported_motion_succeeds (Realize.fresh _) (Realize.robot_session p.script) hc (by simp) (Realize.robot_rt _) (Realize.robot_idle _)
    (Realize.robot_lastState _) hrun hstill hstop hstarted (Realize.robot_script _) ?_
  rw [Realize.robot_id, Realize.robot_udp]
  exact hp

/-! ## Example

The motion `finished` of the examples for the other properties. -/

section example_
open Toy

namespace Toy

/-- The state in a datagram. -/
def stateOf (bs : Bytes) (h : ((RobotStateIntern.codec UInt64).dec bs).isSome = true) : RobotStateIntern UInt64 :=
  (Option.get _ h).1

/-- The states of the motion. -/
@[irreducible] def s2 : RobotStateIntern UInt64 := stateOf (state 2 1 0 2) (by kernel_rfl)
@[irreducible] def s3 : RobotStateIntern UInt64 := stateOf (state 3 1 0 2) (by kernel_rfl)
@[irreducible] def s4 : RobotStateIntern UInt64 := stateOf (state 4 1 0 2) (by kernel_rfl)
@[irreducible] def s5 : RobotStateIntern UInt64 := stateOf (state 5 1 0 2) (by kernel_rfl)
@[irreducible] def s6 : RobotStateIntern UInt64 := stateOf (state 6 1 0 2) (by kernel_rfl)
@[irreducible] def s7 : RobotStateIntern UInt64 := stateOf (state 7 0 3 1) (by kernel_rfl)

/-- The events of the motion. -/
@[irreducible] def events : List (Ev UInt64) := newEvents (robot finished) ((call 2).run (robot finished)).2
/-- One of them. -/
@[irreducible] def event (i : Nat) : Ev UInt64 := events.getD i (.response 0 [])

theorem events_eq : events = [event 0, .accepted s2, .accepted s3, event 3, event 4, .accepted s4, event 6, event 7, .accepted s5, event 9, event 10,
    .accepted s6, event 12, .accepted s7] := by kernel_rfl

/-- The plan of the motion. -/
def plan : Plan where
  write := quiet
  ask := []
  a1 := tcp (response 1 1 1)
  a2 := quiet
  a3 := quiet
  a4 := quiet
  start := [quiet] ++ st 2 1 0 2
  motion := st 3 1 0 2 ++ ([quiet] ++ (st 4 1 0 2 ++ ([quiet] ++ (st 5 1 0 2 ++ ([quiet] ++ (st 6 1 0 2 ++ ([quiet] ++ st 7 0 3 1)))))))
  await := []
  l1 := tcp (response 1 1 0)
  l2 := quiet
  l3 := quiet
  l4 := quiet
  rest := []

theorem plan_script : finished = plan.script := by kernel_rfl

theorem fine_quiet (n : Nat) : Fine (List.replicate n quiet) := fun t ht => by rw [List.eq_of_mem_replicate ht]; exact ⟨rfl, rfl⟩

theorem st_arrives (id m c md : UInt8) (s : RobotStateIntern UInt64) (h : HoldsState s (state id m c md)) :
    StateArrives s [] (st id m c md) := by
  refine .there [] [] 7 _ _ _ h rfl (by simp [StateSized]) ?_ ?_ rfl
  · intro t ht
    rcases List.mem_cons.1 ht with rfl | ht
    · exact ⟨rfl, rfl⟩
    · exact fine_quiet 4 t ht
  · intro t ht
    rw [List.eq_of_mem_replicate (n := 4) ht]; rfl

theorem silent_st (id m c md : UInt8) : TcpSilent (st id m c md) := by
  intro t ht
  rcases List.mem_cons.1 ht with rfl | ht
  · rfl
  · rw [List.eq_of_mem_replicate (n := 4) ht]; rfl

theorem silent_quiet : TcpSilent [quiet] := by simp [TcpSilent, quiet]

theorem answer_ok (s : UInt8) (h : s = 0 ∨ s = 1) : IsMoveAnswer 1 (response 1 1 s) := by
  rcases h with rfl | rfl
  · exact ⟨⟨⟨.Move, 1, 13⟩, .Success⟩, by kernel_rfl, rfl, rfl, rfl⟩
  · exact ⟨⟨⟨.Move, 1, 13⟩, .MotionStarted⟩, by kernel_rfl, rfl, rfl, rfl⟩

theorem fine_quiet1 : Fine [quiet] := fine_quiet 1

theorem e2 : HoldsState s2 (state 2 1 0 2) := ⟨by kernel_rfl, by kernel_rfl⟩
theorem e3 : HoldsState s3 (state 3 1 0 2) := ⟨by kernel_rfl, by kernel_rfl⟩
theorem e4 : HoldsState s4 (state 4 1 0 2) := ⟨by kernel_rfl, by kernel_rfl⟩
theorem e5 : HoldsState s5 (state 5 1 0 2) := ⟨by kernel_rfl, by kernel_rfl⟩
theorem e6 : HoldsState s6 (state 6 1 0 2) := ⟨by kernel_rfl, by kernel_rfl⟩
theorem e7 : HoldsState s7 (state 7 0 3 1) := ⟨by kernel_rfl, by kernel_rfl⟩

theorem show_event (i : Nat) : show1 (event i) = (movingEvents ++ [[3, 5, 14, 1], [1, 6, 1], [3, 6, 14, 1], [1, 7, 0]]).getD i [5] := by
  rw [← events_of finished_shown]
  unfold event events
  rw [List.getD_eq_getElem?_getD, List.getD_eq_getElem?_getD, List.getElem?_map]
  cases (newEvents (robot finished) ((call 2).run (robot finished)).2)[i]? <;> rfl

theorem callback_event {i dt : Nat} (h : show1 (event i) = [2, dt]) : IsCallback (event i) := by
  obtain ⟨k, s, out, h⟩ := callback_of h
  rw [h]; trivial

theorem supplies_cycle {i j : Nat} {dt a b f : Nat} {id m c md : UInt8} {s : RobotStateIntern UInt64} {tr : List (Ev UInt64)} {ts : List Tick}
    (h1 : show1 (event i) = [2, dt]) (h2 : show1 (event j) = [3, a, b, f]) (h3 : HoldsState s (state id m c md))
    (h : Supplies [] tr ts) : Supplies [] (event i :: event j :: .accepted s :: tr) ([quiet] ++ (st id m c md ++ ts)) := by
  obtain ⟨a, x, h4, -⟩ := send_of h2
  have h5 : Supplies ([] ++ quiet.udpIn) (.accepted s :: tr) (st id m c md ++ ts) := .state (st_arrives _ _ _ _ _ h3) h
  rw [h4]
  exact .callback (callback_event h1) (.command fine_quiet1 h5)

theorem supplies_end {j : Nat} {a b f : Nat} {id m c md : UInt8} {s : RobotStateIntern UInt64} (h2 : show1 (event j) = [3, a, b, f])
    (h3 : HoldsState s (state id m c md)) :
    Supplies [] (event j :: .accepted s :: []) ([quiet] ++ st id m c md) := by
  obtain ⟨a, x, h4, -⟩ := send_of h2
  have h5 : Supplies ([] ++ quiet.udpIn) [.accepted s] (st id m c md ++ []) := .state (st_arrives _ _ _ _ _ h3) (.nil _)
  rw [List.append_nil] at h5
  rw [h4]
  exact .command fine_quiet1 h5

theorem supplies_motion : Supplies [] (.accepted s3 :: [event 3, event 4, .accepted s4, event 6, event 7, .accepted s5, event 9, event 10,
    .accepted s6, event 12, .accepted s7]) plan.motion :=
  .state (st_arrives _ _ _ _ _ e3) (supplies_cycle (show_event 3) (show_event 4) e4 (supplies_cycle (show_event 6) (show_event 7) e5 (supplies_cycle (show_event 9) (show_event 10) e6 (supplies_end (show_event 12) e7))))

theorem cooperates : Cooperates 1 [] [s2] (.accepted s3 :: [event 3, event 4, .accepted s4, event 6, event 7, .accepted s5, event 9, event 10,
    .accepted s6, event 12, .accepted s7]) plan where
  fine := by
    constructor
    · intro t ht
      simp only [Plan.opening, plan, List.cons_append, List.nil_append, List.mem_cons, List.not_mem_nil, or_false] at ht
      rcases ht with rfl | rfl | rfl | rfl | rfl <;> exact ⟨rfl, rfl⟩
    · intro t ht
      simp only [Plan.closing, plan, List.nil_append, List.mem_cons, List.not_mem_nil, or_false] at ht
      rcases ht with rfl | rfl | rfl | rfl <;> exact ⟨rfl, rfl⟩
  accepts := by
    refine ⟨_, answer_ok 1 (.inr rfl), rfl, ?_⟩
    intro t ht
    simp only [plan, List.cons_append, List.nil_append, List.mem_cons, List.not_mem_nil, or_false, or_self] at ht
    rw [ht]; rfl
  starts := by
    refine ⟨?_, fun t ht => ?_⟩
    · have h : SuppliesStart ([] : List Datagram) [s2] (quiet :: st 2 1 0 2 ++ []) := .state fine_quiet1 (st_arrives _ _ _ _ _ e2) (.nil _)
      exact h
    · rcases List.mem_append.1 ht with ht | ht
      · exact silent_quiet t ht
      · exact silent_st _ _ _ _ t ht
  moves := supplies_motion
  confirms := by
    refine ⟨_, answer_ok 0 (.inl rfl), ?_, .inl ⟨?_, rfl⟩⟩
    · intro t ht
      simp only [plan, List.mem_cons, List.not_mem_nil, or_false, or_self] at ht
      rw [ht]; rfl
    · intro t ht
      simp only [plan, List.append_nil, List.mem_append] at ht
      rcases ht with ht | ht | ht | ht | ht | ht | ht | ht | ht <;> first | exact silent_st _ _ _ _ t ht | exact silent_quiet t ht

theorem idle_start : Spec.Idle (robot finished) where
  rx := robot_rx _
  eof := by kernel_rfl
  pending := robot_pending _
  absent := by
    have : responses (robot finished).trace = [(0, connected)] := by kernel_rfl
    intro bs h
    rw [this, robot_id] at h
    simp at h
  ids := by rw [robot_id]; decide
  ready := by
    have : (robot finished).ker.udpRx = [] := by kernel_rfl
    intro h; exact absurd this h

theorem run_of_ok {F σ : Type} [Fl F] [Wire F] [Geo F] {w : World F} (hw : RobotReachable w) {c : RobotCall F} {k : MotionKind}
    {call : ControlCall F σ k} {c0 : σ} (hc : IsControl c call c0) (hok : (c.run w).1 = .ok ()) {es : List (Ev F)} (he : newEvents w (c.run w).2 = es) :
    ∃ s0 sF mF tF, LastState w s0 ∧ Run call c0 (.before s0) es (.finishing sF mF tF) ∧ ¬ Running sF := by
  obtain ⟨s0, ph, -, hlast, hrun, -, h⟩ := control_events hw hc
  rw [hok] at h
  obtain ⟨-, sF, mF, tF, rfl, hF⟩ := h
  exact ⟨s0, sF, mF, tF, hlast, he ▸ hrun, hF.still⟩

theorem events_def : newEvents (robot finished) ((call 2).run (robot finished)).2 = events := by unfold events; rfl

theorem s2_modes : ShowsModes .JointPositions (asked 2).controller s2 := ⟨by kernel_rfl, by kernel_rfl⟩

theorem not_request {r : RobotReq UInt64} {i : Nat} (h : ∀ n, (movingEvents ++ [[3, 5, 14, 1], [1, 6, 1], [3, 6, 14, 1], [1, 7, 0]]).getD i [5] ≠ [0, 1, n] ∧
    (movingEvents ++ [[3, 5, 14, 1], [1, 6, 1], [3, 6, 14, 1], [1, 7, 0]]).getD i [5] ≠ [0, 2, n] ∧
    (movingEvents ++ [[3, 5, 14, 1], [1, 6, 1], [3, 6, 14, 1], [1, 7, 0]]).getD i [5] ≠ [0, 9, n]) : .robotReq r ≠ event i := by
  intro hi
  rw [← show_event, ← hi] at h
  simp only [show1] at h
  split at h <;> simp at h

theorem no_request (r : RobotReq UInt64) :
    .robotReq r ∉ [event 3, event 4, .accepted s4, event 6, event 7, .accepted s5, event 9, event 10, .accepted s6, event 12, .accepted s7] := by
  simp only [List.mem_cons, List.not_mem_nil, or_false, not_or]
  refine ⟨not_request ?_, not_request ?_, nofun, not_request ?_, not_request ?_, nofun, not_request ?_, not_request ?_, nofun, not_request ?_, nofun⟩ <;>
  exact fun n => by simp [movingEvents]

end Toy

/-- C65: the hypotheses are met by the motion `finished`: the callback is called three times, and the robot confirms the end. -/
example : ∃ s0 request sF mF tF, LastState (robot finished) s0 ∧ ¬ RealTimeMissing (robot finished) ∧ Spec.Idle (robot finished) ∧
    Run (asked 2) 0 (.before s0) (.robotReq request :: ([s2].map .accepted ++ .accepted s3 :: [event 3, event 4, .accepted s4, event 6, event 7,
      .accepted s5, event 9, event 10, .accepted s6, event 12, .accepted s7])) (.finishing sF mF tF) ∧ ¬ Running sF ∧
    (∀ r, .robotReq r ∉ [event 3, event 4, .accepted s4, event 6, event 7, .accepted s5, event 9, event 10, .accepted s6, event 12, .accepted s7]) ∧
    ShowsModes .JointPositions (asked 2).controller s2 ∧ (robot finished).script = plan.script ∧
    Cooperates (robot finished).net.command_id (robot finished).ker.udpRx [s2] (.accepted s3 :: [event 3, event 4, .accepted s4, event 6, event 7,
      .accepted s5, event 9, event 10, .accepted s6, event 12, .accepted s7]) plan := by
  obtain ⟨s0, sF, mF, tF, hlast, hrun, hF⟩ := run_of_ok (robot_reachable finished) (call_control 2) (ok_of (res_of finished_shown)) (events_def.trans events_eq)
  obtain ⟨request, hr, -⟩ := request_of (show_event 0)
  rw [hr] at hrun
  refine ⟨s0, request, sF, mF, tF, hlast, ?_, idle_start, hrun, hF, no_request, s2_modes, ?_, ?_⟩
  · have : (robot finished).cfg = cfg := by kernel_rfl
    rintro ⟨-, h⟩
    rw [this] at h
    exact h ⟨rfl, rfl, rfl, rfl⟩
  · rw [robot_script]; exact plan_script
  · have : (robot finished).ker.udpRx = [] := by kernel_rfl
    rw [robot_id, this]
    exact cooperates

end example_
end Verif
