import Verif.Lemmas.Control
import Verif.Lemmas.ApiSteps
/-!
# The visible events of every call and of every history
-/
set_option linter.unusedSectionVars false
namespace Verif
open Prog Spec
variable {F : Type} [Fl F] [Wire F] [Geo F]

/-- What a control method does. -/
def controlProgram {σ : Type} {k : MotionKind} (call : ControlCall F σ k) (c0 : σ) : Prog F Unit :=
  ControlLoop.new_intern call.motion call.torque call.limit_rate call.cutoff >>= fun l =>
    start_motion call.controller k.get_motion_generator_mode l.default_deviation l.default_deviation >>= fun id =>
    ({ l with motion_id := id }).run c0

theorem IsControl.run_eq {c : RobotCall F} {σ : Type} {k : MotionKind} {call : ControlCall F σ k} {c0 : σ} (h : IsControl c call c0) :
    c.run = controlProgram call c0 ∧ Fits call := by
  cases h with
  | motion σ k cb mode l f =>
    refine ⟨?_, by unfold Fits; rcases mode with _ | _ | _ <;> simp [requestedController]⟩
    show Robot.control_motion k cb mode l f c0 = _
    unfold Robot.control_motion Robot.control_motion_intern ControlLoop.from_control_mode
    rcases mode with _ | _ | _ <;> (simp only [Prog.bind_assoc']; rfl)
  | torquesAndMotion σ k tcb cb l f =>
    refine ⟨?_, by unfold Fits; simp⟩
    show Robot.control_torques_and_motion k tcb cb l f c0 = _
    unfold Robot.control_torques_and_motion Robot.control_torques_intern ControlLoop.new
    simp only [Prog.bind_assoc']; rfl
  | torques σ tcb l f =>
    refine ⟨?_, by unfold Fits; simp⟩
    show Robot.control_torques tcb l f c0 = _
    unfold Robot.control_torques Robot.control_torques_intern ControlLoop.new
    simp only [Prog.bind_assoc']; rfl
  | jointMotion speed q =>
    refine ⟨?_, by unfold Fits; simp⟩
    show Robot.joint_motion speed q = _
    unfold Robot.joint_motion Robot.control_motion Robot.control_motion_intern ControlLoop.from_control_mode
    simp only [Prog.bind_assoc']; rfl

/-- A control call follows the automaton. -/
theorem control_call_view {c : RobotCall F} {σ : Type} {k : MotionKind} {call : ControlCall F σ k} {c0 : σ} (h : IsControl c call c0)
    (w : World F) (hw : TcpOk .Robot w) (s0 : RobotStateIntern F) (hs : LastState w s0) : Post c.run w (ControlOutcome call c0 w s0) := by
  obtain ⟨h1, h2⟩ := IsControl.run_eq h
  rw [h1]
  exact control_view call h2 c0 hw s0 hs

/-- Neither a command is sent nor a callback called. -/
def NoCommand (w w' : World F) : Prop := ∃ es, w'.trace = w.trace ++ es ∧ ∀ e ∈ es, (∀ a x, e ≠ .udpSend a x) ∧
  (∀ k s dt o, e ≠ .motionCb k s dt o) ∧ ∀ s dt o, e ≠ .controlCb s dt o

theorem NoCommand.none {w w' : World F} (h : w'.trace = w.trace) : NoCommand w w' := ⟨[], by rw [h, List.append_nil], by simp⟩

theorem NoCommand.one {w w' : World F} {e : Ev F} (h : w'.trace = w.trace ++ [e]) (h1 : ∀ a x, e ≠ .udpSend a x)
    (h2 : ∀ k s dt o, e ≠ .motionCb k s dt o) (h3 : ∀ s dt o, e ≠ .controlCb s dt o) : NoCommand w w' :=
  ⟨[e], h, by intro e' he'; rw [List.mem_singleton.1 he']; exact ⟨h1, h2, h3⟩⟩

instance : Pre (NoCommand (F := F)) where
  refl w := .none rfl
  trans := by
    rintro a b c ⟨x, hx, h1⟩ ⟨y, hy, h2⟩
    refine ⟨x ++ y, by rw [hy, hx, List.append_assoc], fun e he => ?_⟩
    rcases List.mem_append.1 he with h | h
    · exact h1 e h
    · exact h2 e h

instance : TTcp (NoCommand (F := F)) where
  tick _ _ _ _ := .none rfl
  poll _ := .none rfl
  read _ _ := .one rfl (by simp) (by simp) (by simp)
  pend _ _ _ := .none rfl
  head _ _ _ := .none rfl
  store _ := .one rfl (by simp) (by simp) (by simp)
  remove _ _ := .none rfl

instance : TAcc (NoCommand (F := F)) where
  tick _ _ _ _ := .none rfl
  upoll _ := .none rfl
  recv _ _ _ _ := .one rfl (by simp) (by simp) (by simp)
  addr _ _ := .none rfl
  acc _ _ := .one rfl (by simp) (by simp) (by simp)

instance : TReq (NoCommand (F := F)) (fun _ => True) where
  tick _ _ _ _ := .none rfl
  next _ := .none rfl
  req _ _ _ := .one rfl (by simp) (by simp) (by simp)

instance : TRob (NoCommand (F := F)) where
  rob _ _ _ _ _ := .none rfl

/-- Before the Move request is accepted, nothing is commanded. -/
theorem control_accepts {c : RobotCall F} {σ : Type} {k : MotionKind} {call : ControlCall F σ k} {c0 : σ} (h : IsControl c call c0)
    (w : World F) (hw : TcpOk .Robot w) (s0 : RobotStateIntern F) (hs : LastState w s0) : Post c.run w fun _ w' =>
      NoCommand w w' ∨ ∃ wa, MoveAccepted k call.controller w wa ∧ NoCommand w wa ∧ Grows wa w' := by
  obtain ⟨h1, h2⟩ := IsControl.run_eq h
  rw [h1]
  unfold controlProgram
  refine (new_intern_view call w).bind ?_
  rintro r w1 ⟨rfl, hr⟩
  cases r with
  | ok l =>
    obtain ⟨rfl, -⟩ := hr
    rw [after_ok]
    have hstart : Post (start_motion call.controller k.get_motion_generator_mode (loopOf call 0).default_deviation (loopOf call 0).default_deviation) w1 fun r w' =>
        NoCommand w1 w' := (pres_start_motion (T := NoCommand) _ _ _ _ trivial).post w1
    refine ((start_view (c0 := c0) hw s0 hs _ rfl).and hstart).bind ?_
    rintro r w2 ⟨hr2, hn⟩
    cases r with
    | ok id =>
      obtain ⟨rfl, s', tr, -, -, -, wa, g1, g2, g3⟩ := hr2
      rw [after_ok]
      refine ((pres_run (T := Grows) _ trivial c0).post w2).mono ?_
      rintro r w3 g4
      refine .inr ⟨wa, g1, ?_, Pre.trans g3.grows g4⟩
      obtain ⟨es, e1, e2⟩ := hn
      obtain ⟨fs, f1, -⟩ := g3
      obtain ⟨hd, -, -, hv⟩ := g1.request
      have hpre : w1.trace <+: wa.trace := by
        rcases List.prefix_or_prefix_of_prefix (l₃ := w2.trace) ⟨es, e1.symm⟩ ⟨fs, f1.symm⟩ with h | ⟨x, hx⟩
        · exact h
        · have := congrArg List.length hv
          rw [← hx, visible_append, List.length_append, List.length_append] at this
          simp only [List.length_singleton] at this
          omega
      obtain ⟨x, hx⟩ := hpre
      refine ⟨x, hx.symm, fun e he => e2 e ?_⟩
      have : es = x ++ fs := by
        rw [f1, ← hx, List.append_assoc] at e1
        exact (List.append_cancel_left e1).symm
      rw [this]
      exact List.mem_append_left _ he
    | err e => exact .inl hn
    | panic m => exact .inl hn
    | blocked => exact .inl hn
  | err e => exact .inl (Pre.refl _)
  | panic m => exact hr.elim
  | blocked => exact hr.elim

/-! ## Calls without motions -/

/-- Some requests are written, none of them starts a motion, and nothing else is seen. -/
structure ReqStep (w w' : World F) : Prop where
  rob : w'.rob = w.rob
  trace : ∃ rs : List (RobotReq F), (∀ r ∈ rs, ∀ m, r.request ≠ .Move m) ∧ visible w'.trace = visible w.trace ++ rs.map .robotReq

instance : Pre (ReqStep (F := F)) where
  refl _ := ⟨rfl, [], by simp, by simp⟩
  trans := by
    rintro a b c ⟨h1, r1, h2, h3⟩ ⟨g1, r2, g2, g3⟩
    refine ⟨g1.trans h1, r1 ++ r2, ?_, by rw [g3, h3]; simp⟩
    intro r hr
    rcases List.mem_append.1 hr with hr | hr
    · exact h2 r hr
    · exact g2 r hr

theorem ReqStep.quiet {w w' : World F} (h1 : w'.rob = w.rob) (h2 : visible w'.trace = visible w.trace) : ReqStep w w' :=
  ⟨h1, [], by simp, by simp [h2]⟩

instance : TTcp (ReqStep (F := F)) where
  tick _ _ _ _ := .quiet rfl rfl
  poll _ := .quiet rfl rfl
  read w n := .quiet rfl (by rw [visible_append]; exact List.append_nil _)
  pend _ _ _ := .quiet rfl rfl
  head _ _ _ := .quiet rfl rfl
  store w := .quiet rfl (by rw [visible_append]; exact List.append_nil _)
  remove _ _ := .quiet rfl rfl

instance : TReq (ReqStep (F := F)) (fun b => ∀ m, b ≠ .Move m) where
  next _ := .quiet rfl rfl
  req w r h := ⟨rfl, [r], by simpa using h, visible_snoc _ _ rfl⟩

theorem Spec.Pieces.append {s1 s2 s3 : RobotStateIntern F} {tr1 tr2 : List (Ev F)} (h1 : Pieces s1 tr1 s2) (h2 : Pieces s2 tr2 s3) :
    Pieces s1 (tr1 ++ tr2) s3 := by
  induction h2 with
  | nil => rw [List.append_nil]; exact h1
  | snoc _ hs ih => rw [← List.append_assoc]; exact ih.snoc hs

theorem pieces_requests (s : RobotStateIntern F) (rs : List (RobotReq F)) (h : ∀ r ∈ rs, ∀ m, r.request ≠ .Move m) :
    Pieces s (rs.map .robotReq) s := by
  induction rs with
  | nil => exact .nil s
  | cons r rs ih =>
    have h1 : Pieces s ([] ++ [.robotReq r]) s := (Pieces.nil s).snoc (.request s r (h r (by simp)))
    exact h1.append (ih fun r hr => h r (List.mem_cons_of_mem _ hr))

/-- What is seen of one call. -/
def CallView (w : World F) (s : RobotStateIntern F) (r : Res F Unit) (w' : World F) : Prop :=
  ∃ tr s', visible w'.trace = visible w.trace ++ tr ∧ Pieces s tr s' ∧
    match r with
    | .ok _ => LastState w' s'
    | .err _ => LastState w' s'
    | _ => True

theorem CallView.of_req {w : World F} {s : RobotStateIntern F} (hs : LastState w s) {r : Res F Unit} {w' : World F} (h : ReqStep w w') : CallView w s r w' := by
  obtain ⟨h1, rs, h2, h3⟩ := h
  refine ⟨_, s, h3, pieces_requests s rs h2, ?_⟩
  cases r with
  | ok _ => exact LastState.congr h1 hs
  | err _ => exact LastState.congr h1 hs
  | panic m => trivial
  | blocked => trivial

theorem read_once_view (w : World F) (s : RobotStateIntern F) (hs : LastState w s) : Post (RobotImpl.read_once : Prog F (RobotState F)) w fun r w' =>
    match r with
    | .ok st => ∃ s', st = RobotState.ofIntern s' ∧ s.message_id < s'.message_id ∧ visible w'.trace = visible w.trace ++ [.accepted s'] ∧ LastState w' s'
    | .err e => visible w'.trace = visible w.trace ∧ LastState w' s ∧ ∃ m, e = .NetworkException m
    | _ => visible w'.trace = visible w.trace := by
  unfold RobotImpl.read_once
  have hd : Pres UdpStep (discard_available : Prog F Unit) := by
    unfold discard_available
    pres [pres_udp_receive _ _]
  have hn : NoErr (discard_available : Prog F Unit) := by
    unfold discard_available
    noerr [fun w => (udp_receive_spec _ _ w).mono (by rintro (_ | e | _ | _) w' h <;> first | exact h.elim | (intro e he; cases he))]
  refine ((hd.post w).and (hn w)).bind ?_
  rintro r w1 ⟨h1, h2⟩
  cases r with
  | ok _ =>
    rw [after_ok]
    refine (receive_view w1).bind ?_
    rintro r w2 ⟨-, h3⟩
    cases r with
    | ok s' =>
      obtain ⟨g1, g2, g3⟩ := h3
      refine ⟨s', rfl, ?_, ?_, LastState.of g2⟩
      · rw [h1.rob, hs.2.2] at g3; exact g3
      · exact g1.trans (by rw [h1.visible])
    | err e => exact ⟨h3.1.trans h1.visible, LastState.congr (h3.2.1.trans h1.rob) hs, h3.2.2⟩
    | panic m => exact h3.trans h1.visible
    | blocked => exact h3.trans h1.visible
  | err e => exact absurd rfl (h2 e)
  | panic m => exact h1.visible
  | blocked => exact h1.visible

theorem read_view {σ : Type} (cb : σ → RobotState F → σ × Bool) (c : σ) (w : World F) (s : RobotStateIntern F) (hs : LastState w s) :
    Post (Robot.read cb c : Prog F Unit) w (CallView w s) := by
  unfold Robot.read
  refine loop_post (fun _ w' => ∃ tr s', visible w'.trace = visible w.trace ++ tr ∧ Pieces s tr s' ∧ LastState w' s')
    ⟨[], s, by simp, .nil s, hs⟩ ?_ ?_
  · rintro c w1 ⟨tr, s1, h1, h2, h3⟩
    refine (update_none_view w1).bind ?_
    rintro r w2 ⟨-, h4⟩
    cases r with
    | ok st =>
      obtain ⟨s2, rfl, g1, g2, g3⟩ := h4
      rw [h3.2.2] at g3
      rw [after_ok]
      rcases hcb : cb c (RobotState.ofIntern s2) with ⟨c', b⟩
      simp only [post_bind, post_emit, after_ok]
      have hv : visible (w2.trace ++ [.readCb (RobotState.ofIntern s2) b]) = visible w.trace ++ (tr ++ [.accepted s2, .readCb (RobotState.ofIntern s2) b]) := by
        rw [visible_snoc _ _ rfl, g1, h1]; simp
      have hp := h2.snoc (.shown s1 s2 b g3)
      cases b with
      | true => exact ⟨_, s2, hv, hp, LastState.of g2⟩
      | false => exact ⟨_, s2, hv, hp, LastState.of g2⟩
    | err e => exact ⟨tr, s1, h4.1.trans h1, h2, LastState.congr h4.2.1 h3⟩
    | panic m => exact ⟨tr, s1, h4.trans h1, h2, trivial⟩
    | blocked => exact ⟨tr, s1, h4.trans h1, h2, trivial⟩
  · rintro c w1 ⟨tr, s1, h1, h2, h3⟩
    exact ⟨tr, s1, h1, h2, trivial⟩

theorem CallView.of_control {σ : Type} {k : MotionKind} {call : ControlCall F σ k} {c0 : σ} {w : World F} {s : RobotStateIntern F} (hf : Fits call)
    {r : Res F Unit} {w' : World F} (h : ControlOutcome call c0 w s r w') : CallView w s r w' := by
  obtain ⟨-, tr, ph, h1, h2, h3⟩ := h
  refine ⟨tr, ph.last, h1, by simpa using (Pieces.nil s).snoc (.control call c0 s tr ph hf h2), ?_⟩
  cases r with
  | ok _ => exact h3.1
  | err e => exact h3.1
  | panic m => trivial
  | blocked => trivial

theorem Spec.IsControl.fits {c : RobotCall F} {σ : Type} {k : MotionKind} {call : ControlCall F σ k} {c0 : σ} (h : IsControl c call c0) : Fits call := by
  cases h with
  | motion σ k cb mode l f c => unfold Fits; rcases mode with _ | _ | _ <;> simp [requestedController]
  | torquesAndMotion => unfold Fits; simp
  | torques => unfold Fits; simp
  | jointMotion => unfold Fits; simp

/-- Every call. -/
theorem call_view (c : RobotCall F) (w : World F) (hw : TcpOk .Robot w) (s : RobotStateIntern F) (hs : LastState w s) : Post c.run w (CallView w s) := by
  have hq : ∀ p : Prog F Unit, Pres ReqStep p → Post p w (CallView w s) := fun p hp => (hp.post w).mono fun r w' h => .of_req hs h
  have hctl : ∀ {σ : Type} {k : MotionKind} {call : ControlCall F σ k} {c0 : σ}, IsControl c call c0 → Post c.run w (CallView w s) :=
    fun h => (control_call_view h w hw s hs).mono fun r w' g => .of_control h.fits g
  have hb : ∀ b : RobotBody F, (∀ m, b ≠ .Move m) → ∀ m, b ≠ .Move m := fun _ h => h
  cases c
  case read σ cb c => exact read_view cb c w s hs
  case read_once =>
    unfold RobotCall.run Robot.read_once
    refine (read_once_view w s hs).bind ?_
    intro r w1 h
    cases r with
    | ok st =>
      obtain ⟨s', -, g1, g2, g3⟩ := h
      exact ⟨_, s', g2, by simpa using (Pieces.nil s).snoc (.state s s' g1), g3⟩
    | err e => exact ⟨[], s, by rw [h.1]; simp, .nil s, h.2.1⟩
    | panic m => exact ⟨[], s, by rw [h]; simp, .nil s, trivial⟩
    | blocked => exact ⟨[], s, by rw [h]; simp, .nil s, trivial⟩
  case control_motion => exact hctl (.motion ..)
  case control_torques_and_motion => exact hctl (.torquesAndMotion ..)
  case control_torques => exact hctl (.torques ..)
  case joint_motion => exact hctl (.jointMotion ..)
  case set_collision_behavior => exact hq _ (pres_set_collision_behavior _ _ _ _ _ _ _ _ (by simp))
  case set_joint_impedance => exact hq _ (pres_set_joint_impedance _ (by simp))
  case set_cartesian_impedance => exact hq _ (pres_set_cartesian_impedance _ (by simp))
  case set_guiding_mode => exact hq _ (pres_set_guiding_mode _ _ (by simp))
  case set_K => exact hq _ (pres_set_K _ (by simp))
  case set_EE => exact hq _ (pres_set_EE _ (by simp))
  case set_load => exact hq _ (pres_set_load _ _ _ (by simp))
  case set_filters => exact hq _ (pres_set_filters _ _ _ _ _ (by simp))
  case automatic_error_recovery => exact hq _ (pres_automatic_error_recovery (by simp))
  case stop => exact hq _ (pres_stop (by simp))
  case get_virtual_wall => refine hq _ ?_; unfold RobotCall.run; simp only; pres [pres_get_virtual_wall _ (by simp)]
  case set_default_behavior =>
    refine hq _ ?_
    unfold RobotCall.run; simp only
    unfold Robot.set_default_behavior
    pres [pres_set_collision_behavior _ _ _ _ _ _ _ _ (by simp), pres_set_joint_impedance _ (by simp),
      pres_set_cartesian_impedance _ (by simp)]
  case load_model =>
    refine hq _ ?_
    unfold RobotCall.run; simp only
    pres [pres_load_model (fun _ _ => .quiet rfl rfl) (by simp) _]
  case server_version =>
    refine hq _ ?_
    unfold RobotCall.run; simp only
    unfold Robot.server_version
    pres [pres_server_version]

/-! ## Histories -/

/-- A robot between two calls. -/
structure Alive (w : World F) : Prop where
  tcp : TcpOk .Robot w
  history : ∃ s, HistoryOf (visible w.trace) s ∧ LastState w s

/-- A robot in the middle of a call, or before its first state. -/
def Seen (w : World F) : Prop := (∃ s, HistoryOf (visible w.trace) s) ∨
  ∃ rs : List (RobotReq F), (∀ r ∈ rs, ∀ m, r.request ≠ .Move m) ∧ visible w.trace = rs.map .robotReq

theorem Spec.HistoryOf.append {s s' : RobotStateIntern F} {tr tr' : List (Ev F)} (h : HistoryOf tr s) (h' : Pieces s tr' s') : HistoryOf (tr ++ tr') s' := by
  obtain ⟨rs, s0, t, h1, rfl, h3⟩ := h
  exact ⟨rs, s0, t ++ tr', h1, by simp, h3.append h'⟩

theorem call_alive (c : RobotCall F) (w : World F) (h : Alive w) : Post c.run w fun r w' =>
    match r with
    | .ok _ => Alive w'
    | .err _ => Alive w'
    | _ => Seen w' := by
  obtain ⟨hk, s, hh, hs⟩ := h
  refine ((call_view c w hk s hs).and (keeps_call (I := TcpOk .Robot) (J := TcpWeak .Robot) c w hk)).mono ?_
  rintro r w' ⟨⟨tr, s', h1, h2, h3⟩, h4⟩
  have hist : HistoryOf (visible w'.trace) s' := by rw [h1]; exact hh.append h2
  cases r with
  | ok _ => exact ⟨h4, s', hist, h3⟩
  | err _ => exact ⟨h4, s', hist, h3⟩
  | panic m => exact .inl ⟨s', hist⟩
  | blocked => exact .inl ⟨s', hist⟩

theorem calls_alive (cs : List (RobotCall F)) : ∀ w : World F, Alive w → Post (robotCalls cs) w fun r w' =>
    match r with
    | .ok _ => Alive w'
    | _ => Seen w' := by
  induction cs with
  | nil => intro w h; exact h
  | cons c cs ih =>
    intro w h
    unfold robotCalls
    rw [post_bind, post_attempt]
    refine (call_alive c w h).mono ?_
    intro r w1 h1
    cases r with
    | ok _ => exact ih w1 h1
    | err e => exact ih w1 h1
    | panic m => exact h1
    | blocked => exact h1

/-- The connection is open and no state has come yet. -/
structure Opening (w : World F) : Prop where
  tcp : TcpOk .Robot w
  trace : ∃ rs : List (RobotReq F), (∀ r ∈ rs, ∀ m, r.request ≠ .Move m) ∧ visible w.trace = rs.map .robotReq

theorem Opening.seen (w : World F) (h : Opening w) : Seen w := .inr h.trace

theorem Opening.keeps {α : Type} (p : Prog F α) (h1 : Keeps (TcpOk .Robot) (TcpWeak .Robot) p) (h2 : Pres QuietStep p) :
    Keeps Opening Seen p := by
  intro w hw
  refine ((h1 w hw.tcp).and (h2.post w)).mono ?_
  rintro r w' ⟨g1, g2⟩
  obtain ⟨rs, k1, k2⟩ := hw.trace
  have := g2.trace.trans k2
  cases r with
  | ok _ => exact ⟨g1, rs, k1, this⟩
  | err e => exact ⟨g1, rs, k1, this⟩
  | panic m => exact .inr ⟨rs, k1, this⟩
  | blocked => exact .inr ⟨rs, k1, this⟩

instance : KeepTcp (F := F) Opening Seen where
  weak := Opening.seen
  tick w t ts h hw := ⟨(keepTcp_TcpOk .Robot).tick w t ts h hw.tcp, hw.trace⟩
  tcp := Opening.keeps _ KeepTcp.tcp pres_tcp_read_from_buffer
  remove id := Opening.keeps _ (KeepTcp.remove id) (pres_remove_response id)

theorem session_alive (rc : Option RealtimeConfig) (ls : Option Nat) (cs : List (RobotCall F)) (w : World F) (hw : Fresh w) :
    Post (robotSession rc ls cs) w fun r w' => match r with
      | .ok _ => Alive w'
      | _ => Seen w' := by
  unfold robotSession
  have hnew : Post (Robot.new rc ls : Prog F Unit) w fun r w' => match r with
      | .ok _ => Alive w'
      | _ => Seen w' := by
    have h := post_robot_new (I := Opening) (J := Seen) (K := Alive) rc ls w ?_ ?_ ?_ ?_ ?_
    · refine h.mono ?_
      intro r w' h
      cases r with
      | ok _ => exact h
      | err e => exact h
      | panic m => exact h
      | blocked => exact h
    · intro w' h; exact .inr ⟨[], by simp, by rw [h, hw.1]; rfl⟩
    · intro t ts r hs; exact ⟨tcpOk_init _ _ hw.1 rfl rfl, [], by simp, by rw [hw.1]; rfl⟩
    · intro b hb w1 h1
      have hk : Keeps (TcpOk .Robot) (TcpWeak .Robot) (sendRequest b) := Keeps.of_rel TcpSame.keep (pres_sendRequest b)
      refine ((hk w1 h1.tcp).and (sendRequest_spec b w1)).mono ?_
      rintro r w2 ⟨h2, h3⟩
      obtain ⟨rs, g1, g2⟩ := h1.trace
      cases r with
      | ok _ =>
        obtain ⟨-, t, ts, -, -, -, h4⟩ := h3
        refine ⟨h2, rs ++ [_], ?_, by rw [h4, visible_snoc _ _ rfl, g2]; simp; rfl⟩
        intro r hr
        rcases List.mem_append.1 hr with hr | hr
        · exact g1 r hr
        · simp only [List.mem_singleton] at hr
          rw [hr]; exact hb
      | err e => exact h3.elim
      | panic m => exact .inr ⟨rs, g1, by rw [h3, g2]⟩
      | blocked => exact .inr ⟨rs, g1, by rw [h3, g2]⟩
    · intro w1 v h1
      exact ⟨TcpSame.keep _ _ (TRob.rob w1 w1.rob.logger v w1.rob.current_move_motion_generator_mode w1.rob.current_move_controller_mode) h1.tcp, h1.trace⟩
    · intro w1 h1
      have hk : Keeps (TcpOk .Robot) (TcpWeak .Robot) (udp_blocking_receive (F := F) (RobotStateIntern.codec F) size_of_RobotStateIntern) :=
        Keeps.of_rel TcpSame.keep (pres_udp_blocking_receive _ _)
      have hu : Pres UdpStep (udp_blocking_receive (RobotStateIntern.codec F) size_of_RobotStateIntern : Prog F _) := pres_udp_blocking_receive _ _
      refine ((hk w1 h1.tcp).and (hu.post w1)).mono ?_
      rintro r w2 ⟨h2, h3⟩
      obtain ⟨rs, g1, g2⟩ := h1.trace
      have hv := h3.visible
      cases r with
      | ok s =>
        refine ⟨TcpSame.keep _ _ (TAcc.acc w2 s) h2, s, ⟨rs, s, [], g1, ?_, .nil s⟩, rfl, rfl, rfl⟩
        simp only
        rw [visible_snoc _ _ rfl, hv, g2]; simp
      | err e => exact .inr ⟨rs, g1, hv.trans g2⟩
      | panic m => exact .inr ⟨rs, g1, hv.trans g2⟩
      | blocked => exact .inr ⟨rs, g1, hv.trans g2⟩
  refine hnew.bind ?_
  intro r w1 h1
  cases r with
  | ok _ => exact calls_alive cs w1 h1
  | err e => exact h1
  | panic m => exact h1
  | blocked => exact h1

theorem RobotReachable.alive {w : World F} (h : RobotReachable w) : Alive w := by
  obtain ⟨rc, ls, cs, w0, h1, h2⟩ := h
  have := session_alive rc ls cs w0 h1
  unfold Post at this
  rw [h2] at this
  exact this

end Verif
