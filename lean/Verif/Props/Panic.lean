import Verif.Lemmas.SafeControl
import Verif.Lemmas.ToyMotion
import Verif.Props.Version
/-!
# When calls panic: C68
-/
set_option linter.unusedSectionVars false
namespace Verif
open Prog Spec
variable {F : Type} [Fl F] [Wire F] [LawfulWire F]

/-! ## Orderly connections are sane -/

theorem sane_init {nt : NetworkType} (w0 w : World F) (h : ∀ t ∈ w0.script, Orderly F nt t) (hw0 : Fresh w0) (t : Tick) (ts : List Tick)
    (hs : w0.script = t :: ts) (h1 : w.script = ts) (h2 : w.ker = w0.ker.arrive t) (h3 : w.net = {}) (h4 : w.trace = [])
    (h5 : w.cfg.network_type = nt) : Sane nt w := by
  refine ⟨tcpOk_init nt w h4 h3 h5, ?_⟩
  have ht := h t (by rw [hs]; simp)
  refine ⟨fun x hx => h x (by rw [hs]; simp [← h1, hx]), ⟨[], t.tcpIn, ?_, ht.stream, .inl ⟨by rw [h3], rfl⟩⟩, ?_⟩
  · rw [h2, hw0.2]; rfl
  · intro d hd
    rw [h2, hw0.2] at hd
    exact ht.states d hd

theorem session_sane [Geo F] (rc : Option RealtimeConfig) (ls : Option Nat) (cs : List (RobotCall F)) (w : World F) (hw : Fresh w)
    (ho : ∀ t ∈ w.script, Orderly F .Robot t) : Post (robotSession rc ls cs) w fun r w' => match r with
      | .ok _ => Sane .Robot w'
      | _ => True := by
  refine post_robotSession (I := Sane .Robot) (J := fun _ => True) rc ls cs w ?_
  refine post_robot_new (I := Sane .Robot) (J := fun _ => True) (K := Sane .Robot) rc ls w (fun _ _ => trivial) ?_
    (fun b _ => Keeps.of_rel SaneStep.keep (pres_sendRequest b)) ?_ ?_
  · intro t ts r hs
    exact sane_init w _ ho hw t ts hs rfl rfl rfl hw.1 rfl
  · intro w v h
    exact SaneStep.keep _ _ (TRob.rob w w.rob.logger v w.rob.current_move_motion_generator_mode w.rob.current_move_controller_mode) h
  · intro w h
    refine (calm_udp_blocking_receive RobotStateIntern.codec_lawful robot_state w h).mono ?_
    intro r w' hr
    cases r with
    | ok s => exact SaneStep.keep _ _ (TAcc.acc w' s) hr
    | err e => trivial
    | panic m => trivial
    | blocked => trivial

theorem gripper_session_sane (cs : List (GripperCall F)) (w : World F) (hw : Fresh w)
    (ho : ∀ t ∈ w.script, Orderly F .Gripper t) : Post (gripperSession cs) w fun r w' => match r with
      | .ok _ => Sane .Gripper w'
      | _ => True := by
  refine post_gripperSession (I := Sane .Gripper) (J := fun _ => True) cs w ?_
  refine post_gripper_new (I := Sane .Gripper) (J := fun _ => True) w (fun _ _ => trivial) ?_
    (fun b => Keeps.of_rel SaneStep.keep (pres_sendGripperRequest b)) ?_
  · intro t ts r hs
    exact sane_init w _ ho hw t ts hs rfl rfl rfl hw.1 rfl
  · intro w v h
    exact SaneStep.keep _ _ (TRob.rob w w.rob.logger v w.rob.current_move_motion_generator_mode w.rob.current_move_controller_mode) h

theorem Spec.OrderlyRobot.reachable [Geo F] {L : Nat} {w : World F} (h : OrderlyRobot L w) : RobotReachable w := by
  obtain ⟨rc, ls, cs, w0, h0, ho, -, h⟩ := h
  exact ⟨rc, ls, cs, w0, h0, h⟩

theorem Spec.OrderlyRobot.inside [Geo F] {L : Nat} {w : World F} (h : OrderlyRobot L w) : ∃ c, Inside .Robot c w w := by
  obtain ⟨rc, ls, cs, w0, h0, ho, -, h⟩ := h
  exact ⟨_, (session_sane rc ls cs w0 h0 ho).reach h, (session_req rc ls cs w0 h0).reach h, Pre.refl (T := Grows) w⟩

theorem Spec.OrderlyGripper.inside {w : World F} (h : OrderlyGripper w) : ∃ c, Inside .Gripper c w w := by
  obtain ⟨cs, w0, h0, ho, h⟩ := h
  exact ⟨_, (gripper_session_sane cs w0 h0 ho).reach h, (gripper_session_req cs w0 h0).reach h, Pre.refl (T := Grows) w⟩

/-! ## C68 -/

/-- C68: in an orderly connection to a robot, a call without a control loop panics only for the reasons of `RequestFault`. -/
theorem C68_call_panics [Geo F] {L : Nat} (w w' : World F) (hw : OrderlyRobot L w) (call : RobotCall F)
    (hc : ∀ (σ : Type) (k : MotionKind) (cc : ControlCall F σ k) c0, ¬ IsControl call cc c0) (m : String)
    (h : call.run w = (.panic m, w')) : RequestFault w w' := by
  by_cases hv : call = .server_version
  · subst hv
    obtain ⟨rc, ls, cs, w0, h0, ho, -, hs⟩ := hw
    obtain ⟨w1, v, -, -, hv⟩ := C67_robot_server_version rc ls cs w0 w h0 hs
    have : (RobotCall.server_version : RobotCall F).run w = (.ok (), w) := by
      show Prog.bind _ _ w = _
      unfold Prog.bind
      rw [hv]
      rfl
    rw [this] at h
    cases h
  · obtain ⟨c, hi⟩ := hw.inside
    exact (calm_call call hc hv w hi).reach h

/-- C68: in an orderly connection to a gripper, a call panics only for the reasons of `GripperFault`. -/
theorem C68_gripper_call_panics (w w' : World F) (hw : OrderlyGripper w) (call : GripperCall F) (m : String)
    (h : call.run w = (.panic m, w')) : GripperFault w w' := by
  by_cases hv : call = .server_version
  · subst hv
    obtain ⟨cs, w0, h0, ho, hs⟩ := hw
    obtain ⟨w1, v, -, -, hv⟩ := C67_gripper_server_version cs w0 w h0 hs
    have : (GripperCall.server_version : GripperCall F).run w = (.ok (), w) := by
      show Prog.bind _ _ w = _
      unfold Prog.bind
      rw [hv]
      rfl
    rw [this] at h
    cases h
  · obtain ⟨c, hi⟩ := hw.inside
    exact (calm_gripper_call call hv w hi).reach h

theorem req_init {w : World F} (h1 : w.trace = []) (h2 : w.net = {}) : ReqOk w.cfg.overflow_checks w := by
  refine ⟨⟨?_, ?_, ?_, ?_⟩, rfl, ?_⟩
  · rw [h1]; rfl
  · intro _; rw [h1]; exact Nat.lt_of_sub_eq_succ rfl
  · rw [h1]; intro r hr; cases hr
  · rw [h1]; intro r hr; cases hr
  · rw [h1, h2]; rfl

/-- No datagram was received. -/
def SameDatagrams (w w' : World F) : Prop := datagrams w'.trace = datagrams w.trace

theorem SameDatagrams.none {w w' : World F} (h : w'.trace = w.trace) : SameDatagrams w w' := by unfold SameDatagrams; rw [h]
theorem SameDatagrams.one {w w' : World F} {e : Ev F} (h : w'.trace = w.trace ++ [e]) (he : datagrams [e] = []) : SameDatagrams w w' := by
  unfold SameDatagrams; rw [h, datagrams_append, he, List.append_nil]

instance : Pre (SameDatagrams (F := F)) where
  refl _ := rfl
  trans h h' := Eq.trans h' h

instance : TTcp (SameDatagrams (F := F)) where
  tick _ _ _ _ := .none rfl
  poll _ := .none rfl
  read _ _ := .one rfl rfl
  pend _ _ _ := .none rfl
  head _ _ _ := .none rfl
  store _ := .one rfl rfl
  remove _ _ := .none rfl

instance : TReq (SameDatagrams (F := F)) (fun _ => True) where
  next _ := .none rfl
  req _ _ _ := .one rfl rfl

/-- C68: in an orderly connection the constructor of a robot panics only because of its request, or because no state came after the robot
had accepted the connection. -/
theorem C68_new_panics (rc : Option RealtimeConfig) (ls : Option Nat) (w w' : World F) (hw : Fresh w)
    (ho : ∀ t ∈ w.script, Orderly F .Robot t) (m : String) (h : Robot.new rc ls w = (.panic m, w')) :
    RequestFault w w' ∨ ((requests w'.trace).length = 1 ∧ datagrams w'.trace = []) := by
  suffices hp : Post (Robot.new rc ls : Prog F Unit) w fun r w' => ∀ m, r = .panic m →
      RequestFault w w' ∨ ((requests w'.trace).length = 1 ∧ datagrams w'.trace = []) from hp.reach h m rfl
  unfold Robot.new Robot.network_new
  simp only [post_bind, post_sys]
  refine ⟨fun _ => (by intro m h; cases h), ?_⟩
  intro t ts hs
  have hf : t.fail = false := (ho t (by rw [hs]; simp)).works
  simp only [after_ok, hf, post_pure, post_bind, post_modify, Bool.false_eq_true, if_false, if_true]
  unfold RobotImpl.new
  simp only [post_bind, post_modify, after_ok]
  generalize hw1 : ({ w with script := ts, ker := w.ker.arrive t, cfg := { w.cfg with network_type := .Robot }, net := {}, rob := _ } : World F) = w1
  have e1 : w1.trace = [] := by rw [← hw1]; exact hw.1
  have e2 : Inside .Robot w1.cfg.overflow_checks w w1 :=
    ⟨sane_init w w1 ho hw t ts hs (by rw [← hw1]) (by rw [← hw1]) (by rw [← hw1]) e1 (by rw [← hw1]), req_init e1 (by rw [← hw1]),
      ⟨[], by rw [e1, hw.1]; rfl⟩⟩
  have e3 : TcpOk .Robot w1 := e2.sane.tcp
  refine Post.congr_at (connect_robot_eq w1) ?_
  simp only [post_bind]
  have hd : Pres SameDatagrams (ask (robotHello w1) ConnectResponse.codec : Prog F _) := by
    unfold ask
    pres [pres_sendRequest _, pres_tcp_blocking_receive_response _ _]
  refine ((ask_spec (robotHello w1) ConnectResponse.codec w1 e3).and ((calm_ask (c := w1.cfg.overflow_checks) (w0 := w) (robotHello w1)
    ConnectResponse.codec (fun m h => lawful_none ConnectResponse.codec_lawful h) w1 e2).and (hd.post w1))).mono ?_
  rintro r w2 ⟨⟨h, hk, hid, hr⟩, hi, hdg⟩
  have hdg : datagrams w2.trace = [] := Eq.trans hdg (by rw [e1]; rfl)
  cases r with
  | ok a =>
    obtain ⟨-, -, -, -, g2, -⟩ := hr
    rw [e1, visible_nil, List.nil_append] at g2
    simp only [after_ok]
    unfold afterConnect
    cases hst : a.status with
    | Success =>
      simp only [post_modify, after_ok, post_bind, post_attempt]
      have hi : Inside _ _ _ w2 := hi
      have hs2 := SaneStep.keep _ _ (TRob.rob w2 w2.rob.logger (some a.version) w2.rob.current_move_motion_generator_mode
        w2.rob.current_move_controller_mode) hi.sane
      refine (blocking_receive_calm RobotStateIntern.codec_lawful robot_state _ hs2).mono ?_
      intro r w3 h3
      cases r with
      | ok s =>
        simp only [tried_ok, after_ok]
        unfold update_state_with
        simp only [post_bind, post_modify, after_ok, post_emit]
        intro m h; cases h
      | err e =>
        simp only [tried_err, after_ok, post_panic]
        intro m _
        have ht : w3.trace = w2.trace := h3.2
        refine .inr ⟨?_, ?_⟩
        · rw [ht, ← requests_visible, g2]; rfl
        · rw [ht]; exact hdg
      | panic m => exact h3.elim
      | blocked => intro m h; cases h
    | _ => intro m h; cases h
  | err e => exact hr.elim
  | panic m => intro m _; exact .inl hi
  | blocked => intro m h; cases h

/-- C68: in an orderly connection the constructor of a gripper panics only because of its request. -/
theorem C68_gripper_new_panics (w w' : World F) (hw : Fresh w)
    (ho : ∀ t ∈ w.script, Orderly F .Gripper t) (m : String) (h : (Gripper.new : Prog F Unit) w = (.panic m, w')) : GripperFault w w' := by
  suffices hp : Post (Gripper.new : Prog F Unit) w fun r w' => ∀ m, r = .panic m → GripperFault w w' from hp.reach h m rfl
  unfold Gripper.new Robot.network_new
  simp only [post_bind, post_sys]
  refine ⟨fun _ => (by intro m h; cases h), ?_⟩
  intro t ts hs
  have hf : t.fail = false := (ho t (by rw [hs]; simp)).works
  simp only [after_ok, hf, post_pure, post_bind, post_modify, Bool.false_eq_true, if_false, if_true]
  generalize hw1 : ({ w with script := ts, ker := w.ker.arrive t, cfg := { w.cfg with network_type := .Gripper }, net := {}, rob := _ } : World F) = w1
  have e1 : w1.trace = [] := by rw [← hw1]; exact hw.1
  have e2 : Inside .Gripper w1.cfg.overflow_checks w w1 :=
    ⟨sane_init w w1 ho hw t ts hs (by rw [← hw1]) (by rw [← hw1]) (by rw [← hw1]) e1 (by rw [← hw1]), req_init e1 (by rw [← hw1]),
      ⟨[], by rw [e1, hw.1]; rfl⟩⟩
  refine Post.congr_at (connect_gripper_eq w1) ?_
  simp only [post_bind]
  refine (calm_askGripper (c := w1.cfg.overflow_checks) (w0 := w) (gripperHello w1)
    Gripper.ConnectResponse.codec (fun m h => lawful_none Gripper.ConnectResponse.codec_lawful h) w1 e2).mono ?_
  intro r w2 hi
  cases r with
  | ok a =>
    simp only [after_ok]
    unfold afterGripperConnect
    cases hst : a.status with
    | Success => rw [post_modify]; intro m h; cases h
    | _ => intro m h; cases h
  | err e => intro m h; cases h
  | panic m => intro m _; exact hi
  | blocked => intro m h; cases h

theorem Spec.OrderlyRobot.live [Geo F] {L : Nat} {w : World F} (h : OrderlyRobot L w) : ∃ c, Live L c w w := by
  obtain ⟨c, hi⟩ := h.inside
  obtain ⟨-, s0, hh, hs⟩ := RobotReachable.alive h.reachable
  have hl := (eventRule_true.history hh).2
  obtain ⟨rc, ls, cs, w0, h0, ho, rfl, h⟩ := h
  have hids := (session_states rc ls cs w0 h0).reach h
  refine ⟨c, hi, (session_log rc ls cs w0 h0).reach h, ⟨s0, ?_, hs⟩, hids.ids⟩
  unfold lastAccepted at hl
  rw [accepted_visible] at hl
  exact hl

/-- C68: in an orderly connection to a robot, a call with a control loop panics only for the reasons of `RequestFault` and `ControlFault`. -/
theorem C68_control_panics [Geo F] {L : Nat} (w w' : World F) (hw : OrderlyRobot L w) {call : RobotCall F} {σ : Type} {k : MotionKind}
    {cc : ControlCall F σ k} {c0 : σ} (hc : IsControl call cc c0) (m : String) (h : call.run w = (.panic m, w')) :
    RequestFault w w' ∨ ControlFault L cc w w' := by
  obtain ⟨c, hl⟩ := hw.live
  obtain ⟨hrun, hfit⟩ := IsControl.run_eq hc
  rw [hrun] at h
  exact (control_live cc hfit c0 hl).reach h

/-! ## Examples -/

namespace Toy

/-- A check for `Orderly`. -/
def orderly (nt : NetworkType) (t : Tick) : Bool :=
  !t.fail && (decide (t.tcpIn = []) || (decide (KnownCommand nt t.tcpIn) && decide (headerLength nt ≤ t.tcpIn.length) &&
    decide (sizeAt nt t.tcpIn = t.tcpIn.length) && decide (idAt nt t.tcpIn < 4294967296))) &&
  t.udpIn.all fun d => match nt with
    | .Robot => ((RobotStateIntern.codec UInt64).dec d.data).map (·.2) == some []
    | .Gripper => ((Gripper.GripperStateIntern.codec UInt64).dec d.data).map (·.2) == some []

theorem codec_whole {α : Type} {k : Codec α} {n : Nat} (hk : k.Lawful n) {bs : Bytes} (h : ((k.dec bs).map (·.2) == some []) = true) :
    ∃ a, bs = k.enc a := by
  cases hd : k.dec bs with
  | none => rw [hd] at h; cases h
  | some p =>
    rw [hd] at h
    have h2 : p.2 = [] := by simpa using h
    have := hk.sound bs p.1 p.2 hd
    rw [h2, List.append_nil] at this
    exact ⟨p.1, this⟩

theorem orderly_of {nt : NetworkType} {t : Tick} (h : orderly nt t = true) : Orderly UInt64 nt t := by
  unfold orderly at h
  simp only [Bool.and_eq_true, Bool.or_eq_true, Bool.not_eq_true', decide_eq_true_eq, List.all_eq_true] at h
  obtain ⟨⟨h1, h2⟩, h3⟩ := h
  refine ⟨h1, ?_, ?_⟩
  · rcases h2 with h2 | ⟨⟨⟨a, b⟩, c⟩, d⟩
    · rw [h2]; exact .nil
    · rw [← List.append_nil t.tcpIn]
      refine .cons ⟨a, UInt32.ofNat (idAt nt t.tcpIn), b, c, ?_⟩ .nil
      rw [UInt32.toNat_ofNat_of_lt' (by exact d)]
  · intro d hd
    have h3 := h3 d hd
    cases nt with
    | Robot => exact codec_whole RobotStateIntern.codec_lawful h3
    | Gripper => exact codec_whole Gripper.GripperStateIntern.codec_lawful h3

theorem orderly_all {nt : NetworkType} {ts : List Tick} (h : ts.all (orderly nt) = true) : ∀ t ∈ ts, Orderly UInt64 nt t :=
  fun t ht => orderly_of (List.all_eq_true.1 h t ht)

theorem orderly_append {nt : NetworkType} {a b : List Tick} (h1 : a.all (orderly nt) = true) (h2 : b.all (orderly nt) = true) :
    ∀ t ∈ a ++ b, Orderly UInt64 nt t := orderly_all (by rw [List.all_append, h1, h2]; rfl)

theorem handshake_orderly : handshake.all (orderly .Robot) = true := by kernel_rfl
theorem gripperHandshake_orderly : gripperHandshake.all (orderly .Gripper) = true := by kernel_rfl

theorem robotL_orderly (ls : Nat) (rest : List Tick) (h : rest.all (orderly .Robot) = true) : OrderlyRobot ls (robotL ls rest) :=
  ⟨none, some ls, [], world (handshake ++ rest), fresh _ _ _, orderly_append handshake_orderly h, rfl,
    by unfold robotL; exact eq_pair (robotL_ok ls rest)⟩

theorem gripper_orderly (rest : List Tick) (h : rest.all (orderly .Gripper) = true) : OrderlyGripper (gripper rest) :=
  ⟨[], world (gripperHandshake ++ rest), fresh _ _ _, orderly_append gripperHandshake_orderly h,
    by unfold gripper; exact eq_pair (gripper_ok rest)⟩

/-- How a call ended. -/
def panicked {α : Type} : Res UInt64 α → Option String
  | .panic m => some m
  | _ => none

theorem panicked_of {α : Type} {p : Res UInt64 α × World UInt64} {m : String} (h : panicked p.1 = some m) : p = (.panic m, p.2) := by
  rcases p with ⟨r, w⟩
  cases r with
  | panic m' => cases h; rfl
  | _ => cases h

end Toy

open Toy

/-- An answer to request 1 that consists of a header only. -/
def Toy.short : List Tick := [quiet, tcp [3, 0, 0, 0, 1, 0, 0, 0, 12, 0, 0, 0], quiet, quiet, quiet]

/-- A setter is answered with a message that is too short. -/
example : OrderlyRobot 50 (robotL 50 short) ∧ ∃ w', (RobotCall.set_joint_impedance fun _ => (3 : UInt64)).run (robotL 50 short) =
    (.panic "called `Result::unwrap()` on an `Err` value: bincode error", w') :=
  ⟨robotL_orderly _ _ (by kernel_rfl), _, panicked_of (by kernel_rfl)⟩

/-- The same for a gripper. -/
def Toy.gripperShort : List Tick := [quiet, tcp [1, 0, 1, 0, 0, 0, 10, 0, 0, 0], quiet, quiet, quiet]

example : OrderlyGripper (gripper gripperShort) ∧ ∃ w', (GripperCall.homing : GripperCall UInt64).run (gripper gripperShort) =
    (.panic "called `Result::unwrap()` on an `Err` value: bincode error", w') :=
  ⟨gripper_orderly _ (by kernel_rfl), _, panicked_of (by kernel_rfl)⟩

/-- The robot accepts the connection and sends no state. -/
def Toy.unheard : List Tick := [quiet, quiet, tcp connected] ++ List.replicate 6 quiet

example : Fresh (world unheard) ∧ (∀ t ∈ (world unheard).script, Orderly UInt64 .Robot t) ∧ ∃ w', Robot.new none none (world unheard) =
    (.panic "called `Result::unwrap()` on an `Err` value: NetworkException", w') ∧ (requests w'.trace).length = 1 ∧ datagrams w'.trace = [] :=
  ⟨fresh _ _ _, orderly_all (by kernel_rfl), _, panicked_of (by kernel_rfl), by kernel_rfl, by kernel_rfl⟩

/-- The gripper answers the first request with a header only. -/
def Toy.gripperStub : List Tick := [quiet, quiet, tcp [0, 0, 0, 0, 0, 0, 10, 0, 0, 0]] ++ List.replicate 3 quiet

example : Fresh (world gripperStub) ∧ (∀ t ∈ (world gripperStub).script, Orderly UInt64 .Gripper t) ∧ ∃ w', Gripper.new (world gripperStub) =
    (.panic "called `Result::unwrap()` on an `Err` value: bincode error", w') :=
  ⟨fresh _ _ _, orderly_all (by kernel_rfl), _, panicked_of (by kernel_rfl)⟩

/-- The first state shows a motion. -/
def Toy.busyHandshake : List Tick := [quiet, quiet, tcp connected] ++ List.replicate 3 quiet ++ [udp (state 1 1 0 2)] ++ List.replicate 2 quiet

/-- Each further reason for a control call to panic. The robot moves already. -/
example : ∃ w : World UInt64, OrderlyRobot 50 w ∧ ∃ w', (call 2).run w = (.panic "libfranka-rs robot: Attempted to start multiple motions!", w') :=
  ⟨(robotSession none none [] (world busyHandshake)).2, ⟨none, none, [], world busyHandshake, fresh _ _ _, orderly_all (by kernel_rfl), rfl,
    eq_pair (by kernel_rfl)⟩, _, panicked_of (by kernel_rfl)⟩

/-- An elbow with a sign that is neither 1 nor -1. -/
example : OrderlyRobot 50 (robotL 50 poseStarted) ∧ ∃ w', (poseCall 3).run (robotL 50 poseStarted) = (.panic "assertion failed: CartesianPose::is_valid_elbow(elbow)", w') :=
  ⟨robotL_orderly _ _ (by kernel_rfl), _, panicked_of (by kernel_rfl)⟩

/-- A log of size zero. -/
example : OrderlyRobot 0 (robotL 0 finished) ∧ ∃ w', (call 2).run (robotL 0 finished) = (.panic "attempt to calculate the remainder with a divisor of zero", w') :=
  ⟨robotL_orderly _ _ (by kernel_rfl), _, panicked_of (by kernel_rfl)⟩

/-- The motion ends with a reflex, and the Move request is answered with success. -/
example : OrderlyRobot 50 (robotL 50 reflexSuccess) ∧ ∃ w', (call 9).run (robotL 50 reflexSuccess) = (.panic "Unexpected reply to a Move command", w') :=
  ⟨robotL_orderly _ _ (by kernel_rfl), _, panicked_of (by kernel_rfl)⟩

/-- The robot rejects the StopMove request. -/
example : OrderlyRobot 50 (robotL 50 stopRejected) ∧ ∃ w', (call 9).run (robotL 50 stopRejected) = (.panic "error while canceling motion", w') :=
  ⟨robotL_orderly _ _ (by kernel_rfl), _, panicked_of (by kernel_rfl)⟩

/-- A reflex in the third cycle, with a log of size two. -/
example : OrderlyRobot 2 (robotL 2 reflex) ∧ ∃ w', (call 9).run (robotL 2 reflex) = (.panic "overflow when subtracting durations", w') :=
  ⟨robotL_orderly _ _ (by kernel_rfl), _, panicked_of (by kernel_rfl)⟩

end Verif
