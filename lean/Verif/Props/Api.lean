import Verif.Lemmas.Udp
import Verif.Lemmas.ToyRun
/-!
# What API calls send and return: C17 - C21
-/
set_option linter.unusedSectionVars false
namespace Verif
open Prog Spec
variable {F : Type} [Fl F] [Wire F]

/-! ## C17 -/

theorem connect_verdict (m rest : Bytes) (a : ConnectResponse) (h : ConnectResponse.codec.dec m = some (a, rest)) :
    connectVerdict (F := F) 1 5 .Robot m (if a.status = .Success then .ok a.version.toNat else
      .error (.IncompatibleLibraryVersionError a.version 5)) := by
  have h0 := ConnectResponse.codec_lawful.sound _ _ _ h
  have ha : At m 0 (ConnectResponse.codec.enc a) := ⟨[], rest, h0, rfl⟩
  obtain ⟨hh, hr⟩ := At.seq ha (m := 12) (RobotCommandHeader.codec_lawful.len _)
  obtain ⟨hs, hv⟩ := At.seq hr (m := 1) (ConnectStatus.codec_lawful.len _)
  have hst := At.nat1 hs
  have hvs := At.nat2 hv
  refine ⟨a.version, hvs, ?_⟩
  show if natAt m 12 1 = 0 then _ else _
  simp only [Nat.zero_add] at hst
  rw [hst]
  cases a with
  | mk hd st v => cases st <;> rfl

theorem gripper_connect_verdict (m rest : Bytes) (a : Gripper.ConnectResponse) (h : Gripper.ConnectResponse.codec.dec m = some (a, rest)) :
    connectVerdict (F := F) 2 3 .Gripper m (if a.status = .Success then .ok a.version.toNat else
      .error (.IncompatibleLibraryVersionError a.version 3)) := by
  have h0 := Gripper.ConnectResponse.codec_lawful.sound _ _ _ h
  have ha : At m 0 (Gripper.ConnectResponse.codec.enc a) := ⟨[], rest, h0, rfl⟩
  obtain ⟨hh, hr⟩ := At.seq ha (m := 10) (Gripper.CommandHeader.codec_lawful.len _)
  obtain ⟨hs, hv⟩ := At.seq hr (m := 2) (Gripper.Status.codec_lawful.len _)
  have hst := At.nat2 hs
  have hvs := At.nat2 hv
  refine ⟨a.version, hvs, ?_⟩
  show if natAt m 10 2 = 0 then _ else _
  simp only [Nat.zero_add] at hst
  rw [hst]
  cases a with
  | mk hd st v => cases st <;> rfl

theorem Prog.bind_congr_at {α β : Type} (p : Prog F α) (f g : α → Prog F β) (w : World F)
    (h : ∀ a w', p w = (.ok a, w') → f a w' = g a w') : (p >>= f) w = (p >>= g) w := by
  show Prog.bind p f w = Prog.bind p g w
  unfold Prog.bind
  cases hp : p w with
  | mk r w' =>
    cases r with
    | ok a => exact h a w' hp
    | err e => rfl
    | panic m => rfl
    | blocked => rfl

theorem header_cfg (c : RobotCommandEnum) (n : Nat) : Pres (fun w w' : World F => w'.cfg = w.cfg) (create_header_for_robot c n) := by
  unfold create_header_for_robot next_command_id
  have : Pre (fun w w' : World F => w'.cfg = w.cfg) := ⟨fun _ => rfl, fun h h' => h'.trans h⟩
  pres [(show Pres _ (Prog.modify _) from fun w => rfl)]

theorem gripper_header_cfg (c : Gripper.Command) (n : Nat) :
    Pres (fun w w' : World F => w'.cfg = w.cfg) (create_header_for_gripper c n) := by
  unfold create_header_for_gripper next_command_id
  have : Pre (fun w w' : World F => w'.cfg = w.cfg) := ⟨fun _ => rfl, fun h h' => h'.trans h⟩
  pres [(show Pres _ (Prog.modify _) from fun w => rfl)]

/-- What follows the answer to the first request. -/
def afterConnect (a : ConnectResponse) : Prog F Unit := match a.status with
  | .Success => Prog.modify fun w => { w with rob := { w.rob with ri_version := some a.version } }
  | _ => err (.IncompatibleLibraryVersionError a.version VERSION)

theorem connect_robot_eq (w : World F) :
    (connect_robot : Prog F Unit) w = (ask (robotHello w) ConnectResponse.codec >>= afterConnect) w := by
  unfold ask sendRequest
  simp only [Prog.bind_assoc']
  unfold connect_robot
  refine Prog.bind_congr_at _ _ _ w fun h w' hw' => ?_
  have hc : w'.cfg = w.cfg := by
    have := header_cfg (F := F) .Connect RobotCommandEnum.Connect.size_of_request w
    rw [hw'] at this
    exact this
  show ((tcp_send_request ⟨h, .Connect (ConnectRequest.new w'.cfg.udp_port)⟩) >>= _) w' = _
  rw [hc]
  rfl

/-- What follows the answer to the first request of a gripper. -/
def afterGripperConnect (a : Gripper.ConnectResponse) : Prog F Unit := match a.status with
  | .Success => Prog.modify fun w => { w with rob := { w.rob with ri_version := some a.version } }
  | _ => err (.IncompatibleLibraryVersionError a.version Gripper.VERSION)

theorem connect_gripper_eq (w : World F) : (Gripper.connect_gripper Gripper.VERSION : Prog F Unit) w =
    (askGripper (gripperHello w) Gripper.ConnectResponse.codec >>= afterGripperConnect) w := by
  unfold askGripper sendGripperRequest
  simp only [Prog.bind_assoc']
  unfold Gripper.connect_gripper
  refine Prog.bind_congr_at _ _ _ w fun h w' hw' => ?_
  have hc : w'.cfg = w.cfg := by
    have := gripper_header_cfg (F := F) .Connect Gripper.Command.Connect.size_of_request w
    rw [hw'] at this
    exact this
  show ((tcp_send_request_gripper ⟨h, .Connect (Gripper.ConnectRequest.new w'.cfg.udp_port)⟩) >>= _) w' = _
  rw [hc]
  rfl

theorem Prog.Post.congr_at {α : Type} {p q : Prog F α} {w : World F} {Q : Res F α → World F → Prop} (h : p w = q w) (hq : Post q w Q) :
    Post p w Q := by
  unfold Post at hq ⊢; rw [h]; exact hq

/-- C17: the constructor of a robot, for every behaviour of the server and every schedule. -/
theorem C17_robot_new (rc : Option RealtimeConfig) (ls : Option Nat) (w : World F) (hw : Fresh w) :
    RobotConstructed w (Robot.new rc ls w).1 (Robot.new rc ls w).2 := by
  suffices h : Post (Robot.new rc ls : Prog F Unit) w (RobotConstructed w) from h
  unfold Robot.new Robot.network_new
  simp only [post_bind, post_sys]
  refine ⟨fun _ => ⟨⟨.Connect, 0, 0⟩, rfl, .inl (by rw [hw.1]; rfl)⟩, ?_⟩
  intro t ts hs
  simp only [after_ok, post_ite, post_pure, post_bind, post_modify, Bool.false_eq_true, if_false, if_true, post_err]
  refine ⟨fun _ => ⟨⟨.Connect, 0, 0⟩, rfl, .inl ⟨by rw [hw.1]; rfl, rfl⟩⟩, ?_⟩
  intro _
  unfold RobotImpl.new
  simp only [post_bind, post_modify, after_ok]
  generalize hw1 : ({ w with script := ts, ker := w.ker.arrive t, cfg := { w.cfg with network_type := .Robot }, net := {}, rob := _ } : World F) = w1
  have e1 : w1.trace = [] := by rw [← hw1]; exact hw.1
  have e2 : w1.cfg.udp_port = w.cfg.udp_port := by rw [← hw1]
  have e3 : TcpOk .Robot w1 := tcpOk_init _ w1 e1 (by rw [← hw1]) (by rw [← hw1])
  have e4 : robotHello w1 = robotHello w := by unfold robotHello; rw [e2]
  refine Post.congr_at (connect_robot_eq w1) ?_
  rw [e4]
  simp only [post_bind]
  refine (ask_spec (robotHello w) ConnectResponse.codec w1 e3).mono ?_
  rintro r w2 ⟨h, hk, hid, hr⟩
  cases r with
  | ok a =>
    obtain ⟨g1, -, -, -, g2, m, rest, g3, g4, g5⟩ := hr
    rw [e1, visible_nil, List.nil_append] at g2
    have hv := connect_verdict (F := F) m rest a g5
    simp only [after_ok]
    unfold afterConnect
    cases hst : a.status with
    | Success =>
      rw [hst, if_pos rfl] at hv
      simp only [post_modify, after_ok, post_bind, post_attempt]
      have hu : Pres UdpStep (udp_blocking_receive (RobotStateIntern.codec F) size_of_RobotStateIntern : Prog F _) :=
        pres_udp_blocking_receive _ _
      refine (hu.post _).mono ?_
      intro r w3 hu
      have hvis : visible w3.trace = [.robotReq ⟨h, robotHello w⟩] := hu.visible.trans g2
      have hresp : (h.command_id, m) ∈ responses w3.trace := by
        obtain ⟨ds, ht⟩ := hu.trace
        rw [ht, responses_append]
        exact List.mem_append_left _ g3
      cases r with
      | ok s =>
        simp only [tried_ok, after_ok]
        unfold update_state_with
        simp only [post_bind, post_modify, after_ok, post_emit]
        refine ⟨h, hk, s, m, _, ?_, ?_, g4, hv⟩
        · rw [visible_append, hvis]; rfl
        · rw [responses_append]; exact List.mem_append_left _ hresp
      | err e => exact ⟨h, hk, .inr hvis⟩
      | panic msg => exact ⟨h, hk, .inr hvis⟩
      | blocked => exact ⟨h, hk, .inr hvis⟩
    | _ =>
      rw [hst, if_neg (by simp)] at hv
      exact ⟨h, hk, .inr ⟨g2, m, g3, g4, hv⟩⟩
  | err e => exact hr.elim
  | panic msg =>
    simp only [e1, visible_nil, List.nil_append] at hr
    exact ⟨h, hk, hr⟩
  | blocked =>
    simp only [e1, visible_nil, List.nil_append] at hr
    exact ⟨h, hk, hr⟩

/-- C17: the constructor of a gripper, for every behaviour of the server and every schedule. -/
theorem C17_gripper_new (w : World F) (hw : Fresh w) : GripperConstructed w ((Gripper.new : Prog F Unit) w).1 (Gripper.new w).2 := by
  suffices h : Post (Gripper.new : Prog F Unit) w (GripperConstructed w) from h
  unfold Gripper.new Robot.network_new
  simp only [post_bind, post_sys]
  refine ⟨fun _ => ⟨⟨.Connect, 0, 0⟩, rfl, .inl (by rw [hw.1]; rfl)⟩, ?_⟩
  intro t ts hs
  simp only [after_ok, post_ite, post_pure, post_bind, post_modify, Bool.false_eq_true, if_false, if_true, post_err]
  refine ⟨fun _ => ⟨⟨.Connect, 0, 0⟩, rfl, .inl ⟨by rw [hw.1]; rfl, rfl⟩⟩, ?_⟩
  intro _
  generalize hw1 : ({ w with script := ts, ker := w.ker.arrive t, cfg := { w.cfg with network_type := .Gripper }, net := {}, rob := _ } : World F) = w1
  have e1 : w1.trace = [] := by rw [← hw1]; exact hw.1
  have e2 : w1.cfg.udp_port = w.cfg.udp_port := by rw [← hw1]
  have e3 : TcpOk .Gripper w1 := tcpOk_init _ w1 e1 (by rw [← hw1]) (by rw [← hw1])
  have e4 : gripperHello w1 = gripperHello w := by unfold gripperHello; rw [e2]
  refine Post.congr_at (connect_gripper_eq w1) ?_
  rw [e4]
  simp only [post_bind]
  refine (askGripper_spec (gripperHello w) Gripper.ConnectResponse.codec w1 e3).mono ?_
  rintro r w2 ⟨h, hk, hid, hr⟩
  cases r with
  | ok a =>
    obtain ⟨g1, -, -, -, g2, m, rest, g3, g4, g5⟩ := hr
    rw [e1, visible_nil, List.nil_append] at g2
    have hv := gripper_connect_verdict (F := F) m rest a g5
    simp only [after_ok]
    unfold afterGripperConnect
    cases hst : a.status with
    | Success =>
      rw [hst, if_pos rfl] at hv
      exact ⟨h, hk, m, _, g2, g3, g4, hv⟩
    | _ =>
      rw [hst, if_neg (by simp)] at hv
      exact ⟨h, hk, .inr ⟨g2, m, g3, g4, hv⟩⟩
  | err e => exact hr.elim
  | panic msg =>
    simp only [e1, visible_nil, List.nil_append] at hr
    exact ⟨h, hk, hr⟩
  | blocked =>
    simp only [e1, visible_nil, List.nil_append] at hr
    exact ⟨h, hk, hr⟩

theorem requests_visible (tr : List (Ev F)) : requests (visible tr) = requests tr := by
  induction tr with
  | nil => rfl
  | cons e tr ih =>
    have h1 : visible (e :: tr) = visible [e] ++ visible tr := visible_append [e] tr
    have h2 : requests (e :: tr) = requests [e] ++ requests tr := requests_append [e] tr
    rw [h1, h2, requests_append, ih]
    cases e <;> rfl

theorem gripperRequests_visible (tr : List (Ev F)) : gripperRequests (visible tr) = gripperRequests tr := by
  induction tr with
  | nil => rfl
  | cons e tr ih =>
    have h1 : visible (e :: tr) = visible [e] ++ visible tr := visible_append [e] tr
    have h2 : gripperRequests (e :: tr) = gripperRequests [e] ++ gripperRequests tr := gripperRequests_append [e] tr
    rw [h1, h2, gripperRequests_append, ih]
    cases e <;> rfl

/-- C17: in every history of a robot the first request is the handshake, and nothing else is sent unless the server accepted it. -/
theorem C17_robot_handshake_first [Geo F] (rc : Option RealtimeConfig) (ls : Option Nat) (cs : List (RobotCall F)) (w : World F)
    (hw : Fresh w) :
    let w' := (robotSession rc ls cs w).2
    requests w'.trace = [] ∨ ∃ h rest, h.command = .Connect ∧ requests w'.trace = ⟨h, robotHello w⟩ :: rest ∧
      (rest ≠ [] → ∃ m, (h.command_id, m) ∈ responses w'.trace ∧ IsFrame .Robot h.command_id m ∧ natAt m 12 1 = 0) := by
  intro w'
  have hnew := C17_robot_new rc ls w hw
  have hrun : robotSession rc ls cs w = (Robot.new rc ls >>= fun _ => robotCalls cs) w := rfl
  obtain ⟨h, hk, hr⟩ := hnew
  cases hres : Robot.new rc ls w with
  | mk r w1 =>
    rw [hres] at hr
    have hshort : (∀ a, r ≠ .ok a) → w' = w1 := by
      intro hne
      show (robotSession rc ls cs w).2 = w1
      rw [hrun]
      show (Prog.bind (Robot.new rc ls) _ w).2 = w1
      unfold Prog.bind
      rw [hres]
      cases r with
      | ok a => exact absurd rfl (hne a)
      | _ => rfl
    cases r with
    | ok a =>
      obtain ⟨s, m, v, g1, g2, g3, g4⟩ := hr
      have hw' : w' = (robotCalls cs w1).2 := by
        show (robotSession rc ls cs w).2 = _
        rw [hrun]
        show (Prog.bind (Robot.new rc ls) _ w).2 = _
        unfold Prog.bind
        rw [hres]
      have hp : Pres Conserve (robotCalls cs : Prog F Unit) := pres_robotCalls (fun _ => trivial) cs
      obtain ⟨-, es, -, htr, -, -⟩ := hp w1
      rw [← hw'] at htr
      refine .inr ⟨h, requests es, hk, ?_, fun _ => ⟨m, ?_, g3, ?_⟩⟩
      · rw [htr, requests_append, ← requests_visible w1.trace, g1]; rfl
      · rw [htr, responses_append]; exact List.mem_append_left _ g2
      · obtain ⟨v', -, hv⟩ := g4
        by_contra hne
        have hne' : ¬ natAt m (headerLength .Robot) 1 = 0 := hne
        rw [if_neg hne'] at hv
        cases hv
    | err e =>
      rw [hshort (by intro a; simp)]
      rcases hr with ⟨g1, -⟩ | ⟨g1, -⟩
      · exact .inl (by rw [← requests_visible, g1]; rfl)
      · exact .inr ⟨h, [], hk, by rw [← requests_visible, g1]; rfl, fun h => absurd rfl h⟩
    | panic msg =>
      rw [hshort (by intro a; simp)]
      rcases hr with g1 | g1
      · exact .inl (by rw [← requests_visible, g1]; rfl)
      · exact .inr ⟨h, [], hk, by rw [← requests_visible, g1]; rfl, fun h => absurd rfl h⟩
    | blocked =>
      rw [hshort (by intro a; simp)]
      rcases hr with g1 | g1
      · exact .inl (by rw [← requests_visible, g1]; rfl)
      · exact .inr ⟨h, [], hk, by rw [← requests_visible, g1]; rfl, fun h => absurd rfl h⟩

/-- C17: in every history of a gripper the first request is the handshake, and nothing else is sent unless the server accepted it. -/
theorem C17_gripper_handshake_first (cs : List (GripperCall F)) (w : World F) (hw : Fresh w) :
    let w' := (gripperSession cs w).2
    gripperRequests w'.trace = [] ∨ ∃ h rest, h.command = .Connect ∧ gripperRequests w'.trace = ⟨h, gripperHello w⟩ :: rest ∧
      (rest ≠ [] → ∃ m, (h.command_id, m) ∈ responses w'.trace ∧ IsFrame .Gripper h.command_id m ∧ natAt m 10 2 = 0) := by
  intro w'
  have hnew := C17_gripper_new w hw
  have hrun : gripperSession cs w = (Gripper.new >>= fun _ => gripperCalls cs) w := rfl
  obtain ⟨h, hk, hr⟩ := hnew
  cases hres : (Gripper.new : Prog F Unit) w with
  | mk r w1 =>
    rw [hres] at hr
    have hshort : (∀ a, r ≠ .ok a) → w' = w1 := by
      intro hne
      show (gripperSession cs w).2 = w1
      rw [hrun]
      show (Prog.bind Gripper.new _ w).2 = w1
      unfold Prog.bind
      rw [hres]
      cases r with
      | ok a => exact absurd rfl (hne a)
      | _ => rfl
    cases r with
    | ok a =>
      obtain ⟨m, v, g1, g2, g3, g4⟩ := hr
      have hw' : w' = (gripperCalls cs w1).2 := by
        show (gripperSession cs w).2 = _
        rw [hrun]
        show (Prog.bind Gripper.new _ w).2 = _
        unfold Prog.bind
        rw [hres]
      have hp : Pres Conserve (gripperCalls cs : Prog F Unit) := pres_gripperCalls cs
      obtain ⟨-, es, -, htr, -, -⟩ := hp w1
      rw [← hw'] at htr
      refine .inr ⟨h, gripperRequests es, hk, ?_, fun _ => ⟨m, ?_, g3, ?_⟩⟩
      · rw [htr, gripperRequests_append, ← gripperRequests_visible w1.trace, g1]; rfl
      · rw [htr, responses_append]; exact List.mem_append_left _ g2
      · obtain ⟨v', -, hv⟩ := g4
        by_contra hne
        have hne' : ¬ natAt m (headerLength .Gripper) 2 = 0 := hne
        rw [if_neg hne'] at hv
        cases hv
    | err e =>
      rw [hshort (by intro a; simp)]
      rcases hr with ⟨g1, -⟩ | ⟨g1, -⟩
      · exact .inl (by rw [← gripperRequests_visible, g1]; rfl)
      · exact .inr ⟨h, [], hk, by rw [← gripperRequests_visible, g1]; rfl, fun h => absurd rfl h⟩
    | panic msg =>
      rw [hshort (by intro a; simp)]
      rcases hr with g1 | g1
      · exact .inl (by rw [← gripperRequests_visible, g1]; rfl)
      · exact .inr ⟨h, [], hk, by rw [← gripperRequests_visible, g1]; rfl, fun h => absurd rfl h⟩
    | blocked =>
      rw [hshort (by intro a; simp)]
      rcases hr with g1 | g1
      · exact .inl (by rw [← gripperRequests_visible, g1]; rfl)
      · exact .inr ⟨h, [], hk, by rw [← gripperRequests_visible, g1]; rfl, fun h => absurd rfl h⟩

/-! ## C18 -/

theorem setter_form [Geo F] (c : RobotCall F) (b : RobotBody F) (hb : setterRequest c = some b) :
    c.run = rpc b SetterResponse.codec fun r => setterOutcome r.status := by
  cases c <;> simp only [setterRequest, Option.some.injEq, reduceCtorEq] at hb <;> subst hb
  · exact set_collision_behavior_eq ..
  · exact set_joint_impedance_eq ..
  · exact set_cartesian_impedance_eq ..
  · exact set_guiding_mode_eq ..
  · exact set_K_eq ..
  · exact set_EE_eq ..
  · exact set_load_eq ..
  · exact set_filters_eq ..

/-- C18: every setter, with any arguments, in any state between two calls of any history: it sends exactly one request, which carries
the arguments, and returns what `setterVerdict` says about an answer to that request. -/
theorem C18_setter [Geo F] (c : RobotCall F) (b : RobotBody F) (hb : setterRequest c = some b) (w : World F) (hw : RobotReachable w) :
    OneExchange b setterVerdict w (c.run w).1 (c.run w).2 := by
  rw [setter_form c b hb]
  exact rpc_spec b _ _ setterVerdict (fun m a rest h => setter_verdict m rest a h) w hw.tcp

/-- C18: and if the answer arrives in one piece with one of the three statuses, the setter does return that verdict. -/
theorem C18_setter_returns [Geo F] (c : RobotCall F) (b : RobotBody F) (hb : setterRequest c = some b) (w : World F) (m : Bytes)
    (h : AnswerArrives w m) (hn : w.cfg.network_type = .Robot) (hs : natAt m 12 1 < 3) :
    ∃ o, setterVerdict m o ∧ (c.run w).1 = returned o := by
  have hk := h.known
  have hl := h.long
  rw [hn] at hk hl
  obtain ⟨a, rest, hd⟩ := setter_dec m hl hk hs
  refine ⟨setterOutcome a.status, setter_verdict m rest a hd, ?_⟩
  rw [setter_form c b hb]
  exact rpc_delivers b _ _ w m h a rest hd

/-- C18: `get_virtual_wall` sends the id and returns the wall of the answer. -/
theorem C18_get_virtual_wall [LawfulWire F] [Geo F] (id : Int32) (w : World F) (hw : RobotReachable w) :
    OneExchange (.GetCartesianLimit { id }) (wallVerdict id) w (Robot.get_virtual_wall id w).1 (Robot.get_virtual_wall id w).2 := by
  rw [get_virtual_wall_eq]
  exact rpc_spec _ _ _ (wallVerdict id) (fun m a rest h => wall_verdict id m rest a h) w hw.tcp

/-! ## C19 -/

theorem setter_then [Geo F] (c : RobotCall F) (b : RobotBody F) (hb : setterRequest c = some b) (p : Prog F Unit) (w : World F)
    (hw : TcpOk .Robot w) (bs : List (RobotBody F))
    (hp : ∀ w1, TcpOk .Robot w1 → SetterSequence bs w1 (p w1).1 (p w1).2) :
    SetterSequence (b :: bs) w ((c.run >>= fun _ => p) w).1 ((c.run >>= fun _ => p) w).2 := by
  have h1 : OneExchange b setterVerdict w (c.run w).1 (c.run w).2 := by
    rw [setter_form c b hb]
    exact rpc_spec b _ _ setterVerdict (fun m a rest h => setter_verdict m rest a h) w hw
  have h2 : Post c.run w fun r w' => match r with
      | .ok _ => TcpOk .Robot w'
      | _ => True := by
    rw [setter_form c b hb]
    unfold rpc
    refine (ask_spec b SetterResponse.codec w hw).bind ?_
    rintro r w' ⟨h, -, -, h3⟩
    cases r with
    | ok a =>
      rw [after_ok]
      show Post (ofExcept (setterOutcome a.status)) w' _
      cases setterOutcome (F := F) a.status with
      | ok _ => exact h3.1
      | error _ => trivial
    | err e => trivial
    | panic _ => trivial
    | blocked => trivial
  unfold Post at h2
  refine ⟨(c.run w).1, (c.run w).2, h1, ?_⟩
  show match (c.run w).1 with
      | .ok _ => SetterSequence bs (c.run w).2 (Prog.bind c.run (fun _ => p) w).1 (Prog.bind c.run (fun _ => p) w).2
      | _ => (Prog.bind c.run (fun _ => p) w).1 = (c.run w).1 ∧ (Prog.bind c.run (fun _ => p) w).2 = (c.run w).2
  unfold Prog.bind
  rcases hc : c.run w with ⟨r, w1⟩
  rw [hc] at h2
  cases r with
  | ok a => exact hp w1 h2
  | err e => exact ⟨rfl, rfl⟩
  | panic m => exact ⟨rfl, rfl⟩
  | blocked => exact ⟨rfl, rfl⟩

/-- C19: `set_default_behavior` is the sequence of the three documented setters: each is sent only after the one before it was accepted, and
the first rejection is what it returns. -/
theorem C19_set_default_behavior [Geo F] (w : World F) (hw : RobotReachable w) :
    SetterSequence defaultBehavior w (Robot.set_default_behavior w).1 (Robot.set_default_behavior w).2 := by
  refine setter_then (RobotCall.set_collision_behavior _ _ _ _ _ _ _ _) _ rfl _ w hw.tcp _ fun w1 h1 => ?_
  refine setter_then (RobotCall.set_joint_impedance _) _ rfl _ w1 h1 _ fun w2 h2 => ?_
  have h := setter_then (RobotCall.set_cartesian_impedance ![Fl.lit 3000, Fl.lit 3000, Fl.lit 3000, Fl.lit 300, Fl.lit 300, Fl.lit 300]) _ rfl
    (pure ()) w2 h2 [] fun w3 _ => ⟨rfl, rfl⟩
  have e : ∀ p : Prog F Unit, (p >>= fun _ => pure ()) = p := by
    intro p
    funext w
    simp only [bind, Prog.bind]
    rcases p w with ⟨r, w'⟩
    cases r <;> rfl
  rw [e] at h
  exact h

/-! ## C20 -/

/-- C20: `automatic_error_recovery` sends one request and returns what the status byte of an answer to it says. -/
theorem C20_automatic_error_recovery [Geo F] (w : World F) (hw : RobotReachable w) :
    OneExchange .AutomaticErrorRecovery recoveryVerdict w (Robot.automatic_error_recovery w).1 (Robot.automatic_error_recovery w).2 := by
  rw [automatic_error_recovery_eq]
  exact rpc_spec _ _ _ recoveryVerdict (fun m a rest h => recovery_verdict m rest a h) w hw.tcp

/-- C20: and it returns if the answer arrives in one piece with one of the six statuses. -/
theorem C20_automatic_error_recovery_returns (w : World F) (m : Bytes) (h : AnswerArrives w m) (hn : w.cfg.network_type = .Robot)
    (hs : natAt m 12 1 < 6) : ∃ o, recoveryVerdict m o ∧ (Robot.automatic_error_recovery w).1 = returned o := by
  have hk := h.known
  have hl := h.long
  rw [hn] at hk hl
  obtain ⟨a, rest, hd⟩ := recovery_dec m hl hk hs
  refine ⟨recoveryOutcome a.status, recovery_verdict m rest a hd, ?_⟩
  rw [automatic_error_recovery_eq]
  exact rpc_delivers _ _ _ w m h a rest hd

/-- C20: different statuses of a recovery give different results. -/
theorem C20_recovery_identifies (m m' : Bytes) (o : Outcome F Unit) (h : recoveryVerdict m o) (h' : recoveryVerdict m' o) :
    natAt m 12 1 = natAt m' 12 1 := by
  unfold recoveryVerdict rejects at h h'
  split at h <;> split at h' <;> simp_all

/-- C20 (part): `stop` sends one request and returns `Ok` exactly for Success; every other answer gives a `CommandException`.
Missing: that the message identifies the reason, see `C20_stop_aborted_misreported`. -/
theorem C20_stop_partial [Geo F] (w : World F) (hw : RobotReachable w) :
    OneExchange .StopMove stopVerdict w (Robot.stop w).1 (Robot.stop w).2 := by
  rw [stop_eq]
  exact rpc_spec _ _ _ stopVerdict (fun m a rest h => stop_verdict m rest a h) w hw.tcp

/-- C20: and `stop` returns if the answer arrives in one piece with one of the five statuses. -/
theorem C20_stop_returns (w : World F) (m : Bytes) (h : AnswerArrives w m) (hn : w.cfg.network_type = .Robot)
    (hs : natAt m 12 1 < 5) : ∃ o, stopVerdict m o ∧ (Robot.stop w).1 = returned o := by
  have hk := h.known
  have hl := h.long
  rw [hn] at hk hl
  obtain ⟨a, rest, hd⟩ := stop_dec m hl hk hs
  refine ⟨stopOutcome a.status, stop_verdict m rest a hd, ?_⟩
  rw [stop_eq]
  exact rpc_delivers _ _ _ w m h a rest hd

/-- C20 fails for `stop`: "aborted" (4) is reported with the message of "command not possible" (1). -/
theorem C20_stop_aborted_misreported (m m' : Bytes) (h : natAt m 12 1 = 4) (h' : natAt m' 12 1 = 1) (o : Outcome F Unit) :
    stopVerdict m o ↔ stopVerdict m' o := by
  unfold stopVerdict
  rw [h, h']
  exact Iff.rfl

/-! ## C21 -/

theorem gripper_form (c : GripperCall F) (b : Gripper.Body F) (p : Prog F Bool) (hb : gripperRequest c = some b)
    (hp : gripperCommand c = some p) : p = rpcGripper b Gripper.MoveResponse.codec fun r => gripperOutcome r.status := by
  cases c <;> simp only [gripperRequest, gripperCommand, Option.some.injEq, reduceCtorEq] at hb hp <;> subst hb hp
  · exact move_gripper_eq ..
  · exact homing_eq
  · exact gripper_stop_eq
  · exact grasp_eq ..

/-- C21: every gripper command sends one request with its arguments and returns what the status of an answer to it says. -/
theorem C21_gripper_command (c : GripperCall F) (b : Gripper.Body F) (p : Prog F Bool) (hb : gripperRequest c = some b)
    (hp : gripperCommand c = some p) (w : World F) (hw : GripperReachable w) :
    OneGripperExchange b gripperVerdict w (p w).1 (p w).2 := by
  rw [gripper_form c b p hb hp]
  exact rpcGripper_spec b _ _ gripperVerdict (fun m a rest h => gripper_verdict m rest a h) w hw.tcp

/-- C21: and it returns if the answer arrives in one piece with one of the four statuses. -/
theorem C21_gripper_command_returns (c : GripperCall F) (b : Gripper.Body F) (p : Prog F Bool) (hb : gripperRequest c = some b)
    (hp : gripperCommand c = some p) (w : World F) (m : Bytes) (h : AnswerArrives w m) (hn : w.cfg.network_type = .Gripper)
    (hl : 12 ≤ m.length) (hs : natAt m 10 2 < 4) : ∃ o, gripperVerdict m o ∧ (p w).1 = returned o := by
  have hk := h.known
  rw [hn] at hk
  obtain ⟨a, rest, hd⟩ := gripper_dec m hl hk hs
  refine ⟨gripperOutcome a.status, gripper_verdict m rest a hd, ?_⟩
  rw [gripper_form c b p hb hp]
  exact rpcGripper_delivers b _ _ w m h a rest hd

/-! ## Concrete cases -/
section examples
open Toy

/-- A server that speaks version 4. -/
def Toy.oldServer : Bytes := [0, 0, 0, 0, 0, 0, 0, 0, 15, 0, 0, 0, 1, 4, 0]

example : (Robot.new none none (world handshake)).1 = .ok () := by kernel_rfl
example : (Robot.new none none (world [quiet, quiet, tcp oldServer, quiet, quiet, quiet])).1 =
    .err (.IncompatibleLibraryVersionError 4 5) := by kernel_rfl
example : (Gripper.new (world gripperHandshake)).1 = .ok () := by kernel_rfl

/-- C18: a setter on a connected robot, which rejects the request. -/
example : (Robot.set_joint_impedance (fun _ => 3000) (robot [quiet, quiet, tcp (response 7 1 1), quiet, quiet, quiet])).1 =
    .err (.CommandException "libfranka-rs: command rejected: command not possible in current mode") := by
  obtain ⟨o, h1, h2⟩ := C18_setter_returns (.set_joint_impedance fun _ => 3000) _ rfl _ _ (arrives 7 1 (by decide)) (robot_type _) (by decide)
  have h3 : natAt (response 7 1 1) 12 1 = 1 := by decide
  rw [setterVerdict, h3] at h1
  rw [h1] at h2
  exact h2

/-- C20: the robot aborts the stop. -/
example : ∃ o, stopVerdict (response 2 1 4) o ∧ (Robot.stop (robot [quiet, quiet, tcp (response 2 1 4), quiet, quiet, quiet])).1 = returned o :=
  C20_stop_returns _ _ (arrives 2 4 (by decide)) (robot_type _) (by decide)

/-- C20: an error recovery that needs a person. -/
example : ∃ o, recoveryVerdict (response 11 1 2) o ∧
    (Robot.automatic_error_recovery (robot [quiet, quiet, tcp (response 11 1 2), quiet, quiet, quiet])).1 = returned o :=
  C20_automatic_error_recovery_returns _ _ (arrives 11 2 (by decide)) (robot_type _) (by decide)

/-- C21: the gripper could not grasp. -/
example : ∃ o, gripperVerdict (gripperResponse 2 1 2) o ∧
    (Gripper.grasp 1 2 3 none none (gripper [quiet, quiet, tcp (gripperResponse 2 1 2), quiet, quiet, quiet])).1 = returned o :=
  C21_gripper_command_returns (.grasp 1 2 3 none none) _ _ rfl rfl _ _ (gripper_arrives 2 2 (by decide)) (gripper_type _) (by decide) (by decide)

end examples
end Verif
