import Verif.Lemmas.Coop
import Verif.Props.Version
import Verif.Props.Complete
import Verif.Spec.Connect
/-!
# C72: connecting to a server that answers
-/
set_option linter.unusedSectionVars false
namespace Verif
open Prog Spec
variable {F : Type} [Fl F] [Wire F]

theorem robot_answer_frame {a : ConnectResponse} {m : Bytes} (h : RobotAnswer a m) : IsFrame .Robot 0 m ∧ m.length = 15 ∧ KnownCommand .Robot m ∧
    ConnectResponse.codec.dec m = some (a, []) := by
  obtain ⟨rfl, h1, h2⟩ := h
  have hl : (ConnectResponse.codec.enc a).length = 15 := ConnectResponse.codec_lawful.len a
  have ha : At (ConnectResponse.codec.enc a) 0 (ConnectResponse.codec.enc a) := ⟨[], [], by simp, rfl⟩
  obtain ⟨hh, -⟩ := At.seq ha (m := 12) (RobotCommandHeader.codec_lawful.len _)
  obtain ⟨hc, hh⟩ := At.seq hh (m := 4) (RobotCommandEnum.codec_lawful.len _)
  obtain ⟨hi, hz⟩ := At.seq hh (m := 4) (Codec.u32_lawful.len _)
  refine ⟨⟨by rw [hl]; decide, ?_, ?_⟩, hl, ?_, by simpa using ConnectResponse.codec_lawful.rt a []⟩
  · have := At.nat4 hz
    unfold sizeAt
    rw [hl]
    simpa [h2] using this
  · have := At.nat4 hi
    unfold idAt
    simpa [h1] using this
  · have := At.nat4 hc
    unfold KnownCommand
    show natAt _ 0 4 < 14
    rw [this]
    exact (by intro c; cases c <;> decide : ∀ c : RobotCommandEnum, c.toTag.toNat < 14) _

theorem gripper_answer_frame {a : Gripper.ConnectResponse} {m : Bytes} (h : GripperAnswer a m) : IsFrame .Gripper 0 m ∧ m.length = 14 ∧
    KnownCommand .Gripper m ∧ Gripper.ConnectResponse.codec.dec m = some (a, []) := by
  obtain ⟨rfl, h1, h2⟩ := h
  have hl : (Gripper.ConnectResponse.codec.enc a).length = 14 := Gripper.ConnectResponse.codec_lawful.len a
  have ha : At (Gripper.ConnectResponse.codec.enc a) 0 (Gripper.ConnectResponse.codec.enc a) := ⟨[], [], by simp, rfl⟩
  obtain ⟨hh, -⟩ := At.seq ha (m := 10) (Gripper.CommandHeader.codec_lawful.len _)
  obtain ⟨hc, hh⟩ := At.seq hh (m := 2) (Gripper.Command.codec_lawful.len _)
  obtain ⟨hi, hz⟩ := At.seq hh (m := 4) (Codec.u32_lawful.len _)
  refine ⟨⟨by rw [hl]; decide, ?_, ?_⟩, hl, ?_, by simpa using Gripper.ConnectResponse.codec_lawful.rt a []⟩
  · have := At.nat4 hz
    unfold sizeAt
    rw [hl]
    simpa [h2] using this
  · have := At.nat4 hi
    unfold idAt
    simpa [h1] using this
  · have := At.nat2 hc
    unfold KnownCommand
    show natAt _ 0 2 < 5
    rw [this]
    exact (by intro c; cases c <;> decide : ∀ c : Gripper.Command, c.toTag.toNat < 5) _

/-- The world when the answer to the first request was read. -/
structure Greeted (g : Greeting) (m : Bytes) (e : Ev F) (rest : List Tick) (w w' : World F) : Prop where
  script : w'.script = rest
  rob : w'.rob = w.rob
  cfg : w'.cfg = w.cfg
  id : w'.net.command_id = 1
  rx : w'.ker.tcpRx = []
  eof : w'.ker.tcpEof = false
  pending : w'.net.pending_response = []
  trace : ∃ a b, w'.trace = [e, .tcpRecv a, .tcpRecv b, .response 0 m]
  udp : w'.ker.udpRx = udpArrived g.script
  ready : w'.ker.udpRx ≠ [] → w'.ker.udpEdge = true

/-- The world after the connection was made. -/
structure Dialled (g : Greeting) (rest : List Tick) (w : World F) : Prop where
  script : w.script = g.write :: (g.ask ++ g.a1 :: g.a2 :: g.a3 :: g.a4 :: rest)
  ker : w.ker = ({} : Kernel).arrive g.connect
  net : w.net = {}
  trace : w.trace = []

/-- The world after the first request was written. -/
def written (g : Greeting) (e : Ev F) (rest : List Tick) (w : World F) : World F :=
  { w with script := g.ask ++ g.a1 :: g.a2 :: g.a3 :: g.a4 :: rest, ker := w.ker.arrive g.write, net := { w.net with command_id := 1 }, trace := w.trace ++ [e] }

theorem receive_greeting {g : Greeting} {m : Bytes} {e : Ev F} {rest : List Tick} {w : World F} {nt : NetworkType} (hd : Dialled g rest w) (hg : g.Brings m)
    (hnt : w.cfg.network_type = nt) (hf : IsFrame nt 0 m) (hl : headerLength nt < m.length) (hs : m.length ≤ 70000) (hk : KnownCommand nt m) {α : Type}
    {c : Codec α} {a : α} (ha : c.dec m = some (a, [])) :
    Post (tcp_blocking_receive_response c 0 : Prog F α) (written g e rest w) fun r w' => r = .ok a ∧ Greeted g m e rest w w' := by
  unfold tcp_blocking_receive_response
  rw [post_bind]
  have hsil := hg.silent
  have hfine := hg.fine
  unfold Greeting.script at hfine
  have hc : g.connect.tcpIn = [] ∧ g.connect.eof = false := ⟨hsil _ (by simp), (hfine _ (by simp)).2⟩
  have hwr : g.write.tcpIn = [] ∧ g.write.eof = false := ⟨hsil _ (by simp), (hfine _ (by simp)).2⟩
  have h3 : g.a3.tcpIn = [] := hsil _ (by simp)
  have h4 : g.a4.tcpIn = [] := hsil _ (by simp)
  subst hnt
  have hdel : Delivery (written g e rest w) 0 g.ask g.a1 g.a2 g.a3 g.a4 rest m [] :=
    { script := rfl
      quiet := fun t ht => ⟨hsil t (by simp [ht]), (hfine t (by simp [ht])).2, (hfine t (by simp [ht])).1⟩
      fine := fun t ht => (hfine t (by simp only [List.cons_append, List.mem_cons, List.mem_append]; simp at ht; tauto)).1
      rx := by simp [written, hd.ker, Kernel.arrive, hc.1, hwr.1]
      edge := by simp [written, hd.ker, Kernel.arrive, hc, hwr]
      pending := by simp [written, hd.net]
      absent := by simp [written, hd.net]
      start := hg.start
      bytes := by rw [hg.bytes, List.append_nil]
      frame := hf
      long := hl
      short := hs
      known := hk }
  refine ((wait_delivers 0 g.ask g.a1 g.a2 g.a3 g.a4 rest m [] _ hdel).and ((pres_wait_for_response_to_arrive (T := Passive) 0).post _)).mono ?_
  rintro r w' ⟨⟨rfl, g1, -, g2, -, g3, -, x, y, g4⟩, hp⟩
  simp only [after_ok, deserialize, ha, post_pure, true_and]
  obtain ⟨ts, t1, t2, t3, t4⟩ := hp.ticks
  have hts : ts = g.ask ++ [g.a1, g.a2, g.a3, g.a4] := by
    rw [g1] at t1
    have : (g.ask ++ [g.a1, g.a2, g.a3, g.a4]) ++ rest = ts ++ rest := by simpa [written] using t1
    exact (List.append_cancel_right this).symm
  subst hts
  exact
    { script := g1
      rob := hp.rob
      cfg := hp.cfg
      id := hp.id
      rx := by rw [g2, h3, h4]; rfl
      eof := by
        rw [t4 fun t ht => hfine t (by simp only [List.cons_append, List.mem_cons, List.mem_append]; simp at ht; tauto)]
        simp [written, hd.ker, Kernel.arrive, hc, hwr]
      pending := g3
      trace := ⟨x, y, by rw [g4]; simp [written, hd.trace]⟩
      udp := by rw [t2]; simp [written, hd.ker, Kernel.arrive, Greeting.script, udpArrived]
      ready := t3 fun h => by
        simp only [written, hd.ker, Kernel.arrive, List.nil_append, ne_eq, List.append_eq_nil_iff, not_and_or] at h ⊢
        rcases h with h | h
        · have : g.connect.udpIn.isEmpty = false := by simpa using h
          simp [this]
        · have : g.write.udpIn.isEmpty = false := by simpa using h
          simp [this] }

theorem ask_greeting {g : Greeting} {a : ConnectResponse} {m : Bytes} {rest : List Tick} {w : World F} (hd : Dialled g rest w) (hg : g.Brings m)
    (hnt : w.cfg.network_type = .Robot) (hm : RobotAnswer a m) (b : RobotBody F) : Post (ask b ConnectResponse.codec) w fun r w' => r = .ok a ∧
      ∃ h : RobotCommandHeader, h.command = kind b ∧ h.command_id = 0 ∧ Greeted g m (.robotReq ⟨h, b⟩) rest w w' := by
  obtain ⟨h1, h2, h3, h4⟩ := robot_answer_frame hm
  unfold ask
  have hid : w.net.command_id = 0 := by rw [hd.net]
  rw [post_bind, post_of_eq (sendRequest_eq b w g.write _ hd.script (hg.fine _ (by simp [Greeting.script])).1 (by rw [hid]; decide)), after_ok, hid]
  exact (receive_greeting hd hg hnt h1 (by rw [h2]; decide) (by omega) h3 h4).mono fun r w' hr => ⟨hr.1, _, rfl, rfl, hr.2⟩

theorem askGripper_greeting {g : Greeting} {a : Gripper.ConnectResponse} {m : Bytes} {rest : List Tick} {w : World F} (hd : Dialled g rest w) (hg : g.Brings m)
    (hnt : w.cfg.network_type = .Gripper) (hm : GripperAnswer a m) (b : Gripper.Body F) : Post (askGripper b Gripper.ConnectResponse.codec) w fun r w' => r = .ok a ∧
      ∃ h : Gripper.CommandHeader, h.command = gripperKind b ∧ h.command_id = 0 ∧ Greeted g m (.gripperReq ⟨h, b⟩) rest w w' := by
  obtain ⟨h1, h2, h3, h4⟩ := gripper_answer_frame hm
  unfold askGripper
  have hid : w.net.command_id = 0 := by rw [hd.net]
  rw [post_bind, post_of_eq (sendGripperRequest_eq b w g.write _ hd.script (hg.fine _ (by simp [Greeting.script])).1 (by rw [hid]; decide)), after_ok, hid]
  exact (receive_greeting hd hg hnt h1 (by rw [h2]; decide) (by omega) h3 h4).mono fun r w' hr => ⟨hr.1, _, rfl, rfl, hr.2⟩

/-! ## C72 -/

theorem robot_new_greeted {w : World F} (hw : Fresh w) (rc : Option RealtimeConfig) (ls : Option Nat) {g : Greeting} {a : ConnectResponse} {m : Bytes} {rest : List Tick}
    (hs : w.script = g.script ++ rest) (hg : g.Brings m) (hm : RobotAnswer a m) (Q : Res F Unit → World F → Prop)
    (h : ∀ (h : RobotCommandHeader) (w1 w2 : World F), h.command = .Connect → h.command_id = 0 → w1.rob = RobotImpl.init (ls.getD 50) (rc.getD .Enforce) →
      Greeted g m (.robotReq ⟨h, robotHello w⟩) rest w1 w2 →
      Post (afterConnect a) w2 (After (fun _ => do
        match ← attempt (udp_blocking_receive (RobotStateIntern.codec F) size_of_RobotStateIntern) with
        | .error _ => Prog.panic "called `Result::unwrap()` on an `Err` value: NetworkException"
        | .ok state => update_state_with state) Q)) :
    Post (Robot.new rc ls : Prog F Unit) w Q := by
  unfold Robot.new Robot.network_new
  have hfc : g.connect.fail = false := (hg.fine _ (by simp [Greeting.script])).1
  simp only [post_bind, post_sys_cons (show w.script = g.connect :: (g.write :: (g.ask ++ g.a1 :: g.a2 :: g.a3 :: g.a4 :: rest)) by rw [hs]; simp [Greeting.script])]
  simp only [after_ok, hfc, post_pure, post_bind, post_modify, Bool.false_eq_true, if_false, if_true]
  unfold RobotImpl.new
  simp only [post_bind, post_modify, after_ok]
  generalize hw1 : ({ w with script := _, ker := w.ker.arrive g.connect, cfg := { w.cfg with network_type := .Robot }, net := {}, rob := _ } : World F) = w1
  have hd : Dialled g rest w1 := by
    rw [← hw1]
    exact ⟨rfl, by rw [hw.2], rfl, hw.1⟩
  have e4 : robotHello w1 = robotHello w := by rw [← hw1]; rfl
  refine Post.congr_at (connect_robot_eq w1) ?_
  rw [e4, post_bind]
  refine (ask_greeting hd hg (by rw [← hw1]) hm _).mono ?_
  rintro r w2 ⟨rfl, hh, k1, k2, hr⟩
  rw [after_ok]
  exact h hh w1 w2 k1 k2 (by rw [← hw1]) hr

/-- The world after connecting. -/
theorem robot_connected {w : World F} (hw : Fresh w) (rc : Option RealtimeConfig) (ls : Option Nat) {g : Greeting} {a : ConnectResponse} {m : Bytes}
    {s : RobotStateIntern F} {ts rest : List Tick} (hs : w.script = g.script ++ (ts ++ rest)) (hg : g.Brings m) (hm : RobotAnswer a m) (hok : a.status = .Success)
    (hst : FirstState s (udpArrived g.script) ts) (hq : TcpSilent ts) : ∃ w', Robot.new rc ls w = (.ok (), w') ∧ (Robot.server_version w').1 = .ok a.version ∧ LastState w' s ∧
      (∃ h : RobotCommandHeader, h.command = .Connect ∧ h.command_id = 0 ∧ visible w'.trace = [.robotReq ⟨h, robotHello w⟩, .accepted s]) ∧
      Idle w' ∧ w'.script = rest ∧ w'.net.command_id = 1 ∧ w'.ker.udpRx = [] ∧ responses w'.trace = [(0, m)] := by
  suffices h : Post (Robot.new rc ls : Prog F Unit) w fun r w' => r = .ok () ∧ (Robot.server_version w').1 = .ok a.version ∧ LastState w' s ∧
      (∃ h : RobotCommandHeader, h.command = .Connect ∧ h.command_id = 0 ∧ visible w'.trace = [.robotReq ⟨h, robotHello w⟩, .accepted s]) ∧
      Idle w' ∧ w'.script = rest ∧ w'.net.command_id = 1 ∧ w'.ker.udpRx = [] ∧ responses w'.trace = [(0, m)] by
    obtain ⟨h1, h2⟩ := h
    exact ⟨_, Prod.ext h1 rfl, h2⟩
  refine robot_new_greeted hw rc ls hs hg hm _ ?_
  intro h w1 w2 k1 k2 hrob hr
  unfold afterConnect
  rw [hok]
  simp only [post_modify, after_ok, post_bind, post_attempt]
  cases hst with
  | arrives ds src data t ts hda h1 h2 h3 h4 h5 =>
  generalize hw3 : ({ w2 with rob := { w2.rob with ri_version := some a.version } } : World F) = w3
  have hlen : ∀ x ∈ ds ++ [⟨src, data⟩], x.data.length = size_of_RobotStateIntern := by
    intro x hx
    rcases List.mem_append.1 hx with hx | hx
    · exact h2 x hx
    · rw [List.mem_singleton] at hx
      rw [hx]; exact hda.size
  refine ((receive_last (RobotStateIntern.codec F) size_of_RobotStateIntern (w := w3) (t := t) (ts := ts) (rest := rest) (ds := ds)
    (by rw [← hw3]; exact hr.script) h3 h4 (by rw [← hw3, show _ = _ from hr.udp]; exact h1) (by rw [← hw3]; exact hr.ready) h5 hlen hda.contents).and
    ((pres_udp_blocking_receive (T := UdpStep) _ _).post w3)).mono ?_
  rintro r w4 ⟨⟨rfl, m1, s1, r1, q1⟩, hu⟩
  simp only [tried_ok, after_ok, update_state_with, post_bind, post_modify, post_emit]
  obtain ⟨x, y, htr⟩ := hr.trace
  obtain ⟨es, hes⟩ := hu.trace
  have htr : w4.trace = [.robotReq ⟨h, robotHello w⟩, .tcpRecv x, .tcpRecv y, .response 0 m] ++ es.map .udpRecv := by rw [hes, ← hw3]; exact congrArg (· ++ _) htr
  have hresp : responses (w4.trace ++ [.accepted s]) = [(0, m)] := by
    rw [htr]
    simp [responses, List.filterMap_map]
  have hid : w4.net.command_id = 1 := m1.id.trans (by rw [← hw3]; exact hr.id)
  refine ⟨trivial, ?_, ⟨rfl, rfl, rfl⟩, ⟨h, k1, k2, ?_⟩, ?_, s1, hid, q1, hresp⟩
  · have hv : w4.rob.ri_version = some a.version := by rw [r1, ← hw3]
    show (Verif.server_version _).1 = _
    unfold Verif.server_version
    simp only [bind, Prog.bind, Prog.gets, hv]
    rfl
  · rw [visible_append, htr, visible_append, visible_map]
    rfl
  · exact
      { rx := by
          have : w4.ker.tcpRx = w3.ker.tcpRx ++ tcpArrived (t :: ts) := m1.tcp
          show w4.ker.tcpRx = []
          rw [this, ← hw3, show _ = _ from hr.rx]
          have : ∀ x ∈ t :: ts, x.tcpIn = [] := hq
          simpa [tcpArrived] using this
        eof := m1.eof.trans (by rw [← hw3]; exact hr.eof)
        pending := m1.pending.trans (by rw [← hw3]; exact hr.pending)
        absent := fun bs => by
          show (w4.net.command_id, bs) ∉ responses (w4.trace ++ [.accepted s])
          rw [hid, hresp]
          simp
        ids := by
          show w4.net.command_id ≠ _
          rw [hid]; decide
        ready := fun h => absurd q1 h }

/-- C72: connecting to a robot that accepts the version and sends a state succeeds. The object then knows the version of the server and the state, exactly the
Connect request was sent, and a control call can follow (`Idle` is what C65 asks for). -/
theorem C72_robot_connects {w : World F} (hw : Fresh w) (rc : Option RealtimeConfig) (ls : Option Nat) {g : Greeting} {a : ConnectResponse} {m : Bytes}
    {s : RobotStateIntern F} {ts rest : List Tick} (hs : w.script = g.script ++ (ts ++ rest)) (hg : g.Brings m) (hm : RobotAnswer a m) (hok : a.status = .Success)
    (hst : FirstState s (udpArrived g.script) ts) (hq : TcpSilent ts) : ∃ w', Robot.new rc ls w = (.ok (), w') ∧ (Robot.server_version w').1 = .ok a.version ∧ LastState w' s ∧
      (∃ h : RobotCommandHeader, h.command = .Connect ∧ h.command_id = 0 ∧ visible w'.trace = [.robotReq ⟨h, robotHello w⟩, .accepted s]) ∧
      Idle w' ∧ w'.script = rest := by
  obtain ⟨w', h1, h2, h3, h4, h5, h6, -⟩ := robot_connected hw rc ls hs hg hm hok hst hq
  exact ⟨w', h1, h2, h3, h4, h5, h6⟩

/-- C72: a robot that refuses the version is reported with the version it has, and nothing but the Connect request was sent. -/
theorem C72_robot_refuses {w : World F} (hw : Fresh w) (rc : Option RealtimeConfig) (ls : Option Nat) {g : Greeting} {a : ConnectResponse} {m : Bytes}
    {rest : List Tick} (hs : w.script = g.script ++ rest) (hg : g.Brings m) (hm : RobotAnswer a m) (hok : a.status = .IncompatibleLibraryVersion) :
    ∃ w', Robot.new rc ls w = (.err (.IncompatibleLibraryVersionError a.version 5), w') ∧
      ∃ h : RobotCommandHeader, h.command = .Connect ∧ h.command_id = 0 ∧ visible w'.trace = [.robotReq ⟨h, robotHello w⟩] := by
  suffices h : Post (Robot.new rc ls : Prog F Unit) w fun r w' => r = .err (.IncompatibleLibraryVersionError a.version 5) ∧
      ∃ h : RobotCommandHeader, h.command = .Connect ∧ h.command_id = 0 ∧ visible w'.trace = [.robotReq ⟨h, robotHello w⟩] by
    obtain ⟨h1, h2⟩ := h
    exact ⟨_, Prod.ext h1 rfl, h2⟩
  refine robot_new_greeted hw rc ls hs hg hm _ ?_
  intro h w1 w2 k1 k2 hrob hr
  unfold afterConnect
  rw [hok]
  simp only [post_err, after_err]
  obtain ⟨x, y, htr⟩ := hr.trace
  exact ⟨rfl, h, k1, k2, by rw [htr]; rfl⟩

theorem gripper_new_greeted {w : World F} (hw : Fresh w) {g : Greeting} {a : Gripper.ConnectResponse} {m : Bytes} {rest : List Tick}
    (hs : w.script = g.script ++ rest) (hg : g.Brings m) (hm : GripperAnswer a m) (Q : Res F Unit → World F → Prop)
    (h : ∀ (h : Gripper.CommandHeader) (w1 w2 : World F), h.command = .Connect → h.command_id = 0 →
      Greeted g m (.gripperReq ⟨h, gripperHello w⟩) rest w1 w2 → Post (afterGripperConnect a) w2 Q) :
    Post (Gripper.new : Prog F Unit) w Q := by
  unfold Gripper.new Robot.network_new
  have hfc : g.connect.fail = false := (hg.fine _ (by simp [Greeting.script])).1
  simp only [post_bind, post_sys_cons (show w.script = g.connect :: (g.write :: (g.ask ++ g.a1 :: g.a2 :: g.a3 :: g.a4 :: rest)) by rw [hs]; simp [Greeting.script])]
  simp only [after_ok, hfc, post_pure, post_bind, post_modify, Bool.false_eq_true, if_false, if_true]
  generalize hw1 : ({ w with script := _, ker := w.ker.arrive g.connect, cfg := { w.cfg with network_type := .Gripper }, net := {}, rob := _ } : World F) = w1
  have hd : Dialled g rest w1 := by
    rw [← hw1]
    exact ⟨rfl, by rw [hw.2], rfl, hw.1⟩
  have e4 : gripperHello w1 = gripperHello w := by rw [← hw1]; rfl
  refine Post.congr_at (connect_gripper_eq w1) ?_
  rw [e4, post_bind]
  refine (askGripper_greeting hd hg (by rw [← hw1]) hm _).mono ?_
  rintro r w2 ⟨rfl, hh, k1, k2, hr⟩
  rw [after_ok]
  exact h hh w1 w2 k1 k2 hr

/-- C72: connecting to a gripper that accepts the version succeeds. -/
theorem C72_gripper_connects {w : World F} (hw : Fresh w) {g : Greeting} {a : Gripper.ConnectResponse} {m : Bytes} {rest : List Tick}
    (hs : w.script = g.script ++ rest) (hg : g.Brings m) (hm : GripperAnswer a m) (hok : a.status = .Success) :
    ∃ w', Gripper.new w = (.ok (), w') ∧ (Gripper.server_version w').1 = .ok a.version ∧
      (∃ h : Gripper.CommandHeader, h.command = .Connect ∧ h.command_id = 0 ∧ visible w'.trace = [.gripperReq ⟨h, gripperHello w⟩]) ∧ w'.script = rest := by
  suffices h : Post (Gripper.new : Prog F Unit) w fun r w' => r = .ok () ∧ (Gripper.server_version w').1 = .ok a.version ∧
      (∃ h : Gripper.CommandHeader, h.command = .Connect ∧ h.command_id = 0 ∧ visible w'.trace = [.gripperReq ⟨h, gripperHello w⟩]) ∧ w'.script = rest by
    obtain ⟨h1, h2⟩ := h
    exact ⟨_, Prod.ext h1 rfl, h2⟩
  refine gripper_new_greeted hw hs hg hm _ ?_
  intro h w1 w2 k1 k2 hr
  unfold afterGripperConnect
  rw [hok]
  simp only [post_modify]
  obtain ⟨x, y, htr⟩ := hr.trace
  exact ⟨trivial, rfl, ⟨h, k1, k2, by rw [htr]; rfl⟩, hr.script⟩

/-- C72: any other status of a gripper is reported as a refused version. -/
theorem C72_gripper_refuses {w : World F} (hw : Fresh w) {g : Greeting} {a : Gripper.ConnectResponse} {m : Bytes} {rest : List Tick}
    (hs : w.script = g.script ++ rest) (hg : g.Brings m) (hm : GripperAnswer a m) (hok : a.status ≠ .Success) :
    ∃ w', (Gripper.new : Prog F Unit) w = (.err (.IncompatibleLibraryVersionError a.version 3), w') ∧
      ∃ h : Gripper.CommandHeader, h.command = .Connect ∧ h.command_id = 0 ∧ visible w'.trace = [.gripperReq ⟨h, gripperHello w⟩] := by
  suffices h : Post (Gripper.new : Prog F Unit) w fun r w' => r = .err (.IncompatibleLibraryVersionError a.version 3) ∧
      ∃ h : Gripper.CommandHeader, h.command = .Connect ∧ h.command_id = 0 ∧ visible w'.trace = [.gripperReq ⟨h, gripperHello w⟩] by
    obtain ⟨h1, h2⟩ := h
    exact ⟨_, Prod.ext h1 rfl, h2⟩
  refine gripper_new_greeted hw hs hg hm _ ?_
  intro h w1 w2 k1 k2 hr
  obtain ⟨x, y, htr⟩ := hr.trace
  have hv : visible w2.trace = [.gripperReq ⟨h, gripperHello w⟩] := by rw [htr]; rfl
  unfold afterGripperConnect
  cases hst : a.status with
  | Success => exact absurd hst hok
  | _ => exact ⟨rfl, h, k1, k2, hv⟩


/-! ## Examples -/

section examples
open Toy

/-- An answer in two pieces. A datagram arrives before it. -/
def Toy.greeting (m : Bytes) : Greeting := ⟨quiet, udp (state 2 1 0 2), [quiet, quiet], tcp (m.take 5), tcp (m.drop 5), quiet, quiet⟩

theorem Toy.greeting_brings (m : Bytes) (h : m.take 5 ≠ []) : (greeting m).Brings m where
  fine t ht := by
    simp only [Greeting.script, greeting, List.cons_append, List.nil_append, List.mem_cons, List.not_mem_nil, or_false] at ht
    rcases ht with rfl | rfl | rfl | rfl | rfl | rfl | rfl | rfl <;> exact ⟨rfl, rfl⟩
  start := h
  bytes := List.take_append_drop 5 m
  silent t ht := by
    simp only [greeting, List.cons_append, List.nil_append, List.mem_cons, List.not_mem_nil, or_false] at ht
    rcases ht with rfl | rfl | rfl | rfl | rfl | rfl <;> rfl

/-- A robot that accepts. One more state arrives before the library looks for the first one. -/
example : Fresh (world ((greeting connected).script ++ ((udp (state 3 1 0 2) :: List.replicate 3 quiet) ++ [quiet]))) ∧ (greeting connected).Brings connected ∧
    RobotAnswer ⟨⟨.Connect, 0, 15⟩, .Success, 5⟩ connected ∧
    FirstState s3 (udpArrived (greeting connected).script) (udp (state 3 1 0 2) :: List.replicate 3 quiet) ∧ TcpSilent (udp (state 3 1 0 2) :: List.replicate 3 quiet) := by
  refine ⟨fresh _ _ _, greeting_brings _ (by decide), ⟨by kernel_rfl, rfl, rfl⟩, ?_, ?_⟩
  · refine .arrives [⟨7, state 2 1 0 2⟩] 7 (state 3 1 0 2) _ _ e3 rfl ?_ ?_ ?_ rfl
    · intro d hd
      rw [List.mem_singleton] at hd
      rw [hd]; kernel_rfl
    · intro t ht
      rcases List.mem_cons.1 ht with rfl | ht
      · exact ⟨rfl, rfl⟩
      · exact fine_quiet 3 t ht
    · intro t ht
      rw [List.eq_of_mem_replicate ht]; rfl
  · intro t ht
    rcases List.mem_cons.1 ht with rfl | ht
    · rfl
    · rw [List.eq_of_mem_replicate ht]; rfl

/-- A robot of version 4 that refuses. -/
example : (greeting [0, 0, 0, 0, 0, 0, 0, 0, 15, 0, 0, 0, 1, 4, 0]).Brings [0, 0, 0, 0, 0, 0, 0, 0, 15, 0, 0, 0, 1, 4, 0] ∧
    RobotAnswer ⟨⟨.Connect, 0, 15⟩, .IncompatibleLibraryVersion, 4⟩ [0, 0, 0, 0, 0, 0, 0, 0, 15, 0, 0, 0, 1, 4, 0] :=
  ⟨greeting_brings _ (by decide), by kernel_rfl, rfl, rfl⟩

/-- A gripper that accepts, and one that answers with another status. -/
example : (greeting gripperConnected).Brings gripperConnected ∧ GripperAnswer ⟨⟨.Connect, 0, 14⟩, .Success, 3⟩ gripperConnected :=
  ⟨greeting_brings _ (by decide), by kernel_rfl, rfl, rfl⟩

example : (greeting [0, 0, 0, 0, 0, 0, 14, 0, 0, 0, 1, 0, 2, 0]).Brings [0, 0, 0, 0, 0, 0, 14, 0, 0, 0, 1, 0, 2, 0] ∧
    GripperAnswer ⟨⟨.Connect, 0, 14⟩, .Fail, 2⟩ [0, 0, 0, 0, 0, 0, 14, 0, 0, 0, 1, 0, 2, 0] :=
  ⟨greeting_brings _ (by decide), by kernel_rfl, rfl, rfl⟩

end examples
end Verif
