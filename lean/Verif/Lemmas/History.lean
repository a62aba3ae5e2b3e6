import Verif.Lemmas.Tcp
/-! Invariants of whole histories: conservation of bytes and datagrams, command ids and request headers. -/
set_option linter.unusedSectionVars false
namespace Verif
open Prog Spec
variable {F : Type}

section sessions
variable {T : World F → World F → Prop} {B : RobotBody F → Prop} [Fl F] [Wire F]

theorem pres_network_new [TSys T] (nt : NetworkType)
    (hnet : ∀ (w : World F), T w { w with cfg := { w.cfg with network_type := nt }, net := {} }) :
    Pres T (Robot.network_new nt : Prog F Bool) := by
  unfold Robot.network_new
  pres [pres_sys, (show Pres T (Prog.modify _) from fun w => hnet w)]

theorem pres_robot_new [TRobot T B] (hB : ∀ b, B b)
    (hnet : ∀ (w : World F) nt, T w { w with cfg := { w.cfg with network_type := nt }, net := {} })
    (hinit : ∀ (w : World F) l r, T w { w with rob := RobotImpl.init l r }) (rc : Option RealtimeConfig) (ls : Option Nat) :
    Pres T (Robot.new rc ls : Prog F Unit) := by
  unfold Robot.new
  pres [pres_network_new _ fun w => hnet w _, pres_robotImpl_new hB hinit _ _]

theorem pres_robotSession [Geo F] [TRobot T B] (hB : ∀ b, B b)
    (hnet : ∀ (w : World F) nt, T w { w with cfg := { w.cfg with network_type := nt }, net := {} })
    (hinit : ∀ (w : World F) l r, T w { w with rob := RobotImpl.init l r }) (rc : Option RealtimeConfig) (ls : Option Nat)
    (cs : List (RobotCall F)) : Pres T (robotSession rc ls cs) := by
  unfold robotSession
  pres [pres_robot_new hB hnet hinit _ _, pres_robotCalls hB _]

theorem pres_gripperSession [TGripper T] [TRob T]
    (hnet : ∀ (w : World F) nt, T w { w with cfg := { w.cfg with network_type := nt }, net := {} })
    (cs : List (GripperCall F)) : Pres T (gripperSession cs) := by
  unfold gripperSession Gripper.new
  pres [pres_network_new _ fun w => hnet w _, pres_set_version _, pres_connect_gripper _, pres_gripperCalls _]

/-- `KeepTcp` from a relation. -/
theorem KeepTcp.of [TTcp T] {I J : World F → Prop} (hIJ : ∀ w, I w → J w) (hT : ∀ w w', T w w' → I w → I w') : KeepTcp I J where
  weak := hIJ
  tick w t ts h := hT _ _ (TSys.tick w t ts h)
  tcp := Keeps.of_pres hIJ fun w => hT _ _ (pres_tcp_read_from_buffer w)
  remove id := Keeps.of_pres hIJ fun w => hT _ _ (pres_remove_response id w)

end sessions

/-! ## Conservation -/

/-- What has been taken out of the socket buffers is what arrived, in order; the rest is still in the buffers. -/
def Conserve (w w' : World F) : Prop := ∃ used es, w.script = used ++ w'.script ∧ w'.trace = w.trace ++ es ∧
  w.ker.tcpRx ++ tcpArrived used = recvBytes es ++ w'.ker.tcpRx ∧
  w.ker.udpRx ++ udpArrived used = datagrams es ++ w'.ker.udpRx

instance : Pre (Conserve (F := F)) where
  refl w := ⟨[], [], by simp, by simp, by simp, by simp⟩
  trans := by
    rintro a b c ⟨u, es, h1, h2, h3, h4⟩ ⟨u', es', g1, g2, g3, g4⟩
    refine ⟨u ++ u', es ++ es', by rw [h1, g1]; simp, by rw [g2, h2]; simp, ?_, ?_⟩
    · simp only [tcpArrived_append, recvBytes_append]
      rw [← List.append_assoc, h3, List.append_assoc, g3, List.append_assoc]
    · simp only [udpArrived_append, datagrams_append]
      rw [← List.append_assoc, h4, List.append_assoc, g4, List.append_assoc]

theorem Conserve.event (w w' : World F) (e : Ev F) (hs : w'.script = w.script) (hk : w'.ker = w.ker)
    (ht : w'.trace = w.trace ++ [e]) (h1 : recvBytes [e] = []) (h2 : datagrams [e] = []) : Conserve w w' :=
  ⟨[], [e], by simp [hs], ht, by simp [hk, h1], by simp [hk, h2]⟩

theorem Conserve.same (w w' : World F) (hs : w'.script = w.script) (hk : w'.ker.tcpRx = w.ker.tcpRx) (hk' : w'.ker.udpRx = w.ker.udpRx)
    (ht : w'.trace = w.trace) : Conserve w w' :=
  ⟨[], [], by simp [hs], by simp [ht], by simp [hk], by simp [hk']⟩

theorem Conserve.tick (w : World F) (t : Tick) (ts : List Tick) (h : w.script = t :: ts) :
    Conserve w { w with script := ts, ker := w.ker.arrive t } :=
  ⟨[t], [], by simp [h], by simp, by simp [Kernel.arrive], by simp [Kernel.arrive]⟩

instance : TTcp (Conserve (F := F)) where
  tick := Conserve.tick
  poll w := Conserve.same _ _ rfl rfl rfl rfl
  read w n := ⟨[], [.tcpRecv (w.ker.tcpRx.take n)], by simp, rfl, by simp [recvBytes], by simp [datagrams]⟩
  pend w p o := Conserve.same _ _ rfl rfl rfl rfl
  head w l i := Conserve.same _ _ rfl rfl rfl rfl
  store w := Conserve.event _ _ _ rfl rfl rfl rfl rfl
  remove w id := Conserve.same _ _ rfl rfl rfl rfl

instance : TAcc (Conserve (F := F)) where
  upoll w := Conserve.same _ _ rfl rfl rfl rfl
  recv w d ds h := ⟨[], [.udpRecv d], by simp, rfl, by simp [recvBytes], by simp [datagrams, h]⟩
  addr w a := Conserve.same _ _ rfl rfl rfl rfl
  acc w s := Conserve.event _ _ _ rfl rfl rfl rfl rfl

instance : TRobot (Conserve (F := F)) (fun _ => True) where
  next _ := Conserve.same _ _ rfl rfl rfl rfl
  req _ _ _ := Conserve.event _ _ _ rfl rfl rfl rfl rfl
  rob _ _ _ _ _ := Conserve.same _ _ rfl rfl rfl rfl
  send _ _ := Conserve.event _ _ _ rfl rfl rfl rfl rfl
  motion _ _ _ _ _ := Conserve.event _ _ _ rfl rfl rfl rfl rfl
  control _ _ _ _ := Conserve.event _ _ _ rfl rfl rfl rfl rfl
  readCb _ _ _ := Conserve.event _ _ _ rfl rfl rfl rfl rfl
  file _ _ := Conserve.same _ _ rfl rfl rfl rfl

instance : TGripper (Conserve (F := F)) where
  gnext _ := Conserve.same _ _ rfl rfl rfl rfl
  greq _ _ := Conserve.event _ _ _ rfl rfl rfl rfl rfl

section
variable [Fl F] [Wire F]

theorem session_conserve [Geo F] (rc : Option RealtimeConfig) (ls : Option Nat) (cs : List (RobotCall F)) (w : World F) :
    Conserve w (robotSession rc ls cs w).2 :=
  pres_robotSession (fun _ => trivial) (fun _ _ => Conserve.same _ _ rfl rfl rfl rfl)
    (fun _ _ _ => Conserve.same _ _ rfl rfl rfl rfl) rc ls cs w

theorem gripper_session_conserve (cs : List (GripperCall F)) (w : World F) :
    Conserve w (gripperSession cs w).2 :=
  pres_gripperSession (fun _ _ => Conserve.same _ _ rfl rfl rfl rfl) cs w

/-- In a history that starts fresh, the bytes read are a prefix of the bytes sent by the server. -/
theorem Conserve.recv_prefix {w w' : World F} (h : Conserve w w') (hw : Fresh w) :
    recvBytes w'.trace <+: tcpArrived w.script := by
  obtain ⟨used, es, h1, h2, h3, -⟩ := h
  rw [hw.1, List.nil_append] at h2
  rw [hw.2] at h3
  simp only [List.nil_append] at h3
  rw [h2, h1, tcpArrived_append, h3]
  exact ⟨w'.ker.tcpRx ++ tcpArrived w'.script, by simp⟩

theorem Conserve.datagrams_prefix {w w' : World F} (h : Conserve w w') (hw : Fresh w) :
    datagrams w'.trace <+: udpArrived w.script := by
  obtain ⟨used, es, h1, h2, -, h3⟩ := h
  rw [hw.1, List.nil_append] at h2
  rw [hw.2] at h3
  simp only [List.nil_append] at h3
  rw [h2, h1, udpArrived_append, h3]
  exact ⟨w'.ker.udpRx ++ udpArrived w'.script, by simp⟩
end

/-! ## Requests -/

/-- The requests of a trace have headers which fit to them, and ids counted from 0. -/
structure ReqWeak (c : Bool) (w : World F) : Prop where
  ids : requestIds w.trace = (List.range (requestIds w.trace).length).map UInt32.ofNat
  checked : c = true → (requestIds w.trace).length < 2 ^ 32
  robot : ∀ r ∈ requests w.trace, r.header.command = kind r.request ∧ r.header.size.toNat = (kind r.request).size_of_request
  gripper : ∀ r ∈ gripperRequests w.trace,
    r.header.command = gripperKind r.request ∧ r.header.size.toNat = (gripperKind r.request).size_of_request

structure ReqOk (c : Bool) (w : World F) : Prop extends ReqWeak c w where
  conf : w.cfg.overflow_checks = c
  next : w.net.command_id = UInt32.ofNat (requestIds w.trace).length

structure ReqSame (w w' : World F) : Prop where
  cfg : w'.cfg = w.cfg
  ids : requestIds w'.trace = requestIds w.trace
  robot : requests w'.trace = requests w.trace
  gripper : gripperRequests w'.trace = gripperRequests w.trace
  next : w'.net.command_id = w.net.command_id

theorem ReqSame.keep {c : Bool} (w w' : World F) (h : ReqSame w w') (hw : ReqOk c w) : ReqOk c w' := by
  refine ⟨⟨?_, ?_, ?_, ?_⟩, ?_, ?_⟩
  · rw [h.ids]; exact hw.ids
  · rw [h.ids]; exact hw.checked
  · rw [h.robot]; exact hw.robot
  · rw [h.gripper]; exact hw.gripper
  · rw [h.cfg]; exact hw.conf
  · rw [h.next, h.ids]; exact hw.next

theorem ReqSame.event (w w' : World F) (e : Ev F) (hc : w'.cfg = w.cfg) (hn : w'.net.command_id = w.net.command_id)
    (ht : w'.trace = w.trace ++ [e]) (h : requestIds [e] = []) (h1 : requests [e] = []) (h2 : gripperRequests [e] = []) :
    ReqSame w w' := by
  refine ⟨hc, ?_, ?_, ?_, hn⟩
  · rw [ht, requestIds_append, h, List.append_nil]
  · rw [ht, requests_append, h1, List.append_nil]
  · rw [ht, gripperRequests_append, h2, List.append_nil]

theorem ReqSame.same (w w' : World F) (hc : w'.cfg = w.cfg) (hn : w'.net.command_id = w.net.command_id)
    (ht : w'.trace = w.trace) : ReqSame w w' := by
  refine ⟨hc, ?_, ?_, ?_, hn⟩ <;> rw [ht]

instance : Pre (ReqSame (F := F)) where
  refl _ := ⟨rfl, rfl, rfl, rfl, rfl⟩
  trans h h' := ⟨h'.1.trans h.1, h'.2.trans h.2, h'.3.trans h.3, h'.4.trans h.4, h'.5.trans h.5⟩
instance : TTcp (ReqSame (F := F)) where
  tick _ _ _ _ := ReqSame.same _ _ rfl rfl rfl
  poll _ := ReqSame.same _ _ rfl rfl rfl
  read _ _ := ReqSame.event _ _ _ rfl rfl rfl rfl rfl rfl
  pend _ _ _ := ReqSame.same _ _ rfl rfl rfl
  head _ _ _ := ReqSame.same _ _ rfl rfl rfl
  store _ := ReqSame.event _ _ _ rfl rfl rfl rfl rfl rfl
  remove _ _ := ReqSame.same _ _ rfl rfl rfl
instance : TAcc (ReqSame (F := F)) where
  upoll _ := ReqSame.same _ _ rfl rfl rfl
  recv _ _ _ _ := ReqSame.event _ _ _ rfl rfl rfl rfl rfl rfl
  addr _ _ := ReqSame.same _ _ rfl rfl rfl
  acc _ _ := ReqSame.event _ _ _ rfl rfl rfl rfl rfl rfl
instance : TRob (ReqSame (F := F)) where
  rob _ _ _ _ _ := ReqSame.same _ _ rfl rfl rfl
instance : TCmd (ReqSame (F := F)) where
  send _ _ := ReqSame.event _ _ _ rfl rfl rfl rfl rfl rfl
instance : TCb (ReqSame (F := F)) where
  motion _ _ _ _ _ := ReqSame.event _ _ _ rfl rfl rfl rfl rfl rfl
  control _ _ _ _ := ReqSame.event _ _ _ rfl rfl rfl rfl rfl rfl

theorem ReqOk.weak {c : Bool} (w : World F) (h : ReqOk c w) : ReqWeak c w := h.toReqWeak

instance [Fl F] [Wire F] (c : Bool) : KeepTcp (F := F) (ReqOk c) (ReqWeak c) := KeepTcp.of ReqOk.weak (T := ReqSame) ReqSame.keep

theorem range_snoc (l : List UInt32) (h : l = (List.range l.length).map UInt32.ofNat) (x : UInt32) (hx : x = UInt32.ofNat l.length) :
    l ++ [x] = (List.range (l ++ [x]).length).map UInt32.ofNat := by
  rw [List.length_append, List.length_singleton, List.range_succ, List.map_append, ← h, hx]
  rfl

theorem size_of_request_lt (c : RobotCommandEnum) : c.size_of_request < 2 ^ 32 := by
  cases c <;> simp [RobotCommandEnum.size_of_request]

theorem gripper_size_of_request_lt (c : Gripper.Command) : c.size_of_request < 2 ^ 32 := by
  cases c <;> simp [Gripper.Command.size_of_request]

/-- The exact effect of sending a robot request. -/
theorem sendRequest_spec (b : RobotBody F) (w : World F) :
    Post (sendRequest b) w fun r w' => match r with
      | .ok id => id = w.net.command_id ∧ ∃ t ts, w.script = t :: ts ∧ t.fail = false ∧
          (w.cfg.overflow_checks = true → w.net.command_id ≠ 0xffffffff) ∧ w' = { w with
            script := ts, ker := w.ker.arrive t, net := { w.net with command_id := w.net.command_id + 1 }
            trace := w.trace ++ [.robotReq ⟨⟨kind b, w.net.command_id, UInt32.ofNat (kind b).size_of_request⟩, b⟩] }
      | .err _ => False
      | _ => w'.trace = w.trace := by
  unfold sendRequest create_header_for_robot next_command_id tcp_send_request
  simp only [post_bind, post_gets, after_ok, post_ite, post_panic, after_panic, post_modify, post_pure]
  refine ⟨fun _ => trivial, fun hno => ?_⟩
  rw [post_sys]
  refine ⟨fun _ => rfl, ?_⟩
  intro t ts hs
  simp only [after_ok, post_ite, post_panic, post_bind, post_emit, post_pure]
  refine ⟨fun _ => trivial, fun hf => ?_⟩
  refine ⟨trivial, t, ts, hs, by simpa using hf, ?_, rfl⟩
  intro hc h
  simp [hc, h] at hno

/-- The exact effect of sending a gripper request. -/
theorem sendGripperRequest_spec (b : Gripper.Body F) (w : World F) :
    Post (sendGripperRequest b) w fun r w' => match r with
      | .ok id => id = w.net.command_id ∧ ∃ t ts, w.script = t :: ts ∧ t.fail = false ∧
          (w.cfg.overflow_checks = true → w.net.command_id ≠ 0xffffffff) ∧ w' = { w with
            script := ts, ker := w.ker.arrive t, net := { w.net with command_id := w.net.command_id + 1 }
            trace := w.trace ++ [.gripperReq ⟨⟨gripperKind b, w.net.command_id, UInt32.ofNat (gripperKind b).size_of_request⟩, b⟩] }
      | .err _ => False
      | _ => w'.trace = w.trace := by
  unfold sendGripperRequest create_header_for_gripper next_command_id tcp_send_request_gripper
  simp only [post_bind, post_gets, after_ok, post_ite, post_panic, after_panic, post_modify, post_pure]
  refine ⟨fun _ => trivial, fun hno => ?_⟩
  rw [post_sys]
  refine ⟨fun _ => rfl, ?_⟩
  intro t ts hs
  simp only [after_ok, post_ite, post_panic, post_bind, post_emit, post_pure]
  refine ⟨fun _ => trivial, fun hf => ?_⟩
  refine ⟨trivial, t, ts, hs, by simpa using hf, ?_, rfl⟩
  intro hc h
  simp [hc, h] at hno

theorem ReqWeak.of_trace {c : Bool} {w w' : World F} (h : ReqWeak c w) (ht : w'.trace = w.trace) : ReqWeak c w' := by
  obtain ⟨h1, h2, h3, h4⟩ := h
  exact ⟨by rw [ht]; exact h1, by rw [ht]; exact h2, by rw [ht]; exact h3, by rw [ht]; exact h4⟩

theorem succ_lt_of_ne (n : Nat) (h : n < 2 ^ 32) (hne : UInt32.ofNat n ≠ 0xffffffff) : n + 1 < 2 ^ 32 := by
  rcases Nat.lt_or_ge (n + 1) (2 ^ 32) with h' | h'
  · exact h'
  · have : n = 0xffffffff := by omega
    subst this
    exact absurd rfl hne

theorem keeps_sendRequest_ReqOk (c : Bool) (b : RobotBody F) : Keeps (ReqOk c) (ReqWeak c) (sendRequest b) := by
  intro w hw
  refine (sendRequest_spec b w).mono ?_
  intro r w' hr
  cases r with
  | err e => exact hr.elim
  | panic m => exact hw.toReqWeak.of_trace hr
  | blocked => exact hw.toReqWeak.of_trace hr
  | ok id =>
    obtain ⟨-, t, ts, hs, hf, hc, rfl⟩ := hr
    have hids : requestIds (w.trace ++ [.robotReq ⟨⟨kind b, w.net.command_id, UInt32.ofNat (kind b).size_of_request⟩, b⟩]) =
        requestIds w.trace ++ [w.net.command_id] := by simp [requestIds]
    refine ⟨⟨?_, ?_, ?_, ?_⟩, hw.conf, ?_⟩
    · simp only [hids]
      exact range_snoc _ hw.ids _ hw.next
    · intro h
      simp only [hids, List.length_append, List.length_singleton]
      exact succ_lt_of_ne _ (hw.checked h) (by rw [← hw.next]; exact hc (by rw [hw.conf, h]))
    · intro r hr
      simp only [requests_append, List.mem_append] at hr
      rcases hr with hr | hr
      · exact hw.robot r hr
      · have : r = ⟨⟨kind b, w.net.command_id, UInt32.ofNat (kind b).size_of_request⟩, b⟩ := by simpa [requests] using hr
        subst this
        refine ⟨rfl, ?_⟩
        simp only [UInt32.toNat_ofNat']
        exact Nat.mod_eq_of_lt (size_of_request_lt _)
    · simpa [gripperRequests] using hw.gripper
    · simp only [hids, List.length_append, List.length_singleton]
      rw [UInt32.ofNat_add, hw.next]
      rfl

theorem keeps_sendGripperRequest_ReqOk (c : Bool) (b : Gripper.Body F) : Keeps (ReqOk c) (ReqWeak c) (sendGripperRequest b) := by
  intro w hw
  refine (sendGripperRequest_spec b w).mono ?_
  intro r w' hr
  cases r with
  | err e => exact hr.elim
  | panic m => exact hw.toReqWeak.of_trace hr
  | blocked => exact hw.toReqWeak.of_trace hr
  | ok id =>
    obtain ⟨-, t, ts, hs, hf, hc, rfl⟩ := hr
    have hids : requestIds (w.trace ++ [.gripperReq ⟨⟨gripperKind b, w.net.command_id, UInt32.ofNat (gripperKind b).size_of_request⟩, b⟩]) =
        requestIds w.trace ++ [w.net.command_id] := by simp [requestIds]
    refine ⟨⟨?_, ?_, ?_, ?_⟩, hw.conf, ?_⟩
    · simp only [hids]
      exact range_snoc _ hw.ids _ hw.next
    · intro h
      simp only [hids, List.length_append, List.length_singleton]
      exact succ_lt_of_ne _ (hw.checked h) (by rw [← hw.next]; exact hc (by rw [hw.conf, h]))
    · simpa [requests] using hw.robot
    · intro r hr
      simp only [gripperRequests_append, List.mem_append] at hr
      rcases hr with hr | hr
      · exact hw.gripper r hr
      · have : r = ⟨⟨gripperKind b, w.net.command_id, UInt32.ofNat (gripperKind b).size_of_request⟩, b⟩ := by simpa [gripperRequests] using hr
        subst this
        refine ⟨rfl, ?_⟩
        simp only [UInt32.toNat_ofNat']
        exact Nat.mod_eq_of_lt (gripper_size_of_request_lt _)
    · simp only [hids, List.length_append, List.length_singleton]
      rw [UInt32.ofNat_add, hw.next]
      rfl

theorem ReqWeak.empty (c : Bool) (w : World F) (h : w.trace = []) : ReqWeak c w :=
  ⟨by rw [h]; rfl, by rw [h]; intro _; simp, by rw [h]; simp, by rw [h]; simp⟩

section
variable [Fl F] [Wire F]

instance (c : Bool) : KeepRobot (F := F) (ReqOk c) (ReqWeak c) :=
  KeepRobot.of ReqSame ReqSame.keep (fun _ _ _ => ReqSame.event _ _ _ rfl rfl rfl rfl rfl rfl)
    (fun _ _ => ReqSame.same _ _ rfl rfl rfl) (keeps_sendRequest_ReqOk c)

instance (c : Bool) : KeepGripper (F := F) (ReqOk c) (ReqWeak c) :=
  KeepGripper.of ReqSame ReqSame.keep (keeps_sendGripperRequest_ReqOk c)

/-- Requests in every history of a robot. -/
theorem session_req [Geo F] (rc : Option RealtimeConfig) (ls : Option Nat) (cs : List (RobotCall F)) (w : World F) (hw : Fresh w) :
    Post (robotSession rc ls cs) w fun r w' => match r with
      | .ok _ => ReqOk w.cfg.overflow_checks w'
      | _ => ReqWeak w.cfg.overflow_checks w' := by
  refine post_robotSession (I := ReqOk _) rc ls cs w ?_
  refine post_robot_new (I := ReqOk _) (K := ReqOk _) rc ls w ?_ ?_ (fun b _ => keeps_sendRequest_ReqOk _ b) ?_ ?_
  · intro w' h; exact ReqWeak.empty _ _ (by rw [h, hw.1])
  · intro t ts r hs
    exact ⟨ReqWeak.empty _ _ hw.1, rfl, by simp [hw.1]⟩
  · intro w v h
    exact ReqSame.keep _ _ (ReqSame.same w _ rfl rfl rfl) h
  · intro w' h
    have : Keeps (ReqOk w.cfg.overflow_checks) (ReqWeak w.cfg.overflow_checks)
        (udp_blocking_receive (F := F) (RobotStateIntern.codec F) size_of_RobotStateIntern) :=
      Keeps.of_rel ReqSame.keep (pres_udp_blocking_receive _ _)
    refine (this w' h).mono ?_
    intro r w' hr
    cases r with
    | ok s => exact ReqSame.keep _ _ (TAcc.acc w' s) hr
    | err e => exact ReqOk.weak _ hr
    | panic m => exact hr
    | blocked => exact hr

/-- Requests in every history of a gripper. -/
theorem gripper_session_req (cs : List (GripperCall F)) (w : World F) (hw : Fresh w) :
    Post (gripperSession cs) w fun r w' => match r with
      | .ok _ => ReqOk w.cfg.overflow_checks w'
      | _ => ReqWeak w.cfg.overflow_checks w' := by
  refine post_gripperSession (I := ReqOk _) cs w ?_
  refine post_gripper_new (I := ReqOk _) w ?_ ?_ (fun b => keeps_sendGripperRequest_ReqOk _ b) ?_
  · intro w' h; exact ReqWeak.empty _ _ (by rw [h, hw.1])
  · intro t ts v hs
    exact ⟨ReqWeak.empty _ _ hw.1, rfl, by simp [hw.1]⟩
  · intro w v h
    exact ReqSame.keep _ _ (ReqSame.same w _ rfl rfl rfl) h

end
end Verif
