import Verif.Lemmas.Deliver
/-!
# Calls that wait for an answer that is cut, comes in a burst or does not come
-/
set_option linter.unusedSectionVars false
namespace Verif
open Prog Spec
variable {F : Type}

section
variable {α β : Type}

/-- A panic while waiting is a panic of the call. -/
theorem receive_panic (c : Codec α) (id : UInt32) (w : World F)
    (h : ∃ msg, ((wait_for_response_to_arrive id : Prog F Bytes) w).1 = .panic msg) :
    ∃ msg, ((tcp_blocking_receive_response c id : Prog F α) w).1 = .panic msg := by
  obtain ⟨msg, h⟩ := h
  refine ⟨msg, ?_⟩
  unfold tcp_blocking_receive_response
  simp only [bind, Prog.bind]
  rcases hw : (wait_for_response_to_arrive id : Prog F Bytes) w with ⟨r, w'⟩
  rw [hw] at h
  cases h
  rfl

theorem receive_blocked (c : Codec α) (id : UInt32) (w : World F)
    (h : ((wait_for_response_to_arrive id : Prog F Bytes) w).1 = .blocked) :
    ((tcp_blocking_receive_response c id : Prog F α) w).1 = .blocked := by
  unfold tcp_blocking_receive_response
  simp only [bind, Prog.bind]
  rcases hw : (wait_for_response_to_arrive id : Prog F Bytes) w with ⟨r, w'⟩
  rw [hw] at h
  cases h
  rfl

theorem rpc_of_receive (b : RobotBody F) (c : Codec α) (f : α → Outcome F β) (w : World F) (t : Tick) (ts : List Tick)
    (hs : w.script = t :: ts) (hf : t.fail = false) (hid : w.net.command_id ≠ 0xffffffff) :
    rpc b c f w = ((do let a ← tcp_blocking_receive_response c w.net.command_id; ofExcept (f a)) : Prog F β) { w with
            script := ts, ker := w.ker.arrive t, net := { w.net with command_id := w.net.command_id + 1 }
            trace := w.trace ++ [.robotReq ⟨⟨kind b, w.net.command_id, UInt32.ofNat (kind b).size_of_request⟩, b⟩] } := by
  unfold rpc ask
  rw [Prog.bind_assoc']
  show Prog.bind _ _ w = _
  unfold Prog.bind
  rw [sendRequest_eq b w t ts hs hf hid]

theorem rpcGripper_of_receive (b : Gripper.Body F) (c : Codec α) (f : α → Outcome F β) (w : World F) (t : Tick) (ts : List Tick)
    (hs : w.script = t :: ts) (hf : t.fail = false) (hid : w.net.command_id ≠ 0xffffffff) :
    rpcGripper b c f w = ((do let a ← tcp_blocking_receive_response c w.net.command_id; ofExcept (f a)) : Prog F β) { w with
            script := ts, ker := w.ker.arrive t, net := { w.net with command_id := w.net.command_id + 1 }
            trace := w.trace ++ [.gripperReq ⟨⟨gripperKind b, w.net.command_id, UInt32.ofNat (gripperKind b).size_of_request⟩, b⟩] } := by
  unfold rpcGripper askGripper
  rw [Prog.bind_assoc']
  show Prog.bind _ _ w = _
  unfold Prog.bind
  rw [sendGripperRequest_eq b w t ts hs hf hid]

theorem bind_panic {γ δ : Type} (p : Prog F γ) (k : γ → Prog F δ) (w : World F) (h : ∃ msg, (p w).1 = .panic msg) :
    ∃ msg, ((p >>= k) w).1 = .panic msg := by
  obtain ⟨msg, h⟩ := h
  refine ⟨msg, ?_⟩
  simp only [bind, Prog.bind]
  rcases hw : p w with ⟨r, w'⟩
  rw [hw] at h
  cases h
  rfl

theorem bind_blocked {γ δ : Type} (p : Prog F γ) (k : γ → Prog F δ) (w : World F) (h : (p w).1 = .blocked) :
    ((p >>= k) w).1 = .blocked := by
  simp only [bind, Prog.bind]
  rcases hw : p w with ⟨r, w'⟩
  rw [hw] at h
  cases h
  rfl

/-- The wait of a call whose answer is cut. -/
theorem wait_of_cut (w : World F) (m : Bytes) (k : Nat) (h : AnswerCut w m k) (tr : List (Ev F)) (c : UInt32) :
    ∃ t ts, w.script = t :: ts ∧ t.fail = false ∧ ∃ msg, ((wait_for_response_to_arrive w.net.command_id : Prog F Bytes)
      { w with script := ts, ker := w.ker.arrive t, net := { w.net with command_id := c }, trace := tr }).1 = .panic msg := by
  obtain ⟨q, t1, t2, t3, t4, t5, ts, h1, h2, h3, h4, h5, h6, -⟩ := h.schedule
  cases q with
  | nil => exact absurd rfl h2
  | cons t q =>
    obtain ⟨g1, g2, g3⟩ := h3 t (by simp)
    exact ⟨t, _, h1, g3, wait_cut _ q _ t1 t2 t3 t4 t5 ts m k rfl (fun x hx => h3 x (by simp [hx]))
      (by simp [Kernel.arrive, g1, g2, h.edge]) h.absent h4 h5 h.pending (by simp [Kernel.arrive, g1, h.rx]) h6 h.body h.cut h.frame.size
      h.short h.known⟩

theorem rpc_cut (b : RobotBody F) (c : Codec α) (f : α → Outcome F β) (w : World F) (m : Bytes) (k : Nat) (h : AnswerCut w m k) :
    ∃ msg, (rpc b c f w).1 = .panic msg := by
  obtain ⟨t, ts, h1, h2, h3⟩ := wait_of_cut w m k h
    (w.trace ++ [.robotReq ⟨⟨kind b, w.net.command_id, UInt32.ofNat (kind b).size_of_request⟩, b⟩]) (w.net.command_id + 1)
  rw [rpc_of_receive b c f w t ts h1 h2 h.ids]
  exact bind_panic _ _ _ (receive_panic c _ _ h3)

theorem rpcGripper_cut (b : Gripper.Body F) (c : Codec α) (f : α → Outcome F β) (w : World F) (m : Bytes) (k : Nat)
    (h : AnswerCut w m k) : ∃ msg, (rpcGripper b c f w).1 = .panic msg := by
  obtain ⟨t, ts, h1, h2, h3⟩ := wait_of_cut w m k h
    (w.trace ++ [.gripperReq ⟨⟨gripperKind b, w.net.command_id, UInt32.ofNat (gripperKind b).size_of_request⟩, b⟩]) (w.net.command_id + 1)
  rw [rpcGripper_of_receive b c f w t ts h1 h2 h.ids]
  exact bind_panic _ _ _ (receive_panic c _ _ h3)

/-- A caller whose answer comes behind another message in the same burst waits for ever. -/
theorem wait_burst (id i : UInt32) (q : List Tick) (t1 : Tick) (ts : List Tick) (other m : Bytes) (w : World F)
    (hs : w.script = q ++ t1 :: ts) (hq : TcpQuiet q) (hf : t1.fail = false) (hin : t1.tcpIn = other ++ m) (hts : TcpQuiet ts)
    (hlen : 3 ≤ ts.length) (hrx : w.ker.tcpRx = []) (he : w.ker.tcpEdge = false) (hp : w.net.pending_response = [])
    (ha : w.net.received_responses id = none) (hne : i ≠ id) (hfr : IsFrame w.cfg.network_type i other)
    (hl : headerLength w.cfg.network_type < other.length) (hsh : other.length ≤ 70000) (hk : KnownCommand w.cfg.network_type other) :
    ((wait_for_response_to_arrive id : Prog F Bytes) w).1 = .blocked := by
  suffices h : Post (wait_for_response_to_arrive id : Prog F Bytes) w fun r _ => r = .blocked from h
  have hu : (wait_for_response_to_arrive id : Prog F Bytes) = _ := loop_unfold (consumes_wait_for_response_to_arrive id) ()
  induction q generalizing w with
  | nil =>
    obtain ⟨t2, t3, t4, us, rfl⟩ : ∃ t2 t3 t4 us, ts = t2 :: t3 :: t4 :: us := by
      match ts, hlen with
      | t2 :: t3 :: t4 :: us, _ => exact ⟨t2, t3, t4, us, rfl⟩
    have a2 := hts t2 (by simp)
    have a3 := hts t3 (by simp)
    have a4 := hts t4 (by simp)
    rw [hu]
    simp only [post_bind]
    have hne1 : t1.tcpIn ≠ [] := by
      rw [hin]
      intro h0
      simp only [List.append_eq_nil_iff] at h0
      rw [h0.1] at hl
      simp at hl
    refine (read_whole w t1 t2 t3 t4 us i other m hs ?_ hp ?_ ?_ ?_ hfr hl hsh hk).mono ?_
    · intro t ht
      simp only [List.mem_cons, List.not_mem_nil, or_false] at ht
      rcases ht with rfl | rfl | rfl | rfl
      · exact hf
      · exact a2.2.2
      · exact a3.2.2
      · exact a4.2.2
    · simp [Kernel.arrive, hne1]
    · simp [Kernel.arrive, hne1]
    · simp [hrx, hin, a2.1]
    · rintro res w' ⟨rfl, h1, h2, h3, h4, h5, h6, -⟩
      have hnone : w'.net.received_responses id = none := by
        rw [h6]; simp [ha, Ne.symm hne]
      have hedge : w'.ker.tcpEdge = false := by
        rw [h4]; simp [a2.1, a2.2.1, a3.1, a3.2.1, a4.1, a4.2.1]
      simp only [after_ok, remove_response, post_bind, post_gets, post_modify, post_pure, hnone]
      exact wait_stuck id _ hedge (by simp) (by
        show TcpQuiet w'.script
        rw [h1]
        intro t ht
        exact hts t (by simp [ht]))
  | cons t q ih =>
    obtain ⟨h1, h2, h3⟩ := hq t (by simp)
    rw [hu]
    simp only [post_bind]
    rw [post_of_eq (read_quiet w t _ hs he h1 h2 h3)]
    simp only [after_ok, remove_response, post_bind, post_gets, post_modify, post_pure, ha]
    exact ih _ rfl (fun x hx => hq x (by simp [hx])) (by simp [Kernel.arrive, hrx, h1]) (by simp [Kernel.arrive, he, h1, h2]) hp
      (by simp) hfr hl hk

theorem wait_of_burst (w : World F) (other m : Bytes) (h : AnswerInBurst w other m) (tr : List (Ev F)) (c : UInt32) :
    ∃ t ts, w.script = t :: ts ∧ t.fail = false ∧ ((wait_for_response_to_arrive w.net.command_id : Prog F Bytes)
      { w with script := ts, ker := w.ker.arrive t, net := { w.net with command_id := c }, trace := tr }).1 = .blocked := by
  obtain ⟨q, t1, ts, h1, h2, h3, h4, h5, h6, h7⟩ := h.schedule
  obtain ⟨i, hi, hfr⟩ := h.otherFrame
  cases q with
  | nil => exact absurd rfl h2
  | cons t q =>
    obtain ⟨g1, g2, g3⟩ := h3 t (by simp)
    exact ⟨t, _, h1, g3, wait_burst _ i q t1 ts other m _ rfl (fun x hx => h3 x (by simp [hx])) h4 h5 h6 h7
      (by simp [Kernel.arrive, g1, h.rx]) (by simp [Kernel.arrive, g1, g2, h.edge]) h.pending h.absent hi hfr h.long h.short h.known⟩

theorem rpc_burst (b : RobotBody F) (c : Codec α) (f : α → Outcome F β) (w : World F) (other m : Bytes) (h : AnswerInBurst w other m) :
    (rpc b c f w).1 = .blocked := by
  obtain ⟨t, ts, h1, h2, h3⟩ := wait_of_burst w other m h
    (w.trace ++ [.robotReq ⟨⟨kind b, w.net.command_id, UInt32.ofNat (kind b).size_of_request⟩, b⟩]) (w.net.command_id + 1)
  rw [rpc_of_receive b c f w t ts h1 h2 h.ids]
  exact bind_blocked _ _ _ (receive_blocked c _ _ h3)

theorem rpcGripper_burst (b : Gripper.Body F) (c : Codec α) (f : α → Outcome F β) (w : World F) (other m : Bytes)
    (h : AnswerInBurst w other m) : (rpcGripper b c f w).1 = .blocked := by
  obtain ⟨t, ts, h1, h2, h3⟩ := wait_of_burst w other m h
    (w.trace ++ [.gripperReq ⟨⟨gripperKind b, w.net.command_id, UInt32.ofNat (gripperKind b).size_of_request⟩, b⟩]) (w.net.command_id + 1)
  rw [rpcGripper_of_receive b c f w t ts h1 h2 h.ids]
  exact bind_blocked _ _ _ (receive_blocked c _ _ h3)

theorem receive_no_answer (c : Codec α) (id : UInt32) (w : World F) (hrx : w.ker.tcpRx = []) (hp : w.net.pending_response = [])
    (ht : w.net.received_responses id = none) (hq : tcpArrived w.script = []) :
    Post (tcp_blocking_receive_response c id : Prog F α) w fun r _ => NeverReturns r := by
  unfold tcp_blocking_receive_response
  rw [post_bind]
  refine (wait_no_bytes id w hrx hp ht hq).mono ?_
  intro r w' h
  cases r with
  | ok _ => exact h.elim
  | err _ => exact h.elim
  | panic _ => trivial
  | blocked => trivial

theorem ask_no_answer (b : RobotBody F) (c : Codec α) (w : World F) (h : NoAnswer w) :
    Post (ask b c) w fun r _ => NeverReturns r := by
  unfold ask
  refine (sendRequest_spec b w).bind ?_
  intro r w' hr
  cases r with
  | ok id =>
    obtain ⟨rfl, t, ts, hs, -, -, rfl⟩ := hr
    have hn := h.nothing
    rw [hs, tcpArrived_cons, List.append_eq_nil_iff] at hn
    exact receive_no_answer c _ _ (by simp [Kernel.arrive, h.rx, hn.1]) h.pending h.absent hn.2
  | err e => exact hr.elim
  | panic _ => trivial
  | blocked => trivial

theorem askGripper_no_answer (b : Gripper.Body F) (c : Codec α) (w : World F) (h : NoAnswer w) :
    Post (askGripper b c) w fun r _ => NeverReturns r := by
  unfold askGripper
  refine (sendGripperRequest_spec b w).bind ?_
  intro r w' hr
  cases r with
  | ok id =>
    obtain ⟨rfl, t, ts, hs, -, -, rfl⟩ := hr
    have hn := h.nothing
    rw [hs, tcpArrived_cons, List.append_eq_nil_iff] at hn
    exact receive_no_answer c _ _ (by simp [Kernel.arrive, h.rx, hn.1]) h.pending h.absent hn.2
  | err e => exact hr.elim
  | panic _ => trivial
  | blocked => trivial

theorem rpc_no_answer (b : RobotBody F) (c : Codec α) (f : α → Outcome F β) (w : World F) (h : NoAnswer w) :
    NeverReturns (rpc b c f w).1 := by
  suffices hp : Post (rpc b c f) w fun r _ => NeverReturns r from hp
  unfold rpc
  refine (ask_no_answer b c w h).bind ?_
  intro r w' hr
  cases r with
  | ok _ => exact hr.elim
  | err _ => exact hr.elim
  | panic _ => trivial
  | blocked => trivial

theorem rpcGripper_no_answer (b : Gripper.Body F) (c : Codec α) (f : α → Outcome F β) (w : World F) (h : NoAnswer w) :
    NeverReturns (rpcGripper b c f w).1 := by
  suffices hp : Post (rpcGripper b c f) w fun r _ => NeverReturns r from hp
  unfold rpcGripper
  refine (askGripper_no_answer b c w h).bind ?_
  intro r w' hr
  cases r with
  | ok _ => exact hr.elim
  | err _ => exact hr.elim
  | panic _ => trivial
  | blocked => trivial

theorem rpc_then_unit (b : RobotBody F) (c : Codec α) (f : α → Outcome F β) :
    ((do let _ ← rpc b c f; pure ()) : Prog F Unit) = rpc b c fun a => (f a).map fun _ => () := by
  unfold rpc
  rw [Prog.bind_assoc']
  congr 1
  funext a
  show _ = ofExcept ((f a).map fun _ => ())
  cases f a <;> rfl

theorem rpcGripper_then_unit (b : Gripper.Body F) (c : Codec α) (f : α → Outcome F β) :
    ((do let _ ← rpcGripper b c f; pure ()) : Prog F Unit) = rpcGripper b c fun a => (f a).map fun _ => () := by
  unfold rpcGripper
  rw [Prog.bind_assoc']
  congr 1
  funext a
  show _ = ofExcept ((f a).map fun _ => ())
  cases f a <;> rfl
end

section
variable [Fl F] [Wire F] [Geo F]

theorem request_form (c : RobotCall F) (h : c.IsRequest) :
    ∃ (α : Type) (b : RobotBody F) (k : Codec α) (f : α → Outcome F Unit), c.run = rpc b k f := by
  cases c <;> try exact h.elim
  · exact ⟨_, _, _, _, set_collision_behavior_eq ..⟩
  · exact ⟨_, _, _, _, set_joint_impedance_eq ..⟩
  · exact ⟨_, _, _, _, set_cartesian_impedance_eq ..⟩
  · exact ⟨_, _, _, _, set_guiding_mode_eq ..⟩
  · exact ⟨_, _, _, _, set_K_eq ..⟩
  · exact ⟨_, _, _, _, set_EE_eq ..⟩
  · exact ⟨_, _, _, _, set_load_eq ..⟩
  · exact ⟨_, _, _, _, set_filters_eq ..⟩
  · exact ⟨_, _, _, _, automatic_error_recovery_eq⟩
  · exact ⟨_, _, _, _, stop_eq⟩
  · exact ⟨_, _, _, _, by simp only [RobotCall.run, get_virtual_wall_eq, rpc_then_unit]; rfl⟩

omit [Geo F] in
theorem gripper_request_form (c : GripperCall F) (h : c.IsRequest) :
    ∃ (α : Type) (b : Gripper.Body F) (k : Codec α) (f : α → Outcome F Unit), c.run = rpcGripper b k f := by
  cases c <;> try exact h.elim
  · exact ⟨_, _, _, _, by simp only [GripperCall.run, move_gripper_eq, rpcGripper_then_unit]; rfl⟩
  · exact ⟨_, _, _, _, by simp only [GripperCall.run, homing_eq, rpcGripper_then_unit]; rfl⟩
  · exact ⟨_, _, _, _, by simp only [GripperCall.run, gripper_stop_eq, rpcGripper_then_unit]; rfl⟩
  · exact ⟨_, _, _, _, by simp only [GripperCall.run, grasp_eq, rpcGripper_then_unit]; rfl⟩

end
end Verif
