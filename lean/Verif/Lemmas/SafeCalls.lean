import Verif.Lemmas.Safe
import Verif.Lemmas.Version
/-!
# When calls without a control loop do not panic
-/
set_option linter.unusedSectionVars false
namespace Verif
open Prog Spec
variable {F : Type} [Fl F] [Wire F]

/-- What happened in `w0` happened in `w`. -/
def Since (w0 w : World F) : Prop := Grows w0 w

theorem Since.closed (w0 : World F) : Closed (Since w0) := fun _ _ h h' => Pre.trans (T := Grows) h' h.2

instance (w0 : World F) : KeepRobot (Since w0) (fun _ => True) := (Since.closed w0).robot
/-- As `KeepRobot`. -/
theorem since_gripper (w0 : World F) : KeepGripper (Since w0) (fun _ => True) := (Since.closed w0).gripper

theorem keepSince (w0 : World F) : KeepRobot (Since w0) (fun _ => True) := inferInstance
theorem keepReq (c : Bool) : KeepRobot (F := F) (ReqOk c) (ReqWeak c) := inferInstance

/-- During a call that began in `w0`, in an orderly connection. -/
structure Inside (nt : NetworkType) (c : Bool) (w0 w : World F) : Prop where
  sane : Sane nt w
  req : ReqOk c w
  since : Since w0 w

variable {nt : NetworkType} {c : Bool} {w0 : World F} {α : Type}

theorem newEvents_of_append {w w' : World F} {es : List (Ev F)} (h : w'.trace = w.trace ++ es) : newEvents w w' = visible es := by
  unfold newEvents
  rw [h, List.drop_left]

theorem Grows.newEvents_prefix {w w1 w2 : World F} (h : Grows w w1) (h' : Grows w1 w2) : newEvents w w1 <+: newEvents w w2 := by
  obtain ⟨a, h⟩ := h
  obtain ⟨b, h'⟩ := h'
  rw [newEvents_of_append h, newEvents_of_append (es := a ++ b) (by rw [h', h, List.append_assoc]), visible_append]
  exact List.prefix_append _ _

/-- What holds for the connection holds for the call. -/
theorem Prog.Calm.inside {C : World F → Prop} {p : Prog F α} (h : Calm (Sane nt) (fun _ => False) p)
    (hr : Keeps (ReqOk c) (ReqWeak c) p) (hs : Keeps (Since w0) (fun _ => True) p) : Calm (Inside nt c w0) C p := by
  intro w hw
  refine ((h w hw.sane).and ((hr w hw.req).and (hs w hw.since))).mono ?_
  rintro r w' ⟨h1, h2, h3⟩
  cases r with
  | ok _ => exact ⟨h1, h2, h3⟩
  | err _ => exact ⟨h1, h2, h3⟩
  | panic _ => exact h1.elim
  | blocked => trivial

/-- All numbers of requests are used. -/
def UsedUp (w : World F) : Prop := w.cfg.overflow_checks = true ∧ (requestIds w.trace).length = 4294967295

theorem usedUp_of {w : World F} (hr : ReqOk c w) (h1 : w.cfg.overflow_checks = true) (h2 : w.net.command_id = 0xffffffff) : UsedUp w := by
  refine ⟨h1, ?_⟩
  have hl := hr.checked (by rw [← hr.conf, h1])
  rw [hr.next] at h2
  have := congrArg UInt32.toNat h2
  rw [UInt32.toNat_ofNat_of_lt' (by exact hl)] at this
  exact this

theorem sendRequest_calm (b : RobotBody F) (w : World F) (hw : Inside nt c w0 w) :
    Post (sendRequest b) w fun r w' => match r with
      | .ok id => Inside nt c w0 w' ∧ ∃ h : RobotCommandHeader, h.command_id = id ∧ .robotReq ⟨h, b⟩ ∈ newEvents w0 w'
      | .err _ => False
      | .panic _ => UsedUp w' ∧ w'.trace = w.trace
      | .blocked => True := by
  have h1 : Keeps (Sane nt) (fun _ => True) (sendRequest b) := Keeps.of_rel SaneStep.keep (pres_sendRequest b)
  have h3 : Keeps (Since w0) (fun _ => True) (sendRequest b) := Keeps.of_rel (Since.closed w0) (pres_sendRequest b)
  have h4 : Post (sendRequest b) w fun r w' => ∀ m, r = .panic m → UsedUp w' ∧ w'.trace = w.trace := by
    unfold sendRequest create_header_for_robot next_command_id tcp_send_request
    simp only [post_bind, post_gets, after_ok, post_ite, post_panic, after_panic, post_modify, post_pure]
    refine ⟨fun h => ?_, fun _ => ?_⟩
    · simp only [Bool.and_eq_true, decide_eq_true_eq] at h
      intro m _
      exact ⟨usedUp_of hw.req h.1 h.2, trivial⟩
    · rw [post_sys]
      refine ⟨fun _ m h => by simp at h, fun t ts hs => ?_⟩
      simp only [after_ok, post_ite, post_panic, post_bind, post_emit, post_pure]
      refine ⟨fun h => ?_, fun _ m h => by simp at h⟩
      have := hw.sane.line.works t (by rw [show w.script = t :: ts from hs]; simp)
      simp [this] at h
  refine ((sendRequest_spec b w).and ((h1 w hw.sane).and ((keeps_sendRequest_ReqOk c b w hw.req).and ((h3 w hw.since).and h4)))).mono ?_
  rintro r w' ⟨g0, g1, g2, g3, g4⟩
  cases r with
  | ok id =>
    refine ⟨⟨g1, g2, g3⟩, ?_⟩
    obtain ⟨rfl, t, ts, hs, -, -, rfl⟩ := g0
    refine ⟨⟨kind b, w.net.command_id, UInt32.ofNat (kind b).size_of_request⟩, rfl, ?_⟩
    obtain ⟨es, he⟩ := hw.since
    rw [newEvents_of_append (es := es ++ [.robotReq ⟨⟨kind b, w.net.command_id, UInt32.ofNat (kind b).size_of_request⟩, b⟩])
      (by show w.trace ++ _ = _; rw [he, List.append_assoc]), visible_append]
    exact List.mem_append_right _ (List.mem_singleton.2 rfl)
  | err e => exact g0
  | panic m => exact g4 m rfl
  | blocked => trivial

theorem wait_calm (id : UInt32) (w : World F) (hw : Inside nt c w0 w) :
    Post (wait_for_response_to_arrive id : Prog F Bytes) w fun r w' => match r with
      | .ok m => Inside nt c w0 w' ∧ (id, m) ∈ responses w'.trace ∧ IsFrame nt id m ∧ newEvents w0 w <+: newEvents w0 w'
      | .err _ => False
      | .panic _ => False
      | .blocked => True := by
  have hk : Keeps (Inside nt c w0) (fun _ => True) (wait_for_response_to_arrive id : Prog F Bytes) := by
    intro w hw
    have h1 : Keeps (ReqOk c) (ReqWeak c) (wait_for_response_to_arrive id : Prog F Bytes) := keeps_wait_for_response_to_arrive id
    have h2 : Keeps (Since w0) (fun _ => True) (wait_for_response_to_arrive id : Prog F Bytes) := keeps_wait_for_response_to_arrive id
    refine (Calm.inside (C := fun _ => True) (calm_wait id) h1 h2 w hw).mono ?_
    intro r w' h
    cases r <;> first | exact h
  refine ((wait_spec id w).and ((hk w hw).and (calm_wait id w hw.sane))).mono ?_
  rintro r w' ⟨h1, h2, h3⟩
  cases r with
  | ok m =>
    obtain ⟨w1, ⟨s1, s2, s3, s4, s5, es, s6, s7, s8⟩, htab, hw'⟩ := h1
    have h2 : Inside nt c w0 w' := h2
    have ht : w'.trace = w1.trace := by rw [hw']
    have hmem : (id, m) ∈ responses w'.trace := by
      rw [s8 id] at htab
      rw [ht, s6, responses_append, List.mem_append]
      rcases latestAnswer_mem _ _ _ _ htab with h | h
      · exact .inl (hw.sane.tcp.table _ _ h)
      · exact .inr h
    refine ⟨h2, hmem, h2.sane.tcp.frames.2 _ hmem, ?_⟩
    exact hw.since.newEvents_prefix ⟨es, by rw [ht, s6]⟩
  | err e => exact h1.elim
  | panic msg => exact h3
  | blocked => trivial

/-- An orderly call of a robot ends with a panic only for the reasons of `RequestFault`. -/
abbrev CalmCall (c : Bool) (w0 : World F) (p : Prog F α) : Prop := Calm (Inside .Robot c w0) (RequestFault w0) p

theorem UsedUp.fault {w : World F} (h : UsedUp w) : RequestFault w0 w := .numbers h.1 h.2

theorem calm_ask (b : RobotBody F) (k : Codec α) (hb : ∀ m, k.dec m = none → ¬ Answers b m) : CalmCall c w0 (ask b k) := by
  intro w hw
  unfold ask
  refine (sendRequest_calm b w hw).bind ?_
  intro r w1 h1
  cases r with
  | ok id =>
    obtain ⟨hi, h, rfl, hmem⟩ := h1
    rw [after_ok]
    unfold tcp_blocking_receive_response
    refine (wait_calm _ w1 hi).bind ?_
    intro r w2 h2
    cases r with
    | ok m =>
      rw [after_ok]
      unfold deserialize
      cases hd : k.dec m with
      | none => exact .answer _ m (h2.2.2.2.subset hmem) h2.2.1 (hb m hd)
      | some p => exact h2.1
    | err e => exact h2.elim
    | panic m => exact h2.elim
    | blocked => trivial
  | err e => exact h1.elim
  | panic m => exact h1.1.fault
  | blocked => trivial

theorem calm_ofExcept {I C : World F → Prop} (o : Except (FrankaException F) α) : Calm I C (ofExcept o : Prog F α) := by
  cases o with
  | ok a => exact Calm.pure a
  | error e => exact Calm.err e

theorem calm_rpc {β : Type} (b : RobotBody F) (k : Codec α) (f : α → Outcome F β) (hb : ∀ m, k.dec m = none → ¬ Answers b m) :
    CalmCall c w0 (rpc b k f) := by
  unfold rpc
  exact Calm.bind (calm_ask b k hb) fun a => calm_ofExcept _

theorem lawful_none {k : Codec α} {n : Nat} (hk : Codec.Lawful k n) {m : Bytes} (h : k.dec m = none) : ¬ ∃ a, m = k.enc a := by
  rintro ⟨a, rfl⟩
  have := hk.rt a []
  rw [List.append_nil, h] at this
  cases this

section
variable [LawfulWire F] [Geo F]

theorem setter_as_rpc (call : RobotCall F) (b : RobotBody F) (hb : setterRequest call = some b) :
    call.run = rpc b SetterResponse.codec fun r => setterOutcome r.status := by
  cases call <;> simp only [setterRequest, Option.some.injEq, reduceCtorEq] at hb <;> subst hb
  · exact set_collision_behavior_eq ..
  · exact set_joint_impedance_eq ..
  · exact set_cartesian_impedance_eq ..
  · exact set_guiding_mode_eq ..
  · exact set_K_eq ..
  · exact set_EE_eq ..
  · exact set_load_eq ..
  · exact set_filters_eq ..

theorem calm_setter (call : RobotCall F) (b : RobotBody F) (hb : setterRequest call = some b) : CalmCall c w0 call.run := by
  rw [setter_as_rpc call b hb]
  refine calm_rpc _ _ _ fun m h => ?_
  cases call <;> simp only [setterRequest, Option.some.injEq, reduceCtorEq] at hb <;> subst hb <;>
    exact lawful_none SetterResponse.codec_lawful h

theorem calm_default : CalmCall c w0 (Robot.set_default_behavior : Prog F Unit) := by
  unfold Robot.set_default_behavior
  have h1 := fun a b c' d e f g h => calm_setter (c := c) (w0 := w0) (RobotCall.set_collision_behavior (F := F) a b c' d e f g h) _ rfl
  have h2 := fun k => calm_setter (c := c) (w0 := w0) (RobotCall.set_joint_impedance (F := F) k) _ rfl
  have h3 := fun k => calm_setter (c := c) (w0 := w0) (RobotCall.set_cartesian_impedance (F := F) k) _ rfl
  exact Calm.bind (h1 _ _ _ _ _ _ _ _) fun _ => Calm.bind (h2 _) fun _ => h3 _

theorem calm_inside_receive : CalmCall c w0 (receive_robot_state : Prog F (RobotStateIntern F)) :=
  Calm.inside calm_receive_robot_state (keepReq c).receive (keepSince w0).receive

theorem calm_inside_discard : CalmCall c w0 (discard_available : Prog F Unit) :=
  Calm.inside calm_discard_available (keepReq c).discard (keepSince w0).discard

/-- A state can be taken without sending a command. -/
theorem calm_update_none : CalmCall c w0 (update (F := F) none none) := by
  unfold update send_robot_command
  simp only [Option.isSome_none, Bool.or_self, Bool.false_eq_true, if_false]
  intro w hw
  simp only [post_bind, post_gets, after_ok, post_pure]
  refine (calm_inside_receive (c := c) (w0 := w0) w hw).mono ?_
  intro r w' h
  cases r <;> exact h

theorem Inside.event {w : World F} {e : Ev F} (he : recvBytes [e] = []) (he' : responses [e] = []) (hq : requestIds [e] = [])
    (hq1 : requests [e] = []) (hq2 : gripperRequests [e] = []) (hw : Inside nt c w0 w) :
    Inside nt c w0 { w with trace := w.trace ++ [e] } := by
  refine ⟨⟨?_, hw.sane.line.congr rfl rfl rfl rfl⟩, ?_, ?_⟩
  · exact TcpSame.keep w _ ⟨rfl, by simp [he], by simp [he'], rfl, rfl, rfl, rfl, rfl⟩ hw.sane.tcp
  · exact ReqSame.keep w _ (ReqSame.event w _ e rfl rfl rfl hq hq1 hq2) hw.req
  · exact Since.closed w0 w _ (.one rfl rfl) hw.since

theorem calm_read {σ : Type} (cb : σ → RobotState F → σ × Bool) (s : σ) : CalmCall c w0 (Robot.read cb s : Prog F Unit) := by
  unfold Robot.read
  have h : ∀ s b, CalmCall c w0 (emit (.readCb s b) : Prog F Unit) := fun s b w hw => by
    unfold emit
    rw [post_modify]
    exact hw.event rfl rfl rfl rfl rfl
  calm [calm_update_none, h _ _]

theorem calm_read_once : CalmCall c w0 (Robot.read_once : Prog F (RobotState F)) := by
  unfold Robot.read_once RobotImpl.read_once
  calm [calm_inside_discard, calm_inside_receive]

/-! ## The model library -/

theorem library_size (m rest : Bytes) (a : LoadModelLibraryResponse) (h : LoadModelLibraryResponse.codec.dec m = some (a, rest)) :
    natAt m 8 4 = a.header.size.toNat := by
  have h0 := LoadModelLibraryResponse.codec_lawful.sound _ _ _ h
  have ha : At m 0 (LoadModelLibraryResponse.codec.enc a) := ⟨[], rest, h0, rfl⟩
  obtain ⟨hh, hr⟩ := At.seq ha (m := 12) (RobotCommandHeader.codec_lawful.len _)
  have hh : At m 0 ((Codec.seq RobotCommandEnum.codec <| Codec.seq Codec.u32 <| Codec.u32).enc
    (a.header.command, a.header.command_id, a.header.size)) := hh
  obtain ⟨h1, h2⟩ := At.seq hh (m := 4) (RobotCommandEnum.codec_lawful.len _)
  obtain ⟨h3, h4⟩ := At.seq h2 (m := 4) (Codec.u32_lawful.len _)
  exact At.nat4 h4

theorem sys_calm (w : World F) (hw : Inside nt c w0 w) : Post (sys : Prog F Tick) w fun r w' => match r with
    | .ok t => t.fail = false ∧ Inside nt c w0 w'
    | .blocked => True
    | _ => False := by
  rw [post_sys]
  refine ⟨fun _ => trivial, fun t ts hs => ⟨hw.sane.line.works t (by rw [hs]; simp), ?_⟩⟩
  refine ⟨SaneStep.keep w _ (TSys.tick w t ts hs) hw.sane, ?_, ?_⟩
  · exact ReqSame.keep w _ (TSys.tick w t ts hs) hw.req
  · exact Since.closed w0 w _ (TSys.tick w t ts hs) hw.since

theorem Inside.file {w : World F} (f) (hw : Inside nt c w0 w) : Inside nt c w0 { w with model_file := f } := by
  refine ⟨⟨?_, hw.sane.line.congr rfl rfl rfl rfl⟩, ?_, ?_⟩
  · exact TcpSame.keep w _ ⟨rfl, rfl, rfl, rfl, rfl, rfl, rfl, rfl⟩ hw.sane.tcp
  · exact ReqSame.keep w _ (ReqSame.same w _ rfl rfl rfl) hw.req
  · exact Since.closed w0 w _ (.none rfl rfl) hw.since

theorem calm_file (f) : CalmCall c w0 (modify fun w : World F => { w with model_file := f }) := fun w hw => by
  rw [post_modify]; exact hw.file f

theorem calm_inside_sys : CalmCall c w0 (sys : Prog F Tick) := fun w hw => (sys_calm w hw).mono fun r w' h => by
  cases r with
  | ok t => exact h.2
  | err e => exact h.elim
  | panic m => exact h.elim
  | blocked => trivial

theorem calm_download : CalmCall c w0 (download : Prog F Unit) := by
  unfold download
  refine Calm.bind (Calm.gets _) fun sup => Calm.ite ?_ (Calm.err _)
  have hask : CalmCall c w0 (sendRequest (.LoadModelLibrary { architecture := .X64, system := .Linux }) >>= fun id =>
      tcp_blocking_receive_load_library_response id : Prog F Bytes) := by
    intro w hw
    refine (sendRequest_calm _ w hw).bind ?_
    intro r w1 h1
    cases r with
    | ok id =>
      obtain ⟨hi, h, rfl, hmem⟩ := h1
      rw [after_ok]
      unfold tcp_blocking_receive_load_library_response
      refine (wait_calm _ w1 hi).bind ?_
      intro r w2 h2
      cases r with
      | ok m =>
        obtain ⟨h2, hresp, hfr, hpre⟩ := h2
        rw [after_ok, post_ite, post_panic]
        have fault : ¬ Answers (F := F) (.LoadModelLibrary { architecture := .X64, system := .Linux }) m → RequestFault w0 w2 :=
          fun hn => .answer _ m (hpre.subset hmem) hresp hn
        refine ⟨fun hl => fault ?_, fun hl => ?_⟩
        · rintro ⟨a, lib, rfl, -⟩
          rw [List.length_append, LoadModelLibraryResponse.codec_lawful.len] at hl
          unfold size_of_LoadModelLibraryResponse at hl
          omega
        · rw [post_bind]
          unfold deserialize
          have hrt : ∀ a lib, m = LoadModelLibraryResponse.codec.enc a ++ lib →
              m.take size_of_LoadModelLibraryResponse = LoadModelLibraryResponse.codec.enc a := by
            rintro a lib rfl
            exact List.take_left' (LoadModelLibraryResponse.codec_lawful.len a)
          cases hd : LoadModelLibraryResponse.codec.dec (m.take size_of_LoadModelLibraryResponse) with
          | none =>
            refine fault ?_
            rintro ⟨a, lib, hm, -⟩
            exact lawful_none LoadModelLibraryResponse.codec_lawful hd ⟨a, hrt a lib hm⟩
          | some p =>
            rw [post_pure, after_ok]
            cases hs : p.1.status with
            | Error => exact h2
            | Success =>
              simp only [post_ite, post_panic, post_pure]
              refine ⟨fun hsz => fault ?_, fun _ => h2⟩
              rintro ⟨a, lib, hm, hlib⟩
              have hrt' := LoadModelLibraryResponse.codec_lawful.rt a []
              rw [List.append_nil, ← hrt a lib hm, hd] at hrt'
              have ha : p.1 = a := by
                have := Option.some.inj hrt'
                rw [this]
              rw [ha] at hs hsz
              have hsize : natAt m 8 4 = a.header.size.toNat := by
                refine library_size m lib a ?_
                rw [hm]
                exact LoadModelLibraryResponse.codec_lawful.rt a lib
              have := hfr.size
              rw [show sizeAt .Robot m = natAt m 8 4 from rfl, hsize, hsz, hm, List.length_append, LoadModelLibraryResponse.codec_lawful.len] at this
              unfold size_of_LoadModelLibraryResponse at this
              exact hlib hs (List.eq_nil_of_length_eq_zero (by omega))
      | err e => exact h2.elim
      | panic m => exact h2.elim
      | blocked => trivial
    | err e => exact h1.elim
    | panic m => exact h1.1.fault
    | blocked => trivial
  have : CalmCall c w0 ((sendRequest (.LoadModelLibrary { architecture := .X64, system := .Linux }) >>= fun id =>
      tcp_blocking_receive_load_library_response id) >>= fun buffer => (do
        let t ← sys
        if t.fail then err (.ModelException "Error writing model to disk:")
        else do
          modify fun w => { w with model_file := some [] }
          let t ← sys
          if t.fail then err (.ModelException "Error writing model to disk:")
          else modify fun w => { w with model_file := some (buffer.take t.accept) }) : Prog F Unit) := by
    calm [hask, calm_inside_sys, calm_file _]
  unfold sendRequest at this
  simp only [Prog.bind_assoc'] at this
  exact this

theorem calm_load_model (p : Bool) : CalmCall c w0 (Robot.load_model p : Prog F Bytes) := by
  unfold Robot.load_model
  have hm : CalmCall c w0 (model_new : Prog F Bytes) := by
    unfold model_new; calm
  have hd : ∀ m : Bytes, CalmCall c w0 (do
      let t ← sys
      if t.fail then Prog.panic "Could not delete file"
      else do
        modify fun w => { w with model_file := none }
        pure m : Prog F Bytes) := ?_
  · refine Calm.bind (Calm.gets _) fun f => ?_
    calm [calm_download, hm, hd _]
  intro m w hw
  refine (sys_calm w hw).bind ?_
  intro r w1 h
  cases r with
  | ok t =>
    rw [after_ok, post_ite]
    refine ⟨fun hf => ?_, fun _ => ?_⟩
    · rw [h.1] at hf; cases hf
    · simp only [post_bind, post_modify, after_ok, post_pure]
      exact h.2.file _
  | err e => exact h.elim
  | panic m => exact h.elim
  | blocked => trivial

/-- Calls without a control loop, but for `server_version`. -/
theorem calm_call (call : RobotCall F) (hc : ∀ (σ : Type) (k : MotionKind) (cc : ControlCall F σ k) c0, ¬ IsControl call cc c0)
    (hv : call ≠ .server_version) :
    CalmCall c w0 call.run := by
  have hu : ∀ {β : Type} {p : Prog F β}, CalmCall c w0 p → CalmCall c w0 (do let _ ← p; pure ()) :=
    fun h => Calm.bind h fun _ => Calm.pure _
  cases call with
  | read σ cb s => exact calm_read cb s
  | read_once => exact hu calm_read_once
  | automatic_error_recovery =>
    show CalmCall c w0 Robot.automatic_error_recovery
    rw [automatic_error_recovery_eq]
    exact calm_rpc _ _ _ fun m h => lawful_none AutomaticErrorRecoveryResponse.codec_lawful h
  | stop =>
    show CalmCall c w0 Robot.stop
    rw [stop_eq]
    exact calm_rpc _ _ _ fun m h => lawful_none StopMoveResponse.codec_lawful h
  | get_virtual_wall id =>
    refine hu ?_
    rw [get_virtual_wall_eq]
    exact calm_rpc _ _ _ fun m h => lawful_none GetCartesianLimitResponse.codec_lawful h
  | control_motion σ k cb mode l f c' => exact (hc _ _ _ _ (.motion ..)).elim
  | control_torques_and_motion σ k tcb cb l f c' => exact (hc _ _ _ _ (.torquesAndMotion ..)).elim
  | control_torques σ tcb l f c' => exact (hc _ _ _ _ (.torques ..)).elim
  | joint_motion s q => exact (hc _ _ _ _ (.jointMotion ..)).elim
  | set_default_behavior => exact calm_default
  | load_model p => exact hu (calm_load_model p)
  | server_version => exact absurd rfl hv
  | _ => exact calm_setter _ _ rfl

end

/-! ## The gripper -/

theorem sendGripperRequest_calm (b : Gripper.Body F) (w : World F) (hw : Inside nt c w0 w) :
    Post (sendGripperRequest b) w fun r w' => match r with
      | .ok id => Inside nt c w0 w' ∧ ∃ h : Gripper.CommandHeader, h.command_id = id ∧ .gripperReq ⟨h, b⟩ ∈ newEvents w0 w'
      | .err _ => False
      | .panic _ => UsedUp w' ∧ w'.trace = w.trace
      | .blocked => True := by
  have h1 : Keeps (Sane nt) (fun _ => True) (sendGripperRequest b) := Keeps.of_rel SaneStep.keep (pres_sendGripperRequest b)
  have h2 : Keeps (ReqOk c) (ReqWeak c) (sendGripperRequest b) := (inferInstance : KeepGripper (F := F) (ReqOk c) (ReqWeak c)).grequest b
  have h3 : Keeps (Since w0) (fun _ => True) (sendGripperRequest b) := Keeps.of_rel (Since.closed w0) (pres_sendGripperRequest b)
  have h4 : Post (sendGripperRequest b) w fun r w' => ∀ m, r = .panic m → UsedUp w' ∧ w'.trace = w.trace := by
    unfold sendGripperRequest create_header_for_gripper next_command_id tcp_send_request_gripper
    simp only [post_bind, post_gets, after_ok, post_ite, post_panic, after_panic, post_modify, post_pure]
    refine ⟨fun h => ?_, fun _ => ?_⟩
    · simp only [Bool.and_eq_true, decide_eq_true_eq] at h
      intro m _
      exact ⟨usedUp_of hw.req h.1 h.2, trivial⟩
    · rw [post_sys]
      refine ⟨fun _ m h => by simp at h, fun t ts hs => ?_⟩
      simp only [after_ok, post_ite, post_panic, post_bind, post_emit, post_pure]
      refine ⟨fun h => ?_, fun _ m h => by simp at h⟩
      have := hw.sane.line.works t (by rw [show w.script = t :: ts from hs]; simp)
      simp [this] at h
  refine ((sendGripperRequest_spec b w).and ((h1 w hw.sane).and ((h2 w hw.req).and ((h3 w hw.since).and h4)))).mono ?_
  rintro r w' ⟨g0, g1, g2, g3, g4⟩
  cases r with
  | ok id =>
    refine ⟨⟨g1, g2, g3⟩, ?_⟩
    obtain ⟨rfl, t, ts, hs, -, -, rfl⟩ := g0
    refine ⟨⟨gripperKind b, w.net.command_id, UInt32.ofNat (gripperKind b).size_of_request⟩, rfl, ?_⟩
    obtain ⟨es, he⟩ := hw.since
    rw [newEvents_of_append (es := es ++ [.gripperReq ⟨⟨gripperKind b, w.net.command_id, UInt32.ofNat (gripperKind b).size_of_request⟩, b⟩])
      (by show w.trace ++ _ = _; rw [he, List.append_assoc]), visible_append]
    exact List.mem_append_right _ (List.mem_singleton.2 rfl)
  | err e => exact g0
  | panic m => exact g4 m rfl
  | blocked => trivial

theorem calm_askGripper (b : Gripper.Body F) (k : Codec α) (hb : ∀ m, k.dec m = none → ¬ GripperAnswers b m) :
    Calm (Inside .Gripper c w0) (GripperFault w0) (askGripper b k) := by
  intro w hw
  unfold askGripper
  refine (sendGripperRequest_calm b w hw).bind ?_
  intro r w1 h1
  cases r with
  | ok id =>
    obtain ⟨hi, h, rfl, hmem⟩ := h1
    rw [after_ok]
    unfold tcp_blocking_receive_response
    refine (wait_calm _ w1 hi).bind ?_
    intro r w2 h2
    cases r with
    | ok m =>
      rw [after_ok]
      unfold deserialize
      cases hd : k.dec m with
      | none => exact .answer _ m (h2.2.2.2.subset hmem) h2.2.1 (hb m hd)
      | some p => exact h2.1
    | err e => exact h2.elim
    | panic m => exact h2.elim
    | blocked => trivial
  | err e => exact h1.elim
  | panic m => exact .numbers h1.1.1 h1.1.2
  | blocked => trivial

theorem calm_rpcGripper {β : Type} (b : Gripper.Body F) (k : Codec α) (f : α → Outcome F β)
    (hb : ∀ m, k.dec m = none → ¬ GripperAnswers b m) : Calm (Inside .Gripper c w0) (GripperFault w0) (rpcGripper b k f) := by
  unfold rpcGripper
  exact Calm.bind (calm_askGripper b k hb) fun a => calm_ofExcept _

/-- All calls of a gripper but `server_version`. -/
theorem calm_gripper_call [LawfulWire F] (call : GripperCall F) (hv : call ≠ .server_version) :
    Calm (Inside .Gripper c w0) (GripperFault w0) call.run := by
  have hu : ∀ {β : Type} {p : Prog F β}, Calm (Inside .Gripper c w0) (GripperFault w0) p →
      Calm (Inside .Gripper c w0) (GripperFault w0) (do let _ ← p; pure ()) := fun h => Calm.bind h fun _ => Calm.pure _
  have hl := fun m (h : Gripper.MoveResponse.codec.dec m = none) => lawful_none Gripper.MoveResponse.codec_lawful h
  cases call with
  | move_gripper w s => exact hu (by rw [move_gripper_eq]; exact calm_rpcGripper _ _ _ hl)
  | homing => exact hu (by rw [homing_eq]; exact calm_rpcGripper _ _ _ hl)
  | stop => exact hu (by rw [gripper_stop_eq]; exact calm_rpcGripper _ _ _ hl)
  | grasp w s f i o => exact hu (by rw [grasp_eq]; exact calm_rpcGripper _ _ _ hl)
  | read_once =>
    have h1 : Keeps (ReqOk c) (ReqWeak c) (GripperCall.read_once : GripperCall F).run := keeps_gripper_call .read_once
    have := since_gripper w0
    have h2 : Keeps (Since w0) (fun _ => True) (GripperCall.read_once : GripperCall F).run := keeps_gripper_call .read_once
    have h3 : Calm (Sane .Gripper) (fun _ => False) (GripperCall.read_once : GripperCall F).run :=
      Calm.bind calm_gripper_read_once fun _ => Calm.pure _
    exact Calm.inside h3 h1 h2
  | server_version => exact absurd rfl hv

end Verif
