import Verif.Lemmas.Wait
import Verif.Spec.Api
/-!
# Request and answer

Every setter is `ask` followed by a look at the status.
-/
set_option linter.unusedSectionVars false
namespace Verif
open Prog Spec
variable {F : Type}

theorem Prog.bind_assoc' {α β γ : Type} (p : Prog F α) (f : α → Prog F β) (g : β → Prog F γ) :
    (p >>= f) >>= g = p >>= fun a => f a >>= g := by
  funext w
  simp only [bind, Prog.bind]
  rcases p w with ⟨r, w'⟩
  cases r <;> rfl

theorem latestAnswer_mem (i : UInt32) (o : Option Bytes) (es : List (Ev F)) (m : Bytes) (h : latestAnswer i o es = some m) :
    o = some m ∨ (i, m) ∈ responses es := by
  induction es generalizing o with
  | nil => exact .inl h
  | cons e es ih =>
    have h' : latestAnswer i (latestAnswer i o [e]) es = some m := by
      rw [← latestAnswer_append]; exact h
    have hr : responses (e :: es) = responses [e] ++ responses es := responses_append [e] es
    rw [hr, List.mem_append]
    rcases ih _ h' with h1 | h1
    · cases e <;> try exact .inl h1
      rename_i j bs
      simp only [latestAnswer, List.foldl_cons, List.foldl_nil] at h1
      split at h1
      · rename_i hj
        cases h1
        exact .inr (.inl (by simp [responses, hj]))
      · exact .inl h1
    · exact .inr (.inr h1)

theorem visible_tcp (es : List (Ev F)) (h : ∀ e ∈ es, isTcpEv e = true) : visible es = [] := by
  simp only [visible, List.filter_eq_nil_iff]
  intro e he
  simp [h e he]

/-- Send a request and wait for its answer. -/
def ask {α : Type} (b : RobotBody F) (c : Codec α) : Prog F α := do
  let id ← sendRequest b
  tcp_blocking_receive_response c id

/-- Send a gripper request and wait for its answer. -/
def askGripper {α : Type} (b : Gripper.Body F) (c : Codec α) : Prog F α := do
  let id ← sendGripperRequest b
  tcp_blocking_receive_response c id

/-- Request, answer, verdict. -/
def rpc {α β : Type} (b : RobotBody F) (c : Codec α) (f : α → Outcome F β) : Prog F β := do
  let a ← ask b c
  ofExcept (f a)

/-- Request, answer, verdict for the gripper. -/
def rpcGripper {α β : Type} (b : Gripper.Body F) (c : Codec α) (f : α → Outcome F β) : Prog F β := do
  let a ← askGripper b c
  ofExcept (f a)

/-- The part after the request is sent. -/
theorem receive_answer_spec {α : Type} (nt : NetworkType) (c : Codec α) (id : UInt32) (w : World F) (hw : TcpOk nt w) :
    Post (tcp_blocking_receive_response c id : Prog F α) w fun r w' =>
      w'.rob = w.rob ∧ w'.cfg = w.cfg ∧ w'.model_file = w.model_file ∧ visible w'.trace = visible w.trace ∧
      w'.net.command_id = w.net.command_id ∧ w'.net.udp_server_address = w.net.udp_server_address ∧
      match r with
      | .ok a => TcpOk nt w' ∧ ∃ m rest, (id, m) ∈ responses w'.trace ∧ IsFrame nt id m ∧ c.dec m = some (a, rest)
      | .err _ => False
      | _ => TcpWeak nt w' := by
  unfold tcp_blocking_receive_response
  rw [post_bind]
  have hk : Keeps (TcpOk nt) (TcpWeak nt) (wait_for_response_to_arrive id : Prog F Bytes) :=
    keeps_wait_for_response_to_arrive id
  refine ((wait_spec id w).and (hk w hw)).mono ?_
  rintro r w' ⟨h1, h2⟩
  cases r with
  | ok m =>
    obtain ⟨w1, ⟨s1, s2, s3, s4, s5, es, s6, s7, s8⟩, htab, rfl⟩ := h1
    have hmem : (id, m) ∈ responses w1.trace := by
      rw [s8 id] at htab
      rw [s6, responses_append, List.mem_append]
      rcases latestAnswer_mem _ _ _ _ htab with h | h
      · exact .inl (hw.table _ _ h)
      · exact .inr h
    have hv : visible w1.trace = visible w.trace := by rw [s6, visible_append, visible_tcp es s7, List.append_nil]
    have h2 : TcpOk nt _ := h2
    have hfr : IsFrame nt id m := h2.frames.2 _ hmem
    simp only [after_ok, deserialize]
    cases hd : c.dec m with
    | none =>
      exact ⟨s1, s2, s5, hv, s3, s4, h2.weak _⟩
    | some p =>
      exact ⟨s1, s2, s5, hv, s3, s4, h2, m, p.2, hmem, hfr, hd⟩
  | err e => exact h1.elim
  | panic msg =>
    obtain ⟨s1, s2, s3, s4, s5, es, s6, s7, s8⟩ := h1
    exact ⟨s1, s2, s5, by rw [s6, visible_append, visible_tcp es s7, List.append_nil], s3, s4, h2⟩
  | blocked =>
    obtain ⟨s1, s2, s3, s4, s5, es, s6, s7, s8⟩ := h1
    exact ⟨s1, s2, s5, by rw [s6, visible_append, visible_tcp es s7, List.append_nil], s3, s4, h2⟩

theorem ask_spec [Fl F] [Wire F] {α : Type} (b : RobotBody F) (c : Codec α) (w : World F) (hw : TcpOk .Robot w) :
    Post (ask b c) w fun r w' => ∃ h : RobotCommandHeader, h.command = kind b ∧ h.command_id = w.net.command_id ∧
      match r with
      | .ok a => TcpOk .Robot w' ∧ w'.rob = w.rob ∧ w'.cfg = w.cfg ∧ w'.model_file = w.model_file ∧
          visible w'.trace = visible w.trace ++ [.robotReq ⟨h, b⟩] ∧
          ∃ m rest, (h.command_id, m) ∈ responses w'.trace ∧ IsFrame .Robot h.command_id m ∧ c.dec m = some (a, rest)
      | .err _ => False
      | _ => visible w'.trace = visible w.trace ∨ visible w'.trace = visible w.trace ++ [.robotReq ⟨h, b⟩] := by
  unfold ask
  have hk : Keeps (TcpOk .Robot) (TcpWeak .Robot) (sendRequest b) := Keeps.of_rel TcpSame.keep (pres_sendRequest b)
  refine ((sendRequest_spec b w).and (hk w hw)).bind ?_
  rintro r w1 ⟨h1, h2⟩
  have triv : ∃ h : RobotCommandHeader, h.command = kind b ∧ h.command_id = w.net.command_id :=
    ⟨⟨kind b, w.net.command_id, 0⟩, rfl, rfl⟩
  cases r with
  | ok id =>
    obtain ⟨rfl, t, ts, -, -, -, rfl⟩ := h1
    rw [after_ok]
    refine (receive_answer_spec .Robot c w.net.command_id _ h2).mono ?_
    rintro r w' ⟨s1, s2, s3, s4, -, -, s5⟩
    refine ⟨⟨kind b, w.net.command_id, UInt32.ofNat (kind b).size_of_request⟩, rfl, rfl, ?_⟩
    have hv : visible w'.trace = visible w.trace ++ [.robotReq ⟨⟨kind b, w.net.command_id, UInt32.ofNat (kind b).size_of_request⟩, b⟩] := by
      rw [s4, visible_append]; rfl
    cases r with
    | ok a =>
      obtain ⟨g1, g2⟩ := s5
      exact ⟨g1, s1, s2, s3, hv, g2⟩
    | err e => exact s5
    | panic msg => exact .inr hv
    | blocked => exact .inr hv
  | err e => exact h1.elim
  | panic msg =>
    obtain ⟨h, t1, t2⟩ := triv
    exact ⟨h, t1, t2, .inl (congrArg visible h1)⟩
  | blocked =>
    obtain ⟨h, t1, t2⟩ := triv
    exact ⟨h, t1, t2, .inl (congrArg visible h1)⟩

theorem askGripper_spec [Fl F] [Wire F] {α : Type} (b : Gripper.Body F) (c : Codec α) (w : World F) (hw : TcpOk .Gripper w) :
    Post (askGripper b c) w fun r w' => ∃ h : Gripper.CommandHeader, h.command = gripperKind b ∧ h.command_id = w.net.command_id ∧
      match r with
      | .ok a => TcpOk .Gripper w' ∧ w'.rob = w.rob ∧ w'.cfg = w.cfg ∧ w'.model_file = w.model_file ∧
          visible w'.trace = visible w.trace ++ [.gripperReq ⟨h, b⟩] ∧
          ∃ m rest, (h.command_id, m) ∈ responses w'.trace ∧ IsFrame .Gripper h.command_id m ∧ c.dec m = some (a, rest)
      | .err _ => False
      | _ => visible w'.trace = visible w.trace ∨ visible w'.trace = visible w.trace ++ [.gripperReq ⟨h, b⟩] := by
  unfold askGripper
  have hk : Keeps (TcpOk .Gripper) (TcpWeak .Gripper) (sendGripperRequest b) :=
    Keeps.of_rel TcpSame.keep (pres_sendGripperRequest b)
  refine ((sendGripperRequest_spec b w).and (hk w hw)).bind ?_
  rintro r w1 ⟨h1, h2⟩
  have triv : ∃ h : Gripper.CommandHeader, h.command = gripperKind b ∧ h.command_id = w.net.command_id :=
    ⟨⟨gripperKind b, w.net.command_id, 0⟩, rfl, rfl⟩
  cases r with
  | ok id =>
    obtain ⟨rfl, t, ts, -, -, -, rfl⟩ := h1
    rw [after_ok]
    refine (receive_answer_spec .Gripper c w.net.command_id _ h2).mono ?_
    rintro r w' ⟨s1, s2, s3, s4, -, -, s5⟩
    refine ⟨⟨gripperKind b, w.net.command_id, UInt32.ofNat (gripperKind b).size_of_request⟩, rfl, rfl, ?_⟩
    have hv : visible w'.trace = visible w.trace ++
        [.gripperReq ⟨⟨gripperKind b, w.net.command_id, UInt32.ofNat (gripperKind b).size_of_request⟩, b⟩] := by
      rw [s4, visible_append]; rfl
    cases r with
    | ok a =>
      obtain ⟨g1, g2⟩ := s5
      exact ⟨g1, s1, s2, s3, hv, g2⟩
    | err e => exact s5
    | panic msg => exact .inr hv
    | blocked => exact .inr hv
  | err e => exact h1.elim
  | panic msg =>
    obtain ⟨h, t1, t2⟩ := triv
    exact ⟨h, t1, t2, .inl (congrArg visible h1)⟩
  | blocked =>
    obtain ⟨h, t1, t2⟩ := triv
    exact ⟨h, t1, t2, .inl (congrArg visible h1)⟩

theorem rpc_spec [Fl F] [Wire F] {α β : Type} (b : RobotBody F) (c : Codec α) (f : α → Outcome F β) (verdict : Bytes → Outcome F β → Prop)
    (hv : ∀ m a rest, c.dec m = some (a, rest) → verdict m (f a)) (w : World F) (hw : TcpOk .Robot w) :
    Post (rpc b c f) w fun r w' => OneExchange b verdict w r w' := by
  unfold rpc
  refine (ask_spec b c w hw).bind ?_
  rintro r w' ⟨h, h1, h2, h3⟩
  cases r with
  | ok a =>
    obtain ⟨-, -, -, -, g1, m, rest, g2, g3, g4⟩ := h3
    have g5 := hv m a rest g4
    rw [after_ok]
    cases hfa : f a with
    | ok v => rw [hfa] at g5; exact ⟨h, h1, g1, m, g2, g3, g5⟩
    | error e => rw [hfa] at g5; exact ⟨h, h1, g1, m, g2, g3, g5⟩
  | err e => exact h3.elim
  | panic msg => exact ⟨h, h1, h3⟩
  | blocked => exact ⟨h, h1, h3⟩

theorem rpcGripper_spec [Fl F] [Wire F] {α β : Type} (b : Gripper.Body F) (c : Codec α) (f : α → Outcome F β) (verdict : Bytes → Outcome F β → Prop)
    (hv : ∀ m a rest, c.dec m = some (a, rest) → verdict m (f a)) (w : World F) (hw : TcpOk .Gripper w) :
    Post (rpcGripper b c f) w fun r w' => OneGripperExchange b verdict w r w' := by
  unfold rpcGripper
  refine (askGripper_spec b c w hw).bind ?_
  rintro r w' ⟨h, h1, h2, h3⟩
  cases r with
  | ok a =>
    obtain ⟨-, -, -, -, g1, m, rest, g2, g3, g4⟩ := h3
    have g5 := hv m a rest g4
    rw [after_ok]
    cases hfa : f a with
    | ok v => rw [hfa] at g5; exact ⟨h, h1, g1, m, g2, g3, g5⟩
    | error e => rw [hfa] at g5; exact ⟨h, h1, g1, m, g2, g3, g5⟩
  | err e => exact h3.elim
  | panic msg => exact ⟨h, h1, h3⟩
  | blocked => exact ⟨h, h1, h3⟩

/-! ## The calls of this form -/
section
variable [Fl F] [Wire F]

/-- What the setters make of the status. -/
def setterOutcome : GetterSetterStatus → Outcome F Unit
  | .Success => .ok ()
  | .CommandNotPossibleRejected =>
    .error (.CommandException "libfranka-rs: command rejected: command not possible in current mode")
  | .InvalidArgumentRejected => .error (.CommandException "libfranka-rs: command rejected: invalid argument!")

theorem handle_getter_setter_status_eq (s : GetterSetterStatus) :
    (handle_getter_setter_status s : Prog F Unit) = ofExcept (setterOutcome s) := by cases s <;> rfl

theorem set_collision_behavior_eq (a b c d : Arr F 7) (e f g h : Arr F 6) :
    Robot.set_collision_behavior a b c d e f g h =
      rpc (.SetCollisionBehavior ⟨a, b, c, d, e, f, g, h⟩) SetterResponse.codec fun r => setterOutcome r.status := by
  unfold Robot.set_collision_behavior rpc ask sendRequest
  simp only [Prog.bind_assoc', handle_getter_setter_status_eq]; rfl

theorem set_joint_impedance_eq (k : Arr F 7) :
    Robot.set_joint_impedance k = rpc (.SetJointImpedance ⟨k⟩) SetterResponse.codec fun r => setterOutcome r.status := by
  unfold Robot.set_joint_impedance rpc ask sendRequest
  simp only [Prog.bind_assoc', handle_getter_setter_status_eq]; rfl

theorem set_cartesian_impedance_eq (k : Arr F 6) :
    Robot.set_cartesian_impedance k = rpc (.SetCartesianImpedance ⟨k⟩) SetterResponse.codec fun r => setterOutcome r.status := by
  unfold Robot.set_cartesian_impedance rpc ask sendRequest
  simp only [Prog.bind_assoc', handle_getter_setter_status_eq]; rfl

theorem set_guiding_mode_eq (m : Arr Bool 6) (e : Bool) :
    (Robot.set_guiding_mode m e : Prog F Unit) =
      rpc (.SetGuidingMode ⟨m, e⟩) SetterResponse.codec fun r => setterOutcome r.status := by
  unfold Robot.set_guiding_mode rpc ask sendRequest
  simp only [Prog.bind_assoc', handle_getter_setter_status_eq]; rfl

theorem set_K_eq (t : Arr F 16) :
    Robot.set_K t = rpc (.SetEeToK ⟨t⟩) SetterResponse.codec fun r => setterOutcome r.status := by
  unfold Robot.set_K rpc ask sendRequest
  simp only [Prog.bind_assoc', handle_getter_setter_status_eq]; rfl

theorem set_EE_eq (t : Arr F 16) :
    Robot.set_EE t = rpc (.SetNeToEe ⟨t⟩) SetterResponse.codec fun r => setterOutcome r.status := by
  unfold Robot.set_EE rpc ask sendRequest
  simp only [Prog.bind_assoc', handle_getter_setter_status_eq]; rfl

theorem set_load_eq (m : F) (x : Arr F 3) (i : Arr F 9) :
    Robot.set_load m x i = rpc (.SetLoad ⟨m, x, i⟩) SetterResponse.codec fun r => setterOutcome r.status := by
  unfold Robot.set_load rpc ask sendRequest
  simp only [Prog.bind_assoc', handle_getter_setter_status_eq]; rfl

theorem set_filters_eq (a b c d e : F) :
    Robot.set_filters a b c d e = rpc (.SetFilters ⟨a, b, c, d, e⟩) SetterResponse.codec fun r => setterOutcome r.status := by
  unfold Robot.set_filters rpc ask sendRequest
  simp only [Prog.bind_assoc', handle_getter_setter_status_eq]; rfl

/-- What `automatic_error_recovery` makes of the status. -/
def recoveryOutcome : AutomaticErrorRecoveryStatus → Outcome F Unit
  | .Success => .ok ()
  | .EmergencyAborted => .error (.CommandException "libfranka-rs: command aborted: User Stop pressed!")
  | .ReflexAborted => .error (.CommandException "libfranka-rs: command aborted: motion aborted by reflex!")
  | .CommandNotPossibleRejected =>
    .error (.CommandException "libfranka-rs: command rejected: command not possible in current mode")
  | .ManualErrorRecoveryRequiredRejected =>
    .error (.CommandException "libfranka-rs: command rejected: manual error recovery required!")
  | .Aborted => .error (.CommandException "libfranka-rs: command aborted!")

theorem automatic_error_recovery_eq :
    (Robot.automatic_error_recovery : Prog F Unit) =
      rpc .AutomaticErrorRecovery AutomaticErrorRecoveryResponse.codec fun r => recoveryOutcome r.status := by
  unfold Robot.automatic_error_recovery rpc ask sendRequest
  simp only [Prog.bind_assoc', kind]
  congr 1; funext h; congr 1; funext i; congr 1; funext r
  cases r.status <;> rfl

/-- What `stop` makes of the status. -/
def stopOutcome : StopMoveStatus → Outcome F Unit
  | .Success => .ok ()
  | .CommandNotPossibleRejected | .Aborted =>
    .error (.CommandException "libfranka-rs: command rejected: command not possible in current mode")
  | .EmergencyAborted => .error (.CommandException "libfranka-rs: command aborted: User Stop pressed!")
  | .ReflexAborted => .error (.CommandException "libfranka-rs: command aborted: motion aborted by reflex!")

theorem stop_eq :
    (Robot.stop : Prog F Unit) = rpc .StopMove StopMoveResponse.codec fun r => stopOutcome r.status := by
  unfold Robot.stop rpc ask sendRequest
  simp only [Prog.bind_assoc', kind]
  congr 1; funext h; congr 1; funext i; congr 1; funext r
  cases r.status <;> rfl

/-- What `get_virtual_wall` makes of the answer. -/
def wallOutcome (id : Int32) (r : GetCartesianLimitResponse F) : Outcome F (Robot.VirtualWallCuboid F) :=
  match r.status with
  | .Success => .ok (Robot.VirtualWallCuboid.new id r)
  | .CommandNotPossibleRejected =>
    .error (.CommandException "libfranka-rs: command rejected: command not possible in current mode")
  | .InvalidArgumentRejected => .error (.CommandException "libfranka-rs: command rejected: invalid argument!")

theorem get_virtual_wall_eq (id : Int32) :
    (Robot.get_virtual_wall id : Prog F _) =
      rpc (.GetCartesianLimit ⟨id⟩) (GetCartesianLimitResponse.codec F) fun r => wallOutcome id r := by
  unfold Robot.get_virtual_wall rpc ask sendRequest
  simp only [Prog.bind_assoc', kind]
  congr 1; funext h; congr 1; funext i; congr 1; funext r
  unfold wallOutcome
  cases r.status <;> rfl

/-- What gripper commands make of the status. -/
def gripperOutcome : Gripper.Status → Outcome F Bool
  | .Success => .ok true
  | .Fail => .error (.CommandException "libfranka-rs gripper: Command failed!")
  | .Unsuccessful => .ok false
  | .Aborted => .error (.CommandException "libfranka-rs gripper: Command aborted!")

theorem handle_response_status_eq (s : Gripper.Status) :
    (Gripper.handle_response_status s : Prog F Bool) = ofExcept (gripperOutcome s) := by cases s <;> rfl

theorem move_gripper_eq (w s : F) :
    Gripper.move_gripper w s = rpcGripper (.Move ⟨w, s⟩) Gripper.MoveResponse.codec fun r => gripperOutcome r.status := by
  unfold Gripper.move_gripper rpcGripper askGripper sendGripperRequest
  simp only [Prog.bind_assoc', handle_response_status_eq]; rfl

theorem homing_eq :
    (Gripper.homing : Prog F Bool) = rpcGripper .Homing Gripper.MoveResponse.codec fun r => gripperOutcome r.status := by
  unfold Gripper.homing rpcGripper askGripper sendGripperRequest
  simp only [Prog.bind_assoc', handle_response_status_eq]; rfl

theorem gripper_stop_eq :
    (Gripper.stop : Prog F Bool) = rpcGripper .Stop Gripper.MoveResponse.codec fun r => gripperOutcome r.status := by
  unfold Gripper.stop rpcGripper askGripper sendGripperRequest
  simp only [Prog.bind_assoc', handle_response_status_eq]; rfl

theorem grasp_eq (w s f : F) (i o : Option F) :
    Gripper.grasp w s f i o = rpcGripper (.Grasp ⟨w, ⟨i.getD (Fl.lit (5 / 1000)), o.getD (Fl.lit (5 / 1000))⟩, s, f⟩)
      Gripper.MoveResponse.codec fun r => gripperOutcome r.status := by
  unfold Gripper.grasp rpcGripper askGripper sendGripperRequest
  simp only [Prog.bind_assoc', handle_response_status_eq]; rfl

end
end Verif
