import Verif.Spec.Grasping
import Verif.Props.GripperSession
/-!
# C85: what a program with a gripper sends
-/
set_option linter.unusedSectionVars false
namespace Verif
open Prog Spec Examples
namespace Grasping
variable {F : Type} [Fl F] [Wire F]

/-! ## One more call of a session -/

theorem calls_snoc (cs : List (GripperCall F)) (c : GripperCall F) (w w1 w2 : World F) (r : Res F Unit) (h : gripperCalls cs w = (.ok (), w1)) (hc : c.run w1 = (r, w2))
    (hr : r = .ok () ∨ ∃ e, r = .err e) : gripperCalls (cs ++ [c]) w = (.ok (), w2) := by
  induction cs generalizing w with
  | nil =>
    cases h
    show Prog.bind (attempt c.run) _ _ = _
    unfold Prog.bind attempt
    rw [hc]
    rcases hr with rfl | ⟨e, rfl⟩ <;> rfl
  | cons d cs ih =>
    have h' : Prog.bind (attempt d.run) (fun _ => gripperCalls cs) w = (.ok (), w1) := h
    show Prog.bind (attempt d.run) (fun _ => gripperCalls (cs ++ [c])) w = _
    unfold Prog.bind at h' ⊢
    cases hd : attempt d.run w with
    | mk r' w' =>
      rw [hd] at h'
      cases r' with
      | ok x => exact ih w' h'
      | err e => cases h'
      | panic m => cases h'
      | blocked => cases h'

/-- One more call, which returned. -/
theorem session_snoc {cs : List (GripperCall F)} {c : GripperCall F} {w0 w w' : World F} {r : Res F Unit} (h : gripperSession cs w0 = (.ok (), w)) (hc : c.run w = (r, w'))
    (hr : r = .ok () ∨ ∃ e, r = .err e) : gripperSession (cs ++ [c]) w0 = (.ok (), w') := by
  have h' : Prog.bind Gripper.new (fun _ => gripperCalls cs) w0 = (.ok (), w) := h
  show Prog.bind Gripper.new (fun _ => gripperCalls (cs ++ [c])) w0 = _
  unfold Prog.bind at h' ⊢
  cases hd : (Gripper.new : Prog F Unit) w0 with
  | mk r1 w1 =>
    rw [hd] at h'
    cases r1 with
    | ok x => exact calls_snoc cs c w1 w w' r h' hc hr
    | err e => cases h'
    | panic m => cases h'
    | blocked => cases h'

/-- The same visible events. -/
def SameSeen (w w' : World F) : Prop := visible w'.trace = visible w.trace

instance : Pre (SameSeen (F := F)) where
  refl _ := rfl
  trans h h' := Eq.trans h' h

instance : TUdp (SameSeen (F := F)) where
  tick _ _ _ _ := rfl
  upoll _ := rfl
  recv w d ds _ := by unfold SameSeen; simp [visible, isTcpEv, isUdpEv]
  addr _ _ := rfl

/-- No datagram is taken from the socket. -/
def SameDatagrams (w w' : World F) : Prop := datagrams w'.trace = datagrams w.trace

instance : Pre (SameDatagrams (F := F)) where
  refl _ := rfl
  trans h h' := Eq.trans h' h

instance : TTcp (SameDatagrams (F := F)) where
  tick _ _ _ _ := rfl
  poll _ := rfl
  read _ _ := by unfold SameDatagrams; simp [datagrams]
  pend _ _ _ := rfl
  head _ _ _ := rfl
  store _ := by unfold SameDatagrams; simp [datagrams]
  remove _ _ := rfl

instance : TGReq (SameDatagrams (F := F)) where
  gnext _ := rfl
  greq _ _ := by unfold SameDatagrams; simp [datagrams]

theorem read_seen : Pres SameSeen (Gripper.read_once : Prog F (Gripper.GripperState F)) := by
  unfold Gripper.read_once Gripper.discard_available
  pres [pres_udp_receive _ _, pres_udp_blocking_receive _ _]

theorem command_datagrams {c : GripperCall F} {p : Prog F Bool} (hp : gripperCommand c = some p) : Pres SameDatagrams p := by
  cases c <;> simp only [gripperCommand, Option.some.injEq, reduceCtorEq] at hp <;> subst hp
  · unfold Gripper.move_gripper
    pres [pres_create_header_for_gripper _ _, pres_tcp_send_request_gripper _, pres_tcp_blocking_receive_response _ _, pres_handle_response_status _]
  · unfold Gripper.homing
    pres [pres_create_header_for_gripper _ _, pres_tcp_send_request_gripper _, pres_tcp_blocking_receive_response _ _, pres_handle_response_status _]
  · unfold Gripper.stop
    pres [pres_create_header_for_gripper _ _, pres_tcp_send_request_gripper _, pres_tcp_blocking_receive_response _ _, pres_handle_response_status _]
  · unfold Gripper.grasp
    pres [pres_create_header_for_gripper _ _, pres_tcp_send_request_gripper _, pres_tcp_blocking_receive_response _ _, pres_handle_response_status _]

theorem command_run {c : GripperCall F} {p : Prog F Bool} (hp : gripperCommand c = some p) : c.run = p >>= fun _ => pure () := by
  cases c <;> simp only [gripperCommand, Option.some.injEq, reduceCtorEq] at hp <;> subst hp <;> rfl

variable [LawfulWire F]

/-- A session has come to `w` and sent the requests `bs`. -/
structure Came (w0 : World F) (cs : List (GripperCall F)) (bs : List (Gripper.Body F)) (w : World F) : Prop where
  session : gripperSession cs w0 = (.ok (), w)
  sent : List.Forall₂ GripperSent bs (visible w.trace)

theorem forall₂_snoc {α β : Type} {R : α → β → Prop} {l : List α} {l' : List β} {a : α} {b : β} (h : List.Forall₂ R l l') (h1 : R a b) :
    List.Forall₂ R (l ++ [a]) (l' ++ [b]) := List.rel_append h (.cons h1 .nil)

/-- What a command adds to the trace: its request, and no datagram. -/
def Adds (b : Gripper.Body F) (w w' : World F) : Prop := ∃ x e y, w'.trace = w.trace ++ x ++ e :: y ∧ GripperSent b e ∧ datagrams x = [] ∧ datagrams y = []

theorem adds_of {b : Gripper.Body F} {e : Ev F} {w w' : World F} {es : List (Ev F)} (ht : w'.trace = w.trace ++ es) (hv : visible w'.trace = visible w.trace ++ [e])
    (hd : datagrams w'.trace = datagrams w.trace) (he : GripperSent b e) : Adds b w w' := by
  rw [ht, visible_append] at hv
  rw [ht, datagrams_append] at hd
  have hv' := List.append_cancel_left hv
  have hd' : datagrams es = [] := by simpa using hd
  have : e ∈ es := by
    have : e ∈ visible es := by rw [hv']; simp
    exact (List.mem_filter.1 this).1
  obtain ⟨x, y, rfl⟩ := List.append_of_mem this
  have hd2 : datagrams (x ++ ([e] ++ y)) = [] := hd'
  rw [datagrams_append, datagrams_append] at hd2
  simp only [List.append_eq_nil_iff] at hd2
  exact ⟨x, e, y, by rw [ht]; simp, he, hd2.1, hd2.2.2⟩

/-- A command of a program. -/
theorem command_step {w0 w : World F} {cs : List (GripperCall F)} {bs : List (Gripper.Body F)} {c : GripperCall F} {b : Gripper.Body F} {p : Prog F Bool} (hw : Fresh w0)
    (hb : gripperRequest c = some b) (hp : gripperCommand c = some p) (h : Came w0 cs bs w) : Post p w fun r w' => match r with
      | .ok _ => Came w0 (cs ++ [c]) (bs ++ [b]) w' ∧ Adds b w w'
      | .err _ => Came w0 (cs ++ [c]) (bs ++ [b]) w'
      | _ => ∃ bs', bs' <+: bs ++ [b] ∧ List.Forall₂ GripperSent bs' (visible w'.trace) := by
  have h1 := C21_gripper_command c b p hb hp w ⟨cs, w0, hw, h.session⟩
  have h2 : Conserve w (c.run w).2 := pres_gripper_call c w
  have h3 := (command_datagrams hp).post w
  have e1 := command_run hp
  unfold Post at h3 ⊢
  have e2 : c.run w = Prog.bind p (fun _ => pure ()) w := by rw [e1]; rfl
  unfold Prog.bind at e2
  cases hres : p w with
  | mk r w' =>
    rw [hres] at h1 h3 e2
    obtain ⟨hd, k1, k2⟩ := h1
    cases r with
    | ok a =>
      have e3 : c.run w = (.ok (), w') := e2
      rw [e3] at h2
      obtain ⟨used, es, -, ht, -⟩ := h2
      exact ⟨⟨session_snoc h.session e3 (.inl rfl), by
        show List.Forall₂ _ _ (visible w'.trace)
        rw [k2.1]; exact forall₂_snoc h.sent ⟨hd, k1, rfl⟩⟩, adds_of ht k2.1 h3 ⟨hd, k1, rfl⟩⟩
    | err e =>
      have e3 : c.run w = (.err e, w') := e2
      exact ⟨session_snoc h.session e3 (.inr ⟨e, rfl⟩), by
        show List.Forall₂ _ _ (visible w'.trace)
        rw [k2.1]; exact forall₂_snoc h.sent ⟨hd, k1, rfl⟩⟩
    | panic m =>
      rcases k2 with k2 | k2
      · exact ⟨bs, List.prefix_append _ _, by rw [k2]; exact h.sent⟩
      · exact ⟨bs ++ [b], List.prefix_refl _, by rw [k2]; exact forall₂_snoc h.sent ⟨hd, k1, rfl⟩⟩
    | blocked =>
      rcases k2 with k2 | k2
      · exact ⟨bs, List.prefix_append _ _, by rw [k2]; exact h.sent⟩
      · exact ⟨bs ++ [b], List.prefix_refl _, by rw [k2]; exact forall₂_snoc h.sent ⟨hd, k1, rfl⟩⟩

/-- What a state that was read adds to the trace: the last datagram holds the state. -/
def Shows (w w' : World F) (st : Gripper.GripperState F) : Prop := ∃ es ds d, w'.trace = w.trace ++ es ∧ datagrams es = ds ++ [d] ∧
  floatAt d.data 12 st.max_width ∧ boolAt d.data 20 st.is_grasped

/-- Reading a state in a program. -/
theorem read_step [Geo F] {w0 w : World F} {cs : List (GripperCall F)} {bs : List (Gripper.Body F)} (hw : Fresh w0) (h : Came w0 cs bs w) :
    Post (Gripper.read_once : Prog F (Gripper.GripperState F)) w fun r w' => match r with
      | .ok st => Came w0 (cs ++ [.read_once]) bs w' ∧ (GripperSize (udpArrived w0.script) → NoFail w0.script → Shows w w' st)
      | .err _ => Came w0 (cs ++ [.read_once]) bs w'
      | _ => List.Forall₂ GripperSent bs (visible w'.trace) := by
  have h2 : Conserve w (GripperCall.run .read_once w).2 := pres_gripper_call .read_once w
  have h3 := (read_seen (F := F)).post w
  unfold Post at h3 ⊢
  have e2 : GripperCall.run .read_once w = Prog.bind Gripper.read_once (fun _ => pure ()) w := rfl
  unfold Prog.bind at e2
  cases hres : (Gripper.read_once : Prog F (Gripper.GripperState F)) w with
  | mk r w' =>
    rw [hres] at h3 e2
    have h4 : List.Forall₂ GripperSent bs (visible w'.trace) := by
      rw [show visible w'.trace = visible w.trace from h3]; exact h.sent
    cases r with
    | ok st =>
      have e3 : GripperCall.run .read_once w = (.ok (), w') := e2
      rw [e3] at h2
      refine ⟨⟨session_snoc h.session e3 (.inl rfl), h4⟩, ?_⟩
      intro hx hn
      obtain ⟨ds, d, g1, -, -, g4, g5, -⟩ := C66_gripper_state_as_sent hw hx hn h.session hres
      obtain ⟨used, es, -, ht, -⟩ := h2
      have ht' : w'.trace = w.trace ++ es := ht
      refine ⟨es, w.ker.udpRx ++ ds, d, ht', ?_, g4, g5⟩
      rw [ht', datagrams_append] at g1
      simp only [List.append_assoc] at g1
      simpa using List.append_cancel_left g1
    | err e => exact ⟨session_snoc h.session (show GripperCall.run .read_once w = (.err e, w') from e2) (.inr ⟨e, rfl⟩), h4⟩
    | panic m => exact h4
    | blocked => exact h4

/-- Connecting. -/
theorem new_step {w0 : World F} (hw : Fresh w0) : Post (Gripper.new : Prog F Unit) w0 fun r w => match r with
    | .ok _ => Came w0 [] [gripperHello w0] w
    | _ => ∃ bs, bs <+: [gripperHello w0] ∧ List.Forall₂ GripperSent bs (visible w.trace) := by
  have h1 := C17_gripper_new w0 hw
  unfold Post
  cases hres : (Gripper.new : Prog F Unit) w0 with
  | mk r w =>
    rw [hres] at h1
    obtain ⟨hd, k1, k2⟩ := h1
    have all : List.Forall₂ GripperSent [gripperHello w0] [Ev.gripperReq ⟨hd, gripperHello w0⟩] := .cons ⟨hd, k1, rfl⟩ .nil
    cases r with
    | ok a =>
      obtain ⟨m, v, k3, -⟩ := k2
      refine ⟨?_, by rw [k3]; exact all⟩
      show Prog.bind Gripper.new (fun _ => gripperCalls []) w0 = _
      unfold Prog.bind
      rw [hres]
      rfl
    | err e =>
      rcases k2 with ⟨k2, -⟩ | ⟨k2, -⟩
      · exact ⟨[], List.nil_prefix, by rw [k2]; exact .nil⟩
      · exact ⟨_, List.prefix_refl _, by rw [k2]; exact all⟩
    | panic m =>
      rcases k2 with k2 | k2
      · exact ⟨[], List.nil_prefix, by rw [k2]; exact .nil⟩
      · exact ⟨_, List.prefix_refl _, by rw [k2]; exact all⟩
    | blocked =>
      rcases k2 with k2 | k2
      · exact ⟨[], List.nil_prefix, by rw [k2]; exact .nil⟩
      · exact ⟨_, List.prefix_refl _, by rw [k2]; exact all⟩

/-- All requests of a session. -/
theorem calls_send {w0 : World F} (hw : Fresh w0) [Geo F] (cs : List (GripperCall F)) : ∀ {cs0 : List (GripperCall F)} {bs : List (Gripper.Body F)} {w : World F}, Came w0 cs0 bs w →
    Post (gripperCalls cs) w fun r w' => ∃ bs', bs' <+: bs ++ cs.filterMap gripperRequest ∧ List.Forall₂ GripperSent bs' (visible w'.trace) ∧
      (r = .ok () → bs' = bs ++ cs.filterMap gripperRequest) := by
  induction cs with
  | nil =>
    intro cs0 bs w h
    exact ⟨bs, by simp, h.sent, by simp⟩
  | cons c cs ih =>
    intro cs0 bs w h
    have step : Post c.run w fun r w' => match r with
        | .ok _ => ∃ cs1, Came w0 cs1 (bs ++ (gripperRequest c).toList) w'
        | .err _ => ∃ cs1, Came w0 cs1 (bs ++ (gripperRequest c).toList) w'
        | _ => ∃ bs', bs' <+: bs ++ (gripperRequest c).toList ∧ List.Forall₂ GripperSent bs' (visible w'.trace) := by
      cases hb : gripperRequest c with
      | some b =>
        obtain ⟨p, hp⟩ : ∃ p, gripperCommand c = some p := by
          cases c <;> first | exact ⟨_, rfl⟩ | cases hb
        rw [command_run hp, post_bind]
        refine (command_step hw hb hp h).mono ?_
        intro r w' hr
        cases r with
        | ok a => exact ⟨_, hr.1⟩
        | err e => exact ⟨_, hr⟩
        | panic m => exact hr
        | blocked => exact hr
      | none =>
        have hn : bs ++ (none : Option (Gripper.Body F)).toList = bs := by simp
        rw [hn]
        cases c with
        | read_once =>
          unfold GripperCall.run
          simp only
          rw [post_bind]
          refine (read_step hw h).mono ?_
          intro r w' hr
          cases r with
          | ok a => exact ⟨_, hr.1⟩
          | err e => exact ⟨_, hr⟩
          | panic m => exact ⟨bs, List.prefix_refl _, hr⟩
          | blocked => exact ⟨bs, List.prefix_refl _, hr⟩
        | server_version =>
          have hp : Pres (fun a b : World F => b = a) (Gripper.server_version : Prog F UInt16) := by
            have : Pre (fun a b : World F => b = a) := ⟨fun _ => rfl, fun h h' => h'.trans h⟩
            exact pres_server_version
          unfold GripperCall.run
          simp only
          rw [post_bind]
          refine (hp.post w).mono ?_
          intro r w' hr
          subst hr
          cases r with
          | ok a => exact ⟨_, h⟩
          | err e => exact ⟨_, h⟩
          | panic m => exact ⟨bs, List.prefix_refl _, h.sent⟩
          | blocked => exact ⟨bs, List.prefix_refl _, h.sent⟩
        | _ => cases hb
    have e : bs ++ (c :: cs).filterMap gripperRequest = (bs ++ (gripperRequest c).toList) ++ cs.filterMap gripperRequest := by
      cases hb : gripperRequest c <;> simp [hb]
    rw [e]
    unfold gripperCalls
    rw [post_bind, post_attempt]
    refine step.mono ?_
    intro r w' hr
    cases r with
    | ok a => exact ih hr.choose_spec
    | err e => exact ih hr.choose_spec
    | panic m => exact ⟨hr.choose, hr.choose_spec.1.trans (List.prefix_append _ _), hr.choose_spec.2, nofun⟩
    | blocked => exact ⟨hr.choose, hr.choose_spec.1.trans (List.prefix_append _ _), hr.choose_spec.2, nofun⟩

end Grasping

section
variable {F : Type} [Fl F] [Wire F] [LawfulWire F] [Geo F]
open Grasping

/-- **C85**: what a whole session with a gripper sends: the request to connect, and then the request of each command, in the order of the calls. Nothing else is sent, also not after errors. If
the session hangs or panics, then only the first requests were sent. -/
theorem C85_gripper_requests {w0 : World F} (hw : Fresh w0) (cs : List (GripperCall F)) :
    ∃ bs, bs <+: gripperHello w0 :: cs.filterMap gripperRequest ∧ List.Forall₂ GripperSent bs (visible (gripperSession cs w0).2.trace) ∧
      ((gripperSession cs w0).1 = .ok () → bs = gripperHello w0 :: cs.filterMap gripperRequest) := by
  suffices h : Post (gripperSession cs) w0 fun r w' => ∃ bs, bs <+: gripperHello w0 :: cs.filterMap gripperRequest ∧ List.Forall₂ GripperSent bs (visible w'.trace) ∧
      (r = .ok () → bs = gripperHello w0 :: cs.filterMap gripperRequest) from h
  unfold gripperSession
  rw [post_bind]
  refine (new_step hw).mono ?_
  have hp : [gripperHello w0] <+: gripperHello w0 :: cs.filterMap gripperRequest := ⟨_, rfl⟩
  intro r w hr
  cases r with
  | ok a => exact calls_send hw cs hr
  | err e => exact ⟨hr.choose, hr.choose_spec.1.trans hp, hr.choose_spec.2, nofun⟩
  | panic m => exact ⟨hr.choose, hr.choose_spec.1.trans hp, hr.choose_spec.2, nofun⟩
  | blocked => exact ⟨hr.choose, hr.choose_spec.1.trans hp, hr.choose_spec.2, nofun⟩

/-- How the example ends, with what it has sent and why. -/
def GraspRun (w0 : World F) (homing : Bool) (width : F) (r : Res F GraspResult) (w' : World F) : Prop :=
  ∃ bs, bs <+: graspRequests w0 homing width .grasped ∧ List.Forall₂ GripperSent bs (visible w'.trace) ∧
    ∀ x, r = .ok x → bs = graspRequests w0 homing width x ∧ (GripperSize (udpArrived w0.script) → NoFail w0.script → RightlyEnds width w'.trace x)

namespace Grasping

/-- The part of the example after homing. -/
def afterHoming (width : F) : Prog F GraspResult := do
  let state ← (Gripper.read_once : Prog F (Gripper.GripperState F))
  if Fl.flt state.max_width width then return .tooLarge
  let _ ← Gripper.grasp width (Fl.lit (1 / 10)) (Fl.lit 60) none none
  let state ← (Gripper.read_once : Prog F (Gripper.GripperState F))
  if !state.is_grasped then return .lost
  let _ ← (Gripper.stop : Prog F Bool)
  return .grasped

theorem grasp_object_eq (homing : Bool) (width : F) : grasp_object homing width = (Gripper.new >>= fun _ => if homing then Gripper.homing >>= fun _ => afterHoming width else afterHoming width) := by
  cases homing <;> rfl

theorem grasp_after {w0 : World F} (hw : Fresh w0) (homing : Bool) (width : F) {cs : List (GripperCall F)} {bs : List (Gripper.Body F)} {w : World F}
    (hbs : bs = gripperHello w0 :: (if homing then [.Homing] else [])) (h : Came w0 cs bs w) : Post (afterHoming width) w (GraspRun w0 homing width) := by
  have hp1 : bs <+: graspRequests w0 homing width .grasped := ⟨[theGrasp width, .Stop], by rw [hbs]; rfl⟩
  have hp2 : bs ++ [theGrasp width] <+: graspRequests w0 homing width .grasped := ⟨[.Stop], by rw [hbs]; simp [graspRequests]⟩
  have hp3 : bs ++ [theGrasp width] ++ [.Stop] = graspRequests w0 homing width .grasped := by rw [hbs]; simp [graspRequests]
  have hno : ∀ {bs'} {w' : World F} {r : Res F GraspResult}, bs' <+: graspRequests w0 homing width .grasped → List.Forall₂ GripperSent bs' (visible w'.trace) → (∀ x, r ≠ .ok x) →
      GraspRun w0 homing width r w' := fun h1 h2 h3 => ⟨_, h1, h2, fun x hx => absurd hx (h3 x)⟩
  unfold afterHoming
  rw [post_bind]
  refine (read_step hw h).mono ?_
  intro r w1 h1
  cases r with
  | ok st =>
    obtain ⟨c1, s1⟩ := h1
    rw [after_ok]
    cases hf : Fl.flt st.max_width width with
    | true =>
      simp only [if_true]
      refine ⟨bs, hp1, c1.sent, ?_⟩
      intro x hx
      cases hx
      refine ⟨hbs, fun g1 g2 => ?_⟩
      obtain ⟨es, ds, d, t1, t2, t3, -⟩ := s1 g1 g2
      refine ⟨d, st.max_width, ⟨datagrams w.trace ++ ds, ?_⟩, t3, hf⟩
      show datagrams w1.trace = _
      rw [t1, datagrams_append, t2, List.append_assoc]
    | false =>
      simp only [Bool.false_eq_true, if_false]
      rw [post_bind]
      refine (command_step (c := .grasp width (Fl.lit (1 / 10)) (Fl.lit 60) none none) (b := theGrasp width) hw rfl rfl c1).mono ?_
      intro r w2 h2
      cases r with
      | ok b =>
        obtain ⟨c2, x, e, y, t4, t5, t6, t7⟩ := h2
        rw [after_ok, post_bind]
        refine (read_step hw c2).mono ?_
        intro r w3 h3
        cases r with
        | ok st' =>
          obtain ⟨c3, s3⟩ := h3
          rw [after_ok]
          have key : GripperSize (udpArrived w0.script) → NoFail w0.script → ∃ a b d d', w3.trace = a ++ e :: b ∧ LastDatagram a d ∧ floatAt d.data 12 st.max_width ∧
              LastDatagram b d' ∧ boolAt d'.data 20 st'.is_grasped := by
            intro g1 g2
            obtain ⟨es, ds, d, t1, t2, t3, -⟩ := s1 g1 g2
            obtain ⟨es', ds', d', u1, u2, -, u3⟩ := s3 g1 g2
            refine ⟨w.trace ++ es ++ x, y ++ es', d, d', by rw [u1, t4, t1]; simp, ⟨datagrams w.trace ++ ds, ?_⟩, t3, ⟨ds', ?_⟩, u3⟩
            · rw [datagrams_append, datagrams_append, t2, t6, List.append_nil, List.append_assoc]
            · rw [datagrams_append, u2, t7, List.nil_append]
          cases hg : st'.is_grasped with
          | false =>
            simp only [Bool.not_false, if_true]
            refine ⟨_, hp2, c3.sent, ?_⟩
            intro x hx
            cases hx
            refine ⟨by rw [hbs]; simp [graspRequests], fun g1 g2 => ?_⟩
            obtain ⟨a, b, d, d', k1, k2, k3, k4, k5⟩ := key g1 g2
            exact ⟨a, e, b, d, _, d', k1, t5, k2, k3, hf, k4, by rw [← hg]; exact k5⟩
          | true =>
            simp only [Bool.not_true, Bool.false_eq_true, if_false]
            rw [post_bind]
            refine (command_step (c := .stop) (b := .Stop) hw rfl rfl c3).mono ?_
            intro r w4 h4
            cases r with
            | ok b =>
              obtain ⟨c4, x', f, y', v4, v5, v6, v7⟩ := h4
              refine ⟨_, by rw [hp3], c4.sent, ?_⟩
              intro z hz
              cases hz
              refine ⟨hp3, fun g1 g2 => ?_⟩
              obtain ⟨a, b, d, d', k1, k2, k3, ⟨ds4, k4⟩, k5⟩ := key g1 g2
              refine ⟨a, e, b ++ x', f, y', d, _, d', ?_, t5, v5, k2, k3, hf, ⟨ds4, ?_⟩, by rw [← hg]; exact k5⟩
              · show w4.trace = _
                rw [v4, k1]; simp
              · rw [datagrams_append, v6, List.append_nil, k4]
            | err e => exact hno (by rw [hp3]) h4.sent nofun
            | panic m => exact hno (h4.choose_spec.1.trans (by rw [hp3])) h4.choose_spec.2 nofun
            | blocked => exact hno (h4.choose_spec.1.trans (by rw [hp3])) h4.choose_spec.2 nofun
        | err e => exact hno hp2 h3.sent nofun
        | panic m => exact hno hp2 h3 nofun
        | blocked => exact hno hp2 h3 nofun
      | err e => exact hno hp2 h2.sent nofun
      | panic m => exact hno (h2.choose_spec.1.trans hp2) h2.choose_spec.2 nofun
      | blocked => exact hno (h2.choose_spec.1.trans hp2) h2.choose_spec.2 nofun
  | err e => exact hno hp1 h1.sent nofun
  | panic m => exact hno hp1 h1 nofun
  | blocked => exact hno hp1 h1 nofun

end Grasping

/-- **C85** for the example grasp_object, however it ends: its requests are the first ones of connecting, homing (if asked for), grasping and stopping, and if it ends by itself, then exactly those
that belong to its end. If all datagrams have the size of a state and no system call fails, then this end is the right one: the object is too large if and only if the last state before the grasp
shows a smaller maximal width; the fingers are stopped if and only if the last state before that shows a grasped object. -/
theorem C85_grasp_object {w0 : World F} (hw : Fresh w0) (homing : Bool) (width : F) :
    ∃ bs, bs <+: graspRequests w0 homing width .grasped ∧ List.Forall₂ GripperSent bs (visible (grasp_object homing width w0).2.trace) ∧
      ∀ x, (grasp_object homing width w0).1 = .ok x → bs = graspRequests w0 homing width x ∧
        (GripperSize (udpArrived w0.script) → NoFail w0.script → RightlyEnds width (grasp_object homing width w0).2.trace x) := by
  suffices h : Post (grasp_object homing width) w0 (GraspRun w0 homing width) from h
  have hp0 : [gripperHello w0] <+: graspRequests w0 homing width .grasped := by
    cases homing
    · exact ⟨[theGrasp width, .Stop], rfl⟩
    · exact ⟨[.Homing, theGrasp width, .Stop], rfl⟩
  have hno : ∀ {bs'} {w' : World F} {r : Res F GraspResult}, bs' <+: graspRequests w0 homing width .grasped → List.Forall₂ GripperSent bs' (visible w'.trace) → (∀ x, r ≠ .ok x) →
      GraspRun w0 homing width r w' := fun h1 h2 h3 => ⟨_, h1, h2, fun x hx => absurd hx (h3 x)⟩
  rw [grasp_object_eq, post_bind]
  refine (new_step hw).mono ?_
  intro r w h
  cases r with
  | ok a =>
    rw [after_ok]
    cases homing with
    | false => exact grasp_after hw false width rfl h
    | true =>
      simp only [if_true]
      rw [post_bind]
      refine (command_step (c := .homing) (b := .Homing) hw rfl rfl h).mono ?_
      have hp1 : [gripperHello w0] ++ [.Homing] <+: graspRequests w0 true width .grasped := ⟨[theGrasp width, .Stop], rfl⟩
      intro r w1 h1
      cases r with
      | ok b => exact grasp_after hw true width rfl h1.1
      | err e => exact hno hp1 h1.sent nofun
      | panic m => exact hno (h1.choose_spec.1.trans hp1) h1.choose_spec.2 nofun
      | blocked => exact hno (h1.choose_spec.1.trans hp1) h1.choose_spec.2 nofun
  | err e => exact hno (h.choose_spec.1.trans hp0) h.choose_spec.2 nofun
  | panic m => exact hno (h.choose_spec.1.trans hp0) h.choose_spec.2 nofun
  | blocked => exact hno (h.choose_spec.1.trans hp0) h.choose_spec.2 nofun

namespace Grasping
variable {v : UInt16} {id : UInt32} {q : List Datagram} {ts : List Tick} {w : World F} {cs : List (GripperCall F × Outcome F (GripperReply F))} {reqs : List (UInt32 × Gripper.Body F)}

omit [Geo F] in
theorem goes_read {s : Gripper.GripperState F} (h : GripperGoes v id q ts ((.read_once, .ok (.state s)) :: cs) reqs) (hb : GripperBetween v id q ts w) :
    Post (Gripper.read_once : Prog F (Gripper.GripperState F)) w fun r w' => r = .ok s ∧ ∃ id' q' ts' reqs', GripperGoes v id' q' ts' cs reqs' ∧ GripperBetween v id' q' ts' w' := by
  generalize ho : (Except.ok (GripperReply.state s) : Outcome F (GripperReply F)) = o at h
  generalize hc : (GripperCall.read_once, o) :: cs = l at h
  cases h with
  | done => cases hc
  | version _ => cases hc
  | command h1 h2 =>
    cases hc
    cases h2
  | read_once h1 h2 h3 h4 =>
    cases hc
    cases ho
    have h := gripper_read_did h1 h2 h3 hb
    have e : GripperCall.value .read_once w = Prog.bind Gripper.read_once (fun s => pure (.state s)) w := rfl
    unfold Prog.bind at e
    unfold Post at h ⊢
    rw [e] at h
    cases hres : (Gripper.read_once : Prog F (Gripper.GripperState F)) w with
    | mk r w' =>
      rw [hres] at h
      obtain ⟨k1, k2, -⟩ := h
      cases r with
      | ok s' =>
        have k1' : (Res.ok (GripperReply.state s') : Res F _) = .ok (.state s) := k1
        cases k1'
        exact ⟨rfl, _, _, _, _, h4, k2⟩
      | err e => cases k1
      | panic m => cases k1
      | blocked => cases k1

omit [Geo F] in
theorem goes_command {c : GripperCall F} {p : Prog F Bool} {x : Bool} (hp : gripperCommand c = some p) (h : GripperGoes v id q ts ((c, .ok (.flag x)) :: cs) reqs)
    (hb : GripperBetween v id q ts w) : Post p w fun r w' => r = .ok x ∧ ∃ id' q' ts' reqs', GripperGoes v id' q' ts' cs reqs' ∧ GripperBetween v id' q' ts' w' := by
  have e : c.value w = Prog.bind p (fun b => pure (.flag b)) w := by
    cases c <;> simp only [gripperCommand, Option.some.injEq, reduceCtorEq] at hp <;> subst hp <;> rfl
  unfold Prog.bind at e
  generalize ho : (Except.ok (GripperReply.flag x) : Outcome F (GripperReply F)) = o at h
  generalize hc : (c, o) :: cs = l at h
  cases h with
  | done => cases hc
  | version _ =>
    cases hc
    cases ho
  | read_once =>
    cases hc
    cases ho
  | command h1 h2 h3 h4 h5 h6 h7 h8 =>
    rename_i o' p'
    cases hc
    have h := command_did h1 h2 h3 h4 h5 h6 h7 hb
    rw [← ho] at h
    unfold Post at h ⊢
    rw [e] at h
    cases hres : p w with
    | mk r w' =>
      rw [hres] at h
      obtain ⟨k1, k2, -⟩ := h
      cases r with
      | ok s' =>
        have k1' : (Res.ok (GripperReply.flag s') : Res F _) = .ok (.flag x) := k1
        cases k1'
        exact ⟨rfl, _, _, _, _, h8, k2⟩
      | err e => cases k1
      | panic m => cases k1
      | blocked => cases k1

omit [Geo F] in
theorem goes_after {width : F} {g p : Bool} {s1 s2 : Gripper.GripperState F} (h : GripperGoes v id q ts (graspStory false width false g p s1 s2 (graspEnd width s1 s2)) reqs)
    (hb : GripperBetween v id q ts w) : Post (afterHoming width) w fun r _ => r = .ok (graspEnd width s1 s2) := by
  unfold afterHoming
  rw [post_bind]
  cases hf : Fl.flt s1.max_width width with
  | true =>
    have he : graspEnd width s1 s2 = .tooLarge := by simp [graspEnd, hf]
    rw [he] at h ⊢
    refine (goes_read h hb).mono ?_
    rintro r w1 ⟨rfl, -⟩
    rw [after_ok, if_pos hf]
    rfl
  | false =>
    cases hg : s2.is_grasped with
    | true =>
      have he : graspEnd width s1 s2 = .grasped := by simp [graspEnd, hf, hg]
      rw [he] at h ⊢
      refine (goes_read h hb).mono ?_
      rintro r w1 ⟨rfl, _, _, _, _, h1, b1⟩
      rw [after_ok, if_neg (by rw [hf]; exact Bool.false_ne_true), post_bind]
      refine (goes_command rfl h1 b1).mono ?_
      rintro r w2 ⟨rfl, _, _, _, _, h2, b2⟩
      rw [after_ok, post_bind]
      refine (goes_read h2 b2).mono ?_
      rintro r w3 ⟨rfl, _, _, _, _, h3, b3⟩
      rw [after_ok, if_neg (by rw [hg]; decide), post_bind]
      refine (goes_command rfl h3 b3).mono ?_
      rintro r w4 ⟨rfl, -⟩
      rfl
    | false =>
      have he : graspEnd width s1 s2 = .lost := by simp [graspEnd, hf, hg]
      rw [he] at h ⊢
      refine (goes_read h hb).mono ?_
      rintro r w1 ⟨rfl, _, _, _, _, h1, b1⟩
      rw [after_ok, if_neg (by rw [hf]; exact Bool.false_ne_true), post_bind]
      refine (goes_command rfl h1 b1).mono ?_
      rintro r w2 ⟨rfl, _, _, _, _, h2, b2⟩
      rw [after_ok, post_bind]
      refine (goes_read h2 b2).mono ?_
      rintro r w3 ⟨rfl, -⟩
      rw [after_ok, if_pos (by rw [hg]; rfl)]
      rfl

theorem story_homing (width : F) (h g p : Bool) (s1 s2 : Gripper.GripperState F) (x : GraspResult) :
    graspStory true width h g p s1 s2 x = (.homing, .ok (.flag h)) :: graspStory false width false g p s1 s2 x := by
  cases x <;> rfl

theorem story_no_homing (width : F) (h g p : Bool) (s1 s2 : Gripper.GripperState F) (x : GraspResult) :
    graspStory false width h g p s1 s2 x = graspStory false width false g p s1 s2 x := by
  cases x <;> rfl

end Grasping

/-- **C85**: and with a gripper that does its part, the example ends, in the way the states say. -/
theorem C85_grasp_object_ends {w : World F} (hw : Fresh w) {g : Greeting} {a : Gripper.ConnectResponse} {m : Bytes} {ts : List Tick} {reqs : List (UInt32 × Gripper.Body F)}
    (hs : w.script = g.script ++ ts) (hg : g.Brings m) (hm : GripperAnswer a m) (hok : a.status = .Success) (homing : Bool) (width : F) (b1 b2 b3 : Bool)
    (s1 s2 : Gripper.GripperState F) (hgo : GripperGoes a.version 1 (udpArrived g.script) ts (graspStory homing width b1 b2 b3 s1 s2 (graspEnd width s1 s2)) reqs) :
    (grasp_object homing width w).1 = .ok (graspEnd width s1 s2) := by
  suffices h : Post (grasp_object homing width) w fun r _ => r = .ok (graspEnd width s1 s2) from h
  obtain ⟨w1, h1, hb, -⟩ := gripper_connected_between hw hs hg hm hok
  rw [grasp_object_eq, post_bind, post_of_eq h1, after_ok]
  cases homing with
  | false => exact goes_after (by rw [← story_no_homing]; exact hgo) hb
  | true =>
    rw [story_homing] at hgo
    simp only [if_true]
    rw [post_bind]
    refine (goes_command rfl hgo hb).mono ?_
    rintro r w2 ⟨rfl, _, _, _, _, h2, b2⟩
    rw [after_ok]
    exact goes_after h2 b2

end

/-! ## Example -/

section example_
open Toy

namespace Toy

/-- The gripper after the greeting: homing succeeds, a state is sent, grasping succeeds, another state is sent, stopping succeeds. -/
def graspAfterwards : List Tick := (asking (gripperResponse 0 1 0)).script ++ (List.replicate 5 quiet ++ ((udp (grasped 5) :: List.replicate 2 quiet) ++
  ((asking (gripperResponse 2 2 0)).script ++ ([quiet] ++ ((udp (grasped 6) :: List.replicate 2 quiet) ++ ((asking (gripperResponse 4 3 0)).script ++ []))))))

theorem sends_six : SendsGripperState (F := UInt64) ⟨9, 10, true, 30, 6⟩ (grasped 6) := ⟨rfl, by decide, by unfold floatAt; kernel_rfl, by unfold floatAt; kernel_rfl, by unfold boolAt; decide, by decide⟩

theorem read_silent1 : TcpSilent ([quiet] ++ (udp (grasped 6) :: List.replicate 2 quiet)) := by
  intro t ht
  simp only [List.mem_append, List.mem_cons, List.mem_replicate, List.not_mem_nil, or_false] at ht
  rcases ht with rfl | rfl | ⟨-, rfl⟩ <;> rfl

theorem grasp_goes : ∃ reqs, GripperGoes (F := UInt64) 3 1 (udpArrived gripperGreeting.script) graspAfterwards
    (graspStory true 9 true true true ⟨9, 10, true, 30, 5⟩ ⟨9, 10, true, 30, 6⟩ .grasped) reqs := by
  have h4 : GripperGoes (F := UInt64) 3 3 [] ((asking (gripperResponse 4 3 0)).script ++ []) [(.stop, .ok (.flag true))] [(3, .Stop)] :=
    .command (o := .ok true) (m := gripperResponse 4 3 0) (by decide) rfl ⟨by decide, rfl, rfl⟩ rfl (by decide) rfl (asking_brings _) (.done _ _ _)
  have h3 := GripperGoes.read_once (F := UInt64) (v := 3) (id := 3) (q := []) (ts := (asking (gripperResponse 4 3 0)).script ++ []) (.nothing quiet rfl (fine_quiet 1))
    (.arrives [] 7 (grasped 6) _ _ sends_six rfl (by intro d hd; cases hd) (fine_udp _ _) (none_quiet 2) rfl) read_silent1 h4
  have h2 := GripperGoes.command (F := UInt64) (v := 3) (id := 2) (q := []) (c := .grasp 9 (Fl.lit (1 / 10)) (Fl.lit 60) none none) (o := .ok true) (m := gripperResponse 2 2 0) (by decide) rfl
    ⟨by decide, rfl, rfl⟩ rfl (by decide) rfl (asking_brings _) (by rw [asking_udp]; exact h3)
  have hq : udpArrived gripperGreeting.script = [⟨7, gripperState 4⟩] := by
    simp [udpArrived, Greeting.script, gripperGreeting, quiet, tcp, udp]
  have h1 := GripperGoes.read_once (F := UInt64) (v := 3) (id := 2) (q := [⟨7, gripperState 4⟩])
    (.all _ [] 7 (gripperState 4) quiet (List.replicate 4 quiet) sends_four rfl (by intro d hd; cases hd) (fine_quiet 5) (none_quiet 4) rfl)
    (.arrives [] 7 (grasped 5) _ _ sends_five rfl (by intro d hd; cases hd) (fine_udp _ _) (none_quiet 2) rfl) read_silent h2
  rw [hq]
  exact ⟨_, GripperGoes.command (F := UInt64) (v := 3) (id := 1) (c := .homing) (o := .ok true) (m := gripperResponse 0 1 0) (by decide) rfl ⟨by decide, rfl, rfl⟩ rfl (by decide) rfl (asking_brings _)
    (by rw [asking_udp]; exact h1)⟩

end Toy

/-- C85: a gripper with which the example grasps the object. -/
example : Fresh (world (gripperGreeting.script ++ graspAfterwards)) ∧ (grasp_object true 9 (world (gripperGreeting.script ++ graspAfterwards))).1 = .ok .grasped := by
  obtain ⟨reqs, h⟩ := grasp_goes
  have he : graspEnd (F := UInt64) 9 ⟨9, 10, true, 30, 5⟩ ⟨9, 10, true, 30, 6⟩ = .grasped := by decide
  refine ⟨fresh _ _ _, ?_⟩
  rw [← he] at h ⊢
  exact C85_grasp_object_ends (fresh _ _ _) rfl gripperGreeting_brings (a := ⟨⟨.Connect, 0, 14⟩, .Success, 3⟩) ⟨by kernel_rfl, rfl, rfl⟩ rfl true 9 true true true _ _ h

end example_
end Verif
