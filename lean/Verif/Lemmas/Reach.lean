import Verif.Lemmas.Requests
/-!
# Invariants of whole histories, for every ending of the history
-/
set_option linter.unusedSectionVars false
namespace Verif
open Prog Spec
variable {F : Type} {α : Type}

theorem Prog.Post.always {p : Prog F α} {w : World F} {Q : Res F α → World F → Prop} {J : World F → Prop} (h : Post p w Q)
    (hQ : ∀ r w', Q r w' → J w') : J (p w).2 := hQ _ _ h

theorem Prog.Post.reach {p : Prog F α} {w w' : World F} {Q : Res F α → World F → Prop} (h : Post p w Q) {r : Res F α}
    (hr : p w = (r, w')) : Q r w' := by
  unfold Post at h
  rw [hr] at h
  exact h

variable [Fl F] [Wire F]

theorem session_req_weak [Geo F] (rc : Option RealtimeConfig) (ls : Option Nat) (cs : List (RobotCall F)) (w : World F) (hw : Fresh w) :
    ReqWeak w.cfg.overflow_checks (robotSession rc ls cs w).2 :=
  (session_req rc ls cs w hw).always fun r w' h => by
    cases r; exacts [h.toReqWeak, h, h, h]

theorem gripper_session_req_weak (cs : List (GripperCall F)) (w : World F) (hw : Fresh w) :
    ReqWeak w.cfg.overflow_checks (gripperSession cs w).2 :=
  (gripper_session_req cs w hw).always fun r w' h => by
    cases r; exacts [h.toReqWeak, h, h, h]

theorem session_tcp_weak [Geo F] (rc : Option RealtimeConfig) (ls : Option Nat) (cs : List (RobotCall F)) (w : World F) (hw : Fresh w) :
    TcpWeak .Robot (robotSession rc ls cs w).2 := (session_tcp rc ls cs w hw).always fun r w' h => by
    cases r; exacts [h.weak _, h, h, h]

theorem gripper_session_tcp_weak (cs : List (GripperCall F)) (w : World F) (hw : Fresh w) :
    TcpWeak .Gripper (gripperSession cs w).2 := (gripper_session_tcp cs w hw).always fun r w' h => by
    cases r; exacts [h.weak _, h, h, h]

theorem Spec.RobotReachable.tcp [Geo F] {w : World F} (h : RobotReachable w) : TcpOk .Robot w := by
  obtain ⟨rc, ls, cs, w0, h0, h⟩ := h
  exact (session_tcp rc ls cs w0 h0).reach h

theorem Spec.GripperReachable.tcp {w : World F} (h : GripperReachable w) : TcpOk .Gripper w := by
  obtain ⟨cs, w0, h0, h⟩ := h
  exact (gripper_session_tcp cs w0 h0).reach h

/-! Other answers -/

/-- From `w` to `w'` events were added, and the answers kept for other ids than `id` are those kept before, updated by the answers which
came in. -/
def KeepsOthers (id : UInt32) (w w' : World F) : Prop := ∃ es, w'.trace = w.trace ++ es ∧ ∀ i, i ≠ id →
  w'.net.received_responses i = latestAnswer i (w.net.received_responses i) es

theorem KeepsOthers.same {id : UInt32} {w w' : World F} (h1 : w'.trace = w.trace)
    (h2 : w'.net.received_responses = w.net.received_responses) : KeepsOthers id w w' :=
  ⟨[], by simp [h1], fun i _ => by rw [h2]; rfl⟩

theorem KeepsOthers.step {id : UInt32} {w w1 w' : World F} (h : TcpStep w1 w') (e : Ev F) (he : ∀ i o, latestAnswer i o [e] = o)
    (h1 : w1.trace = w.trace ++ [e]) (h2 : w1.net.received_responses = w.net.received_responses) : KeepsOthers id w w' := by
  obtain ⟨es, g1, -, g2⟩ := h.trace
  refine ⟨[e] ++ es, by rw [g1, h1]; simp, fun i _ => ?_⟩
  rw [g2, h2, latestAnswer_append, he]

theorem receive_others {α β : Type} (c : Codec α) (f : α → Outcome F β) (w w1 : World F) (id : UInt32) (e : Ev F)
    (he : ∀ i o, latestAnswer i o [e] = o)
    (h1 : w1.trace = w.trace ++ [e]) (h2 : w1.net.received_responses = w.net.received_responses) :
    Post (do let a ← tcp_blocking_receive_response c id; ofExcept (f a) : Prog F β) w1 fun _ w' => KeepsOthers id w w' := by
  rw [post_bind]
  unfold tcp_blocking_receive_response
  rw [post_bind]
  refine (wait_spec id w1).mono ?_
  intro r w' h
  cases r with
  | ok m =>
    obtain ⟨w2, hs, -, rfl⟩ := h
    obtain ⟨es, g1, g2⟩ := KeepsOthers.step (id := id) hs e he h1 h2
    have fin : KeepsOthers id w { w2 with net := { w2.net with
        received_responses := fun i => if i = id then none else w2.net.received_responses i } } :=
      ⟨es, g1, fun i hi => by simp only [if_neg hi]; exact g2 i hi⟩
    rw [after_ok]
    unfold deserialize
    cases c.dec m with
    | none => exact fin
    | some p =>
      simp only [post_pure, after_ok]
      cases f p.1 <;> exact fin
  | err e => exact h.elim
  | panic _ => exact KeepsOthers.step h e he h1 h2
  | blocked => exact KeepsOthers.step h e he h1 h2

instance preTable : Pre (fun w w' : World F => w'.net.received_responses = w.net.received_responses) :=
  ⟨fun _ => rfl, fun h g => g.trans h⟩
instance : TReq (fun w w' : World F => w'.net.received_responses = w.net.received_responses) (fun _ => True) :=
  { tick := fun _ _ _ _ => rfl, next := fun _ => rfl, req := fun _ _ _ => rfl }
instance : TGReq (fun w w' : World F => w'.net.received_responses = w.net.received_responses) :=
  { tick := fun _ _ _ _ => rfl, gnext := fun _ => rfl, greq := fun _ _ => rfl }

theorem rpc_others {α β : Type} (b : RobotBody F) (c : Codec α) (f : α → Outcome F β) (w : World F) :
    KeepsOthers w.net.command_id w (rpc b c f w).2 := by
  suffices h : Post (rpc b c f) w fun _ w' => KeepsOthers w.net.command_id w w' from h
  unfold rpc ask
  rw [Prog.bind_assoc']
  have hp : Pres (fun w w' : World F => w'.net.received_responses = w.net.received_responses) (sendRequest b) := pres_sendRequest b
  refine ((sendRequest_spec b w).and (hp.post w)).bind ?_
  rintro r w1 ⟨h1, h2⟩
  cases r with
  | ok id =>
    obtain ⟨rfl, t, ts, -, -, -, rfl⟩ := h1
    exact receive_others c f w _ _ _ (fun _ _ => rfl) rfl rfl
  | err e => exact h1.elim
  | panic _ => exact .same h1 h2
  | blocked => exact .same h1 h2

theorem rpcGripper_others {α β : Type} (b : Gripper.Body F) (c : Codec α) (f : α → Outcome F β) (w : World F) :
    KeepsOthers w.net.command_id w (rpcGripper b c f w).2 := by
  suffices h : Post (rpcGripper b c f) w fun _ w' => KeepsOthers w.net.command_id w w' from h
  unfold rpcGripper askGripper
  rw [Prog.bind_assoc']
  have hp : Pres (fun w w' : World F => w'.net.received_responses = w.net.received_responses) (sendGripperRequest b) :=
    pres_sendGripperRequest b
  refine ((sendGripperRequest_spec b w).and (hp.post w)).bind ?_
  rintro r w1 ⟨h1, h2⟩
  cases r with
  | ok id =>
    obtain ⟨rfl, t, ts, -, -, -, rfl⟩ := h1
    exact receive_others c f w _ _ _ (fun _ _ => rfl) rfl rfl
  | err e => exact h1.elim
  | panic _ => exact .same h1 h2
  | blocked => exact .same h1 h2

end Verif
