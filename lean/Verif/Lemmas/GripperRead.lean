import Verif.Props.Stream
/-!
# What a gripper state is made from
-/
set_option linter.unusedSectionVars false
namespace Verif
open Prog Spec
variable {F : Type} [Fl F] [Wire F] [LawfulWire F] [Geo F]

/-- No system call will fail, and a waiting datagram will be reported. -/
structure Open (w : World F) : Prop where
  nofail : NoFail w.script
  ready : Spec.Ready w

/-- Keeping it. -/
def OpenStep (w w' : World F) : Prop := Open w → Open w'

theorem OpenStep.same {w w' : World F} (hs : w'.script = w.script) (h1 : w'.ker.udpRx = w.ker.udpRx) (h2 : w'.ker.udpEdge = w.ker.udpEdge) : OpenStep w w' :=
  fun h => ⟨by rw [hs]; exact h.nofail, by unfold Spec.Ready; rw [h1, h2]; exact h.ready⟩

theorem open_tick (w : World F) (t : Tick) (ts : List Tick) (hs : w.script = t :: ts) : OpenStep w { w with script := ts, ker := w.ker.arrive t } :=
  fun h => ⟨h.nofail.suffix (by rw [hs]; exact List.suffix_cons t ts), h.ready.tick t ts⟩

instance : Pre (OpenStep (F := F)) where
  refl _ := id
  trans h h' := h' ∘ h

instance : TTcp (OpenStep (F := F)) where
  tick := open_tick
  poll _ := OpenStep.same rfl rfl rfl
  read _ _ := OpenStep.same rfl rfl rfl
  pend _ _ _ := OpenStep.same rfl rfl rfl
  head _ _ _ := OpenStep.same rfl rfl rfl
  store _ := OpenStep.same rfl rfl rfl
  remove _ _ := OpenStep.same rfl rfl rfl

instance : TGReq (OpenStep (F := F)) where
  gnext _ := OpenStep.same rfl rfl rfl
  greq _ _ := OpenStep.same rfl rfl rfl

theorem open_receive {α : Type} (c : Codec α) (n : Nat) (w : World F) (hw : Open w) : Post (udp_blocking_receive c n) w fun r w' =>
    match r with
    | .ok _ => Open w' ∧ w'.ker.udpRx = []
    | .err _ => Open w' ∧ w'.ker.udpRx = []
    | _ => True := by
  refine ((blocking_receive_spec c n w).and ((pres_udp_blocking_receive (T := Suffix) c n).post w)).mono ?_
  rintro r w' ⟨h, hs⟩
  have ho : w'.ker.udpRx = [] → Open w' ∧ w'.ker.udpRx = [] := fun h => ⟨⟨hw.nofail.suffix hs, fun hne => absurd h hne⟩, h⟩
  cases r with
  | ok a =>
    obtain ⟨d, ds, rest, -, -, -, -, h5⟩ := h
    exact ho (h5 hw.nofail)
  | err e =>
    rcases h with ⟨-, -, -, h3⟩ | ⟨d, ds, -, -, -, h4, -⟩ | ⟨h1, -⟩
    · exact ho (h3 hw.ready)
    · exact ho (h4 hw.nofail)
    · exact absurd hw.nofail h1
  | panic m => trivial
  | blocked => trivial

/-- Everything that waits is read, if it has the size of a state. -/
theorem open_discard (w : World F) (hw : Open w) : Post (Gripper.discard_available : Prog F Unit) w fun r w' =>
    match r with
    | .ok _ => Open w' ∧ (GripperSize (w.ker.udpRx ++ udpArrived w.script) → w'.ker.udpRx = [])
    | .err _ => False
    | _ => True := by
  unfold Gripper.discard_available
  refine loop_post (fun _ w' => Open w' ∧ Conserve w w') ⟨hw, Pre.refl _⟩ ?_ (fun _ _ _ => trivial)
  rintro ⟨⟩ w1 ⟨h1, hc⟩
  rw [post_bind]
  unfold udp_receive udp_peek
  simp only [post_bind, post_sys]
  refine ⟨fun _ => trivial, ?_⟩
  intro t ts hs
  have h2 := open_tick w1 t ts hs h1
  have hf : t.fail = false := h1.nofail t (by rw [hs]; simp)
  have hc2 : Conserve w1 { w1 with script := ts, ker := w1.ker.arrive t } := TSys.tick w1 t ts hs
  simp only [after_ok, hf, Bool.false_eq_true, if_false, post_bind, post_gets]
  cases h : (w1.ker.arrive t).udpRx with
  | nil => exact ⟨h2, fun _ => h⟩
  | cons d ds =>
    simp only [post_pure, after_ok]
    rw [post_ite]
    refine ⟨fun _ => ?_, fun hl => ?_⟩
    · rw [post_bind, post_attempt]
      refine ((open_receive _ _ _ h2).and ((pres_udp_blocking_receive (T := Conserve (F := F)) _ _).post _)).mono ?_
      rintro r w2 ⟨h3, hc3⟩
      cases r with
      | ok a => exact ⟨h3.1, Pre.trans hc (Pre.trans hc2 hc3)⟩
      | err e => exact ⟨h3.1, fun _ => h3.2⟩
      | panic m => trivial
      | blocked => trivial
    · simp only [post_pure, after_ok]
      refine ⟨h2, fun hx => ?_⟩
      exfalso
      apply hl
      obtain ⟨used, es, c1, -, -, c4⟩ := Pre.trans hc hc2
      have : d.data.length = 23 := by
        apply hx
        rw [c1, udpArrived_append, ← List.append_assoc, c4]
        simp [h]
      rw [this]; decide

theorem keeps_open {α : Type} {p : Prog F α} (h : Pres OpenStep p) : Keeps (Open (F := F)) (fun _ => True) p := by
  intro w hw
  refine (h.post w).mono ?_
  intro r w' h
  cases r <;> first | exact h hw | trivial

instance : KeepGripper (F := F) Open (fun _ => True) where
  weak _ _ := trivial
  tick w t ts hs hw := open_tick w t ts hs hw
  tcp := keeps_open pres_tcp_read_from_buffer
  remove id := keeps_open (pres_remove_response id)
  grequest b := by
    refine keeps_open ?_
    unfold sendGripperRequest
    pres [pres_create_header_for_gripper _ _, pres_tcp_send_request_gripper _]
  greceive := by
    intro w hw
    refine (open_receive _ _ w hw).mono ?_
    intro r w' h
    cases r <;> first | exact h.1 | trivial
  gdiscard := by
    intro w hw
    refine (open_discard w hw).mono ?_
    intro r w' h
    cases r <;> first | exact h.1 | exact h.elim | trivial

theorem session_open (cs : List (GripperCall F)) (w : World F) (hw : Fresh w) (hn : NoFail w.script) : Post (gripperSession cs) w fun r w' => match r with
    | .ok _ => Open w'
    | _ => True := by
  refine post_gripperSession (I := Open) (J := fun _ => True) cs w ?_
  refine post_gripper_new (I := Open) (J := fun _ => True) w (fun _ _ => trivial) ?_ (fun b => (inferInstance : KeepGripper (F := F) Open (fun _ => True)).grequest b) ?_
  · intro t ts v hs
    exact OpenStep.same (w := { w with script := ts, ker := w.ker.arrive t }) rfl rfl rfl (open_tick w t ts hs ⟨hn, fun h => absurd (by rw [hw.2]) h⟩)
  · intro w v h
    exact OpenStep.same (w := w) rfl rfl rfl h

/-- The datagram a gripper state is made from, and which datagrams are passed over. -/
theorem gripper_read_new (w w' : World F) (st : Gripper.GripperState F) (hw : Open w) (hx : GripperSize (w.ker.udpRx ++ udpArrived w.script))
    (h : Gripper.read_once w = (.ok st, w')) :
    ∃ ds d s, datagrams w'.trace = datagrams w.trace ++ w.ker.udpRx ++ ds ++ [d] ∧ GripperStateLayout d.data s ∧ st = Gripper.GripperState.ofIntern s := by
  obtain ⟨ds, d, s, h1, h2, h3⟩ := gripper_read w w' st hx h
  suffices h : ∃ pre d', datagrams w'.trace = datagrams w.trace ++ w.ker.udpRx ++ pre ++ [d'] by
    obtain ⟨pre, d', h4⟩ := h
    rw [h4] at h1
    obtain rfl : d' = d := by
      have := congrArg List.getLast? h1
      simpa using this
    exact ⟨pre, d', s, h4, h2, h3⟩
  refine Post.reach (Q := fun r w' => ∀ st, r = .ok st → ∃ pre d', datagrams w'.trace = datagrams w.trace ++ w.ker.udpRx ++ pre ++ [d']) ?_ h st rfl
  unfold Gripper.read_once
  have hd : Pres Conserve (Gripper.discard_available : Prog F Unit) := by
    unfold Gripper.discard_available
    pres [pres_udp_receive _ _]
  refine ((open_discard w hw).and (hd.post w)).bind ?_
  rintro r w1 ⟨h1, hc⟩
  cases r with
  | ok _ =>
    rw [after_ok]
    refine (blocking_receive_spec _ _ w1).bind ?_
    intro r w2 h2
    cases r with
    | ok s =>
      obtain ⟨d, ds, rest, g1, -⟩ := h2
      rintro st -
      obtain ⟨used, es, -, c2, -, c4⟩ := hc
      rw [h1.2 hx, List.append_nil] at c4
      refine ⟨udpArrived used ++ (d :: ds).dropLast, (d :: ds).getLast (by simp), ?_⟩
      show datagrams w2.trace = _
      rw [g1, datagrams_append, datagrams_map, c2, datagrams_append, ← c4]
      simp only [List.append_assoc]
      rw [List.dropLast_concat_getLast]
    | err e => intro st hst; cases hst
    | panic m => intro st hst; cases hst
    | blocked => intro st hst; cases hst
  | err e => exact h1.elim
  | panic m => intro st hst; cases hst
  | blocked => intro st hst; cases hst

end Verif
