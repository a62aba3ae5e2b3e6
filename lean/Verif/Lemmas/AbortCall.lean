import Verif.Lemmas.CoopCall
import Verif.Lemmas.SafeControl
import Verif.Spec.Abort
/-!
# A control call with a robot that aborts the motion
-/
set_option linter.unusedSectionVars false
namespace Verif
open Prog Spec
variable {F : Type} [Fl F] [Wire F] [Geo F]
variable {σ : Type} {k : MotionKind} {call : ControlCall F σ k} {c0 : σ} {L : Nat} {s : RobotStateIntern F} {w : World F}

/-- The result is an error or a panic, with this property. -/
def Fails {α : Type} (Q : FrankaException F ⊕ String → World F → Prop) : Res F α → World F → Prop
  | .err e, w => Q (.inl e) w
  | .panic m, w => Q (.inr m) w
  | _, _ => False

theorem Fails.bind {α β : Type} {Q : FrankaException F ⊕ String → World F → Prop} {p : Prog F α} {f : α → Prog F β} (h : Post p w (Fails Q)) :
    Post (p >>= f) w (Fails Q) := by
  refine h.bind ?_
  intro r w' h
  cases r with
  | ok _ => exact h.elim
  | err e => exact h
  | panic m => exact h
  | blocked => exact h.elim

/-! ## The answers -/

theorem move_reply_frame {id : UInt32} {status : MoveStatus} {m : Bytes} (h : IsMoveReply id status m) : IsFrame .Robot id m ∧ m.length = 13 ∧
    KnownCommand .Robot m ∧ MoveResponse.codec.dec m = some (⟨⟨.Move, id, 13⟩, status⟩, []) := by
  unfold IsMoveReply at h
  subst h
  generalize hx : (⟨⟨.Move, id, 13⟩, status⟩ : MoveResponse) = a
  have hid : a.header.command_id = id := by rw [← hx]
  have hsz : a.header.size = 13 := by rw [← hx]
  have hl : (MoveResponse.codec.enc a).length = 13 := MoveResponse.codec_lawful.len a
  have ha : At (MoveResponse.codec.enc a) 0 (MoveResponse.codec.enc a) := ⟨[], [], by simp, rfl⟩
  obtain ⟨hh, -⟩ := At.seq ha (m := 12) (RobotCommandHeader.codec_lawful.len _)
  obtain ⟨hc, hh⟩ := At.seq hh (m := 4) (RobotCommandEnum.codec_lawful.len _)
  obtain ⟨hi, hz⟩ := At.seq hh (m := 4) (Codec.u32_lawful.len _)
  refine ⟨⟨by rw [hl]; decide, ?_, ?_⟩, hl, ?_, by simpa using MoveResponse.codec_lawful.rt a []⟩
  · have := At.nat4 hz
    unfold sizeAt
    rw [hl]
    simpa [hsz] using this
  · have := At.nat4 hi
    unfold idAt
    simpa [hid] using this
  · have := At.nat4 hc
    unfold KnownCommand
    show natAt _ 0 4 < 14
    rw [this]
    exact (by intro c; cases c <;> decide : ∀ c : RobotCommandEnum, c.toTag.toNat < 14) _

theorem stop_answer_frame {id : UInt32} {m : Bytes} (h : IsStopAnswer id m) : IsFrame .Robot id m ∧ m.length = 13 ∧
    KnownCommand .Robot m ∧ StopMoveResponse.codec.dec m = some (⟨⟨.StopMove, id, 13⟩, .Success⟩, []) := by
  unfold IsStopAnswer at h
  subst h
  generalize hx : (⟨⟨.StopMove, id, 13⟩, .Success⟩ : StopMoveResponse) = a
  have hid : a.header.command_id = id := by rw [← hx]
  have hsz : a.header.size = 13 := by rw [← hx]
  have hl : (StopMoveResponse.codec.enc a).length = 13 := StopMoveResponse.codec_lawful.len a
  have ha : At (StopMoveResponse.codec.enc a) 0 (StopMoveResponse.codec.enc a) := ⟨[], [], by simp, rfl⟩
  obtain ⟨hh, -⟩ := At.seq ha (m := 12) (RobotCommandHeader.codec_lawful.len _)
  obtain ⟨hc, hh⟩ := At.seq hh (m := 4) (RobotCommandEnum.codec_lawful.len _)
  obtain ⟨hi, hz⟩ := At.seq hh (m := 4) (Codec.u32_lawful.len _)
  refine ⟨⟨by rw [hl]; decide, ?_, ?_⟩, hl, ?_, by simpa using StopMoveResponse.codec_lawful.rt a []⟩
  · have := At.nat4 hz
    unfold sizeAt
    rw [hl]
    simpa [hsz] using this
  · have := At.nat4 hi
    unfold idAt
    simpa [hid] using this
  · have := At.nat4 hc
    unfold KnownCommand
    show natAt _ 0 4 < 14
    rw [this]
    exact (by intro c; cases c <;> decide : ∀ c : RobotCommandEnum, c.toTag.toNat < 14) _

/-! ## The loop -/

theorem broken_end {s sB : RobotStateIntern F} {tr : List (Ev F)} (h : Run call c0 (.broken s) tr (.broken sB)) (hn : NoRequest tr) : tr = [] ∧ s = sB := by
  cases tr with
  | nil =>
    have := h.nil_inv
    injection this with this
    exact ⟨rfl, this.symm⟩
  | cons e tr =>
    obtain ⟨ph, hs, -⟩ := h.cons_inv
    cases hs with
    | stop => exact absurd List.mem_cons_self (hn _)

theorem refused_not_broken {s sB : RobotStateIntern F} {tr : List (Ev F)} (h : Run call c0 (.refused s) tr (.broken sB)) : False := by
  cases tr with
  | nil => cases h.nil_inv
  | cons e tr =>
    obtain ⟨ph, hs, -⟩ := h.cons_inv
    cases hs with
    | stop _ _ hm _ => exact hm

theorem finishing_not_broken {sB : RobotStateIntern F} (n : Nat) : ∀ {tr : List (Ev F)} {s m t}, tr.length ≤ n → Run call c0 (.finishing s m t) tr (.broken sB) →
    NoRequest tr → False := by
  induction n with
  | zero =>
    intro tr s m t hl h _
    rw [List.length_eq_zero_iff.1 (Nat.le_zero.1 hl)] at h
    cases h.nil_inv
  | succ n ih =>
    intro tr s m t hl h hn
    cases tr with
    | nil => cases h.nil_inv
    | cons e tr =>
      obtain ⟨ph, hs, h⟩ := h.cons_inv
      cases hs with
      | stop => exact absurd List.mem_cons_self (hn _)
      | finish =>
        cases tr with
        | nil => cases h.nil_inv
        | cons e tr =>
          obtain ⟨ph, hs, h⟩ := h.cons_inv
          cases hs with
          | stop => exact absurd (List.mem_cons_of_mem _ List.mem_cons_self) (hn _)
          | finishNext => exact ih (by simp at hl; omega) h hn.tail.tail

/-- After the decision of the callbacks comes a command and a state, which may be the last. -/
theorem decided_broken {c : σ} {m : MotionGeneratorCommand F} {t : ControllerCommand F} {tr : List (Ev F)} {sB : RobotStateIntern F}
    (h : Run call c0 (.decided c s m t) tr (.broken sB)) (hn : NoRequest tr) : ∃ a s' tr', tr = .udpSend a ⟨s.message_id, m, t⟩ :: .accepted s' :: tr' ∧
      s.message_id < s'.message_id ∧ (Healthy k call.controller s' ∧ Run call c0 (.ready c s' (RobotState.ofIntern s).time m t) tr' (.broken sB) ∨
        ¬ Healthy k call.controller s' ∧ tr' = [] ∧ s' = sB) := by
  cases tr with
  | nil => cases h.nil_inv
  | cons e tr =>
    obtain ⟨ph, hs, h⟩ := h.cons_inv
    cases hs with
    | stop => exact absurd List.mem_cons_self (hn _)
    | send _ _ _ _ a =>
      cases tr with
      | nil => cases h.nil_inv
      | cons e tr =>
        obtain ⟨ph, hs, h⟩ := h.cons_inv
        cases hs with
        | stop => exact absurd (List.mem_cons_of_mem _ List.mem_cons_self) (hn _)
        | next _ _ _ _ s' h1 h2 => exact ⟨_, _, _, rfl, h1, .inl ⟨h2, h⟩⟩
        | nextBroken _ _ _ _ s' h1 h2 => exact ⟨_, _, _, rfl, h1, .inr ⟨h2, broken_end h hn.tail.tail⟩⟩

/-- The records of the cycles are logged. -/
def LogsTo (l : Logger F) (ps : List (RobotState F × RobotCommand F)) (l' : Logger F) : Prop := ps.foldlM (fun l p => l.log p.1 p.2) l = .ok l'

theorem LogsTo.nil (l : Logger F) : LogsTo l [] l := rfl

theorem LogsTo.cons {l l1 l2 : Logger F} {p : RobotState F × RobotCommand F} {ps : List (RobotState F × RobotCommand F)} (h : l.log p.1 p.2 = .ok l1)
    (h' : LogsTo l1 ps l2) : LogsTo l (p :: ps) l2 := by
  unfold LogsTo at *
  rw [List.foldlM_cons]
  exact (congrArg (· >>= _) h).trans h'

/-- The events `tr` have happened and the last state shows that the motion is not executed any more. -/
structure Broke (call : ControlCall F σ k) (L : Nat) (tr : List (Ev F)) (ts rest : List Tick) (sB : RobotStateIntern F) (w w1 : World F) : Prop where
  steady : Steady call L sB w1
  sick : ¬ Healthy k call.controller sB
  moves : ∃ es, Moves ts es w w1 ∧ List.Forall₂ Alike tr es
  script : w1.script = rest
  rx : w1.ker.udpRx = []
  log : LogsTo w.rob.logger (cycles tr) w1.rob.logger

/-- One cycle, with the log. -/
theorem update_logged (m : MotionGeneratorCommand F) (o : Option (ControllerCommand F)) {t : Tick} {ts rest : List Tick} {s' : RobotStateIntern F}
    (hs : w.script = t :: ts ++ rest) (hf : Fine [t]) (h : Steady call L s w) (ho : o.isSome = true ↔ controllerOf call.controller = .ExternalController)
    (hq : w.ker.udpRx = []) (ha : StateArrives s' t.udpIn ts) (hnew : s.message_id < s'.message_id) :
    Post (update (some m) o) w fun r w' => ∃ a, r = .ok (RobotState.ofIntern s') ∧
      Moves (t :: ts) [.udpSend a ⟨s.message_id, m, o.getD noTorques⟩, .accepted s'] w w' ∧ w'.script = rest ∧ Steady call L s' w' ∧ w'.ker.udpRx = [] ∧
      w.rob.logger.log (RobotState.ofIntern s') ⟨s.message_id, m, o.getD noTorques⟩ = .ok w'.rob.logger := by
  refine ((update_supplied m o hs hf h ho hq ha hnew).and (update_some_view m o w _ (by rw [h.generator]; exact generator_not_idle k) h.controller ho)).mono ?_
  rintro r w' ⟨⟨a, rfl, h1, h2, h3, h4⟩, -, b, s2, l, e1, e2, -, e4, -⟩
  refine ⟨a, rfl, h1, h2, h3, h4, ?_⟩
  rw [e1, e4]
  rw [h.last.2.2] at e2
  exact e2

theorem motion_loop_broken (hfit : call.torque = none) (ho : controllerOf call.controller ≠ .ExternalController) {id : UInt32} {rest : List Tick}
    {sB : RobotStateIntern F} {Q : FrankaException F ⊕ String → World F → Prop} (n : Nat) :
    ∀ (tr : List (Ev F)) (c : σ) (s : RobotStateIntern F) (prev : Nat) (m : MotionGeneratorCommand F) (ts : List Tick) (w : World F), tr.length ≤ n →
    Steady call L s w → w.ker.udpRx = [] → w.script = ts ++ rest → Supplies [] tr ts →
    Run call c0 (.ready c s prev m noTorques) tr (.broken sB) → NoRequest tr →
    (∀ w1, Broke call L tr ts rest sB w w1 → Post (throw_on_motion_error (RobotState.ofIntern sB) id) w1 (Fails Q)) →
    Post ((loopOf call id).motion_loop ⟨c, RobotState.ofIntern s, prev, m, noTorques⟩) w (Fails Q) := by
  induction n with
  | zero =>
    intro tr c s prev m ts w hn _ _ _ _ hr _ _
    rw [List.length_eq_zero_iff.1 (Nat.le_zero.1 hn)] at hr
    cases hr.nil_inv
  | succ n ih =>
    intro tr c s prev m ts w hn hw hq hs hsup hr hnr hthrow
    cases tr with
    | nil => cases hr.nil_inv
    | cons e tr =>
    obtain ⟨ph, hst, hr'⟩ := hr.cons_inv
    have hu : (loopOf call id).motion_loop ⟨c, RobotState.ofIntern s, prev, m, noTorques⟩ = _ := loop_unfold (consumes_motion_loop (loopOf call id)) _
    rw [hu]
    simp only [post_bind]
    cases hst with
    | motion _ _ _ _ _ dt c' out m' h1 h2 h3 h4 h5 h6 =>
      subst h3
      obtain ⟨a, s', tr', rfl, g1, g2⟩ := decided_broken hr' hnr.tail
      obtain ⟨t, ts1, ts2, rfl, k1, k2, k3⟩ := supplies_cycle (supplies_cb hsup trivial)
      rw [durSub_ok h2, post_liftP_ok, after_ok, post_bind]
      refine (spin_motion_ok h4 h5 w).mono ?_
      rintro r w1 ⟨rfl, hw1⟩
      have hst1 : Steady call L s w1 := hw.congr (by rw [hw1])
      have hq1 : w1.ker.udpRx = [] := by rw [hw1]; exact hq
      have hs1 : w1.script = w.script := by rw [hw1]
      have hl1 : w1.rob.logger = w.rob.logger := by rw [hw1]
      have hm1 : Moves [] [.motionCb k (RobotState.ofIntern s) ((RobotState.ofIntern s).time - prev) out] w w1 := hw1 ▸ Moves.event w rfl
      simp only [after_ok, h6, Bool.not_false, if_true, post_bind]
      refine (update_logged (call := call) (L := L) (s := s) m' none (t := t) (ts := ts1) (rest := ts2 ++ rest) (s' := s') (by rw [hs1, hs]; simp) k1 hst1
        (by simp [ho]) hq1 (by simpa using k2) g1).mono ?_
      rintro r w2 ⟨b, rfl, m1, s1, st1, q1, lg1⟩
      rw [after_ok, post_bind]
      have hm := hm1.trans m1
      have hal : List.Forall₂ Alike [.motionCb k (RobotState.ofIntern s) ((RobotState.ofIntern s).time - prev) out, .udpSend a ⟨s.message_id, m', noTorques⟩, .accepted s']
          ([.motionCb k (RobotState.ofIntern s) ((RobotState.ofIntern s).time - prev) out] ++ [.udpSend b ⟨s.message_id, m', Option.getD none noTorques⟩, .accepted s']) :=
        .cons rfl (.cons ⟨b, rfl⟩ (.cons rfl .nil))
      rw [hl1] at lg1
      rcases g2 with ⟨g2, g3⟩ | ⟨g2, rfl, rfl⟩
      · refine (st1.motion_ok id g2).mono ?_
        rintro r w2 ⟨rfl, rfl⟩
        rw [after_ok, post_pure, after_ok]
        refine ih tr' c' s' (RobotState.ofIntern s).time m' ts2 w2 (by simp at hn; omega) st1 q1 s1 k3 g3 hnr.tail.tail.tail ?_
        rintro w3 ⟨p1, p2, ⟨es, p3, p4⟩, p5, p6, p7⟩
        exact hthrow w3 ⟨p1, p2, ⟨_, by simpa using hm.trans p3, List.rel_append hal p4⟩, p5, p6, .cons lg1 p7⟩
      · cases k3
        refine Post.mono (hthrow w2 ⟨st1, g2, ⟨_, by simpa using hm, hal⟩, by simpa using s1, q1, .cons lg1 (.nil _)⟩) ?_
        intro r w3 h
        cases r with
        | ok _ => exact h.elim
        | err e => exact h
        | panic m => exact h
        | blocked => exact h.elim
    | motionFirst _ _ _ _ _ dt c' out m' h1 h2 h3 h4 h5 h6 => exact absurd hfit h1
    | motionEnd => exact (finishing_not_broken _ (Nat.le_refl _) hr' hnr.tail).elim
    | motionRefused => exact (refused_not_broken hr').elim
    | stop _ _ hm _ => exact hm.elim

theorem torque_loop_broken {f : σ → RobotState F → Nat → σ × Torques F} (hfit : call.torque = some f) (ho : controllerOf call.controller = .ExternalController)
    {id : UInt32} {rest : List Tick} {sB : RobotStateIntern F} {Q : FrankaException F ⊕ String → World F → Prop} (n : Nat) :
    ∀ (tr : List (Ev F)) (c : σ) (s : RobotStateIntern F) (prev : Nat) (m : MotionGeneratorCommand F) (t0 : ControllerCommand F) (ts : List Tick) (w : World F),
    tr.length ≤ n → Steady call L s w → w.ker.udpRx = [] → w.script = ts ++ rest → Supplies [] tr ts →
    Run call c0 (.ready c s prev m t0) tr (.broken sB) → NoRequest tr →
    (∀ w1, Broke call L tr ts rest sB w w1 → Post (throw_on_motion_error (RobotState.ofIntern sB) id) w1 (Fails Q)) →
    Post ((loopOf call id).torque_loop f ⟨c, RobotState.ofIntern s, prev, m, t0⟩) w (Fails Q) := by
  induction n with
  | zero =>
    intro tr c s prev m t0 ts w hn _ _ _ _ hr _ _
    rw [List.length_eq_zero_iff.1 (Nat.le_zero.1 hn)] at hr
    cases hr.nil_inv
  | succ n ih =>
    intro tr c s prev m t0 ts w hn hw hq hs hsup hr hnr hthrow
    cases tr with
    | nil => cases hr.nil_inv
    | cons e tr =>
    obtain ⟨ph, hst, hr'⟩ := hr.cons_inv
    have hu : (loopOf call id).torque_loop f ⟨c, RobotState.ofIntern s, prev, m, t0⟩ = _ := loop_unfold (consumes_torque_loop (loopOf call id) f) _
    rw [hu]
    simp only [post_bind]
    cases hst with
    | motion _ _ _ _ _ dt c' out m' h1 h2 h3 h4 h5 h6 =>
      rw [hfit] at h1
      cases h1
    | motionFirst _ _ _ _ _ dt c' out m' h1 h2 h3 h4 h5 h6 =>
      subst h3
      rw [durSub_ok h2, post_liftP_ok, after_ok, post_bind]
      refine (spin_motion_ok h4 h5 w).mono ?_
      rintro r w1 ⟨rfl, hw1⟩
      have hst1 : Steady call L s w1 := hw.congr (by rw [hw1])
      have hq1 : w1.ker.udpRx = [] := by rw [hw1]; exact hq
      have hs1 : w1.script = w.script := by rw [hw1]
      have hl1 : w1.rob.logger = w.rob.logger := by rw [hw1]
      have hm1 : Moves [] [.motionCb k (RobotState.ofIntern s) ((RobotState.ofIntern s).time - prev) out] w w1 := hw1 ▸ Moves.event w rfl
      simp only [after_ok, h6, Bool.not_false, if_true, post_bind]
      cases tr with
      | nil => cases hr'.nil_inv
      | cons e2 tr =>
      obtain ⟨ph, hst, hr2⟩ := hr'.cons_inv
      simp only [post_liftP_ok, after_ok, post_bind]
      cases hst with
      | torque g _ _ _ _ _ dt c2 out2 τ i0 i1 i2 i3 i4 i5 =>
        subst i2
        rw [hfit] at i0
        cases i0
        obtain ⟨a, s', tr', rfl, g1, g2⟩ := decided_broken hr2 hnr.tail.tail
        obtain ⟨t, ts1, ts2, rfl, k1, k2, k3⟩ := supplies_cycle (supplies_cb (supplies_cb hsup trivial) trivial)
        refine (spin_control_ok i3 i4 _).mono ?_
        rintro r w2 ⟨rfl, hw2⟩
        have hst2 : Steady call L s w2 := hst1.congr (by rw [hw2])
        have hq2 : w2.ker.udpRx = [] := by rw [hw2]; exact hq1
        have hs2 : w2.script = w.script := by rw [hw2]; exact hs1
        have hl2 : w2.rob.logger = w.rob.logger := by rw [hw2]; exact hl1
        have hm2 := hm1.trans (hw2 ▸ Moves.event w1 rfl : Moves [] [.controlCb (RobotState.ofIntern s) ((RobotState.ofIntern s).time - prev) out2] w1 w2)
        simp only [after_ok, i5, Bool.not_false, if_true, post_bind]
        refine (update_logged (call := call) (L := L) (s := s) m' (some { tau_J_d := τ }) (t := t) (ts := ts1) (rest := ts2 ++ rest) (s' := s') (by rw [hs2, hs]; simp) k1
          hst2 (by simp [ho]) hq2 (by simpa using k2) g1).mono ?_
        rintro r w3 ⟨b, rfl, m1, s1, st1, q1, lg1⟩
        rw [after_ok, post_bind]
        have hm := hm2.trans m1
        rw [hl2] at lg1
        have hal : List.Forall₂ Alike [.motionCb k (RobotState.ofIntern s) ((RobotState.ofIntern s).time - prev) out,
            .controlCb (RobotState.ofIntern s) ((RobotState.ofIntern s).time - prev) out2, .udpSend a ⟨s.message_id, m', { tau_J_d := τ }⟩, .accepted s']
            ([.motionCb k (RobotState.ofIntern s) ((RobotState.ofIntern s).time - prev) out] ++
              [.controlCb (RobotState.ofIntern s) ((RobotState.ofIntern s).time - prev) out2] ++
              [.udpSend b ⟨s.message_id, m', Option.getD (some { tau_J_d := τ }) noTorques⟩, .accepted s']) :=
          .cons rfl (.cons rfl (.cons ⟨b, rfl⟩ (.cons rfl .nil)))
        rcases g2 with ⟨g2, g3⟩ | ⟨g2, rfl, rfl⟩
        · refine (st1.motion_ok id g2).mono ?_
          rintro r w3 ⟨rfl, rfl⟩
          rw [after_ok, post_pure, after_ok]
          refine ih tr' c2 s' (RobotState.ofIntern s).time m' _ ts2 w3 (by simp at hn; omega) st1 q1 s1 k3 g3 hnr.tail.tail.tail.tail ?_
          rintro w4 ⟨p1, p2, ⟨es, p3, p4⟩, p5, p6, p7⟩
          exact hthrow w4 ⟨p1, p2, ⟨_, by simpa using hm.trans p3, by simpa using List.rel_append hal p4⟩, p5, p6, .cons lg1 p7⟩
        · cases k3
          refine Post.mono (hthrow w3 ⟨st1, g2, ⟨_, by simpa using hm, by simpa using hal⟩, by simpa using s1, q1, .cons lg1 (.nil _)⟩) ?_
          intro r w3 h
          cases r with
          | ok _ => exact h.elim
          | err e => exact h
          | panic m => exact h
          | blocked => exact h.elim
      | torqueEnd => exact (finishing_not_broken _ (Nat.le_refl _) hr2 hnr.tail.tail).elim
      | torqueRefused => exact (refused_not_broken hr2).elim
      | stop _ _ hm _ => exact hm.elim
    | motionEnd => exact (finishing_not_broken _ (Nat.le_refl _) hr' hnr.tail).elim
    | motionRefused => exact (refused_not_broken hr').elim
    | stop _ _ hm _ => exact hm.elim

/-! ## The report -/

/-- What the robot reported and what became of it. -/
def Report (checks : Bool) (status : MoveStatus) (msg : String) (sB : RobotStateIntern F) (l : Logger F) : FrankaException F ⊕ String → Prop
  | .inl e => ∃ log l', l.flush = .ok (log, l') ∧
      create_control_exception checks ("\"" ++ msg ++ "\"") status (RobotState.ofIntern sB : RobotState F).last_motion_errors log = .ok e
  | .inr m => ∃ log l', l.flush = .ok (log, l') ∧
      create_control_exception checks ("\"" ++ msg ++ "\"") status (RobotState.ofIntern sB : RobotState F).last_motion_errors log = .error m

/-- The state shows that the motion is not executed any more: the answer of the robot is reported. -/
theorem throw_supplied {id : UInt32} {status : MoveStatus} {msg : String} {m0 : Bytes} {p : Plan} {sB : RobotStateIntern F} (hw : Steady call L sB w)
    (hn : ¬ Healthy k call.controller sB) (hs : w.script = p.closing ++ p.rest) (heof : w.ker.tcpEof = false) (hp : w.net.pending_response = [])
    (habs : w.net.received_responses id = none) (hnt : w.cfg.network_type = .Robot) (hm : IsMoveReply id status m0) (hmsg : abortMessage status = some msg)
    (hf : Fine p.closing) (hsil : TcpSilent [p.l2, p.l3, p.l4]) (hedge : w.ker.tcpRx ≠ [] → w.ker.tcpEdge = true) (hq : w.ker.udpRx = [])
    (hrx : w.ker.tcpRx = [] ∧ TcpSilent p.await ∧ p.l1.tcpIn = m0 ∨ w.ker.tcpRx = m0 ∧ p.await = [] ∧ p.l1.tcpIn = []) :
    Post (throw_on_motion_error (RobotState.ofIntern sB) id) w (Fails fun e w' => Report w.cfg.overflow_checks status msg sB w.rob.logger e ∧ ∀ x, e = .inl x →
      Steady call L sB w' ∧ w'.script = p.rest ∧ w'.ker.tcpRx = [] ∧ w'.ker.tcpEof = false ∧ w'.net.pending_response = [] ∧
      w'.net.received_responses = w.net.received_responses ∧ w'.net.command_id = w.net.command_id ∧ w'.cfg = w.cfg ∧ visible w'.trace = visible w.trace ∧
      w'.ker.udpRx = udpArrived p.closing ∧ (w'.ker.udpRx ≠ [] → w'.ker.udpEdge = true)) := by
  have hne : motion_error (RobotState.ofIntern sB : RobotState F) w = (.ok true, w) := by
    obtain ⟨h1, h2, -⟩ := hw.last
    apply Post.eq
    unfold motion_error
    unfold Healthy ShowsModes at hn
    have hmode : (RobotState.ofIntern sB : RobotState F).robot_mode = sB.robot_mode := rfl
    simp only [post_bind, post_gets, after_ok, h1, unwrapOpt, post_pure, post_ite, h2, hmode, hw.generator, hw.controller]
    by_cases ha : sB.robot_mode = .Move <;> by_cases hb : sB.motion_generator_mode = generatorOf k <;>
      by_cases hc : sB.controller_mode = controllerOf call.controller <;> simp_all
  unfold throw_on_motion_error
  rw [post_bind, post_of_eq hne]
  simp only [after_ok, if_true, post_bind]
  obtain ⟨f1, f2, f3, f4⟩ := move_reply_frame hm
  have hm0 : m0 ≠ [] := by rintro rfl; simp at f2
  refine (reply_supplied f1 (by omega) f3 f4 (q := p.await) (l1 := p.l1) (l2 := p.l2) (l3 := p.l3) (l4 := p.l4) (rest := p.rest) (w := w) (by rw [hs]; simp [Plan.closing]) hf ?_
    heof hp habs hnt ?_).mono ?_
  · intro x hx
    rcases List.mem_append.1 hx with hx | hx
    · rcases hrx with ⟨-, h, -⟩ | ⟨-, h, -⟩
      · exact h x hx
      · rw [h] at hx; cases hx
    · exact hsil x hx
  · rcases hrx with ⟨h1, h2, h3⟩ | ⟨h1, h2, h3⟩
    · exact .inl ⟨h1, h3⟩
    · exact .inr ⟨h2, h1, h3, hedge (by rw [h1]; exact hm0)⟩
  rintro r w1 ⟨rfl, j0, j1, j2, j3, j4, j5, j6, j7, j8, j9, j10⟩
  have hh := handle_move (F := F) ⟨⟨.Move, id, 13⟩, status⟩
  rw [after_ok]
  cases hx : (handle_command_response_move ⟨⟨.Move, id, 13⟩, status⟩ : Except (FrankaException F) Unit) with
  | ok _ =>
    rw [hx] at hh
    rw [show (⟨⟨.Move, id, 13⟩, status⟩ : MoveResponse).status = status from rfl, hmsg] at hh; cases hh
  | error e =>
    rw [hx] at hh
    obtain ⟨msg', h1, rfl⟩ := hh
    rw [show (⟨⟨.Move, id, 13⟩, status⟩ : MoveResponse).status = status from rfl, hmsg] at h1
    cases h1
    have hw1 : Steady call L sB w1 := hw.congr j5
    obtain ⟨h1, ⟨q, hq', hk⟩, h2⟩ := hw.logger
    have he := Logger.flush_eq hq' hk
    have hl : w1.rob.logger = w.rob.logger := by rw [j5]
    unfold fail_with_log flush_logger
    rw [post_bind, post_bind, post_gets, after_ok, hl, he]
    simp only [post_bind, post_liftP_ok, after_ok, post_modify, post_pure, post_gets]
    rw [post_liftP]
    refine ⟨fun e hce => ?_, fun m hce => ?_⟩
    · rw [after_ok, post_err]
      refine ⟨⟨_, _, he, by rw [← j6]; exact hce⟩, fun x _ => ?_⟩
      refine ⟨⟨⟨hw1.last.1, hw1.last.2.1, hw1.last.2.2⟩, hw1.generator, hw1.controller, hw.logger.flush he, hw1.size⟩, j1, j2, j8, j3, j4, j0, j6, j7, ?_, ?_⟩
      · rw [j9, hq]; rfl
      · exact j10 fun h => absurd hq h
    · exact ⟨⟨_, _, he, by rw [← j6]; exact hce⟩, fun x hx => by cases hx⟩

/-! ## Stopping -/

theorem consumes_cancel : Consumes (fun _ : Unit => (do
    if ← something_running then do
      let _ ← attempt receive_robot_state
      pure (.inl ())
    else pure (.inr ()) : Prog F (Unit ⊕ Unit))) := consumes_cancel_loop

/-- States are received until one shows that the robot stands still. -/
theorem cancel_loop_supplied (halting : List (RobotStateIntern F)) : ∀ (s : RobotStateIntern F) (ts rest : List Tick) (w : World F) (sE : RobotStateIntern F),
    Steady call L s w → w.ker.udpRx = [] → w.script = ts ++ rest → Supplies [] (halting.map .accepted) ts →
    Run call c0 (.stopping s) (halting.map .accepted) (.stopping sE) → (∀ x ∈ (s :: halting).dropLast, Running x) → ¬ Running sE →
    Post (cancel_loop : Prog F Unit) w fun r w' => r = .ok () ∧ Steady call L sE w' ∧ Moves ts (halting.map .accepted) w w' ∧ w'.script = rest ∧
      w'.ker.udpRx = [] := by
  induction halting with
  | nil =>
    intro s ts rest w sE hw hq hs hsup hr hrun hE
    have := hr.nil_inv
    injection this with this
    subst this
    cases hsup
    have hu : (cancel_loop : Prog F Unit) = _ := loop_unfold consumes_cancel_loop ()
    rw [hu, post_bind, post_bind, running_iff _ hw.last]
    refine ⟨fun h => absurd h hE, fun _ => ?_⟩
    simp only [after_ok, Bool.false_eq_true, if_false, post_pure]
    exact ⟨trivial, hw, Moves.nil w, hs, hq⟩
  | cons s1 halting ih =>
    intro s ts rest w sE hw hq hs hsup hr hrun hE
    obtain ⟨ph, hst, hr1⟩ := Run.cons_inv (e := .accepted s1) (tr := halting.map .accepted) hr
    cases hst with
    | stopped _ _ hlt =>
    obtain ⟨ts1, ts2, rfl, k1, k2⟩ := supplies_state (tr := halting.map .accepted) hsup
    have hu : (cancel_loop : Prog F Unit) = _ := loop_unfold consumes_cancel_loop ()
    rw [hu, post_bind, post_bind, running_iff _ hw.last]
    refine ⟨fun _ => ?_, fun h => absurd (hrun s (by simp)) h⟩
    simp only [after_ok, if_true, post_bind, post_attempt]
    refine (receive_supplied k1 (by rw [hs, List.append_assoc]) hq (fun h => absurd rfl h) (by rw [hw.last.2.2]; exact hlt)).mono ?_
    rintro r w1 ⟨rfl, m1, s1', r1, q1⟩
    simp only [tried_ok, after_ok, post_pure]
    refine Post.mono (ih s1 ts2 rest w1 sE (hw.next r1) q1 s1' k2 hr1 (fun x hx => hrun x ?_) hE) ?_
    · rw [List.dropLast_cons_of_ne_nil (by simp)]
      exact List.mem_cons_of_mem _ hx
    rintro r w2 ⟨rfl, g1, g2, g3, g4⟩
    exact ⟨rfl, g1, by simpa using m1.trans g2, g3, g4⟩

/-- StopMove is written and answered, and the robot stops. -/
theorem cancel_supplied {id : UInt32} {p : StopPlan} {sE : RobotStateIntern F} {q : List Datagram} {halting : List (RobotStateIntern F)} {m0 : Bytes}
    (hw : Steady call L s w) (hs : w.script = p.script) (hq : w.ker.udpRx = q) (hedge : q ≠ [] → w.ker.udpEdge = true) (hrx : w.ker.tcpRx = [])
    (heof : w.ker.tcpEof = false) (hp : w.net.pending_response = []) (habs : w.net.received_responses id = none)
    (habs2 : w.net.received_responses w.net.command_id = none) (hid : w.net.command_id ≠ 0xffffffff) (hnt : w.cfg.network_type = .Robot)
    (hf : Fine p.opening) (hf2 : Fine [p.look]) (hm : IsStopAnswer w.net.command_id m0) (hb : p.b1.tcpIn = m0)
    (hsil : TcpSilent (p.write :: p.ask ++ [p.b2, p.b3, p.b4])) (hsup : Supplies (q ++ udpArrived p.opening) (halting.map .accepted) p.halt)
    (hsil2 : TcpSilent (p.halt ++ [p.look])) (hr : Run call c0 (.stopping s) (halting.map .accepted) (.stopping sE)) (hh : Halts halting) :
    Post (cancel_motion id) w fun r w' => r = .ok () ∧ Ends L sE p.look.udpIn p.rest w w' ∧ w'.net.command_id = w.net.command_id + 1 ∧
      ∃ h : RobotCommandHeader, h.command = .StopMove ∧
      visible w'.trace = visible w.trace ++ .robotReq ⟨h, .StopMove⟩ :: halting.map .accepted := by
  have hexec : (execute_stop_command : Prog F UInt32) =
      sendRequest .StopMove >>= fun id => tcp_blocking_receive_response StopMoveResponse.codec id >>= fun a => ofExcept (handle_command_response_stop a) >>= fun _ => pure id := by
    unfold execute_stop_command sendRequest
    simp only [Prog.bind_assoc']; rfl
  have hs' : w.script = p.write :: (p.ask ++ p.b1 :: p.b2 :: p.b3 :: p.b4 :: (p.halt ++ p.look :: p.rest)) := by
    rw [hs]; simp [StopPlan.script, StopPlan.opening]
  unfold cancel_motion
  rw [hexec, post_bind, post_attempt, post_bind]
  refine (request_supplied _ hs' (hf p.write (by simp [StopPlan.opening])) hid hrx (hsil _ (by simp)) heof).mono ?_
  rintro r w1 ⟨rfl, g0, g1, g2, g3, g4, g5, g6, g7, g8, g9, hd, hdc, g10⟩
  rw [after_ok, post_bind]
  obtain ⟨f1, f2, f3, f4⟩ := stop_answer_frame hm
  refine (reply_supplied f1 (by omega) f3 f4 g1 (fun x hx => hf x (List.mem_cons_of_mem _ hx)) (fun x hx => hsil x (List.mem_cons_of_mem _ hx)) g5 (by rw [g6]; exact hp)
    (by rw [g7]; exact habs2) (by rw [g3]; exact hnt) (.inl ⟨g4, hb⟩)).mono ?_
  rintro r w2 ⟨rfl, j0, j1, j2, j3, j4, j5, j6, j7, j8, j9, j10⟩
  have hhs : (handle_command_response_stop ⟨⟨.StopMove, w.net.command_id, 13⟩, .Success⟩ : Except (FrankaException F) Unit) = .ok () := rfl
  have hw2 : Steady call L s w2 := hw.congr (j5.trans g2)
  have hq2 : w2.ker.udpRx = q ++ udpArrived p.opening := by
    rw [j9, g8, hq, List.append_assoc]; rfl
  have hedge2 : q ++ udpArrived p.opening ≠ [] → w2.ker.udpEdge = true := by
    rw [← hq2]
    exact j10 (g9 (by rw [hq]; exact hedge))
  simp only [after_ok, hhs, ofExcept, post_bind, post_pure, tried_ok, post_attempt]
  cases halting with
  | nil => obtain ⟨x, hx, -⟩ := hh.still; cases hx
  | cons s1 halting =>
  obtain ⟨ph, hst, hr1⟩ := Run.cons_inv (e := .accepted s1) (tr := halting.map .accepted) hr
  cases hst with
  | stopped _ _ hlt =>
  obtain ⟨ts1, ts2, hts, k1, k2⟩ := supplies_state (tr := halting.map .accepted) hsup
  refine (receive_supplied k1 (by rw [j1, hts, List.append_assoc]) hq2 hedge2 (by rw [hw2.last.2.2]; exact hlt)).mono ?_
  rintro r w3 ⟨rfl, m3, s3, r3, q3⟩
  simp only [tried_ok, after_ok, post_bind]
  have hE : ¬ Running sE := by
    obtain ⟨x, hx, hnx⟩ := hh.still
    have : ∀ (l : List (RobotStateIntern F)) (s0 : RobotStateIntern F), Run call c0 (.stopping s0) (l.map .accepted) (.stopping sE) → (s0 :: l).getLast? = some sE := by
      intro l
      induction l with
      | nil =>
        intro s0 h
        have := h.nil_inv
        injection this with this
        rw [this]; rfl
      | cons y l ih =>
        intro s0 h
        obtain ⟨ph, hst, h1⟩ := Run.cons_inv (e := .accepted y) (tr := l.map .accepted) h
        cases hst
        rw [List.getLast?_cons_cons]
        exact ih y h1
    rw [this halting s1 hr1] at hx
    cases hx
    exact hnx
  refine (cancel_loop_supplied halting s1 ts2 (p.look :: p.rest) w3 sE (hw2.next r3) q3 s3 k2 hr1 hh.moving hE).mono ?_
  rintro r w4 ⟨rfl, st4, m4, s4, q4⟩
  rw [after_ok]
  have hm4 := m3.trans m4
  unfold tcp_receive_response
  rw [post_bind, post_attempt, post_bind]
  have hts' : tcpArrived (ts1 ++ ts2) = [] := by
    rw [← hts]
    exact tcpArrived_silent fun x hx => hsil2 x (by simp [hx])
  refine (read_nothing s4 (by rw [hm4.tcp, j2, hts']; rfl) (by rw [hm4.eof]; exact j8) (hsil2 _ (by simp)) (hf2 _ (by simp)).2 (hf2 _ (by simp)).1).mono ?_
  rintro r w5 ⟨rfl, hw5⟩
  have habs5 : w5.net.received_responses id = none := by rw [hw5, hm4.table, j4, g7]; exact habs
  simp only [after_ok, post_bind, post_gets, habs5, post_pure, tried_ok, forget_motion, post_modify, true_and]
  obtain ⟨es, t1, t2⟩ := hm4.trace
  have hl := st4.last
  have hrx4 : w4.ker.tcpRx = [] := by rw [hm4.tcp, j2, hts']; rfl
  refine ⟨⟨by rw [hw5]; exact ⟨hl.1, hl.2.1, hl.2.2⟩, by rw [hw5]; exact st4.logger, by rw [hw5], ?_, ?_, by rw [hw5]; exact hm4.pending.trans j3,
    by rw [hw5]; exact hm4.table.trans (j4.trans g7), ?_, ?_⟩, by rw [hw5]; exact hm4.id.trans (j0.trans g0), hd, hdc, ?_⟩
  · rw [hw5]
    simp [Kernel.arrive, hrx4, hsil2 p.look (by simp)]
  · rw [hw5]
    simp [Kernel.arrive, hm4.eof, j8, (hf2 p.look (by simp)).2]
  · rw [hw5]
    simp [Kernel.arrive, q4]
  · rw [hw5]
    simp only [Kernel.arrive, q4, List.nil_append]
    intro h
    have : p.look.udpIn.isEmpty = false := by simpa using h
    simp [this]
  · rw [hw5]
    show visible w4.trace = _
    rw [t1, visible_append, t2, j7, g10, visible_append]
    simp [visible, isTcpEv, isUdpEv]

/-! ## The call -/

/-- The loop until the robot has aborted the motion. -/
theorem do_loop_broken (hfit : Fits call) {id : UInt32} {ts rest : List Tick} {sB first : RobotStateIntern F} {Q : FrankaException F ⊕ String → World F → Prop}
    {tr : List (Ev F)} (hw : Steady call L s w) (hq : w.ker.udpRx = []) (hs : w.script = ts ++ rest)
    (hsup : Supplies [] (.accepted first :: tr) ts) (hr : Run call c0 (.starting s) (.accepted first :: tr) (.broken sB))
    (hshow : ShowsModes k call.controller s) (hn : NoRequest tr)
    (hthrow : ∀ w1, Broke call L (.accepted first :: tr) ts rest sB w w1 → Post (throw_on_motion_error (RobotState.ofIntern sB) id) w1 (Fails Q)) :
    Post ((loopOf call id).do_loop c0) w (Fails Q) := by
  have hcy : ∀ tr : List (Ev F), cycles (.accepted first :: tr) = cycles tr := fun tr => cycles.eq_2 _ _ (by rintro a c s tr' h; cases h)
  unfold ControlLoop.do_loop
  rw [post_bind]
  obtain ⟨ts1, ts2, rfl, k1, k2⟩ := supplies_state hsup
  have hlt : s.message_id < first.message_id := by
    obtain ⟨ph, hst, -⟩ := hr.cons_inv
    cases hst <;> assumption
  refine ((update_none_supplied (ts := ts1) (rest := ts2 ++ rest) (by rw [hs, List.append_assoc]) hw hq (fun h => absurd rfl h) k1 hlt).and (update_none_view w)).mono ?_
  rintro r w1 ⟨⟨rfl, m1, s1, st1, q1⟩, -, s2, -, -, hrob, -⟩
  have hl1 : w1.rob.logger = w.rob.logger := by rw [hrob]; rfl
  rw [after_ok]
  obtain ⟨ph, hst, hr1⟩ := hr.cons_inv
  cases hst with
  | wait _ _ h1 _ => exact absurd hshow h1
  | firstBroken _ _ _ hh =>
    obtain ⟨rfl, rfl⟩ := broken_end hr1 hn
    cases k2
    refine Fails.bind (hthrow w1 ⟨st1, hh, ⟨_, by simpa using m1, .cons rfl .nil⟩, by simpa using s1, q1, ?_⟩)
    rw [hcy, hl1]
    exact .nil _
  | first _ _ _ hh =>
    rw [post_bind]
    refine (st1.motion_ok id hh).mono ?_
    rintro r w1 ⟨rfl, rfl⟩
    rw [after_ok]
    have hth : ∀ w2, Broke call L tr ts2 rest sB w1 w2 → Post (throw_on_motion_error (RobotState.ofIntern sB) id) w2 (Fails Q) := by
      rintro w2 ⟨p1, p2, ⟨es, p3, p4⟩, p5, p6, p7⟩
      refine hthrow w2 ⟨p1, p2, ⟨_, m1.trans p3, .cons rfl p4⟩, p5, p6, ?_⟩
      rw [hcy, ← hl1]
      exact p7
    cases ht : call.torque with
    | none =>
      have ho : controllerOf call.controller ≠ .ExternalController := by
        unfold Fits at hfit
        rw [ht] at hfit
        have : call.controller ≠ .ExternalController := fun e => by simpa using hfit.2 e
        cases hcc : call.controller <;> simp_all [controllerOf]
      have hc : (loopOf call id).control_callback = none := ht
      simp only [hc]
      exact Fails.bind (motion_loop_broken (c0 := c0) (L := L) ht ho (id := id) (rest := rest) tr.length tr c0 first (RobotState.ofIntern first).time noMotion ts2 w1
        (Nat.le_refl _) st1 q1 s1 k2 hr1 hn hth)
    | some f =>
      have ho : controllerOf call.controller = .ExternalController := by
        unfold Fits at hfit
        rw [hfit.1 (by rw [ht]; rfl)]; rfl
      have hc : (loopOf call id).control_callback = some f := ht
      simp only [hc]
      exact Fails.bind (torque_loop_broken (c0 := c0) (L := L) ht ho (id := id) (rest := rest) tr.length tr c0 first (RobotState.ofIntern first).time noMotion noTorques
        ts2 w1 (Nat.le_refl _) st1 q1 s1 k2 hr1 hn hth)

/-- How the call ends. -/
def AbortEnd (L : Nat) (w : World F) (status : MoveStatus) (msg : String) (sB sE : RobotStateIntern F) (ps : List (RobotState F × RobotCommand F)) (q : List Datagram) (rest : List Tick)
    (tr : List (Ev F)) (res : Res F Unit) (w' : World F) : Prop :=
  ∃ old l0 l1 x, w.rob.logger.flush = .ok (old, l0) ∧ LogsTo l0 ps l1 ∧ Report w.cfg.overflow_checks status msg sB l1 x ∧
    match x with
    | .inl e => res = .err e ∧ (Ends L sE q rest w w' ∧ w'.net.command_id = w.net.command_id + 1 + 1) ∧ ∃ es, visible w'.trace = visible w.trace ++ es ∧ List.Forall₂ Alike tr es
    | .inr m => res = .panic m

/-- The whole call. -/
theorem control_aborted (hfit : Fits call) {p : Plan} {sp : StopPlan} {s0 sB sE first : RobotStateIntern F} {waiting halting : List (RobotStateIntern F)}
    {status : MoveStatus} {msg : String} {tr : List (Ev F)} {r stop : RobotReq F} (hk : TcpOk .Robot w) (hidle : Resting w)
    (habs : w.net.received_responses w.net.command_id = none)
    (habs2 : w.net.received_responses (w.net.command_id + 1) = none) (hid : w.net.command_id + 1 ≠ 0xffffffff)
    (hrt : ¬ RealTimeMissing w) (hlast : LastState w s0) (hlog : w.rob.logger.Ok L) (hL : 0 < L)
    (hr : Run call c0 (.before s0) (.robotReq r :: (waiting.map .accepted ++ .accepted first :: tr)) (.broken sB)) (hn : NoRequest tr)
    (hshow : ∃ s, waiting.getLast? = some s ∧ ShowsModes k call.controller s)
    (hr2 : Run call c0 (.broken sB) (.robotReq stop :: halting.map .accepted) (.stopping sE)) (hh : Halts halting)
    (hmsg : abortMessage status = some msg) (hs : w.script = p.script)
    (hco : Aborts w.net.command_id status w.ker.udpRx waiting (.accepted first :: tr) halting p sp) :
    Post (controlProgram call c0) w (AbortEnd L w status msg sB sE (cycles tr) sp.look.udpIn sp.rest
      ((.robotReq r :: (waiting.map .accepted ++ .accepted first :: tr)) ++ .robotReq stop :: halting.map .accepted)) := by
  have hcy : cycles (.accepted first :: tr) = cycles tr := cycles.eq_2 _ _ (by rintro a c s tr' h; cases h)
  have hnt : w.cfg.network_type = .Robot := hk.type
  obtain ⟨ph, hst2, hr3⟩ := hr2.cons_inv
  cases hst2 with
  | stop _ hd _ hdc =>
  unfold controlProgram
  rw [post_bind]
  refine (new_intern_view call w).mono ?_
  rintro res w1 ⟨rfl, hres⟩
  cases res with
  | err e => exact absurd hres.1 hrt
  | panic m => exact hres.elim
  | blocked => exact hres.elim
  | ok l =>
  obtain ⟨rfl, -⟩ := hres
  rw [after_ok, post_bind]
  obtain ⟨hrest, ⟨f1, f2, f3, f4⟩, hacc, hst, hmv, ⟨m2, d1, d2, d3⟩, ⟨m3, o1, o2, o3⟩, ⟨u1, u2⟩⟩ := hco
  refine ((start_motion_supplied hidle habs hnt hlast hlog hL hr hshow hs f1 hacc hst rfl).and (start_view (c0 := c0) hk s0 hlast _ rfl)).mono ?_
  rintro res w2 ⟨⟨rfl, hid2, s1, st, sh, r5, k1, k2, k3, k4, k5, k6, k7, es1, n1, n2⟩, -, s1', tr1, -, hin, hns, -⟩
  obtain ⟨old, l0, hfl, hl0⟩ := hin.logger
  rw [cycles_nil tr1 hns] at hl0
  cases hl0
  rw [after_ok]
  unfold ControlLoop.run
  rw [post_bind, post_attempt]
  have hrx' : tcpArrived p.motion = [] ∧ TcpSilent p.await ∧ p.l1.tcpIn = m2 ∨ tcpArrived p.motion = m2 ∧ p.await = [] ∧ p.l1.tcpIn = [] := by
    rcases d3 with ⟨h1, h2⟩ | ⟨h1, h2, h3⟩
    · exact .inl ⟨tcpArrived_silent fun x hx => h1 x (by simp [hx]), fun x hx => h1 x (by simp [hx]), h2⟩
    · exact .inr ⟨tcpArrived_once h1, h2, h3⟩
  refine (do_loop_broken hfit (id := w1.net.command_id) (Q := fun e w' => ∃ l1, LogsTo w2.rob.logger (cycles tr) l1 ∧ Report w1.cfg.overflow_checks status msg sB l1 e ∧
    ∀ x, e = .inl x → Steady call L sB w' ∧ w'.script = p.rest ∧ w'.ker.tcpRx = [] ∧ w'.ker.tcpEof = false ∧ w'.net.pending_response = [] ∧
      w'.net.received_responses = w1.net.received_responses ∧ w'.net.command_id = w1.net.command_id + 1 ∧ w'.cfg = w1.cfg ∧
      w'.ker.udpRx = udpArrived p.closing ∧ (w'.ker.udpRx ≠ [] → w'.ker.udpEdge = true) ∧
      ∃ es, visible w'.trace = visible w2.trace ++ es ∧ List.Forall₂ Alike (.accepted first :: tr) es) st k2 k1 hmv r5 sh hn ?_).mono ?_
  · rintro w3 ⟨p1, p2, ⟨es, p3, p4⟩, p5, p6, p7⟩
    have htcp : w3.ker.tcpRx = tcpArrived p.motion := by rw [p3.tcp, k3]; rfl
    refine (throw_supplied p1 p2 p5 (by rw [p3.eof]; exact k4) (by rw [p3.pending]; exact k5) (by rw [p3.table, k6]; exact habs) (by rw [p3.cfg, k7]; exact hnt) d1 hmsg f2 d2
      (p3.edge fun h => absurd k3 h) p6 (by rw [htcp]; exact hrx')).mono ?_
    have hcfg : w3.cfg = w1.cfg := p3.cfg.trans k7
    have fin : ∀ e w4, (Report w3.cfg.overflow_checks status msg sB w3.rob.logger e ∧ ∀ x, e = .inl x →
      Steady call L sB w4 ∧ w4.script = p.rest ∧ w4.ker.tcpRx = [] ∧ w4.ker.tcpEof = false ∧ w4.net.pending_response = [] ∧
      w4.net.received_responses = w3.net.received_responses ∧ w4.net.command_id = w3.net.command_id ∧ w4.cfg = w3.cfg ∧ visible w4.trace = visible w3.trace ∧
      w4.ker.udpRx = udpArrived p.closing ∧ (w4.ker.udpRx ≠ [] → w4.ker.udpEdge = true)) → ∃ l1, LogsTo w2.rob.logger (cycles tr) l1 ∧ Report w1.cfg.overflow_checks status msg sB l1 e ∧
    ∀ x, e = .inl x → Steady call L sB w4 ∧ w4.script = p.rest ∧ w4.ker.tcpRx = [] ∧ w4.ker.tcpEof = false ∧ w4.net.pending_response = [] ∧
      w4.net.received_responses = w1.net.received_responses ∧ w4.net.command_id = w1.net.command_id + 1 ∧ w4.cfg = w1.cfg ∧
      w4.ker.udpRx = udpArrived p.closing ∧ (w4.ker.udpRx ≠ [] → w4.ker.udpEdge = true) ∧
      ∃ es, visible w4.trace = visible w2.trace ++ es ∧ List.Forall₂ Alike (.accepted first :: tr) es := by
      rintro e w4 ⟨q0, q1⟩
      refine ⟨w3.rob.logger, by rw [← hcy]; exact p7, by rw [← hcfg]; exact q0, fun x hx => ?_⟩
      obtain ⟨v1, v2, v3, v4, v5, v6, v7, v8, v9, v10, v11⟩ := q1 x hx
      obtain ⟨gs, y1, y2⟩ := p3.trace
      exact ⟨v1, v2, v3, v4, v5, by rw [v6, p3.table, k6], by rw [v7, p3.id, hid2], v8.trans hcfg, v10, v11, es, by rw [v9, y1, visible_append, y2], p4⟩
    intro res w4 h
    cases res with
    | ok _ => exact h.elim
    | err e => exact fin _ _ h
    | panic m => exact fin _ _ h
    | blocked => exact h.elim
  · intro res w3 h
    cases res with
    | ok _ => exact h.elim
    | blocked => exact h.elim
    | panic m =>
      obtain ⟨l1, h1, h2, -⟩ := h
      exact ⟨old, _, l1, .inr m, hfl, h1, h2, rfl⟩
    | err e =>
      obtain ⟨l1, h1, h2, h3⟩ := h
      obtain ⟨v1, v2, v3, v4, v5, v6, v7, v8, v9, v10, es, v11, v12⟩ := h3 e rfl
      rw [tried_err, after_ok, post_bind]
      refine (cancel_supplied (c0 := c0) v1 (v2.trans hrest) v9 (fun h => v10 (by rw [v9]; exact h)) v3 v4 v5 (by rw [v6]; exact habs) (by rw [v6, v7]; exact habs2)
        (by rw [v7]; exact hid) (by rw [v8]; exact hnt) f3 f4 (by rw [v7]; exact o1) o2 o3 u1 u2 hr3 hh).mono ?_
      rintro res w4 ⟨rfl, b1, b2, hd', b3, b4⟩
      rw [after_ok, post_err]
      refine ⟨old, _, l1, .inl e, hfl, h1, h2, rfl,
        ⟨⟨b1.last, b1.logger, b1.script, b1.rx, b1.eof, b1.pending, b1.table.trans v6, b1.udp, b1.ready⟩, by rw [b2, v7]⟩, es1 ++ es ++ .robotReq ⟨hd', .StopMove⟩ :: halting.map .accepted, ?_, ?_⟩
      · rw [b4, v11, n1, List.append_assoc, List.append_assoc, List.append_assoc]
      · refine List.rel_append ?_ (.cons ⟨hd', rfl, b3.trans hdc.symm⟩ (List.forall₂_same.2 fun e he => ?_))
        · rw [← List.cons_append]
          exact List.rel_append n2 v12
        · obtain ⟨x, -, rfl⟩ := List.mem_map.1 he
          exact rfl

end Verif
