import Verif.Lemmas.Motion
/-!
What the conversions of callback outputs guarantee, and which values a control call carries from cycle to cycle.
-/
set_option linter.unusedSectionVars false
namespace Verif
open Prog Spec

theorem P.bind_ok {α β : Type} {p : P α} {f : α → P β} {b : β} (h : p >>= f = .ok b) : ∃ a, p = .ok a ∧ f a = .ok b := by
  cases p with
  | ok a => exact ⟨a, rfl, h⟩
  | error e => cases h

variable {F : Type} [Fl F]

theorem assertP_ok {b : Bool} {m : String} {u : Unit} (h : assertP b m = .ok u) : b = true := by
  unfold assertP at h
  cases b <;> simp_all

theorem assertFinite_ok {n : Nat} {v : Arr F n} {u : Unit} (h : assertFinite v = .ok u) : AllFinite v := by
  have := assertP_ok h
  unfold Arr.all at this
  rw [decide_eq_true_eq] at this
  exact this

/-- Properties of motion values that every conversion keeps. -/
structure MotionOk (k : MotionKind) (m : MotionGeneratorCommand F) : Prop where
  only : OnlyKind k m
  flag : m.motion_generation_finished = false
  q : k = .JointPositions → Fl.isFinite (Fl.lit 0 : F) = true → AllFinite m.q_c
  dq : k = .JointVelocities → Fl.isFinite (Fl.lit 0 : F) = true → AllFinite m.dq_c
  pose : k = .CartesianPose → Fl.isFinite (Fl.lit 0 : F) = true → AllFinite m.O_T_EE_c
  twist : k = .CartesianVelocities → Fl.isFinite (Fl.lit 0 : F) = true → AllFinite m.O_dP_EE_c
  elbow : m.valid_elbow = true → AllFinite m.elbow_c ∧ Fl.feq (Fl.fabs (m.elbow_c 1)) (Fl.lit 1) = true
  joint : k = .JointPositions ∨ k = .JointVelocities → m.valid_elbow = false

theorem zero_finite {n : Nat} {a : Arr F n} (hz : Fl.isFinite (Fl.lit 0 : F) = true) (h : Zero a) : AllFinite a := fun i => by rw [h i]; exact hz

theorem motionOk_none (k : MotionKind) : MotionOk k (noMotion (F := F)) where
  only := ⟨fun _ _ => rfl, fun _ _ => rfl, fun _ _ => rfl, fun _ _ => rfl, fun _ _ => rfl⟩
  flag := rfl
  q _ hz := fun _ => hz
  dq _ hz := fun _ => hz
  pose _ hz := fun _ => hz
  twist _ hz := fun _ => hz
  elbow h := by cases h
  joint _ := rfl

/-- Motion values that come from the output of a callback. -/
structure Converted (k : MotionKind) (out : Motion F k) (m : MotionGeneratorCommand F) : Prop where
  ok : MotionOk k m
  elbow : m.valid_elbow = (elbowOf out).isSome
  pose : k = .CartesianPose → AllFinite m.O_T_EE_c ∧ is_homogeneous_transformation m.O_T_EE_c = true

theorem convert_elbow_ok {elbow : Option (Arr F 2)} {st : RobotState F} {m m' : MotionGeneratorCommand F} {f : F} {l : Bool}
    (h : convert_elbow elbow st m f l = .ok m') : ∃ b e, m' = { m with valid_elbow := b, elbow_c := e } ∧ b = elbow.isSome ∧
      (b = true → AllFinite e ∧ Fl.feq (Fl.fabs (e 1)) (Fl.lit 1) = true) ∧ (b = false → Zero e) := by
  unfold convert_elbow at h
  cases elbow with
  | none =>
    cases h
    exact ⟨false, _, rfl, rfl, by simp, fun _ _ => rfl⟩
  | some e0 =>
    have h : ∃ e2, check_elbow e2 = .ok () ∧ m' = { m with valid_elbow := true, elbow_c := e2 } := by
      have last : ∀ e2 : Arr F 2, (check_elbow e2 >>= fun _ => pure { m with valid_elbow := true, elbow_c := e2 } : P _) = .ok m' →
          ∃ e2, check_elbow e2 = .ok () ∧ m' = { m with valid_elbow := true, elbow_c := e2 } := by
        intro e2 h
        obtain ⟨u, h1, h⟩ := P.bind_ok h
        cases h
        exact ⟨e2, h1, rfl⟩
      dsimp only at h
      split at h
      · obtain ⟨x, -, h⟩ := P.bind_ok h
        obtain ⟨e1, -, h⟩ := P.bind_ok h
        split at h
        · obtain ⟨x, -, h⟩ := P.bind_ok h
          obtain ⟨e2, -, h⟩ := P.bind_ok h
          exact last e2 h
        · obtain ⟨e2, -, h⟩ := P.bind_ok h
          exact last e2 h
      · obtain ⟨e1, -, h⟩ := P.bind_ok h
        split at h
        · obtain ⟨x, -, h⟩ := P.bind_ok h
          obtain ⟨e2, -, h⟩ := P.bind_ok h
          exact last e2 h
        · obtain ⟨e2, -, h⟩ := P.bind_ok h
          exact last e2 h
    obtain ⟨e2, h1, rfl⟩ := h
    unfold check_elbow at h1
    obtain ⟨u1, h2, h3⟩ := P.bind_ok h1
    exact ⟨true, e2, rfl, rfl, fun _ => ⟨assertFinite_ok h2, assertP_ok h3⟩, by simp⟩

theorem convert_motion_ok [Geo F] {k : MotionKind} {out : Motion F k} {st : RobotState F} {m m' : MotionGeneratorCommand F} {f : F} {l : Bool}
    (h : out.convert_motion st m f l = .ok m') (hm : MotionOk k m) : Converted k out m' := by
  cases k with
  | JointPositions =>
    have h : ∃ a, assertFinite a = .ok () ∧ m' = { m with q_c := a } := by
      change JointPositions.convert_motion out st m f l = .ok m' at h
      unfold JointPositions.convert_motion at h
      dsimp only at h
      split at h <;>
      · obtain ⟨a1, -, h⟩ := P.bind_ok h
        split at h <;>
        · obtain ⟨a, -, h⟩ := P.bind_ok h
          obtain ⟨u, h1, h⟩ := P.bind_ok h
          cases h; exact ⟨a, h1, rfl⟩
    obtain ⟨a, h1, h⟩ := h
    subst h
    refine ⟨⟨⟨by simp, hm.only.dq, hm.only.pose, hm.only.twist, hm.only.elbow⟩, hm.flag, fun _ _ => assertFinite_ok h1, by simp, by simp, by simp, hm.elbow, hm.joint⟩, ?_, by simp⟩
    exact hm.joint (.inl rfl)
  | JointVelocities =>
    have h : ∃ a, assertFinite a = .ok () ∧ m' = { m with dq_c := a } := by
      change JointVelocities.convert_motion out st m f l = .ok m' at h
      unfold JointVelocities.convert_motion at h
      dsimp only at h
      split at h <;>
      · obtain ⟨a1, -, h⟩ := P.bind_ok h
        split at h <;>
        · obtain ⟨a, -, h⟩ := P.bind_ok h
          obtain ⟨u, h1, h⟩ := P.bind_ok h
          cases h; exact ⟨a, h1, rfl⟩
    obtain ⟨a, h1, h⟩ := h
    subst h
    refine ⟨⟨⟨hm.only.q, by simp, hm.only.pose, hm.only.twist, hm.only.elbow⟩, hm.flag, by simp, fun _ _ => assertFinite_ok h1, by simp, by simp, hm.elbow, hm.joint⟩, ?_, by simp⟩
    exact hm.joint (.inr rfl)
  | CartesianPose =>
    have h : ∃ a, check_matrix a = .ok () ∧ convert_elbow (CartesianPose.elbow out) st { m with O_T_EE_c := a } f l = .ok m' := by
      change CartesianPose.convert_motion out st m f l = .ok m' at h
      unfold CartesianPose.convert_motion at h
      dsimp only at h
      split at h <;>
      · obtain ⟨a1, -, h⟩ := P.bind_ok h
        split at h <;>
        · obtain ⟨a, -, h⟩ := P.bind_ok h
          obtain ⟨u, h1, h⟩ := P.bind_ok h
          exact ⟨a, h1, h⟩
    obtain ⟨a, h1, h⟩ := h
    unfold check_matrix at h1
    obtain ⟨u1, h2, h3⟩ := P.bind_ok h1
    obtain ⟨b, e, rfl, hb, he1, he2⟩ := convert_elbow_ok h
    exact ⟨⟨⟨hm.only.q, hm.only.dq, by simp, hm.only.twist, he2⟩, hm.flag, by simp, by simp, fun _ _ => assertFinite_ok h2, by simp, he1, by simp⟩, hb, fun _ => ⟨assertFinite_ok h2, assertP_ok h3⟩⟩
  | CartesianVelocities =>
    have h : ∃ a, assertFinite a = .ok () ∧ convert_elbow (CartesianVelocities.elbow out) st { m with O_dP_EE_c := a } f l = .ok m' := by
      change CartesianVelocities.convert_motion out st m f l = .ok m' at h
      unfold CartesianVelocities.convert_motion at h
      dsimp only at h
      split at h <;>
      · obtain ⟨a1, -, h⟩ := P.bind_ok h
        split at h <;>
        · obtain ⟨a, -, h⟩ := P.bind_ok h
          obtain ⟨u, h1, h⟩ := P.bind_ok h
          exact ⟨a, h1, h⟩
    obtain ⟨a, h1, h⟩ := h
    obtain ⟨b, e, rfl, hb, he1, he2⟩ := convert_elbow_ok h
    exact ⟨⟨⟨hm.only.q, hm.only.dq, hm.only.pose, by simp, he2⟩, hm.flag, by simp, by simp, by simp, fun _ _ => assertFinite_ok h1, he1, by simp⟩, hb, by simp⟩

theorem convert_torques_ok {l : Bool} {f : F} {st : RobotState F} {t τ : Arr F 7} (h : ControlLoop.convert_torques l f st t = .ok τ) : AllFinite τ := by
  unfold ControlLoop.convert_torques at h
  dsimp only at h
  split at h <;>
  · obtain ⟨q1, -, h⟩ := P.bind_ok h
    split at h <;>
    · obtain ⟨q2, -, h⟩ := P.bind_ok h
      obtain ⟨u, h1, h⟩ := P.bind_ok h
      cases h
      exact assertFinite_ok h1

theorem MotionOk.finite {k : MotionKind} {m : MotionGeneratorCommand F} (hm : MotionOk k m) (hz : Fl.isFinite (Fl.lit 0 : F) = true)
    (id : UInt64) (b : Bool) (t : ControllerCommand F) (ht : AllFinite t.tau_J_d) :
    FiniteCommand { message_id := id, motion := { m with motion_generation_finished := b }, control := t } where
  q := if h : k = .JointPositions then hm.q h hz else zero_finite hz (hm.only.q h)
  dq := if h : k = .JointVelocities then hm.dq h hz else zero_finite hz (hm.only.dq h)
  pose := if h : k = .CartesianPose then hm.pose h hz else zero_finite hz (hm.only.pose h)
  twist := if h : k = .CartesianVelocities then hm.twist h hz else zero_finite hz (hm.only.twist h)
  elbow := if h : m.valid_elbow = true then (hm.elbow h).1 else zero_finite hz (hm.only.elbow (by simpa using h))
  torques := ht

/-! ## The outputs seen last -/

theorem Spec.LastOutput.new (tr : List (Ev F)) (k : MotionKind) (st : RobotState F) (dt : Nat) (out : Motion F k) :
    LastOutput (tr ++ [.motionCb k st dt out]) k out := ⟨tr, st, dt, [], rfl, by simp⟩

theorem Spec.LastOutput.snoc {tr : List (Ev F)} {k : MotionKind} {out : Motion F k} (h : LastOutput tr k out) (e : Ev F)
    (he : ∀ k' st' dt' out', e ≠ .motionCb k' st' dt' out') : LastOutput (tr ++ [e]) k out := by
  obtain ⟨pre, st, dt, post, rfl, h2⟩ := h
  refine ⟨pre, st, dt, post ++ [e], by simp, ?_⟩
  intro e' he'
  rcases List.mem_append.1 he' with h | h
  · exact h2 e' h
  · rw [List.mem_singleton.1 h]; exact he

/-! ## Invariants of a control call -/

section
variable [Wire F] [Geo F] {σ : Type} {k : MotionKind} {call : ControlCall F σ k} {c0 : σ}

/-- The torque values: none without a torque callback. -/
structure TorqueOk (call : ControlCall F σ k) (t : ControllerCommand F) : Prop where
  zero : call.torque = none → t = noTorques
  finite : Fl.isFinite (Fl.lit 0 : F) = true → AllFinite t.tau_J_d

theorem torqueOk_none : TorqueOk call noTorques := ⟨fun _ => rfl, fun h _ => h⟩

/-- What the values in a phase satisfy. -/
def Values (call : ControlCall F σ k) (tr : List (Ev F)) : Phase F σ → Prop
  | .before _ => tr = []
  | .starting _ => True
  | .ready _ _ _ m t => MotionOk k m ∧ TorqueOk call t
  | .moved _ _ _ m t => TorqueOk call t ∧ ∃ out, LastOutput tr k out ∧ Converted k out m
  | .decided _ _ m t => TorqueOk call t ∧ ∃ out, LastOutput tr k out ∧ Converted k out m
  | .sent _ _ m t => TorqueOk call t ∧ ∃ out, LastOutput tr k out ∧ Converted k out m
  | .broken _ => True
  | .finishing _ m t => TorqueOk call t ∧ ∃ out, LastOutput tr k out ∧ Converted k out m
  | .finishSent _ m t => TorqueOk call t ∧ ∃ out, LastOutput tr k out ∧ Converted k out m
  | .stopping _ => True
  | .refused _ => True

theorem values_snoc {tr : List (Ev F)} {e : Ev F} {m : MotionGeneratorCommand F} (he : ∀ k' st' dt' out', e ≠ .motionCb k' st' dt' out')
    (h : ∃ out, LastOutput tr k out ∧ Converted k out m) : ∃ out, LastOutput (tr ++ [e]) k out ∧ Converted k out m := by
  obtain ⟨out, h1, h2⟩ := h
  exact ⟨out, h1.snoc e he, h2⟩

theorem run_values {s0 : RobotStateIntern F} {tr : List (Ev F)} {ph : Phase F σ} (h : Run call c0 (.before s0) tr ph) : Values call tr ph := by
  induction h with
  | nil => rfl
  | snoc h1 h2 ih =>
    cases h2 <;> unfold Values at ih ⊢ <;> try trivial
    case first => exact ⟨motionOk_none k, torqueOk_none⟩
    case motion c s prev m t dt c' out m' h1 h2 h3 h4 h5 h6 => exact ⟨ih.2, out, .new _ _ _ _ _, convert_motion_ok h5 ih.1⟩
    case motionFirst c s prev m t dt c' out m' h1 h2 h3 h4 h5 h6 => exact ⟨ih.2, out, .new _ _ _ _ _, convert_motion_ok h5 ih.1⟩
    case motionEnd c s prev m t dt c' out m' h2 h3 h4 h5 h6 => exact ⟨ih.2, out, .new _ _ _ _ _, convert_motion_ok h5 ih.1⟩
    case torque f c s prev m t dt c' out τ g1 h2 h3 h4 h5 h6 => exact ⟨⟨(by simp [g1]), fun _ => convert_torques_ok h5⟩, values_snoc (by simp) ih.2⟩
    case torqueEnd f c s prev m t dt c' out τ g1 h2 h3 h4 h5 h6 => exact ⟨⟨(by simp [g1]), fun _ => convert_torques_ok h5⟩, values_snoc (by simp) ih.2⟩
    case send => exact ⟨ih.1, values_snoc (by simp) ih.2⟩
    case next => obtain ⟨h, out, -, h3⟩ := ih; exact ⟨h3.ok, h⟩
    case finish => exact ⟨ih.1, values_snoc (by simp) ih.2⟩
    case finishNext => exact ⟨ih.1, values_snoc (by simp) ih.2⟩

/-- The callbacks of a cycle. -/
def Answered (call : ControlCall F σ k) (pre : List (Ev F)) (s : RobotStateIntern F) (m : MotionGeneratorCommand F) (t : ControllerCommand F) : Prop :=
  (call.torque = none ∧ t = noTorques ∧ ∃ pre' dt out m0, pre = pre' ++ [.motionCb k (RobotState.ofIntern s) dt out] ∧
      out.convert_motion (RobotState.ofIntern s) m0 call.cutoff call.limit_rate = .ok m ∧ out.is_finished = false) ∨
  (call.torque ≠ none ∧ ∃ pre' dt out out' m0, pre = pre' ++ [.motionCb k (RobotState.ofIntern s) dt out, .controlCb (RobotState.ofIntern s) dt out'] ∧
      out.convert_motion (RobotState.ofIntern s) m0 call.cutoff call.limit_rate = .ok m ∧ out.is_finished = false ∧
      ControlLoop.convert_torques call.limit_rate call.cutoff (RobotState.ofIntern s) out'.tau_J = .ok t.tau_J_d ∧ out'.is_finished = false)

/-- The shape of a call up to a phase. -/
def Shape (call : ControlCall F σ k) (tr : List (Ev F)) : Phase F σ → Prop
  | .moved _ s prev m _ => call.torque ≠ none ∧ ∃ pre' out m0, tr = pre' ++ [.motionCb k (RobotState.ofIntern s) ((RobotState.ofIntern s).time - prev) out] ∧
      out.convert_motion (RobotState.ofIntern s) m0 call.cutoff call.limit_rate = .ok m ∧ out.is_finished = false
  | .decided _ s m t => Answered call tr s m t
  | _ => True

theorem run_shape {s0 : RobotStateIntern F} {tr : List (Ev F)} {ph : Phase F σ} (h : Run call c0 (.before s0) tr ph) : Shape call tr ph := by
  have hv := run_values h
  rcases run_cases h with ⟨-, rfl⟩ | ⟨tr', ph', e, rfl, h1, h2⟩
  · trivial
  · have hv' := run_values h1
    cases h2 <;> unfold Shape <;> try trivial
    case motion c s prev m t dt c' out m' g1 h2 h3 h4 h5 h6 =>
      exact .inl ⟨g1, hv'.2.zero g1, tr', dt, out, m, rfl, h5, h6⟩
    case motionFirst c s prev m t dt c' out m' g1 h2 h3 h4 h5 h6 =>
      subst h3
      exact ⟨g1, tr', out, m, rfl, h5, h6⟩
    case torque f c s prev m t dt c' out τ h2 h3 h4 h5 h6 h7 =>
      subst h4
      rcases run_cases h1 with ⟨-, h⟩ | ⟨tr2, ph2, e2, rfl, g1, g2⟩
      · cases h
      · cases g2 with
        | motionFirst c1 _ _ m1 _ dt1 c1' out1 m1' g2 g3 g4 g5 g6 g7 =>
          subst g4
          exact .inr ⟨by simp [h2], tr2, (RobotState.ofIntern s).time - prev, out1, out, m1, by simp, g6, g7, h6, h7⟩
end

end Verif
