import Verif.Spec.Transparent
import Verif.Props.Control
import Verif.Props.Limits
import Verif.Props.Pose
import Verif.Props.ExchangeExample
/-!
# Values that respect the limits are sent as they are: C70

Doubles are real numbers here (`Spec/Real.lean`), with any bit patterns. `w` is a world in which a `Robot` exists (after `Robot::new` and any calls), `c` a
control method with its arguments, with rate limiting and without a filter.
-/
set_option linter.unusedSectionVars false
namespace Verif
open Prog Spec

/-! ## Conversions -/

theorem below_joint (i : Fin 7) : below (jointLimits i) = codeLimits i := by
  unfold below codeLimits
  congr 1 <;> norm_num
theorem below_elbow : below elbowLimits = codeElbow := by
  unfold below codeElbow elbowLimits
  congr 1 <;> norm_num
theorem below_translation : below translationLimits = codeTranslation := by
  unfold below codeTranslation translationLimits
  congr 1 <;> norm_num
theorem below_rotation : below rotationLimits = codeRotation := by
  unfold below codeRotation rotationLimits
  congr 1 <;> norm_num

theorem admissible_elbow {o : Option (Arr XR 2)} {st : RobotState XR} {m : MotionGeneratorCommand XR} {cutoff : ℝ} (hc : 1000 ≤ cutoff)
    (h : ∀ e, o = some e → ElbowAdmissible e st) :
    ∃ m', convert_elbow o st m (.fin cutoff) true = .ok m' ∧ m'.O_T_EE_c = m.O_T_EE_c ∧ m'.O_dP_EE_c = m.O_dP_EE_c ∧ ∀ e, o = some e → m'.elbow_c = e := by
  cases o with
  | none => exact ⟨_, rfl, rfl, rfl, nofun⟩
  | some e =>
    obtain ⟨u, s, x, v, a, rfl, hs, hx, hv, ha, h⟩ := h e rfl
    rw [below_elbow] at h
    obtain ⟨e1, e2, e3⟩ := MAX_ELBOW_fin
    refine ⟨{ m with valid_elbow := true, elbow_c := Arr.fin ![u, s] }, ?_, rfl, rfl, fun e he => by injection he⟩
    have e0 : (Arr.fin ![u, s] : Arr XR 2) 0 = .fin u := rfl
    have e4 : (Arr.fin ![u, s] : Arr XR 2).set 0 (.fin u) = Arr.fin ![u, s] := by
      funext i
      unfold Arr.set
      fin_cases i <;> rfl
    have e5 : check_elbow (Arr.fin ![u, s] : Arr XR 2) = .ok () := by
      unfold check_elbow
      rw [assertFinite_fin, P_bind_ok_eq]
      unfold assertP is_valid_elbow
      have : Fl.feq (Fl.fabs ((Arr.fin ![u, s] : Arr XR 2) 1)) (Fl.lit 1) = true := by
        show Fl.feq (Fl.fabs (XR.fin s)) (Fl.lit 1) = true
        rw [XR.fabs_fin, hs, XR.lit_fin, XR.feq_fin]
        simp
      rw [if_pos this]
    unfold convert_elbow
    simp only [no_filter hc, Bool.false_eq_true, if_false, if_true]
    show (limit_rate_position MAX_ELBOW_VELOCITY MAX_ELBOW_ACCELERATION MAX_ELBOW_JERK (.fin u) (st.elbow_c 0) (st.delbow_c 0) (st.ddelbow_c 0) >>= fun z =>
      (check_elbow ((Arr.fin ![u, s] : Arr XR 2).set 0 z) >>= fun _ => (pure { m with valid_elbow := true, elbow_c := (Arr.fin ![u, s] : Arr XR 2).set 0 z } : P _))) = _
    rw [hx, hv, ha, e1, e2, e3, C44_allowed_position codeElbow_ok.acceleration.ne' h, P_bind_ok_eq, e4, e5]
    rfl

/-- C70, one conversion: values that respect the limits are accepted and unchanged. -/
theorem C70_converted [Geo XR] (lib : RotationLibrary) {k : MotionKind} {out : Motion XR k} {st : RobotState XR} (h : Admissible out st) {cutoff : ℝ}
    (hc : 1000 ≤ cutoff) (m : MotionGeneratorCommand XR) : ∃ m', out.convert_motion st m (.fin cutoff) true = .ok m' ∧ Carries out m' := by
  cases k with
  | JointPositions =>
    obtain ⟨u, x, v, a, hu, hx, hv, ha, h⟩ := h
    have e : out = (⟨JointPositions.motion_finished out, Arr.fin u⟩ : JointPositions XR) := by rw [← hu]; rfl
    refine ⟨{ m with q_c := Arr.fin u }, ?_, ?_⟩
    · rw [e]
      exact C44_convert_joint_positions hc hx hv ha fun i => below_joint i ▸ h i
    · exact hu.symm
  | JointVelocities =>
    obtain ⟨u, v, a, hu, hv, ha, h⟩ := h
    have e : out = (⟨JointVelocities.motion_finished out, Arr.fin u⟩ : JointVelocities XR) := by rw [← hu]; rfl
    refine ⟨{ m with dq_c := Arr.fin u }, ?_, ?_⟩
    · rw [e]
      exact C44_convert_joint_velocities hc hv ha fun i => below_joint i ▸ h i
    · exact hu.symm
  | CartesianVelocities =>
    obtain ⟨⟨u, v, a, hu, hv, ha, l1, l2, g1, g2, k1, k2⟩, he⟩ := h
    rw [below_translation] at g1
    rw [below_rotation] at g2
    obtain ⟨m', h1, -, h2, h3⟩ := admissible_elbow (m := { m with O_dP_EE_c := Arr.fin u }) hc he
    refine ⟨m', ?_, h2.trans hu.symm, h3⟩
    obtain ⟨t1, t2, t3⟩ := MAX_TRANSLATIONAL_fin
    obtain ⟨r1, r2, r3⟩ := MAX_ROTATIONAL_fin
    show CartesianVelocities.convert_motion out st m (.fin cutoff) true = .ok m'
    unfold CartesianVelocities.convert_motion
    rw [no_filter hc]
    dsimp only
    rw [if_neg (by simp), pure_bind, if_pos rfl, t1, t2, t3, r1, r2, r3, hu, hv, ha,
      C60_allowed_cartesian_velocity codeTranslation_ok codeRotation_ok (l1.trans (by norm_num [codeTranslation])) (l2.trans (by norm_num [codeRotation])) g1 g2 k1 k2,
      P_bind_ok_eq, assertFinite_fin, P_bind_ok_eq]
    exact h1
  | CartesianPose =>
    obtain ⟨⟨p, p0, v, a, w, hu, hp, hv, ha, b, b1, b2, b3, b4, b5, b6, b7, l1, l2, g1, g2, k1, k2⟩, he⟩ := h
    rw [below_translation] at g1
    rw [below_rotation] at g2
    obtain ⟨m', h1, h2, -, h3⟩ := admissible_elbow (m := { m with O_T_EE_c := Arr.fin p }) hc he
    refine ⟨m', ?_, h2.trans hu.symm, h3⟩
    obtain ⟨t1, t2, t3⟩ := MAX_TRANSLATIONAL_fin
    obtain ⟨r1, r2, r3⟩ := MAX_ROTATIONAL_fin
    have hm : check_matrix (Arr.fin p : Arr XR 16) = .ok () := by
      unfold check_matrix
      rw [assertFinite_fin, P_bind_ok_eq]
      unfold assertP
      rw [if_pos (C37_rigid_accepted b b1).1]
    show CartesianPose.convert_motion out st m (.fin cutoff) true = .ok m'
    unfold CartesianPose.convert_motion
    rw [no_filter hc]
    dsimp only
    rw [if_neg (by simp), pure_bind, if_pos rfl, t1, t2, t3, r1, r2, r3, hu, hp, hv, ha,
      C61_allowed_pose lib codeTranslation_ok codeRotation_ok b b1 b2 b3 b4 b5 b6 b7 (l1.trans (by norm_num [codeTranslation])) (l2.trans (by norm_num [codeRotation])) g1 g2 k1 k2,
      P_bind_ok_eq, hm, P_bind_ok_eq]
    exact h1

/-- The same for torques. -/
theorem admissible_torques {tau τ : Arr XR 7} {st : RobotState XR} (h : TorquesAdmissible tau st) {cutoff : ℝ} (hc : 1000 ≤ cutoff)
    (ht : ControlLoop.convert_torques true (.fin cutoff) st tau = .ok τ) : τ = tau := by
  obtain ⟨u, l, rfl, hl, h⟩ := h
  obtain ⟨t, h1, h2⟩ := C41_torques_without_filter hc (u := u) hl
  rw [h1] at ht
  injection ht with ht
  rw [← ht]
  funext i
  exact congrArg XR.fin ((h2 i).2.2 (h i))

/-! ## Control calls -/

section
variable {F : Type} [Fl F] [Geo F] {σ : Type} {k : MotionKind} {call : ControlCall F σ k} {c0 : σ}

/-- The motion values come from the callback called last. -/
def FromLast (call : ControlCall F σ k) (tr : List (Ev F)) (m : MotionGeneratorCommand F) : Prop :=
  ∃ st out m0, LastMotion tr k st out ∧ out.convert_motion st m0 call.cutoff call.limit_rate = .ok m

/-- The torques come from the callback called last. -/
def TorquesFromLast (call : ControlCall F σ k) (tr : List (Ev F)) (t : ControllerCommand F) : Prop :=
  (NoTorqueYet tr ∧ t = noTorques) ∨ ∃ st out, LastTorque tr st out ∧ ControlLoop.convert_torques call.limit_rate call.cutoff st out.tau_J = .ok t.tau_J_d

/-- The values in a phase. -/
def Held (call : ControlCall F σ k) (tr : List (Ev F)) : Phase F σ → Prop
  | .before _ | .starting _ => NoTorqueYet tr
  | .ready _ _ _ _ t => TorquesFromLast call tr t
  | .moved _ _ _ m t | .decided _ _ m t | .sent _ _ m t | .finishing _ m t | .finishSent _ m t => FromLast call tr m ∧ TorquesFromLast call tr t
  | .broken _ | .stopping _ | .refused _ => True

theorem FromLast.snoc {tr : List (Ev F)} {m : MotionGeneratorCommand F} (h : FromLast call tr m) (e : Ev F)
    (he : ∀ k' st' dt' out', e ≠ .motionCb k' st' dt' out') : FromLast call (tr ++ [e]) m := by
  obtain ⟨st, out, m0, ⟨pre, dt, post, rfl, h2⟩, h3⟩ := h
  refine ⟨st, out, m0, ⟨pre, dt, post ++ [e], by simp, fun x hx => ?_⟩, h3⟩
  rcases List.mem_append.1 hx with h | h
  · exact h2 x h
  · rw [List.mem_singleton.1 h]; exact he

theorem FromLast.new (tr : List (Ev F)) {st : RobotState F} {dt : Nat} {out : Motion F k} {m0 m : MotionGeneratorCommand F}
    (h : out.convert_motion st m0 call.cutoff call.limit_rate = .ok m) : FromLast call (tr ++ [.motionCb k st dt out]) m :=
  ⟨st, out, m0, ⟨tr, dt, [], rfl, by simp⟩, h⟩

theorem Spec.NoTorqueYet.snoc {tr : List (Ev F)} (h : NoTorqueYet tr) (e : Ev F) (he : ∀ st' dt' out', e ≠ .controlCb st' dt' out') : NoTorqueYet (tr ++ [e]) := by
  intro x hx
  rcases List.mem_append.1 hx with hx | hx
  · exact h x hx
  · rw [List.mem_singleton.1 hx]; exact he

theorem TorquesFromLast.snoc {tr : List (Ev F)} {t : ControllerCommand F} (h : TorquesFromLast call tr t) (e : Ev F)
    (he : ∀ st' dt' out', e ≠ .controlCb st' dt' out') : TorquesFromLast call (tr ++ [e]) t := by
  rcases h with ⟨h, rfl⟩ | ⟨st, out, ⟨pre, dt, post, rfl, h2⟩, h3⟩
  · exact .inl ⟨Spec.NoTorqueYet.snoc h e he, rfl⟩
  · refine .inr ⟨st, out, ⟨pre, dt, post ++ [e], by simp, fun x hx => ?_⟩, h3⟩
    rcases List.mem_append.1 hx with h | h
    · exact h2 x h
    · rw [List.mem_singleton.1 h]; exact he

theorem TorquesFromLast.new (tr : List (Ev F)) {st : RobotState F} {dt : Nat} {out : Torques F} {τ : Arr F 7}
    (h : ControlLoop.convert_torques call.limit_rate call.cutoff st out.tau_J = .ok τ) : TorquesFromLast call (tr ++ [.controlCb st dt out]) { tau_J_d := τ } :=
  .inr ⟨st, out, ⟨tr, dt, [], rfl, by simp⟩, h⟩

theorem run_held {s0 : RobotStateIntern F} {tr : List (Ev F)} {ph : Phase F σ} (h : Run call c0 (.before s0) tr ph) : Held call tr ph := by
  induction h with
  | nil => intro e he; cases he
  | snoc h1 h2 ih =>
    cases h2 with
    | move => exact Spec.NoTorqueYet.snoc ih _ nofun
    | wait => exact Spec.NoTorqueYet.snoc ih _ nofun
    | first => exact .inl ⟨Spec.NoTorqueYet.snoc ih _ nofun, rfl⟩
    | motion _ _ _ _ _ _ _ out _ _ _ _ _ hm => exact ⟨.new _ hm, TorquesFromLast.snoc ih _ nofun⟩
    | motionFirst _ _ _ _ _ _ _ out _ _ _ _ _ hm => exact ⟨.new _ hm, TorquesFromLast.snoc ih _ nofun⟩
    | motionEnd _ _ _ _ _ _ _ out _ _ _ _ hm => exact ⟨.new _ hm, TorquesFromLast.snoc ih _ nofun⟩
    | torque f _ _ _ _ _ _ _ out τ hf _ _ _ hm => exact ⟨FromLast.snoc ih.1 _ nofun, .new _ hm⟩
    | torqueEnd f _ _ _ _ _ _ _ out τ hf _ _ _ hm => exact ⟨FromLast.snoc ih.1 _ nofun, .new _ hm⟩
    | send => exact ⟨FromLast.snoc ih.1 _ nofun, TorquesFromLast.snoc ih.2 _ nofun⟩
    | next => exact TorquesFromLast.snoc ih.2 _ nofun
    | finish => exact ⟨FromLast.snoc ih.1 _ nofun, TorquesFromLast.snoc ih.2 _ nofun⟩
    | finishNext => exact ⟨FromLast.snoc ih.1 _ nofun, TorquesFromLast.snoc ih.2 _ nofun⟩
    | _ => trivial

end

section
variable [Wire XR] [Geo XR] {w : World XR} (hw : RobotReachable w) {c : RobotCall XR} {σ : Type} {k : MotionKind} {call : ControlCall XR σ k} {c0 : σ}
  (hc : IsControl c call c0) (hl : call.limit_rate = true) {cutoff : ℝ} (hf : call.cutoff = .fin cutoff) (hcut : 1000 ≤ cutoff)
include hw hc hl hf hcut

/-- **C70**, motions: every command, the final ones included, has exactly the values which the motion callback returned last, if these respect the limits. -/
theorem C70_admissible_motion_is_sent (lib : RotationLibrary) : Before (fun pre e => ∀ a x, e = .udpSend a x →
    ∃ st out, LastMotion pre k st out ∧ (Admissible out st → Carries out x.motion)) (newEvents w (c.run w).2) := by
  obtain ⟨s0, ph, -, -, hr, -⟩ := control_events hw hc
  rintro pre e post h a x rfl
  obtain ⟨ph1, ph2, h1, h2⟩ := hr.before_all pre _ post h
  have hh := run_held h1
  have key : ∀ m, FromLast call pre m → ∃ st out, LastMotion pre k st out ∧ (Admissible out st → Carries out m) := by
    rintro m ⟨st, out, m0, g1, g2⟩
    refine ⟨st, out, g1, fun ha => ?_⟩
    obtain ⟨m', g3, g4⟩ := C70_converted lib ha hcut m0
    rw [hl, hf, g3] at g2
    injection g2 with g2
    rw [← g2]
    exact g4
  cases h2 with
  | send c s m t => exact key _ hh.1
  | finish s m t =>
    obtain ⟨st, out, g1, g2⟩ := key _ hh.1
    refine ⟨st, out, g1, fun ha => ?_⟩
    have := g2 ha
    cases k <;> exact this

/-- **C70**, torques: every command has exactly the torques which the torque callback returned last, if these respect the limit. If there was no torque
callback before the command it has no torques. -/
theorem C70_admissible_torques_are_sent : Before (fun pre e => ∀ a x, e = .udpSend a x → (NoTorqueYet pre ∧ x.control = noTorques) ∨
    ∃ st out, LastTorque pre st out ∧ (TorquesAdmissible out.tau_J st → x.control.tau_J_d = out.tau_J)) (newEvents w (c.run w).2) := by
  obtain ⟨s0, ph, -, -, hr, -⟩ := control_events hw hc
  rintro pre e post h a x rfl
  obtain ⟨ph1, ph2, h1, h2⟩ := hr.before_all pre _ post h
  have hh := run_held h1
  have key : ∀ t, TorquesFromLast call pre t → (NoTorqueYet pre ∧ t = noTorques) ∨
      ∃ st out, LastTorque pre st out ∧ (TorquesAdmissible out.tau_J st → t.tau_J_d = out.tau_J) := by
    rintro t (g | ⟨st, out, g1, g2⟩)
    · exact .inl g
    · rw [hl, hf] at g2
      exact .inr ⟨st, out, g1, fun ha => admissible_torques ha hcut g2⟩
  cases h2 with
  | send c s m t => exact key _ hh.2
  | finish s m t => exact key _ hh.2

end

/-! ## Examples -/

section
open Accelerate

/-- The two outputs of the callback in the motion of `Props/ExchangeExample.lean`, which happens, respect the limits. -/
example : letI := wire; Admissible (out 0) (RobotState.ofIntern s3) ∧ Admissible (out 1) (RobotState.ofIntern s4) :=
  ⟨⟨_, _, _, rfl, d3.1, d3.2, fun i => below_joint i ▸ allowed0 i⟩, ⟨_, _, _, rfl, d4.1, d4.2, fun i => below_joint i ▸ allowed1 i⟩⟩

/-- The library of `Props/Pose.lean` meets the specification. -/
example : @RotationLibrary matrixGeo := matrixGeo_lawful

/-- A torque of half a Nm after none. -/
example (st : RobotState XR) : TorquesAdmissible (Arr.fin fun _ => 0.5) { st with tau_J_d := Arr.fin fun _ => 0 } :=
  ⟨_, _, rfl, rfl, fun i => by norm_num [abs_le]⟩

/-- An elbow that moves by a micrometre from rest. -/
example (st : RobotState XR) : ElbowAdmissible (Arr.fin ![0.000001, -1]) { st with elbow_c := Arr.fin ![0, -1], delbow_c := Arr.fin ![0, 0], ddelbow_c := Arr.fin ![0, 0] } := by
  refine ⟨_, _, 0, 0, 0, rfl, by simp, rfl, rfl, rfl, ?_⟩
  rw [below_elbow]
  constructor <;> simp [codeElbow] <;> norm_num [abs_le]

end
end Verif
