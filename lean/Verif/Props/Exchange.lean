import Verif.Lemmas.Exchange
import Verif.Props.Control
import Verif.Props.Limits
import Verif.Props.Pose
/-!
# The commands of a whole control call respect the limits: C69

Doubles are real numbers here (`Spec/Real.lean`), with any bit patterns. `w` is a world in which a `Robot` exists (after `Robot::new` and any calls), `c` a
control method with its arguments and with rate limiting. `exchanges` (Spec/Exchange.lean) are the states that were passed to the motion callback in this
call, with the commands that were sent for them. The robot is assumed to follow: in every state it reports the values of the last command as the desired
ones, and their rates of change.
-/
set_option linter.unusedSectionVars false
namespace Verif
open Prog Spec

section
variable {F : Type} [Fl F] [Wire F] [Geo F]

/-- The `n`-th state that was passed to the motion callback, and the command that was sent for it. -/
def Exchange (w : World F) (c : RobotCall F) (n : ℕ) (st : RobotState F) (x : RobotCommand F) : Prop :=
  (exchanges (newEvents w (c.run w).2))[n]? = some (st, x)

/-- The number of states that were answered. -/
def answered (w : World F) (c : RobotCall F) : ℕ := (exchanges (newEvents w (c.run w).2)).length

theorem exchange_exists {w : World F} {c : RobotCall F} {n : ℕ} (h : n < answered w c) : ∃ st x, Exchange w c n st x := ⟨_, _, List.getElem?_eq_getElem h⟩

end

section any
variable {F : Type} [Fl F] [Wire F] [Geo F] {w : World F} (hw : RobotReachable w) {c : RobotCall F} {σ : Type} {k : MotionKind} {call : ControlCall F σ k} {c0 : σ}
  (hc : IsControl c call c0)
include hw hc

theorem call_exchanges : AllFrom call (exchanges (newEvents w (c.run w).2)) := by
  obtain ⟨s0, ph, -, -, hr, -⟩ := control_events hw hc
  exact (run_exchanged hr).1

theorem call_torques {n : ℕ} {p : RobotState F × RobotCommand F} (h : (exchanges (newEvents w (c.run w).2))[n]? = some p) :
    MotionFrom call p.1 p.2.motion ∧
    TorquesFrom call (lastTorques ((exchanges (newEvents w (c.run w).2)).take n)) p.1 p.2.control p.2.motion.motion_generation_finished := by
  obtain ⟨hn, rfl⟩ := List.getElem?_eq_some_iff.1 h
  refine call_exchanges hw hc _ _ ((exchanges (newEvents w (c.run w).2)).drop (n + 1)) ?_
  rw [← List.drop_eq_getElem_cons hn, List.take_append_drop]

theorem call_exchange {n : ℕ} {p : RobotState F × RobotCommand F} (h : (exchanges (newEvents w (c.run w).2))[n]? = some p) :
    MotionFrom call p.1 p.2.motion := (call_torques hw hc h).1

end any

/-- The limited elbow of a conversion. -/
theorem convert_elbow_limited {e : Option (Arr XR 2)} {state : RobotState XR} {m m' : MotionGeneratorCommand XR} {cutoff : XR}
    (h : convert_elbow e state m cutoff true = .ok m') (hv : m'.valid_elbow = true) {x v a : ℝ} (hx : state.elbow_c 0 = .fin x) (hd : state.delbow_c 0 = .fin v)
    (ha : state.ddelbow_c 0 = .fin a) : ∃ u : ℝ, m'.elbow_c 0 = .fin (x + (v + limitAcc codeElbow (1000 * (u - x)) v a / 1000) / 1000) := by
  cases e with
  | none => cases h; cases hv
  | some y =>
    have h : ∃ y1 z, limit_rate_position MAX_ELBOW_VELOCITY MAX_ELBOW_ACCELERATION MAX_ELBOW_JERK (y1 : XR) (state.elbow_c 0) (state.delbow_c 0)
        (state.ddelbow_c 0) = .ok z ∧ m'.elbow_c 0 = z := by
      unfold convert_elbow at h
      dsimp only at h
      simp only [↓reduceIte] at h
      split at h
      · obtain ⟨z0, -, h⟩ := P_bind_inv h
        obtain ⟨y1, -, h⟩ := P_bind_inv h
        obtain ⟨z, h2, h⟩ := P_bind_inv h
        obtain ⟨y2, h3, h⟩ := P_bind_inv h
        obtain ⟨_, -, h⟩ := P_bind_inv h
        cases h3
        cases h
        exact ⟨_, _, h2, rfl⟩
      · obtain ⟨y1, -, h⟩ := P_bind_inv h
        obtain ⟨z, h2, h⟩ := P_bind_inv h
        obtain ⟨y2, h3, h⟩ := P_bind_inv h
        obtain ⟨_, -, h⟩ := P_bind_inv h
        cases h3
        cases h
        exact ⟨_, _, h2, rfl⟩
    obtain ⟨y1, z, h2, h⟩ := h
    obtain ⟨e1, e2, e3⟩ := MAX_ELBOW_fin
    have hu : ∃ u : ℝ, y1 = .fin u := by
      have := h2
      unfold limit_rate_position at this
      obtain ⟨_, h4, -⟩ := P_bind_inv this
      unfold assertP at h4
      split at h4
      case isTrue h => cases hy : y1 <;> rw [hy] at h <;> first | exact ⟨_, rfl⟩ | cases h
      case isFalse => cases h4
    obtain ⟨u, hu⟩ := hu
    rw [hx, hd, ha, hu, e1, e2, e3, limit_rate_position_fin _ codeElbow_ok.acceleration.ne'] at h2
    injection h2 with h2
    exact ⟨u, h.trans h2.symm⟩

/-- Conversions end with the elbow. -/
theorem convert_motion_elbow {F : Type} [Fl F] [Geo F] {k : MotionKind} (hk : k = .CartesianPose ∨ k = .CartesianVelocities) {out : Motion F k} {state : RobotState F}
    {m m' : MotionGeneratorCommand F} {cutoff : F} {b : Bool} (h : out.convert_motion state m cutoff b = .ok m') :
    ∃ e m1, convert_elbow e state m1 cutoff b = .ok m' := by
  rcases hk with rfl | rfl
  · change CartesianPose.convert_motion out state m cutoff b = .ok m' at h
    unfold CartesianPose.convert_motion at h
    dsimp only at h
    split at h <;> split at h
    all_goals
      repeat (obtain ⟨_, -, h⟩ := P_bind_inv h)
      exact ⟨_, _, h⟩
  · change CartesianVelocities.convert_motion out state m cutoff b = .ok m' at h
    unfold CartesianVelocities.convert_motion at h
    dsimp only at h
    split at h <;> split at h
    all_goals
      repeat (obtain ⟨_, -, h⟩ := P_bind_inv h)
      exact ⟨_, _, h⟩

section
variable [Wire XR] [Geo XR] {w : World XR} (hw : RobotReachable w) {c : RobotCall XR} {σ : Type} {c0 : σ}
include hw

/-- **C69**, joint velocities: `v i n` is the velocity of joint `i` that the robot reports in the `n`-th state and `v i (n + 1)` the one in the command for
it. The robot starts from rest. Then all commands of the call respect the limits for velocity, acceleration and jerk. -/
theorem C69_joint_velocities {call : ControlCall XR σ .JointVelocities} (hc : IsControl c call c0) (hl : call.limit_rate = true) (v : Fin 7 → ℕ → ℝ)
    (rest : ∀ i, v i 0 = 0)
    (reported : ∀ n st x, Exchange w c n st x → st.dq_d = Arr.fin (fun i => v i n) ∧ st.ddq_d = Arr.fin fun i => rate (v i) n)
    (commanded : ∀ n st x, Exchange w c n st x → x.motion.dq_c = Arr.fin fun i => v i (n + 1)) :
    ∀ i, VelocityRespectsFor (answered w c) (jointLimits i) (v i) := by
  intro i
  obtain ⟨h1, h2, h3⟩ := codeLimits_le i
  have step : ∀ n, ∃ u, n < answered w c → v i (n + 1) = v i n + limitAcc (codeLimits i) u (v i n) (rate (v i) n) / 1000 := by
    intro n
    by_cases hn : n < answered w c
    · obtain ⟨st, x, hx⟩ := exchange_exists hn
      obtain ⟨g1, g2⟩ := reported n st x hx
      obtain ⟨out, m0, m', g3, g4⟩ := call_exchange hw hc hx
      rw [hl] at g3
      obtain ⟨u, hu⟩ := convert_joint_velocities g1 g2 g3
      have g5 : x.motion.dq_c = m'.dq_c := by rcases g4 with g | g <;> rw [show x.motion = _ from g]
      have := congrFun ((commanded n st x hx).symm.trans (g5.trans hu)) i
      exact ⟨u i, fun _ => by simpa only [Arr.fin_apply, XR.fin_inj] using this⟩
    · exact ⟨0, fun h => absurd h hn⟩
  choose u hu using step
  exact VelocityRespectsFor.weaken (run_respects_for (codeLimits_ok i) (u := u) (rest i) hu) h1 h2 h3

/-- **C69**, joint positions: the same for a motion that is commanded by positions, such as the one of `joint_motion`. -/
theorem C69_joint_positions {call : ControlCall XR σ .JointPositions} (hc : IsControl c call c0) (hl : call.limit_rate = true) (q : Fin 7 → ℕ → ℝ)
    (reported : ∀ n st x, Exchange w c n st x → st.q_d = Arr.fin (fun i => q i n) ∧ st.dq_d = Arr.fin (fun i => rate (q i) n) ∧
      st.ddq_d = Arr.fin fun i => rate (rate (q i)) n)
    (commanded : ∀ n st x, Exchange w c n st x → x.motion.q_c = Arr.fin fun i => q i (n + 1)) :
    ∀ i, PositionRespectsFor (answered w c) (jointLimits i) (q i) := by
  intro i
  obtain ⟨h1, h2, h3⟩ := codeLimits_le i
  have step : ∀ n, ∃ u, n < answered w c → q i (n + 1) =
      q i n + (rate (q i) n + limitAcc (codeLimits i) (1000 * (u - q i n)) (rate (q i) n) (rate (rate (q i)) n) / 1000) / 1000 := by
    intro n
    by_cases hn : n < answered w c
    · obtain ⟨st, x, hx⟩ := exchange_exists hn
      obtain ⟨g0, g1, g2⟩ := reported n st x hx
      obtain ⟨out, m0, m', g3, g4⟩ := call_exchange hw hc hx
      rw [hl] at g3
      obtain ⟨u, hu⟩ := convert_joint_positions g0 g1 g2 g3
      have g5 : x.motion.q_c = m'.q_c := by rcases g4 with g | g <;> rw [show x.motion = _ from g]
      have := congrFun ((commanded n st x hx).symm.trans (g5.trans hu)) i
      exact ⟨u i, fun _ => by simpa only [Arr.fin_apply, XR.fin_inj] using this⟩
    · exact ⟨0, fun h => absurd h hn⟩
  choose u hu using step
  exact VelocityRespectsFor.weaken (position_run_respects_for (codeLimits_ok i) (u := u) hu) h1 h2 h3

/-- **C69**, Cartesian velocities: `x n` is the velocity that the robot reports in the `n`-th state and `x (n + 1)` the one in the command for it; the
reported accelerations may be any numbers. A motion that starts within the limits respects those for velocity and acceleration. -/
theorem C69_cartesian_velocities {call : ControlCall XR σ .CartesianVelocities} (hc : IsControl c call c0) (hl : call.limit_rate = true) (x : ℕ → Fin 6 → ℝ)
    (start : len (linear (x 0)) ≤ 1.99 ∧ len (angular (x 0)) ≤ 2.49)
    (reported : ∀ n st m, Exchange w c n st m → st.O_dP_EE_c = Arr.fin (x n) ∧ ∃ a : Fin 6 → ℝ, st.O_ddP_EE_c = Arr.fin a)
    (commanded : ∀ n st m, Exchange w c n st m → m.motion.O_dP_EE_c = Arr.fin (x (n + 1))) :
    ∀ n < answered w c, StepRespects translationLimits (linear (x n)) (linear (x (n + 1))) ∧
      StepRespects rotationLimits (angular (x n)) (angular (x (n + 1))) := by
  have hx : ∀ n, ∃ st m a, n < answered w c → Exchange w c n st m ∧ st.O_ddP_EE_c = Arr.fin (a : Fin 6 → ℝ) := by
    intro n
    by_cases hn : n < answered w c
    · obtain ⟨st, m, hx⟩ := exchange_exists hn
      obtain ⟨-, a, ha⟩ := reported n st m hx
      exact ⟨st, m, a, fun _ => ⟨hx, ha⟩⟩
    · refine ⟨?_, ?_, 0, fun h => absurd h hn⟩
      · exact RobotState.ofIntern (Classical.choice ⟨(RobotReachable.alive hw).2.choose⟩)
      · exact ⟨0, noMotion, noTorques⟩
  choose st m a ha using hx
  refine cartesian_run_respects (state := st) (a := a) (cutoff := call.cutoff) start (fun n hn => (reported n _ _ (ha n hn).1).1) (fun n hn => (ha n hn).2) fun n hn => ?_
  obtain ⟨out, m0, m', g3, g4⟩ := call_exchange hw hc (ha n hn).1
  rw [hl] at g3
  refine ⟨out, m0, m', g3, ?_⟩
  rw [← commanded n _ _ (ha n hn).1]
  rcases g4 with g | g <;> rw [show (m n).motion = _ from g]

/-- **C69**, poses: `p n` and `v n` are the pose and the velocity that the robot reports in the `n`-th state, `p (n + 1)` the pose in the command for it. The
velocity is the rate of change of the pose, the reported accelerations may be any numbers, and the motion stays away from half turns. Then the poses are proper
ones and respect the limits for velocity and acceleration. -/
theorem C69_poses (lib : RotationLibrary) {call : ControlCall XR σ .CartesianPose} (hc : IsControl c call c0) (hl : call.limit_rate = true)
    (p : ℕ → Fin 16 → ℝ) (v : ℕ → Fin 6 → ℝ)
    (start : len (linear (v 0)) ≤ 1.99 ∧ len (angular (v 0)) ≤ 2.47 ∧ IsRotation (rotationPart (p 0)))
    (away : ∀ n < answered w c, -0.99 ≤ (rotationPart (p n)).trace)
    (reported : ∀ n st m, Exchange w c n st m → st.O_T_EE_c = Arr.fin (p n) ∧ st.O_dP_EE_c = Arr.fin (v n) ∧ ∃ a : Fin 6 → ℝ, st.O_ddP_EE_c = Arr.fin a)
    (commanded : ∀ n st m, Exchange w c n st m → m.motion.O_T_EE_c = Arr.fin (p (n + 1)))
    (hlin : ∀ n < answered w c, linear (v (n + 1)) = fun i => (position (p (n + 1)) i - position (p n) i) / 0.001)
    (hang : ∀ n < answered w c, len (angular (v (n + 1))) < 1000 * Real.pi ∧
      rotationPart (p (n + 1)) = turn (fun i => 0.001 * angular (v (n + 1)) i) * rotationPart (p n)) :
    ∀ n < answered w c, BottomRow (p (n + 1)) ∧ IsRotation (rotationPart (p (n + 1))) ∧
      StepRespects translationLimits (linear (v n)) (linear (v (n + 1))) ∧ StepRespects rotationLimits (angular (v n)) (angular (v (n + 1))) := by
  have hx : ∀ n, ∃ st m a, n < answered w c → Exchange w c n st m ∧ st.O_ddP_EE_c = Arr.fin (a : Fin 6 → ℝ) := by
    intro n
    by_cases hn : n < answered w c
    · obtain ⟨st, m, hx⟩ := exchange_exists hn
      obtain ⟨-, -, a, ha⟩ := reported n st m hx
      exact ⟨st, m, a, fun _ => ⟨hx, ha⟩⟩
    · refine ⟨?_, ?_, 0, fun h => absurd h hn⟩
      · exact RobotState.ofIntern (Classical.choice ⟨(RobotReachable.alive hw).2.choose⟩)
      · exact ⟨0, noMotion, noTorques⟩
  choose st m a ha using hx
  refine pose_run_respects lib (state := st) (a := a) (cutoff := call.cutoff) start away (fun n hn => (reported n _ _ (ha n hn).1).1)
    (fun n hn => (reported n _ _ (ha n hn).1).2.1) (fun n hn => (ha n hn).2) (fun n hn => ?_) hlin hang
  obtain ⟨out, m0, m', g3, g4⟩ := call_exchange hw hc (ha n hn).1
  rw [hl] at g3
  refine ⟨out, m0, m', g3, ?_⟩
  rw [← commanded n _ _ (ha n hn).1]
  rcases g4 with g | g <;> rw [show (m n).motion = _ from g]

/-- **C69**, the elbow: `e n` is the position of the elbow that the robot reports in the `n`-th state, `e (n + 1)` the one in the command for it. In Cartesian
motions with the elbow, its commands respect the limits for velocity, acceleration and jerk. -/
theorem C69_elbow {k : MotionKind} {call : ControlCall XR σ k} (hk : k = .CartesianPose ∨ k = .CartesianVelocities) (hc : IsControl c call c0)
    (hl : call.limit_rate = true) (e : ℕ → ℝ) (valid : ∀ n st x, Exchange w c n st x → x.motion.valid_elbow = true)
    (reported : ∀ n st x, Exchange w c n st x → st.elbow_c 0 = .fin (e n) ∧ st.delbow_c 0 = .fin (rate e n) ∧ st.ddelbow_c 0 = .fin (rate (rate e) n))
    (commanded : ∀ n st x, Exchange w c n st x → x.motion.elbow_c 0 = .fin (e (n + 1))) :
    PositionRespectsFor (answered w c) elbowLimits e := by
  obtain ⟨h1, h2, h3⟩ := codeElbow_le
  have step : ∀ n, ∃ u, n < answered w c → e (n + 1) =
      e n + (rate e n + limitAcc codeElbow (1000 * (u - e n)) (rate e n) (rate (rate e) n) / 1000) / 1000 := by
    intro n
    by_cases hn : n < answered w c
    · obtain ⟨st, x, hx⟩ := exchange_exists hn
      obtain ⟨g0, g1, g2⟩ := reported n st x hx
      obtain ⟨out, m0, m', g3, g4⟩ := call_exchange hw hc hx
      rw [hl] at g3
      obtain ⟨o, m1, g6⟩ := convert_motion_elbow hk g3
      have g5 : x.motion.elbow_c = m'.elbow_c ∧ x.motion.valid_elbow = m'.valid_elbow := by
        rcases g4 with g | g <;> rw [show x.motion = _ from g] <;> exact ⟨rfl, rfl⟩
      obtain ⟨u, hu⟩ := convert_elbow_limited g6 (by rw [← g5.2]; exact valid n st x hx) g0 g1 g2
      have := (commanded n st x hx).symm.trans ((congrFun g5.1 0).trans hu)
      exact ⟨u, fun _ => by simpa only [XR.fin_inj] using this⟩
    · exact ⟨0, fun h => absurd h hn⟩
  choose u hu using step
  exact VelocityRespectsFor.weaken (position_run_respects_for codeElbow_ok (u := u) hu) h1 h2 h3

/-- **C69**, torques: `τ n` are the torques that the robot reports in the `n`-th state, `τ (n + 1)` the ones in the command for it. They change by at most 1 Nm
from command to command, except for the first one if the motion callback ended the motion at once. -/
theorem C69_torques {k : MotionKind} {call : ControlCall XR σ k} (hc : IsControl c call c0) (hl : call.limit_rate = true) (ht : call.torque ≠ none)
    (τ : ℕ → Fin 7 → ℝ) (reported : ∀ n st x, Exchange w c n st x → st.tau_J_d = Arr.fin (τ n))
    (commanded : ∀ n st x, Exchange w c n st x → x.control.tau_J_d = Arr.fin (τ (n + 1))) (n : ℕ) (st : RobotState XR) (x : RobotCommand XR)
    (hx : Exchange w c n st x) (hn : n ≠ 0 ∨ x.motion.motion_generation_finished = false) : ∀ i, |τ (n + 1) i - τ n i| ≤ 1 := by
  have hfin : ∀ {a b : Fin 7 → ℝ}, (Arr.fin a : Arr XR 7) = Arr.fin b → a = b := fun {a b} h => funext fun i => (XR.fin_inj _ _).1 (congrFun h i)
  rcases (call_torques hw hc hx).2 with ⟨-, tau, h⟩ | ⟨h, h'⟩
  · rw [hl] at h
    obtain ⟨u, t, -, h2, h3⟩ := C41_torques_of_a_callback (reported n st x hx) h
    have := hfin ((commanded n st x hx).symm.trans h2)
    subst this
    exact fun i => (h3 i).1
  · rcases h' with h' | h'
    · exact absurd h' ht
    · rcases hn with hn | hn
      · obtain ⟨j, rfl⟩ := Nat.exists_eq_succ_of_ne_zero hn
        have hlen : j + 1 < answered w c := (List.getElem?_eq_some_iff.1 hx).1
        obtain ⟨st', x', hx'⟩ := exchange_exists (w := w) (c := c) (n := j) (by omega)
        have e : lastTorques ((exchanges (newEvents w (c.run w).2)).take (j + 1)) = x'.control := by
          have hj : j < (exchanges (newEvents w (c.run w).2)).length := by
            have : j + 1 < (exchanges (newEvents w (c.run w).2)).length := hlen
            omega
          rw [List.take_add_one, hx', Option.toList_some, lastTorques_snoc]
        rw [e] at h
        have h := congrArg ControllerCommand.tau_J_d h
        have := hfin ((commanded _ st x hx).symm.trans (h.trans (commanded j st' x' hx')))
        intro i
        rw [this, sub_self, abs_zero]
        exact zero_le_one
      · rw [show x.motion.motion_generation_finished = true from h'] at hn; cases hn

end
end Verif
