import Verif.Lemmas.Filter
import Verif.Model.ControlLoop
/-!
# Rate limiting of torques and joints: C41 - C44

Doubles are real numbers here (`Spec/Real.lean`). The theorems about runs are about the values that are computed from the outputs of the user's
callback (`convert_motion`); the robot is assumed to report the values it was commanded as the last desired ones.
-/
namespace Verif
open Spec

/-! ## C41 -/

/-- What a limited torque has to be: near the last one, towards the command, and the command itself if this is possible. -/
structure TorqueStep (rate last command sent : ℝ) : Prop where
  near : |sent - last| ≤ rate * 0.001
  towards : sent ∈ Set.uIcc last command
  transparent : |command - last| ≤ rate * 0.001 → sent = command

theorem torque_step {d u l : ℝ} (hd : 0 ≤ d) : TorqueStep d l u (l + max (min (1000 * (u - l)) d) (-d) / 1000) := by
  have h1 : max (min (1000 * (u - l)) d) (-d) ≤ d := max_le (min_le_right _ _) (by linarith)
  have h2 : -d ≤ max (min (1000 * (u - l)) d) (-d) := le_max_right _ _
  refine ⟨?_, ?_, ?_⟩
  · rw [abs_le]
    constructor <;> norm_num <;> linarith
  · rw [Set.mem_uIcc]
    rcases le_total l u with h | h
    · left
      have h3 : 0 ≤ max (min (1000 * (u - l)) d) (-d) := le_max_of_le_left (le_min (by linarith) hd)
      have h4 : max (min (1000 * (u - l)) d) (-d) ≤ 1000 * (u - l) := max_le (min_le_left _ _) (by linarith)
      constructor <;> linarith
    · right
      have h3 : max (min (1000 * (u - l)) d) (-d) ≤ 0 := max_le (min_le_of_left_le (by linarith)) (by linarith)
      have h4 : 1000 * (u - l) ≤ max (min (1000 * (u - l)) d) (-d) := le_max_of_le_left (le_min le_rfl (by linarith))
      constructor <;> linarith
  · intro h
    obtain ⟨h3, h4⟩ := abs_le.1 h
    norm_num at h3 h4
    rw [min_eq_left (by linarith), max_eq_left (by linarith)]
    ring

theorem limit_rate_torques_fin (d u l : Fin 7 → ℝ) : limit_rate_torques (Arr.fin d) (Arr.fin u) (Arr.fin l) =
    .ok (Arr.fin fun i => l i + max (min (1000 * (u i - l i)) (d i)) (-d i) / 1000) := by
  unfold limit_rate_torques
  rw [assertFinite_fin, P_bind_ok_eq]
  simp only [Arr.fin_apply, XR.fin_sub, fin_div_dt, XR.fmin_fin, XR.fin_neg, XR.fmax_fin, fin_mul_dt, XR.fin_add]
  rfl

/-- C41: for all finite commands and last values and all limits, the torque limiter returns and its values are right. -/
theorem C41_torque_rate {d : Fin 7 → ℝ} (hd : ∀ i, 0 ≤ d i) (u l : Fin 7 → ℝ) :
    ∃ r, limit_rate_torques (Arr.fin d) (Arr.fin u) (Arr.fin l) = .ok (Arr.fin r) ∧ ∀ i, TorqueStep (d i) (l i) (u i) (r i) :=
  ⟨_, limit_rate_torques_fin d u l, fun i => torque_step (hd i)⟩

theorem MAX_TORQUE_RATE_fin : (MAX_TORQUE_RATE : Arr XR 7) = Arr.fin fun _ => 1000 - 1 / 1000 := by
  funext i
  simp [MAX_TORQUE_RATE, LIMIT_EPS_fin, XR.lit_fin]

/-- The filter step shared by the conversions: the result is between the last value and the command, or is the command. -/
theorem filtered {n : Nat} {y last r : Arr XR n} {cutoff : XR}
    (h : (if Fl.flt cutoff MAX_CUTOFF_FREQUENCY then Arr.tabulateP fun i => low_pass_filter DELTA_T (y i) (last i) cutoff else pure y) = (.ok r : P (Arr XR n))) :
    ∀ i, r i = y i ∨ ∃ y' l' r', y i = .fin y' ∧ last i = .fin l' ∧ r i = .fin r' ∧ r' ∈ Set.uIcc l' y' := by
  intro i
  split at h
  · right
    have h1 := Arr.tabulateP_inv h i
    obtain ⟨dt, y', l', f, e1, e2, e3, e4, e5, e6⟩ := low_pass_filter_inv h1
    rw [e1, e3, e4, e5, low_pass_filter_fin e2 e6] at h1
    injection h1 with h1
    exact ⟨y', l', _, e3, e4, h1.symm, mix_mem (gain_nonneg e2 e6) (gain_lt_one e2 e6).le⟩
  · left
    injection h with h
    rw [h]

/-- C41: with rate limiting, every torque that is computed from the output of the user's callback differs from the last desired torque by at
most 1 Nm (1000 Nm/s for 1 ms) and lies between the last desired torque and the output of the callback. -/
theorem C41_torques_of_a_callback {cutoff : XR} {state : RobotState XR} {tau τ : Arr XR 7} {l : Fin 7 → ℝ} (hl : state.tau_J_d = Arr.fin l)
    (h : ControlLoop.convert_torques true cutoff state tau = .ok τ) :
    ∃ u t, tau = Arr.fin u ∧ τ = Arr.fin t ∧ ∀ i, |t i - l i| ≤ 1 ∧ t i ∈ Set.uIcc (l i) (u i) := by
  have h : ((if Fl.flt cutoff MAX_CUTOFF_FREQUENCY then Arr.tabulateP fun i => low_pass_filter DELTA_T (tau i) (state.tau_J_d i) cutoff else pure tau) >>= fun x =>
      limit_rate_torques MAX_TORQUE_RATE x state.tau_J_d >>= fun y => assertFinite y >>= fun _ => (pure y : P (Arr XR 7))) = .ok τ := by
    rw [← h]
    unfold ControlLoop.convert_torques
    split <;> rfl
  obtain ⟨x, h1, h⟩ := P_bind_inv h
  obtain ⟨y, h2, h⟩ := P_bind_inv h
  obtain ⟨_, h3, h⟩ := P_bind_inv h
  obtain rfl : y = τ := by injection h
  have hx : ∃ x', x = Arr.fin x' := by
    unfold limit_rate_torques at h2
    obtain ⟨_, h4, -⟩ := P_bind_inv h2
    exact assertFinite_inv h4
  obtain ⟨x, rfl⟩ := hx
  rw [MAX_TORQUE_RATE_fin, hl, limit_rate_torques_fin] at h2
  obtain rfl : Arr.fin _ = y := by injection h2
  have hf := filtered h1
  rw [hl] at hf
  have hu : ∃ u : Fin 7 → ℝ, tau = Arr.fin u := by
    refine Arr.fin_of_isFinite fun i => ?_
    rcases hf i with h | ⟨y', l', r', h, -⟩
    · rw [← h]; rfl
    · rw [h]; rfl
  obtain ⟨u, rfl⟩ := hu
  refine ⟨u, _, rfl, rfl, fun i => ?_⟩
  have hs := torque_step (d := 1000 - 1 / 1000) (u := x i) (l := l i) (by norm_num)
  refine ⟨hs.near.trans (by norm_num), ?_⟩
  have hxu : x i ∈ Set.uIcc (l i) (u i) := by
    rcases hf i with h | ⟨y', l', r', e1, e2, e3, e4⟩
    · simp only [Arr.fin_apply, XR.fin_inj] at h
      rw [h]
      exact Set.right_mem_uIcc
    · simp only [Arr.fin_apply, XR.fin_inj] at e1 e2 e3
      rw [e1, e2, e3]
      exact e4
  exact Set.uIcc_subset_uIcc Set.left_mem_uIcc hxu hs.towards

/-- C41: without filtering (a cutoff frequency of 1000 Hz), the torques computed from a finite output are the limited ones, and the output itself
where it differs from the last desired torque by at most 0.999 Nm. -/
theorem C41_torques_without_filter {cutoff : ℝ} (hc : 1000 ≤ cutoff) {state : RobotState XR} {u l : Fin 7 → ℝ} (hl : state.tau_J_d = Arr.fin l) :
    ∃ t, ControlLoop.convert_torques true (.fin cutoff) state (Arr.fin u) = .ok (Arr.fin t) ∧
      ∀ i, |t i - l i| ≤ 1 ∧ t i ∈ Set.uIcc (l i) (u i) ∧ (|u i - l i| ≤ 0.999 → t i = u i) := by
  have hf : Fl.flt (XR.fin cutoff) MAX_CUTOFF_FREQUENCY = false := by
    rw [MAX_CUTOFF_FREQUENCY, XR.lit_fin, XR.flt_fin]
    simpa using by linarith
  refine ⟨fun i => l i + max (min (1000 * (u i - l i)) (1000 - 1 / 1000)) (-(1000 - 1 / 1000)) / 1000, ?_, fun i => ?_⟩
  · unfold ControlLoop.convert_torques
    rw [hf]
    simp only [Bool.false_eq_true, if_false, if_true]
    show (limit_rate_torques MAX_TORQUE_RATE (Arr.fin u) state.tau_J_d >>= fun y => assertFinite y >>= fun _ => (pure y : P (Arr XR 7))) = _
    rw [hl, MAX_TORQUE_RATE_fin, limit_rate_torques_fin, P_bind_ok_eq, assertFinite_fin, P_bind_ok_eq]
    rfl
  · have hs := torque_step (d := 1000 - 1 / 1000) (u := u i) (l := l i) (by norm_num)
    exact ⟨hs.near.trans (by norm_num), hs.towards, fun h => hs.transparent (h.trans (by norm_num))⟩

/-- Example: 5 Nm are requested while the last torque was 1 Nm; 1.999999 Nm are sent. A request of 1.5 Nm is not changed. -/
example : limit_rate_torques MAX_TORQUE_RATE (Arr.fin ![5, 1.5, -5, 0, 0, 0, 0]) (Arr.fin ![1, 1, 1, 0, 0, 0, 0]) =
    .ok (Arr.fin ![1.999999, 1.5, 0.000001, 0, 0, 0, 0]) := by
  rw [MAX_TORQUE_RATE_fin, limit_rate_torques_fin]
  congr 2
  funext i
  fin_cases i <;> norm_num [min_def, max_def]

/-! ## C42 -/

/-- The motion part of a conversion of joint velocities with rate limiting. -/
theorem convert_joint_velocities {out : JointVelocities XR} {state : RobotState XR} {m m' : MotionGeneratorCommand XR} {cutoff : XR} {v a : Fin 7 → ℝ}
    (hv : state.dq_d = Arr.fin v) (ha : state.ddq_d = Arr.fin a) (h : out.convert_motion state m cutoff true = .ok m') :
    ∃ u : Fin 7 → ℝ, m'.dq_c = Arr.fin fun i => v i + limitAcc (codeLimits i) (u i) (v i) (a i) / 1000 := by
  have h : ((if Fl.flt cutoff MAX_CUTOFF_FREQUENCY then Arr.tabulateP fun i => low_pass_filter DELTA_T (out.dq i) (state.dq_d i) cutoff else pure out.dq) >>= fun x =>
      limit_rate_joint_velocities MAX_JOINT_VELOCITY MAX_JOINT_ACCELERATION MAX_JOINT_JERK x state.dq_d state.ddq_d >>= fun y =>
      assertFinite y >>= fun _ => (pure { m with dq_c := y } : P (MotionGeneratorCommand XR))) = .ok m' := by
    rw [← h]
    unfold JointVelocities.convert_motion
    split <;> rfl
  obtain ⟨x, -, h⟩ := P_bind_inv h
  obtain ⟨y, h2, h⟩ := P_bind_inv h
  obtain ⟨_, h3, h⟩ := P_bind_inv h
  obtain rfl : _ = m' := by injection h
  have hx : ∃ x', x = Arr.fin x' := by
    unfold limit_rate_joint_velocities at h2
    obtain ⟨_, h4, -⟩ := P_bind_inv h2
    exact assertFinite_inv h4
  obtain ⟨u, rfl⟩ := hx
  rw [hv, ha, limit_rate_joint_velocities_fin] at h2
  injection h2 with h2
  exact ⟨u, h2.symm⟩

/-- C42: a joint velocity motion with rate limiting that starts from rest respects the velocity, acceleration and jerk limits of every joint in
every step, whatever the callback returns and whatever the cutoff frequency is. -/
theorem C42_joint_velocities_respect_the_limits (out : ℕ → JointVelocities XR) (state : ℕ → RobotState XR) (m m' : ℕ → MotionGeneratorCommand XR)
    (cutoff : XR) (v : Fin 7 → ℕ → ℝ) (rest : ∀ i, v i 0 = 0)
    (hv : ∀ n, (state n).dq_d = Arr.fin fun i => v i n) (ha : ∀ n, (state n).ddq_d = Arr.fin fun i => rate (v i) n)
    (hs : ∀ n, (out n).convert_motion (state n) (m n) cutoff true = .ok (m' n)) (hn : ∀ n, (m' n).dq_c = Arr.fin fun i => v i (n + 1)) :
    ∀ i, VelocityRespects (jointLimits i) (v i) := by
  choose u hu using fun n => convert_joint_velocities (hv n) (ha n) (hs n)
  intro i
  obtain ⟨h1, h2, h3⟩ := codeLimits_le i
  refine VelocityRespects.weaken (run_respects (codeLimits_ok i) (u := fun n => u n i) (rest i) fun n => ?_) h1 h2 h3
  have := congrFun ((hn n).symm.trans (hu n)) i
  simpa only [Arr.fin_apply, XR.fin_inj] using this

/-- C42: the limiter returns for all finite arguments, so there are such runs for every sequence of requested velocities. -/
theorem C42_runs_exist (u : ℕ → Fin 7 → ℝ) : ∃ v : Fin 7 → ℕ → ℝ, (∀ i, v i 0 = 0) ∧ (∀ n,
    limit_rate_joint_velocities MAX_JOINT_VELOCITY MAX_JOINT_ACCELERATION MAX_JOINT_JERK (Arr.fin (u n)) (Arr.fin fun i => v i n)
      (Arr.fin fun i => rate (v i) n) = .ok (Arr.fin fun i => v i (n + 1))) ∧ ∀ i, VelocityRespects (jointLimits i) (v i) := by
  -- velocity and acceleration after n steps
  let s : ℕ → (Fin 7 → ℝ) × (Fin 7 → ℝ) := fun n => Nat.rec (fun _ => 0, fun _ => 0)
    (fun n p => (fun i => p.1 i + limitAcc (codeLimits i) (u n i) (p.1 i) (p.2 i) / 1000, fun i => limitAcc (codeLimits i) (u n i) (p.1 i) (p.2 i))) n
  have hr : ∀ i n, rate (fun n => (s n).1 i) n = (s n).2 i := by
    intro i n
    cases n with
    | zero => rfl
    | succ n =>
      show ((s n).1 i + limitAcc (codeLimits i) (u n i) ((s n).1 i) ((s n).2 i) / 1000 - (s n).1 i) / 0.001 = limitAcc (codeLimits i) (u n i) ((s n).1 i) ((s n).2 i)
      norm_num
      ring
  refine ⟨fun i n => (s n).1 i, fun i => rfl, fun n => ?_, fun i => ?_⟩
  · rw [limit_rate_joint_velocities_fin]
    congr 2
    funext i
    rw [hr]
  · obtain ⟨h1, h2, h3⟩ := codeLimits_le i
    refine VelocityRespects.weaken (run_respects (codeLimits_ok i) (u := fun n => u n i) rfl fun n => ?_) h1 h2 h3
    rw [hr]

/-! ## C43 -/

theorem convert_joint_positions {out : JointPositions XR} {state : RobotState XR} {m m' : MotionGeneratorCommand XR} {cutoff : XR} {x v a : Fin 7 → ℝ}
    (hx : state.q_d = Arr.fin x) (hv : state.dq_d = Arr.fin v) (ha : state.ddq_d = Arr.fin a) (h : out.convert_motion state m cutoff true = .ok m') :
    ∃ u : Fin 7 → ℝ, m'.q_c = Arr.fin fun i => x i + (v i + limitAcc (codeLimits i) (1000 * (u i - x i)) (v i) (a i) / 1000) / 1000 := by
  have h : ((if Fl.flt cutoff MAX_CUTOFF_FREQUENCY then Arr.tabulateP fun i => low_pass_filter DELTA_T (out.q i) (state.q_d i) cutoff else pure out.q) >>= fun x =>
      limit_rate_joint_positions MAX_JOINT_VELOCITY MAX_JOINT_ACCELERATION MAX_JOINT_JERK x state.q_d state.dq_d state.ddq_d >>= fun y =>
      assertFinite y >>= fun _ => (pure { m with q_c := y } : P (MotionGeneratorCommand XR))) = .ok m' := by
    rw [← h]
    unfold JointPositions.convert_motion
    split <;> rfl
  obtain ⟨y, -, h⟩ := P_bind_inv h
  obtain ⟨z, h2, h⟩ := P_bind_inv h
  obtain ⟨_, h3, h⟩ := P_bind_inv h
  obtain rfl : _ = m' := by injection h
  have hy : ∃ x', y = Arr.fin x' := by
    unfold limit_rate_joint_positions at h2
    obtain ⟨_, h4, -⟩ := P_bind_inv h2
    exact assertFinite_inv h4
  obtain ⟨u, rfl⟩ := hy
  rw [hx, hv, ha, limit_rate_joint_positions_fin] at h2
  injection h2 with h2
  exact ⟨u, h2.symm⟩

/-- The first steps of a run of the position limiter of one axis respect the limits. -/
theorem position_run_respects_for {L : Limits} (hL : LimitsOk L) {u x : ℕ → ℝ} {N : ℕ}
    (hs : ∀ n < N, x (n + 1) = x n + (rate x n + limitAcc L (1000 * (u n - x n)) (rate x n) (rate (rate x) n) / 1000) / 1000) :
    PositionRespectsFor N L x := by
  refine run_respects_for hL (u := fun n => 1000 * (u n - x n)) rfl fun n hn => ?_
  show (x (n + 1) - x n) / 0.001 = _
  rw [hs n hn]
  norm_num
  ring

/-- A run of the position limiter of one axis respects the limits. -/
theorem position_run_respects {L : Limits} (hL : LimitsOk L) {u x : ℕ → ℝ}
    (hs : ∀ n, x (n + 1) = x n + (rate x n + limitAcc L (1000 * (u n - x n)) (rate x n) (rate (rate x) n) / 1000) / 1000) : PositionRespects L x := by
  refine run_respects hL (u := fun n => 1000 * (u n - x n)) rfl fun n => ?_
  show (x (n + 1) - x n) / 0.001 = _
  rw [hs n]
  norm_num
  ring

/-- C43: a joint position motion with rate limiting that starts from rest respects the velocity, acceleration and jerk limits of every joint in
every step, whatever the callback returns and whatever the cutoff frequency is. -/
theorem C43_joint_positions_respect_the_limits (out : ℕ → JointPositions XR) (state : ℕ → RobotState XR) (m m' : ℕ → MotionGeneratorCommand XR)
    (cutoff : XR) (x : Fin 7 → ℕ → ℝ) (hx : ∀ n, (state n).q_d = Arr.fin fun i => x i n)
    (hv : ∀ n, (state n).dq_d = Arr.fin fun i => rate (x i) n) (ha : ∀ n, (state n).ddq_d = Arr.fin fun i => rate (rate (x i)) n)
    (hs : ∀ n, (out n).convert_motion (state n) (m n) cutoff true = .ok (m' n)) (hn : ∀ n, (m' n).q_c = Arr.fin fun i => x i (n + 1)) :
    ∀ i, PositionRespects (jointLimits i) (x i) := by
  choose u hu using fun n => convert_joint_positions (hx n) (hv n) (ha n) (hs n)
  intro i
  obtain ⟨h1, h2, h3⟩ := codeLimits_le i
  refine VelocityRespects.weaken (position_run_respects (codeLimits_ok i) (u := fun n => u n i) fun n => ?_) h1 h2 h3
  have := congrFun ((hn n).symm.trans (hu n)) i
  simpa only [Arr.fin_apply, XR.fin_inj] using this

/-- C43, for the elbow: the same limiter with the limits of the elbow. -/
theorem C43_elbow_respects_the_limits (u x : ℕ → ℝ) (hs : ∀ n, limit_rate_position (F := XR) MAX_ELBOW_VELOCITY MAX_ELBOW_ACCELERATION MAX_ELBOW_JERK
    (.fin (u n)) (.fin (x n)) (.fin (rate x n)) (.fin (rate (rate x) n)) = .ok (.fin (x (n + 1)))) : PositionRespects elbowLimits x := by
  obtain ⟨e1, e2, e3⟩ := MAX_ELBOW_fin
  obtain ⟨h1, h2, h3⟩ := codeElbow_le
  refine VelocityRespects.weaken (position_run_respects codeElbow_ok (u := u) fun n => ?_) h1 h2 h3
  have := hs n
  rw [e1, e2, e3, limit_rate_position_fin _ codeElbow_ok.acceleration.ne'] at this
  injection this with this
  rw [XR.fin_inj] at this
  exact this.symm

/-- C43: there are such runs, for every start and every sequence of requested positions. -/
theorem C43_runs_exist (start : Fin 7 → ℝ) (u : ℕ → Fin 7 → ℝ) : ∃ x : Fin 7 → ℕ → ℝ, (∀ i, x i 0 = start i) ∧ (∀ n,
    limit_rate_joint_positions MAX_JOINT_VELOCITY MAX_JOINT_ACCELERATION MAX_JOINT_JERK (Arr.fin (u n)) (Arr.fin fun i => x i n)
      (Arr.fin fun i => rate (x i) n) (Arr.fin fun i => rate (rate (x i)) n) = .ok (Arr.fin fun i => x i (n + 1))) ∧
    ∀ i, PositionRespects (jointLimits i) (x i) := by
  -- position, velocity and acceleration after n steps
  let acc : ℕ → (Fin 7 → ℝ) → (Fin 7 → ℝ) → (Fin 7 → ℝ) → Fin 7 → ℝ := fun n x v a i => limitAcc (codeLimits i) (1000 * (u n i - x i)) (v i) (a i)
  let s : ℕ → (Fin 7 → ℝ) × (Fin 7 → ℝ) × (Fin 7 → ℝ) := fun n => Nat.rec (start, fun _ => 0, fun _ => 0)
    (fun n p => (fun i => p.1 i + (p.2.1 i + acc n p.1 p.2.1 p.2.2 i / 1000) / 1000, fun i => p.2.1 i + acc n p.1 p.2.1 p.2.2 i / 1000,
      acc n p.1 p.2.1 p.2.2)) n
  have hr : ∀ i, rate (fun n => (s n).1 i) = fun n => (s n).2.1 i := by
    intro i
    funext n
    cases n with
    | zero => rfl
    | succ n =>
      show ((s n).1 i + ((s n).2.1 i + acc n (s n).1 (s n).2.1 (s n).2.2 i / 1000) / 1000 - (s n).1 i) / 0.001 = (s n).2.1 i + acc n (s n).1 (s n).2.1 (s n).2.2 i / 1000
      norm_num
      ring
  have ha : ∀ i, rate (fun n => (s n).2.1 i) = fun n => (s n).2.2 i := by
    intro i
    funext n
    cases n with
    | zero => rfl
    | succ n =>
      show ((s n).2.1 i + acc n (s n).1 (s n).2.1 (s n).2.2 i / 1000 - (s n).2.1 i) / 0.001 = acc n (s n).1 (s n).2.1 (s n).2.2 i
      norm_num
      ring
  refine ⟨fun i n => (s n).1 i, fun i => rfl, fun n => ?_, fun i => ?_⟩
  · rw [limit_rate_joint_positions_fin]
    congr 2
    funext i
    rw [hr, ha]
  · obtain ⟨h1, h2, h3⟩ := codeLimits_le i
    refine VelocityRespects.weaken (position_run_respects (codeLimits_ok i) (u := fun n => u n i) fun n => ?_) h1 h2 h3
    rw [hr, ha]

/-! ## C44 -/

theorem Spec.Allowed.passes {L : Limits} {u v a : ℝ} (h : Allowed L u v a) : v + limitAcc L u v a / 1000 = u := by
  have e : (u - v) / 0.001 = 1000 * (u - v) := by norm_num; ring
  obtain ⟨h1, h2, h3, h4⟩ := h
  rw [e] at h1 h2 h3 h4
  obtain ⟨a1, a2⟩ := abs_le.1 h1
  refine limitAcc_transparent ?_ ⟨h3, a2, ?_, a1⟩
  · rw [abs_div] at h2
    norm_num at h2
    linarith
  · have : L.jerk / L.acceleration * (-L.velocity - v) = -(L.jerk / L.acceleration * (L.velocity + v)) := by ring
    linarith

/-- C44: an allowed joint velocity is passed through unchanged. -/
theorem C44_allowed_velocity {L : Limits} (hA : L.acceleration ≠ 0) {u v a : ℝ} (h : Allowed L u v a) :
    limit_rate_velocity (F := XR) (.fin L.velocity) (.fin L.acceleration) (.fin L.jerk) (.fin u) (.fin v) (.fin a) = .ok (.fin u) := by
  rw [limit_rate_velocity_fin L hA, h.passes]

/-- C44: a joint position whose velocity is allowed is passed through unchanged. -/
theorem C44_allowed_position {L : Limits} (hA : L.acceleration ≠ 0) {u x v a : ℝ} (h : Allowed L ((u - x) / 0.001) v a) :
    limit_rate_position (F := XR) (.fin L.velocity) (.fin L.acceleration) (.fin L.jerk) (.fin u) (.fin x) (.fin v) (.fin a) = .ok (.fin u) := by
  have e : (u - x) / 0.001 = 1000 * (u - x) := by norm_num; ring
  rw [e] at h
  rw [limit_rate_position_fin L hA, h.passes]
  congr 2
  ring

/-- C44, for all joints with the limits of the code. -/
theorem C44_allowed_joint_velocities {u v a : Fin 7 → ℝ} (h : ∀ i, Allowed (codeLimits i) (u i) (v i) (a i)) :
    limit_rate_joint_velocities MAX_JOINT_VELOCITY MAX_JOINT_ACCELERATION MAX_JOINT_JERK (Arr.fin u) (Arr.fin v) (Arr.fin a) = .ok (Arr.fin u) := by
  rw [limit_rate_joint_velocities_fin]
  congr 2
  funext i
  exact (h i).passes

/-- C44, for all joints with the limits of the code. -/
theorem C44_allowed_joint_positions {u x v a : Fin 7 → ℝ} (h : ∀ i, Allowed (codeLimits i) ((u i - x i) / 0.001) (v i) (a i)) :
    limit_rate_joint_positions MAX_JOINT_VELOCITY MAX_JOINT_ACCELERATION MAX_JOINT_JERK (Arr.fin u) (Arr.fin x) (Arr.fin v) (Arr.fin a) = .ok (Arr.fin u) := by
  rw [limit_rate_joint_positions_fin]
  congr 2
  funext i
  have h := h i
  have e : (u i - x i) / 0.001 = 1000 * (u i - x i) := by norm_num; ring
  rw [e] at h
  rw [h.passes]
  ring

/-- The filter is off. -/
theorem no_filter {cutoff : ℝ} (hc : 1000 ≤ cutoff) : Fl.flt (XR.fin cutoff) MAX_CUTOFF_FREQUENCY = false := by
  rw [MAX_CUTOFF_FREQUENCY, XR.lit_fin, XR.flt_fin]
  simpa using by linarith

/-- C44 for the whole conversion without filter: the command holds the velocities of the user. -/
theorem C44_convert_joint_velocities {u v a : Fin 7 → ℝ} {fin : Bool} {state : RobotState XR} {m : MotionGeneratorCommand XR} {cutoff : ℝ} (hc : 1000 ≤ cutoff)
    (hv : state.dq_d = Arr.fin v) (ha : state.ddq_d = Arr.fin a) (h : ∀ i, Allowed (codeLimits i) (u i) (v i) (a i)) :
    JointVelocities.convert_motion ⟨fin, Arr.fin u⟩ state m (.fin cutoff) true = .ok { m with dq_c := Arr.fin u } := by
  unfold JointVelocities.convert_motion
  simp only [no_filter hc, Bool.false_eq_true, if_false, if_true]
  rw [hv, ha]
  show (limit_rate_joint_velocities MAX_JOINT_VELOCITY MAX_JOINT_ACCELERATION MAX_JOINT_JERK (Arr.fin u) (Arr.fin v) (Arr.fin a) >>= fun x =>
    assertFinite x >>= fun _ => (pure { m with dq_c := x } : P _)) = _
  rw [C44_allowed_joint_velocities h]
  show (assertFinite (Arr.fin u) >>= fun _ => (pure { m with dq_c := Arr.fin u } : P _)) = _
  rw [assertFinite_fin]
  rfl

/-- C44 for the whole conversion without filter: the command holds the positions of the user. -/
theorem C44_convert_joint_positions {u x v a : Fin 7 → ℝ} {fin : Bool} {state : RobotState XR} {m : MotionGeneratorCommand XR} {cutoff : ℝ} (hc : 1000 ≤ cutoff)
    (hx : state.q_d = Arr.fin x) (hv : state.dq_d = Arr.fin v) (ha : state.ddq_d = Arr.fin a)
    (h : ∀ i, Allowed (codeLimits i) ((u i - x i) / 0.001) (v i) (a i)) :
    JointPositions.convert_motion ⟨fin, Arr.fin u⟩ state m (.fin cutoff) true = .ok { m with q_c := Arr.fin u } := by
  unfold JointPositions.convert_motion
  simp only [no_filter hc, Bool.false_eq_true, if_false, if_true]
  rw [hx, hv, ha]
  show (limit_rate_joint_positions MAX_JOINT_VELOCITY MAX_JOINT_ACCELERATION MAX_JOINT_JERK (Arr.fin u) (Arr.fin x) (Arr.fin v) (Arr.fin a) >>= fun y =>
    assertFinite y >>= fun _ => (pure { m with q_c := y } : P _)) = _
  rw [C44_allowed_joint_positions h]
  show (assertFinite (Arr.fin u) >>= fun _ => (pure { m with q_c := Arr.fin u } : P _)) = _
  rw [assertFinite_fin]
  rfl

/-- The limits of the code are below the documented ones, by at most 1.1e-3. -/
theorem C44_limits_of_the_code (i : Fin 7) :
    ((jointLimits i).velocity - 0.0011 ≤ (codeLimits i).velocity ∧ (codeLimits i).velocity < (jointLimits i).velocity) ∧
    ((jointLimits i).acceleration - 0.0011 ≤ (codeLimits i).acceleration ∧ (codeLimits i).acceleration < (jointLimits i).acceleration) ∧
    ((jointLimits i).jerk - 0.0011 ≤ (codeLimits i).jerk ∧ (codeLimits i).jerk < (jointLimits i).jerk) ∧
    (MAX_JOINT_VELOCITY : Arr XR 7) i = .fin (codeLimits i).velocity ∧ (MAX_JOINT_ACCELERATION : Arr XR 7) i = .fin (codeLimits i).acceleration ∧
    (MAX_JOINT_JERK : Arr XR 7) i = .fin (codeLimits i).jerk := by
  refine ⟨⟨?_, ?_⟩, ⟨?_, ?_⟩, ⟨?_, ?_⟩, by rw [MAX_JOINT_VELOCITY_fin]; rfl, by rw [MAX_JOINT_ACCELERATION_fin]; rfl, by rw [MAX_JOINT_JERK_fin]; rfl⟩ <;>
    fin_cases i <;> simp [codeLimits, jointLimits] <;> norm_num

/-- Example: from rest, a velocity of 0.005 rad/s after 1 ms is allowed for the first joint. -/
example : Allowed (codeLimits 0) 0.005 0 0 := by
  constructor <;> simp [codeLimits, jointLimits] <;> norm_num [abs_le]

end Verif
