import Verif.Lemmas.RoundedRun
import Verif.Model.ControlLoop
import Mathlib.Data.Int.Log
/-!
# The limits with rounding and overflow: C62

Doubles are rounded here (`Spec/Rounding.lean`). All constants of the code, the filter and the limiters are computed in rounded arithmetic, and the
results are compared with the documented limits in exact arithmetic.
-/
namespace Verif
open Spec
variable {A : Rounding}

/-! ## The constants -/

theorem near_eps : Near (LIMIT_EPS : Rd A) (1 / 1000) (13 / 10 ^ 20) := near_DELTA_T

theorem near_limit {q : ℚ} {B : ℝ} (hB : |(q : ℝ)| + 1 ≤ B) (h2 : B ≤ 10 ^ 9) : Near (Fl.lit q - LIMIT_EPS : Rd A) (q - 1 / 1000) (27 / 10 ^ 17 * B) := by
  have h0 := abs_nonneg (q : ℝ)
  refine ((near_lit (A := A) (q := q) (B := B) (by linarith) (by linarith) h2).sub near_eps (B := B) ?_ (by linarith) h2).weaken ?_
  · have := abs_sub (q : ℝ) (1 / 1000)
    rw [abs_of_pos (by norm_num : (0 : ℝ) < 1 / 1000)] at this
    have h3 : 13 / 10 ^ 17 * B ≤ 1 / 10 := by linarith
    linarith
  · rw [sub_self, abs_zero]
    linarith

/-- `v - LIMIT_EPS - TOL_NUMBER_PACKETS_LOST * DELTA_T * a`. -/
theorem near_velocity_limit {q : ℚ} (hq : |(q : ℝ)| ≤ 3) {a : Rd A} {r : ℝ} (ha : Near a r (1 / 10 ^ 14)) (hr : |r| ≤ 30) :
    Near (Fl.lit q - LIMIT_EPS - TOL_NUMBER_PACKETS_LOST * DELTA_T * a : Rd A) (q - 1 / 1000 - 1 / 1000 * (1 / 1000) * r) (1 / 10 ^ 14) := by
  have h1 := near_limit (A := A) (q := q) (B := 4) (by linarith) (by norm_num)
  have h2 : Near (TOL_NUMBER_PACKETS_LOST * DELTA_T : Rd A) (1 / 1000 * (1 / 1000)) (1 / 10 ^ 21) :=
    ((near_DELTA_T (A := A)).mul near_DELTA_T (m := 11 / 10000) (m' := 1 / 1000) (B := 2 / 10 ^ 6) (by norm_num) (by norm_num) (by norm_num) (by norm_num)
      (by norm_num)).weaken (by rw [sub_self, abs_zero]; norm_num)
  have h3 : Near (TOL_NUMBER_PACKETS_LOST * DELTA_T * a : Rd A) (1 / 1000 * (1 / 1000) * r) (1 / 10 ^ 15) :=
    (h2.mul ha (m := 2 / 10 ^ 6) (m' := 30) (B := 1) (by norm_num) hr
      (by
        have := abs_mul_le (show |(1 / 1000 * (1 / 1000) : ℝ)| ≤ 1 by norm_num [abs_le]) hr
        have h5 := abs_mul_le (show |(1 / 1000 * (1 / 1000) : ℝ)| ≤ 1 / 1000 by norm_num [abs_le]) hr
        linarith) (by norm_num) (by norm_num)).weaken (by rw [sub_self, abs_zero]; norm_num)
  refine (h1.sub h3 (B := 5) ?_ (by norm_num) (by norm_num)).weaken (by rw [sub_self, abs_zero]; norm_num)
  have h5 := abs_mul_le (show |(1 / 1000 * (1 / 1000) : ℝ)| ≤ 1 / 1000 by norm_num [abs_le]) hr
  have h6 := abs_sub (q : ℝ) (1 / 1000)
  have h7 := abs_sub ((q : ℝ) - 1 / 1000) (1 / 1000 * (1 / 1000) * r)
  rw [abs_of_pos (by norm_num : (0 : ℝ) < 1 / 1000)] at h6
  linarith

theorem near_jerk (i : Fin 7) : Near (MAX_JOINT_JERK i : Rd A) (codeLimits i).jerk (1 / 10 ^ 11) := by
  have h : ∀ q : ℚ, |(q : ℝ)| ≤ 10000 → Near (Fl.lit q - LIMIT_EPS : Rd A) (q - 1 / 1000) (1 / 10 ^ 11) := fun q hq =>
    (near_limit (B := 10001) (by linarith) (by norm_num)).weaken (by rw [sub_self, abs_zero]; norm_num)
  fin_cases i
  · exact (h 7500 (by norm_num)).weaken (by simp [codeLimits, jointLimits])
  · exact (h 3750 (by norm_num)).weaken (by simp [codeLimits, jointLimits])
  · exact (h 5000 (by norm_num)).weaken (by simp [codeLimits, jointLimits])
  · exact (h 6250 (by norm_num)).weaken (by simp [codeLimits, jointLimits])
  · exact (h 7500 (by norm_num)).weaken (by simp [codeLimits, jointLimits])
  · exact (h 10000 (by norm_num)).weaken (by simp [codeLimits, jointLimits])
  · exact (h 10000 (by norm_num)).weaken (by simp [codeLimits, jointLimits])

theorem near_acceleration (i : Fin 7) : Near (MAX_JOINT_ACCELERATION i : Rd A) (codeLimits i).acceleration (1 / 10 ^ 14) := by
  have h : ∀ q : ℚ, |(q : ℝ)| ≤ 20 → Near (Fl.lit q - LIMIT_EPS : Rd A) (q - 1 / 1000) (1 / 10 ^ 14) := fun q hq =>
    (near_limit (B := 21) (by linarith) (by norm_num)).weaken (by rw [sub_self, abs_zero]; norm_num)
  fin_cases i
  · exact (h 15 (by norm_num)).weaken (by simp [codeLimits, jointLimits])
  · exact (h (75 / 10) (by norm_num)).weaken (by norm_num [codeLimits, jointLimits])
  · exact (h 10 (by norm_num)).weaken (by simp [codeLimits, jointLimits])
  · exact (h (125 / 10) (by norm_num)).weaken (by norm_num [codeLimits, jointLimits])
  · exact (h 15 (by norm_num)).weaken (by simp [codeLimits, jointLimits])
  · exact (h 20 (by norm_num)).weaken (by simp [codeLimits, jointLimits])
  · exact (h 20 (by norm_num)).weaken (by simp [codeLimits, jointLimits])

theorem code_moderate (i : Fin 7) : Moderate (codeLimits i) := by
  constructor <;> fin_cases i <;> simp [codeLimits, jointLimits] <;> norm_num

theorem near_velocity (i : Fin 7) : Near (MAX_JOINT_VELOCITY i : Rd A) (codeLimits i).velocity (1 / 10 ^ 14) := by
  have h : ∀ (q : ℚ) (i : Fin 7), |(q : ℝ)| ≤ 3 → Near (Fl.lit q - LIMIT_EPS - TOL_NUMBER_PACKETS_LOST * DELTA_T * MAX_JOINT_ACCELERATION i : Rd A)
      (q - 1 / 1000 - 1 / 1000 * (1 / 1000) * (codeLimits i).acceleration) (1 / 10 ^ 14) := fun q i hq =>
    near_velocity_limit hq (near_acceleration i) (abs_le.2 ⟨by linarith [(code_moderate i).a1], (code_moderate i).a2⟩)
  fin_cases i
  · exact (h (2175 / 1000) 0 (by norm_num [abs_le])).weaken (by simp [codeLimits, jointLimits] ; norm_num)
  · exact (h (2175 / 1000) 1 (by norm_num [abs_le])).weaken (by simp [codeLimits, jointLimits] ; norm_num)
  · exact (h (2175 / 1000) 2 (by norm_num [abs_le])).weaken (by simp [codeLimits, jointLimits] ; norm_num)
  · exact (h (2175 / 1000) 3 (by norm_num [abs_le])).weaken (by simp [codeLimits, jointLimits] ; norm_num)
  · exact (h (261 / 100) 4 (by norm_num [abs_le])).weaken (by simp [codeLimits, jointLimits] ; norm_num)
  · exact (h (261 / 100) 5 (by norm_num [abs_le])).weaken (by simp [codeLimits, jointLimits] ; norm_num)
  · exact (h (261 / 100) 6 (by norm_num [abs_le])).weaken (by simp [codeLimits, jointLimits] ; norm_num)

theorem code_slack (i : Fin 7) : (codeLimits i).velocity + 1 / 10 ^ 8 ≤ (jointLimits i).velocity ∧
    (codeLimits i).acceleration + 1 / 10 ^ 6 ≤ (jointLimits i).acceleration ∧ (codeLimits i).jerk + 9 / 10 ^ 4 ≤ (jointLimits i).jerk := by
  refine ⟨?_, ?_, ?_⟩ <;> fin_cases i <;> simp [codeLimits, jointLimits] <;> norm_num

/-! ## Finite values -/

theorem Rd.of_isFinite {x : Rd A} (h : Fl.isFinite x = true) : ∃ y, x = Rd.fin y := by
  cases x with
  | fin x => exact ⟨x, rfl⟩
  | nan => cases h
  | inf a => cases h

theorem rd_assertFinite_inv {n : Nat} {v : Arr (Rd A) n} {u : Unit} (h : assertFinite v = .ok u) : ∃ x, v = Arr.rd x := by
  unfold assertFinite at h
  cases hv : Arr.all Fl.isFinite v with
  | false => rw [hv] at h; cases h
  | true =>
    choose x hx using fun i => Rd.of_isFinite (of_decide_eq_true hv i)
    exact ⟨x, funext hx⟩

theorem rd_assertFinite {n : Nat} (v : Fin n → ℝ) : assertFinite (Arr.rd v : Arr (Rd A) n) = .ok () := by
  unfold assertFinite
  rw [show Arr.all Fl.isFinite (Arr.rd v : Arr (Rd A) n) = true from decide_eq_true fun i => rfl]
  rfl

theorem Rd.fin_inj {x y : ℝ} (h : (Rd.fin x : Rd A) = Rd.fin y) : x = y := XR.fin.inj h

/-! ## Torques -/

theorem rd_torque {u l : ℝ} (hl : |l| ≤ 10 ^ 6) : ∃ t, (Rd.fin l + Fl.fmax (Fl.fmin ((Rd.fin u - Rd.fin l) / DELTA_T) (Fl.lit 1000 - LIMIT_EPS))
    (-(Fl.lit 1000 - LIMIT_EPS)) * DELTA_T : Rd A) = Rd.fin t ∧ |t - l| ≤ 1 := by
  obtain ⟨d, hd, bd⟩ := near_limit (A := A) (q := 1000) (B := 1001) (by norm_num) (by norm_num)
  obtain ⟨dt, hdt, bdt⟩ := near_DELTA_T (A := A)
  have dt0 : dt ≠ 0 := by
    rintro rfl
    norm_num at bdt
  obtain ⟨b1, b2⟩ := abs_le.1 bd
  norm_num at b1 b2
  have o : Ordered ((Rd.fin u - Rd.fin l) / DELTA_T : Rd A) := by
    rw [hdt]
    exact (Ordered.sub_fin (x := Rd.fin u) (fun h => nomatch h) l).div_fin dt0
  obtain ⟨w, hw, w1, w2⟩ := clamp_fin o (show -d ≤ d by linarith)
  have hw' : Fl.fmax (Fl.fmin ((Rd.fin u - Rd.fin l) / DELTA_T) (Fl.lit 1000 - LIMIT_EPS)) (-(Fl.lit 1000 - LIMIT_EPS)) = (Rd.fin w : Rd A) := by
    rw [hd]
    exact hw
  have wA : |w| ≤ d := abs_le.2 ⟨w1, w2⟩
  have bw := abs_mul_le wA (show |(1 / 1000 : ℝ)| ≤ 1 / 1000 by norm_num)
  have e1 : Near (Rd.fin w * (DELTA_T : Rd A)) (w * (1 / 1000)) (1 / 10 ^ 12) :=
    ((near_fin w).mul near_DELTA_T (m := 1000) (m' := 1 / 1000) (B := 2) (by linarith) (by norm_num) (by linarith) (by norm_num) (by norm_num)).weaken
      (by rw [sub_self, abs_zero]; norm_num)
  obtain ⟨t, ht, bt⟩ : Near (Rd.fin l + Rd.fin w * (DELTA_T : Rd A)) (l + w * (1 / 1000)) (1 / 10 ^ 9) :=
    ((near_fin l).add e1 (B := 10 ^ 6 + 2) (by linarith [abs_add_le l (w * (1 / 1000))]) (by norm_num) (by norm_num)).weaken
      (by rw [sub_self, abs_zero]; norm_num)
  refine ⟨t, by rw [hw', ht], ?_⟩
  have := abs_add_le (t - (l + w * (1 / 1000))) (w * (1 / 1000))
  rw [show t - (l + w * (1 / 1000)) + w * (1 / 1000) = t - l by ring] at this
  linarith

/-- C62: for all finite commands and last torques up to a million Nm the torque limiter returns finite torques that differ from the last ones by at
most 1 Nm (1000 Nm/s for 1 ms), also if the difference of the torques overflows. -/
theorem C62_torque_limiter (u l : Fin 7 → ℝ) (hl : ∀ i, |l i| ≤ 10 ^ 6) :
    ∃ t, limit_rate_torques MAX_TORQUE_RATE (Arr.rd u) (Arr.rd l) = (.ok (Arr.rd t) : P (Arr (Rd A) 7)) ∧ ∀ i, |t i - l i| ≤ 1 := by
  choose t ht using fun i => rd_torque (A := A) (u := u i) (hl i)
  refine ⟨t, ?_, fun i => (ht i).2⟩
  unfold limit_rate_torques
  rw [rd_assertFinite, P_bind_ok_eq]
  exact congrArg Except.ok (funext fun i => (ht i).1)

/-- C62: with rate limiting, every torque that is computed from the output of the user's callback differs from the last desired torque by at most
1 Nm, for every output and every cutoff frequency. -/
theorem C62_torques_of_a_callback {cutoff : Rd A} {state : RobotState (Rd A)} {tau τ : Arr (Rd A) 7} {l : Fin 7 → ℝ} (hl : state.tau_J_d = Arr.rd l)
    (bl : ∀ i, |l i| ≤ 10 ^ 6) (h : ControlLoop.convert_torques true cutoff state tau = .ok τ) : ∃ t, τ = Arr.rd t ∧ ∀ i, |t i - l i| ≤ 1 := by
  have h : ((if Fl.flt cutoff MAX_CUTOFF_FREQUENCY then Arr.tabulateP fun i => low_pass_filter DELTA_T (tau i) (state.tau_J_d i) cutoff else pure tau) >>= fun x =>
      limit_rate_torques MAX_TORQUE_RATE x state.tau_J_d >>= fun y => assertFinite y >>= fun _ => (pure y : P (Arr (Rd A) 7))) = .ok τ := by
    rw [← h]
    unfold ControlLoop.convert_torques
    split <;> rfl
  obtain ⟨x, h1, h⟩ := P_bind_inv h
  obtain ⟨y, h2, h⟩ := P_bind_inv h
  obtain ⟨_, h3, h⟩ := P_bind_inv h
  obtain rfl : y = τ := by injection h
  have hx : ∃ x', x = Arr.rd x' := by
    unfold limit_rate_torques at h2
    obtain ⟨_, h4, -⟩ := P_bind_inv h2
    exact rd_assertFinite_inv h4
  obtain ⟨x, rfl⟩ := hx
  obtain ⟨t, ht, b⟩ := C62_torque_limiter (A := A) x l bl
  rw [hl, ht] at h2
  injection h2 with h2
  exact ⟨t, h2.symm, b⟩

/-! ## Joint velocities -/

/-- C62: a joint velocity motion with rate limiting that starts from rest respects the documented velocity, acceleration and jerk limits of every
joint in every step, whatever the callback returns and whatever the cutoff frequency is. The robot may report the last desired acceleration with an
error of 1e-7 rad/s². -/
theorem C62_joint_velocities (out : ℕ → JointVelocities (Rd A)) (state : ℕ → RobotState (Rd A)) (m m' : ℕ → MotionGeneratorCommand (Rd A))
    (cutoff : Rd A) (v a : Fin 7 → ℕ → ℝ) (rest : ∀ i, v i 0 = 0)
    (hv : ∀ n, (state n).dq_d = Arr.rd fun i => v i n) (ha : ∀ n, (state n).ddq_d = Arr.rd fun i => a i n)
    (exact : ∀ i n, |a i n - rate (v i) n| ≤ 1 / 10 ^ 7)
    (hs : ∀ n, (out n).convert_motion (state n) (m n) cutoff true = .ok (m' n)) (hn : ∀ n, (m' n).dq_c = Arr.rd fun i => v i (n + 1)) :
    ∀ i, VelocityRespects (jointLimits i) (v i) := by
  intro i
  obtain ⟨s1, s2, s3⟩ := code_slack i
  refine VelocityRespects.weaken (rounded_run (code_moderate i) (v := v i) (rest i) (fun n => by simp) (exact i) fun n b1 b2 => ?_) s1 s2 s3
  have h : ((if Fl.flt cutoff MAX_CUTOFF_FREQUENCY then Arr.tabulateP fun i => low_pass_filter DELTA_T ((out n).dq i) ((state n).dq_d i) cutoff else pure (out n).dq) >>= fun x =>
      limit_rate_joint_velocities MAX_JOINT_VELOCITY MAX_JOINT_ACCELERATION MAX_JOINT_JERK x (state n).dq_d (state n).ddq_d >>= fun y =>
      assertFinite y >>= fun _ => (pure { m n with dq_c := y } : P (MotionGeneratorCommand (Rd A)))) = .ok (m' n) := by
    rw [← hs n]
    unfold JointVelocities.convert_motion
    split <;> rfl
  obtain ⟨x, -, h⟩ := P_bind_inv h
  obtain ⟨y, h2, h⟩ := P_bind_inv h
  obtain ⟨_, -, h⟩ := P_bind_inv h
  have h9 : { m n with dq_c := y } = m' n := by injection h
  unfold limit_rate_joint_velocities at h2
  obtain ⟨_, h4, h2⟩ := P_bind_inv h2
  obtain ⟨x, rfl⟩ := rd_assertFinite_inv h4
  have h5 := Arr.tabulateP_inv h2 i
  rw [hv, ha] at h5
  obtain ⟨v', t, e1, e2, e3, -⟩ := rd_limit_rate_velocity (near_velocity i) (near_acceleration i) (near_jerk (A := A) i) (code_moderate i) (x i) b1 b2
  have h6 : Except.ok (y i) = (.ok (Rd.fin v') : P (Rd A)) := h5.symm.trans e1
  injection h6 with h6
  have h7 : y i = Rd.fin (v i (n + 1)) := by
    have := hn n
    rw [← h9] at this
    exact congrFun this i
  obtain rfl : v i (n + 1) = v' := Rd.fin_inj (h7.symm.trans h6)
  exact ⟨_, t, e2, e3, by simp⟩

/-- C62: the limiter returns for all finite commands (also if the intermediate results overflow), so there are such runs for every sequence of
commands. -/
theorem C62_runs_exist (u : ℕ → Fin 7 → ℝ) : ∃ v : Fin 7 → ℕ → ℝ, (∀ i, v i 0 = 0) ∧ (∀ n,
    limit_rate_joint_velocities MAX_JOINT_VELOCITY MAX_JOINT_ACCELERATION MAX_JOINT_JERK (Arr.rd (u n)) (Arr.rd fun i => v i n)
      (Arr.rd fun i => rate (v i) n) = (.ok (Arr.rd fun i => v i (n + 1)) : P (Arr (Rd A) 7))) ∧ ∀ i, VelocityRespects (jointLimits i) (v i) := by
  have one : ∀ i, ∃ v : ℕ → ℝ, v 0 = 0 ∧ (∀ n, limit_rate_velocity (MAX_JOINT_VELOCITY i) (MAX_JOINT_ACCELERATION i) (MAX_JOINT_JERK i) (Rd.fin (u n i))
      (Rd.fin (v n)) (Rd.fin (rate v n)) = (.ok (Rd.fin (v (n + 1))) : P (Rd A))) ∧ VelocityRespects (jointLimits i) v := by
    intro i
    -- the next velocity, if the limiter returns one
    have hf : ∀ n v a, ∃ v', (∃ w, limit_rate_velocity (MAX_JOINT_VELOCITY i) (MAX_JOINT_ACCELERATION i) (MAX_JOINT_JERK i) (Rd.fin (u n i)) (Rd.fin v)
        (Rd.fin a) = (.ok (Rd.fin w) : P (Rd A))) → limit_rate_velocity (MAX_JOINT_VELOCITY i) (MAX_JOINT_ACCELERATION i) (MAX_JOINT_JERK i) (Rd.fin (u n i))
        (Rd.fin v) (Rd.fin a) = (.ok (Rd.fin v') : P (Rd A)) := by
      intro n v a
      by_cases h : ∃ w, limit_rate_velocity (MAX_JOINT_VELOCITY i) (MAX_JOINT_ACCELERATION i) (MAX_JOINT_JERK i) (Rd.fin (u n i)) (Rd.fin v)
        (Rd.fin a) = (.ok (Rd.fin w) : P (Rd A))
      · exact ⟨h.choose, fun _ => h.choose_spec⟩
      · exact ⟨0, fun h1 => absurd h1 h⟩
    choose f hf using hf
    let s : ℕ → ℝ × ℝ := fun n => Nat.rec (0, 0) (fun n p => (f n p.1 p.2, (f n p.1 p.2 - p.1) / 0.001)) n
    have hr : ∀ n, rate (fun n => (s n).1) n = (s n).2 := by
      intro n
      cases n <;> rfl
    have hs : ∀ n, |(s n).1| ≤ (codeLimits i).velocity + 1 / 1000 → |(s n).2| ≤ 100 →
        ∃ v' t, |v' - ((s n).1 + t / 1000)| ≤ 1 / 10 ^ 14 ∧ Target (codeLimits i) (s n).1 (s n).2 t ∧ |(s (n + 1)).1 - v'| ≤ 1 / 10 ^ 11 := by
      intro n h1 h2
      obtain ⟨v', t, e1, e2, e3, -⟩ := rd_limit_rate_velocity (near_velocity i) (near_acceleration i) (near_jerk (A := A) i) (code_moderate i) (u n i) h1 h2
      have h3 := hf n _ _ ⟨v', e1⟩
      rw [e1] at h3
      injection h3 with h3
      obtain rfl := Rd.fin_inj h3
      exact ⟨_, t, e2, e3, by show |f n (s n).1 (s n).2 - _| ≤ _; simp⟩
    have settled := rounded_settled (code_moderate i) (u := fun n => (s n).1) (v := fun n => (s n).1) (a := fun n => (s n).2) rfl (fun n => by simp)
      (fun n => by rw [hr]; simp) hs
    obtain ⟨s1, s2, s3⟩ := code_slack i
    refine ⟨fun n => (s n).1, rfl, fun n => ?_, VelocityRespects.weaken (rounded_run (code_moderate i) (u := fun n => (s n).1) (v := fun n => (s n).1)
      (a := fun n => (s n).2) rfl (fun n => by simp) (fun n => by rw [hr]; simp) hs) s1 s2 s3⟩
    rw [hr]
    obtain ⟨v1, v2, a1, a2, j1, j2⟩ := code_moderate i
    have h := settled n
    obtain ⟨v', t, e1, -⟩ := rd_limit_rate_velocity (near_velocity i) (near_acceleration i) (near_jerk (A := A) i) (code_moderate i) (u n i)
      (h.velocity.trans (by linarith)) (a := (s n).2) (abs_le.2 ⟨by linarith [h.below2], by linarith [h.above2]⟩)
    exact hf n _ _ ⟨v', e1⟩
  choose v h1 h2 h3 using one
  refine ⟨v, h1, fun n => ?_, h3⟩
  unfold limit_rate_joint_velocities
  rw [rd_assertFinite, P_bind_ok_eq]
  exact Arr.tabulateP_ok fun i => h2 i n

/-! ## Joint positions -/

theorem rd_limit_rate_position {L : Limits} {mv ma mj c : Rd A} (hv : Near mv L.velocity (1 / 10 ^ 14)) (ha : Near ma L.acceleration (1 / 10 ^ 14))
    (hj : Near mj L.jerk (1 / 10 ^ 11)) (hL : Moderate L) {x x' v a : ℝ} (h0 : |v| ≤ L.velocity + 1 / 1000) (h2 : |a| ≤ 100) (hx : |x| ≤ 10)
    (h : limit_rate_position mv ma mj c (Rd.fin x) (Rd.fin v) (Rd.fin a) = .ok (Rd.fin x')) :
    ∃ v' t, |v' - (v + t / 1000)| ≤ 1 / 10 ^ 14 ∧ Target L v a t ∧ |(x' - x) / 0.001 - v'| ≤ 1 / 10 ^ 11 := by
  unfold limit_rate_position at h
  obtain ⟨_, -, h⟩ := P_bind_inv h
  obtain ⟨w, h3, h⟩ := P_bind_inv h
  have hc : ∃ y, ((c - Rd.fin x) / DELTA_T : Rd A) = Rd.fin y := by
    refine Rd.of_isFinite ?_
    unfold limit_rate_velocity at h3
    cases hf : Fl.isFinite ((c - Rd.fin x) / DELTA_T : Rd A) with
    | true => rfl
    | false => rw [hf] at h3; cases h3
  obtain ⟨y, hy⟩ := hc
  rw [hy] at h3
  obtain ⟨v', t, e1, e2, e3, e4⟩ := rd_limit_rate_velocity hv ha hj hL y h0 h2
  rw [e1] at h3
  obtain rfl : Rd.fin v' = w := by injection h3
  refine ⟨v', t, e2, e3, ?_⟩
  have bv := abs_mul_le e4 (show |(1 / 1000 : ℝ)| ≤ 1 / 1000 by norm_num)
  have e5 : Near (Rd.fin v' * (DELTA_T : Rd A)) (v' * (1 / 1000)) (1 / 10 ^ 16) :=
    ((near_fin v').mul near_DELTA_T (m := 6) (m' := 1 / 1000) (B := 1 / 100) (by linarith) (by norm_num) (by linarith) (by norm_num) (by norm_num)).weaken
      (by rw [sub_self, abs_zero]; norm_num)
  obtain ⟨z, hz, bz⟩ : Near (Rd.fin x + Rd.fin v' * (DELTA_T : Rd A)) (x + v' * (1 / 1000)) (1 / 10 ^ 14) :=
    ((near_fin x).add e5 (B := 11) (by linarith [abs_add_le x (v' * (1 / 1000))]) (by norm_num) (by norm_num)).weaken
      (by rw [sub_self, abs_zero]; norm_num)
  have h : Except.ok (Rd.fin x + Rd.fin v' * DELTA_T : Rd A) = (.ok (Rd.fin x') : P (Rd A)) := h
  rw [hz] at h
  injection h with h
  obtain rfl := Rd.fin_inj h
  rw [show (z - x) / 0.001 - v' = 1000 * (z - (x + v' * (1 / 1000))) by norm_num; ring, abs_mul, abs_of_pos (by norm_num)]
  linarith

/-- C62: a joint position motion with rate limiting that starts from rest, with joint angles between -10 and 10 rad, respects the documented
velocity, acceleration and jerk limits of every joint in every step, whatever the callback returns and whatever the cutoff frequency is. The robot may
report the last desired velocity with an error of 1e-10 rad/s and the last desired acceleration with an error of 1e-7 rad/s². -/
theorem C62_joint_positions (out : ℕ → JointPositions (Rd A)) (state : ℕ → RobotState (Rd A)) (m m' : ℕ → MotionGeneratorCommand (Rd A))
    (cutoff : Rd A) (x v a : Fin 7 → ℕ → ℝ) (bound : ∀ i n, |x i n| ≤ 10) (hx : ∀ n, (state n).q_d = Arr.rd fun i => x i n)
    (hv : ∀ n, (state n).dq_d = Arr.rd fun i => v i n) (ha : ∀ n, (state n).ddq_d = Arr.rd fun i => a i n)
    (exact1 : ∀ i n, |v i n - rate (x i) n| ≤ 1 / 10 ^ 10) (exact2 : ∀ i n, |a i n - rate (rate (x i)) n| ≤ 1 / 10 ^ 7)
    (hs : ∀ n, (out n).convert_motion (state n) (m n) cutoff true = .ok (m' n)) (hn : ∀ n, (m' n).q_c = Arr.rd fun i => x i (n + 1)) :
    ∀ i, PositionRespects (jointLimits i) (x i) := by
  intro i
  obtain ⟨s1, s2, s3⟩ := code_slack i
  refine VelocityRespects.weaken (rounded_run (code_moderate i) rfl (exact1 i) (exact2 i) fun n b1 b2 => ?_) s1 s2 s3
  have h : ((if Fl.flt cutoff MAX_CUTOFF_FREQUENCY then Arr.tabulateP fun i => low_pass_filter DELTA_T ((out n).q i) ((state n).q_d i) cutoff else pure (out n).q) >>= fun x =>
      limit_rate_joint_positions MAX_JOINT_VELOCITY MAX_JOINT_ACCELERATION MAX_JOINT_JERK x (state n).q_d (state n).dq_d (state n).ddq_d >>= fun y =>
      assertFinite y >>= fun _ => (pure { m n with q_c := y } : P (MotionGeneratorCommand (Rd A)))) = .ok (m' n) := by
    rw [← hs n]
    unfold JointPositions.convert_motion
    split <;> rfl
  obtain ⟨w, -, h⟩ := P_bind_inv h
  obtain ⟨y, h2, h⟩ := P_bind_inv h
  obtain ⟨_, -, h⟩ := P_bind_inv h
  have h9 : { m n with q_c := y } = m' n := by injection h
  unfold limit_rate_joint_positions at h2
  obtain ⟨_, -, h2⟩ := P_bind_inv h2
  have h5 := Arr.tabulateP_inv h2 i
  have h7 : y i = Rd.fin (x i (n + 1)) := by
    have := hn n
    rw [← h9] at this
    exact congrFun this i
  rw [hx, hv, ha, h7] at h5
  exact rd_limit_rate_position (near_velocity i) (near_acceleration i) (near_jerk i) (code_moderate i) b1 b2 (bound i n) h5

theorem elbow_moderate : Moderate codeElbow := by
  constructor <;> simp [codeElbow] <;> norm_num

/-- C62, for the elbow: the same limiter with the limits of the elbow. -/
theorem C62_elbow (u : ℕ → Rd A) (x v a : ℕ → ℝ) (bound : ∀ n, |x n| ≤ 10) (exact1 : ∀ n, |v n - rate x n| ≤ 1 / 10 ^ 10)
    (exact2 : ∀ n, |a n - rate (rate x) n| ≤ 1 / 10 ^ 7)
    (hs : ∀ n, limit_rate_position MAX_ELBOW_VELOCITY MAX_ELBOW_ACCELERATION MAX_ELBOW_JERK (u n) (Rd.fin (x n)) (Rd.fin (v n)) (Rd.fin (a n)) =
      .ok (Rd.fin (x (n + 1)))) : PositionRespects elbowLimits x := by
  have ha : Near (MAX_ELBOW_ACCELERATION : Rd A) codeElbow.acceleration (1 / 10 ^ 14) :=
    (near_limit (q := 10) (B := 11) (by norm_num) (by norm_num)).weaken (by norm_num [codeElbow])
  have hj : Near (MAX_ELBOW_JERK : Rd A) codeElbow.jerk (1 / 10 ^ 11) :=
    (near_limit (q := 5000) (B := 5001) (by norm_num) (by norm_num)).weaken (by norm_num [codeElbow])
  have hv : Near (MAX_ELBOW_VELOCITY : Rd A) codeElbow.velocity (1 / 10 ^ 14) :=
    (near_velocity_limit (q := 2175 / 1000) (by norm_num [abs_le]) ha (abs_le.2 ⟨by linarith [elbow_moderate.a1], elbow_moderate.a2⟩)).weaken
      (by norm_num [codeElbow])
  refine VelocityRespects.weaken (rounded_run elbow_moderate rfl exact1 exact2 fun n b1 b2 => ?_) ?_ ?_ ?_
  · exact rd_limit_rate_position hv ha hj elbow_moderate b1 b2 (bound n) (hs n)
  · norm_num [codeElbow, elbowLimits]
  · norm_num [codeElbow, elbowLimits]
  · norm_num [codeElbow, elbowLimits]

/-- C62: a finite commanded joint position that is so large that the commanded velocity overflows makes the limiter panic. -/
theorem C62_overflow {mv ma mj v a : Rd A} {c : ℝ} (hc : A.max / 100 ≤ |c|) :
    ∃ msg, limit_rate_position mv ma mj (Rd.fin c) (Rd.fin 0) v a = .error msg := by
  have hf : Fl.isFinite ((Rd.fin c - Rd.fin 0) / DELTA_T : Rd A) = false := by
    have hm := max_large (A := A)
    obtain ⟨dt, hdt, bdt⟩ := near_DELTA_T (A := A)
    obtain ⟨d1, d2⟩ := abs_le.1 bdt
    norm_num at d1 d2
    have dt0 : 0 < dt := by linarith
    rw [hdt]
    have e1 : (Rd.fin c - Rd.fin 0 : Rd A) = Rd.round A (.fin c) := by
      show Rd.round A (.fin (c + -0)) = _
      norm_num
    rw [e1]
    have hr := rnd_error (A := A) c
    by_cases h : |A.rnd c| ≤ A.max
    · have e2 : Rd.round A (.fin c) = Rd.fin (A.rnd c) := if_pos h
      rw [e2]
      have e3 : (Rd.fin (A.rnd c) / Rd.fin dt : Rd A) = Rd.round A (.fin (A.rnd c / dt)) := congrArg (Rd.round A) (if_neg dt0.ne')
      rw [e3]
      have e4 : ¬ |A.rnd (A.rnd c / dt)| ≤ A.max := by
        intro h5
        have h6 := rnd_error (A := A) (A.rnd c / dt)
        have h7 : |c| - |A.rnd c| ≤ |A.rnd c - c| := by
          rw [abs_sub_comm]
          exact abs_sub_abs_le_abs_sub _ _
        have h8 : |A.rnd c / dt| - |A.rnd (A.rnd c / dt)| ≤ |A.rnd (A.rnd c / dt) - A.rnd c / dt| := by
          rw [abs_sub_comm]
          exact abs_sub_abs_le_abs_sub _ _
        have h9 : 900 * |A.rnd c| ≤ |A.rnd c / dt| := by
          rw [abs_div, abs_of_pos dt0, le_div_iff₀ dt0]
          have := abs_nonneg (A.rnd c)
          nlinarith
        have := abs_nonneg c
        linarith
      exact congrArg (Fl.isFinite (F := Rd A)) (if_neg e4)
    · have e2 : Rd.round A (.fin c) = XR.inf (decide (c < 0)) := if_neg h
      rw [e2]
      rfl
  unfold limit_rate_position
  rw [show Fl.isFinite (Rd.fin c : Rd A) = true from rfl, assertP_true, P_bind_ok_eq]
  unfold limit_rate_velocity
  rw [hf]
  exact ⟨_, rfl⟩

/-! ## A rounding -/

/-- Rounding to nearest with 53 bits. -/
noncomputable def nearest (x : ℝ) : ℝ := round (x / 2 ^ (Int.log 2 |x| - 52)) * 2 ^ (Int.log 2 |x| - 52)

theorem nearest_error (x : ℝ) : |nearest x - x| ≤ 2⁻¹ ^ 53 * |x| := by
  by_cases hx : x = 0
  · subst hx
    simp [nearest]
  have h0 : 0 < |x| := abs_pos.2 hx
  have hq : (0 : ℝ) < 2 ^ (Int.log 2 |x| - 52) := zpow_pos (by norm_num) _
  have h1 : (2 : ℝ) ^ Int.log 2 |x| ≤ |x| := by simpa using Int.zpow_log_le_self (b := 2) (by norm_num) h0
  have e : nearest x - x = -((x / 2 ^ (Int.log 2 |x| - 52) - round (x / 2 ^ (Int.log 2 |x| - 52))) * 2 ^ (Int.log 2 |x| - 52)) := by
    unfold nearest
    field_simp
    ring
  rw [e, abs_neg, abs_mul, abs_of_pos hq]
  have h2 := abs_sub_round (x / 2 ^ (Int.log 2 |x| - 52))
  have h3 : (2 : ℝ) ^ (Int.log 2 |x| - 52) = 2 ^ Int.log 2 |x| * 2⁻¹ ^ 52 := by
    rw [zpow_sub₀ (by norm_num), inv_pow]
    rfl
  have h4 : |x / 2 ^ (Int.log 2 |x| - 52) - round (x / 2 ^ (Int.log 2 |x| - 52))| * 2 ^ (Int.log 2 |x| - 52) ≤ 1 / 2 * 2 ^ (Int.log 2 |x| - 52) :=
    mul_le_mul_of_nonneg_right h2 hq.le
  rw [h3] at h4 ⊢
  have : (2⁻¹ : ℝ) ^ 53 = 1 / 2 * 2⁻¹ ^ 52 := by norm_num
  rw [this]
  have : (0 : ℝ) < 2⁻¹ ^ 52 := by positivity
  nlinarith

/-- Example: binary64 without subnormal numbers satisfies what is assumed of a rounding, and it does round. -/
noncomputable def binary64 : Rounding where
  rnd := nearest
  max := (2 - 2⁻¹ ^ 52) * 2 ^ 1023
  big := by
    have h : (2 : ℝ) ^ 1000 ≤ 2 ^ 1023 := pow_le_pow_right₀ (by norm_num) (by norm_num)
    have : (0 : ℝ) < 2 ^ 1023 := by positivity
    have h1 : (2⁻¹ : ℝ) ^ 52 ≤ 1 := pow_le_one₀ (by norm_num) (by norm_num)
    have h2 := mul_le_mul_of_nonneg_right (show (1 : ℝ) ≤ 2 - 2⁻¹ ^ 52 by linarith) this.le
    rw [one_mul] at h2
    exact h.trans h2
  error x := (nearest_error x).trans (le_add_of_nonneg_right (by positivity))

example : binary64.rnd (1 / 1000) ≠ 1 / 1000 := by
  intro h
  have hl : Int.log 2 |(1 / 1000 : ℝ)| = -10 := by
    rw [abs_of_pos (by norm_num)]
    refine le_antisymm ?_ ?_
    · have := (Int.lt_zpow_iff_log_lt (b := 2) (by norm_num) (x := -9) (r := (1 / 1000 : ℝ)) (by norm_num)).1 (by norm_num)
      omega
    · exact (Int.zpow_le_iff_le_log (b := 2) (by norm_num) (r := (1 / 1000 : ℝ)) (by norm_num)).1 (by norm_num)
  have h : nearest (1 / 1000) = 1 / 1000 := h
  unfold nearest at h
  rw [hl] at h
  generalize round ((1 / 1000 : ℝ) / 2 ^ ((-10 : ℤ) - 52)) = m at h
  norm_num at h
  have h2 : (1000 * m : ℝ) = 2 ^ 62 := by
    field_simp at h
    linarith
  have h3 : 1000 * m = 2 ^ 62 := by exact_mod_cast h2
  omega

/-- Example: a torque of 1.5e308 Nm after -1000 Nm; the difference quotient overflows, and the result is within 1 Nm of the last torque. -/
example : ∃ t, limit_rate_torques MAX_TORQUE_RATE (Arr.rd fun _ => 1.5e308) (Arr.rd fun _ => -1000) = (.ok (Arr.rd t) : P (Arr (Rd binary64) 7)) ∧
    ∀ i, |t i - -1000| ≤ 1 := C62_torque_limiter _ _ fun _ => by norm_num

end Verif
