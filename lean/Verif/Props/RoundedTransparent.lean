import Verif.Lemmas.RoundedFollow
import Verif.Spec.NearLimits
import Verif.Props.RoundedFilter
/-!
# Values within the limits are followed in spite of rounding: C104

The counterpart of C44, C70 and C80 with doubles that are rounded and may overflow (`Spec/Rounding.lean`).
-/
set_option linter.unusedSectionVars false
namespace Verif
open Prog Spec
variable {A : Rounding}

/-! ## The limiters -/

/-- **C104**, joint velocities: whatever the commanded velocities (up to 100 rad/s) are, the limiter does not panic and gives the same velocities as a limiter that
computes without rounding, up to 2·10⁻¹² rad/s. -/
theorem C104_velocity_limiter (u v a : Fin 7 → ℝ) (hu : ∀ i, |u i| ≤ 100) (hv : ∀ i, |v i| ≤ (codeLimits i).velocity) (ha : ∀ i, |a i| ≤ 100) :
    ∃ exact rounded : Fin 7 → ℝ,
      limit_rate_joint_velocities MAX_JOINT_VELOCITY MAX_JOINT_ACCELERATION MAX_JOINT_JERK (Arr.fin u) (Arr.fin v) (Arr.fin a) = (.ok (Arr.fin exact) : P (Arr XR 7)) ∧
      limit_rate_joint_velocities MAX_JOINT_VELOCITY MAX_JOINT_ACCELERATION MAX_JOINT_JERK (Arr.rd u) (Arr.rd v) (Arr.rd a) = (.ok (Arr.rd rounded) : P (Arr (Rd A) 7)) ∧
      ∀ i, |rounded i - exact i| ≤ 2 / 10 ^ 12 := by
  choose r h1 h2 using fun i => rd_limit_near (near_velocity (A := A) i) (near_acceleration i) (near_jerk i) (code_moderate i) (near_fin (u i)) (hu i) (by norm_num)
    ((hv i).trans (by linarith)) (ha i)
  refine ⟨_, r, limit_rate_joint_velocities_fin u v a, ?_, fun i => (h2 i).trans (by norm_num)⟩
  unfold limit_rate_joint_velocities
  rw [rd_assertFinite, P_bind_ok_eq]
  exact Arr.tabulateP_ok h1

/-- **C104**, joint positions: the same for positions up to 10 rad that are at most 0.05 rad away from the last ones, up to 10⁻¹⁴ rad. -/
theorem C104_position_limiter (u x v a : Fin 7 → ℝ) (hx : ∀ i, |x i| ≤ 10) (hu : ∀ i, |u i - x i| ≤ 1 / 20) (hv : ∀ i, |v i| ≤ (codeLimits i).velocity)
    (ha : ∀ i, |a i| ≤ 100) : ∃ exact rounded : Fin 7 → ℝ,
      limit_rate_joint_positions MAX_JOINT_VELOCITY MAX_JOINT_ACCELERATION MAX_JOINT_JERK (Arr.fin u) (Arr.fin x) (Arr.fin v) (Arr.fin a) = (.ok (Arr.fin exact) : P (Arr XR 7)) ∧
      limit_rate_joint_positions MAX_JOINT_VELOCITY MAX_JOINT_ACCELERATION MAX_JOINT_JERK (Arr.rd u) (Arr.rd x) (Arr.rd v) (Arr.rd a) =
        (.ok (Arr.rd rounded) : P (Arr (Rd A) 7)) ∧
      ∀ i, |rounded i - exact i| ≤ 1 / 10 ^ 14 := by
  choose r h1 h2 using fun i => rd_limit_position_near (near_velocity (A := A) i) (near_acceleration i) (near_jerk i) (code_moderate i) (hx i) (hu i)
    ((hv i).trans (by linarith)) (ha i)
  refine ⟨_, r, limit_rate_joint_positions_fin u x v a, ?_, h2⟩
  unfold limit_rate_joint_positions
  rw [rd_assertFinite, P_bind_ok_eq]
  exact Arr.tabulateP_ok h1

theorem near_torque_rate : Near (Fl.lit 1000 - LIMIT_EPS : Rd A) (1000 - 1 / 1000) (1 / 10 ^ 12) :=
  (near_limit (A := A) (q := 1000) (B := 1001) (by norm_num) (by norm_num)).weaken (by norm_num)

/-- **C104**, torques: the same for torques up to 1000 Nm, up to 2·10⁻¹² Nm. -/
theorem C104_torque_limiter (u l : Fin 7 → ℝ) (hu : ∀ i, |u i| ≤ 1000) (hl : ∀ i, |l i| ≤ 1000) : ∃ exact rounded : Fin 7 → ℝ,
      limit_rate_torques MAX_TORQUE_RATE (Arr.fin u) (Arr.fin l) = (.ok (Arr.fin exact) : P (Arr XR 7)) ∧
      limit_rate_torques MAX_TORQUE_RATE (Arr.rd u) (Arr.rd l) = (.ok (Arr.rd rounded) : P (Arr (Rd A) 7)) ∧
      ∀ i, |rounded i - exact i| ≤ 2 / 10 ^ 12 := by
  choose r h1 h2 using fun i => rd_limit_torque_near (near_torque_rate (A := A)) (by norm_num) (by norm_num) (hu i) (hl i)
  refine ⟨_, r, ?_, ?_, h2⟩
  · unfold limit_rate_torques
    rw [assertFinite_fin, P_bind_ok_eq]
    refine congrArg Except.ok (funext fun i => ?_)
    simp only [MAX_TORQUE_RATE, LIMIT_EPS, XR.lit_fin, Arr.fin_apply, XR.fin_sub, fin_div_dt, XR.fmin_fin, XR.fin_neg, XR.fmax_fin, fin_mul_dt, XR.fin_add]
    norm_num [Arr.fin_apply]
  · unfold limit_rate_torques
    rw [rd_assertFinite, P_bind_ok_eq]
    exact congrArg Except.ok (funext fun i => h1 i)

/-! ## Limits -/

theorem most_wider (i : Fin 7) : Wider (mostOf (jointLimits i)) (codeLimits i) := by
  refine ⟨?_, code_moderate i, ?_, ?_, ?_, ?_⟩
  · constructor <;> fin_cases i <;> simp [mostOf, jointLimits] <;> norm_num
  · fin_cases i <;> simp [mostOf, codeLimits, jointLimits] <;> norm_num
  · fin_cases i <;> simp [mostOf, codeLimits, jointLimits] <;> norm_num
  · fin_cases i <;> simp [mostOf, codeLimits, jointLimits] <;> norm_num
  · fin_cases i <;> simp [mostOf, codeLimits, jointLimits] <;> norm_num

theorem allowed_le {L : Limits} (hL : Moderate L) {r v a : ℝ} (h : Allowed L r v a) (hv : |v| ≤ L.velocity) : |r| ≤ 100 := by
  have h1 := h.acceleration
  rw [abs_div, abs_of_pos (by norm_num : (0 : ℝ) < 0.001), div_le_iff₀ (by norm_num)] at h1
  have := abs_le_of_close h1 hv
  linarith [hL.v2, hL.a2]

/-- The velocity limiter gives almost the commanded velocity if that is allowed. -/
theorem limiter_passes {r v a z : ℝ} {i : Fin 7} (h : limit_rate_velocity (MAX_JOINT_VELOCITY i) (MAX_JOINT_ACCELERATION i) (MAX_JOINT_JERK i) (Rd.fin r) (Rd.fin v) (Rd.fin a) =
    (.ok (Rd.fin z) : P (Rd A))) (hv : |v| ≤ (codeLimits i).velocity) (ha : |a| ≤ 100) (hr : Allowed (codeLimits i) r v a) : |z - r| ≤ 2 / 10 ^ 12 := by
  obtain ⟨z', h1, h2⟩ := rd_limit_near (near_velocity (A := A) i) (near_acceleration i) (near_jerk i) (code_moderate i) (near_fin r) (allowed_le (code_moderate i) hr hv) (by norm_num)
    (hv.trans (by linarith)) ha
  rw [h] at h1
  injection h1 with h1
  rw [Rd.fin_inj h1]
  rw [hr.passes] at h2
  linarith

/-- The position limiter gives almost the commanded position if that is allowed. -/
theorem position_limiter_passes {r x v a z : ℝ} {i : Fin 7}
    (h : limit_rate_position (MAX_JOINT_VELOCITY i) (MAX_JOINT_ACCELERATION i) (MAX_JOINT_JERK i) (Rd.fin r) (Rd.fin x) (Rd.fin v) (Rd.fin a) = (.ok (Rd.fin z) : P (Rd A)))
    (hx : |x| ≤ 10) (hd : |r - x| ≤ 1 / 20) (hv : |v| ≤ (codeLimits i).velocity) (ha : |a| ≤ 100) (hr : Allowed (codeLimits i) ((r - x) / 0.001) v a) : |z - r| ≤ 1 / 10 ^ 14 := by
  obtain ⟨z', h1, h2⟩ := rd_limit_position_near (near_velocity (A := A) i) (near_acceleration i) (near_jerk i) (code_moderate i) hx hd (hv.trans (by linarith)) ha
  rw [h] at h1
  injection h1 with h1
  rw [Rd.fin_inj h1]
  rw [show (r - x) / 0.001 = 1000 * (r - x) by norm_num; ring] at hr
  rw [hr.passes, show x + 1000 * (r - x) / 1000 = r by ring] at h2
  exact h2

/-! ## Conversions with rate limiting -/

theorem rd_velocities_limited {u v a z : Fin 7 → ℝ} {b : Bool} {st : RobotState (Rd A)} {m m' : MotionGeneratorCommand (Rd A)} {cutoff : Rd A} (hv : st.dq_d = Arr.rd v)
    (ha : st.ddq_d = Arr.rd a) (h : JointVelocities.convert_motion ⟨b, Arr.rd u⟩ st m cutoff true = .ok m') (hz : m'.dq_c = Arr.rd z) :
    ∃ r : Fin 7 → ℝ, (if Fl.flt cutoff MAX_CUTOFF_FREQUENCY then
        (Arr.tabulateP fun i => low_pass_filter DELTA_T ((Arr.rd u : Arr (Rd A) 7) i) ((Arr.rd v : Arr (Rd A) 7) i) cutoff) else pure (Arr.rd u)) = .ok (Arr.rd r) ∧
      ∀ i, limit_rate_velocity (MAX_JOINT_VELOCITY i) (MAX_JOINT_ACCELERATION i) (MAX_JOINT_JERK i) (Rd.fin (r i)) (Rd.fin (v i)) (Rd.fin (a i)) = (.ok (Rd.fin (z i)) : P (Rd A)) := by
  have h : ((if Fl.flt cutoff MAX_CUTOFF_FREQUENCY then Arr.tabulateP fun i => low_pass_filter DELTA_T ((Arr.rd u : Arr (Rd A) 7) i) (st.dq_d i) cutoff else pure (Arr.rd u)) >>= fun x =>
      limit_rate_joint_velocities MAX_JOINT_VELOCITY MAX_JOINT_ACCELERATION MAX_JOINT_JERK x st.dq_d st.ddq_d >>= fun y =>
      assertFinite y >>= fun _ => (pure { m with dq_c := y } : P (MotionGeneratorCommand (Rd A)))) = .ok m' := by
    rw [← h]
    unfold JointVelocities.convert_motion
    split <;> rfl
  rw [hv, ha] at h
  obtain ⟨x, h1, h⟩ := P_bind_inv h
  obtain ⟨y, h2, h⟩ := P_bind_inv h
  obtain ⟨_, -, h⟩ := P_bind_inv h
  have h9 : { m with dq_c := y } = m' := by injection h
  unfold limit_rate_joint_velocities at h2
  obtain ⟨_, h4, h2⟩ := P_bind_inv h2
  obtain ⟨r, rfl⟩ := rd_assertFinite_inv h4
  refine ⟨r, h1, fun i => ?_⟩
  have h5 := Arr.tabulateP_inv h2 i
  rw [show y i = Rd.fin (z i) by rw [← h9] at hz; exact congrFun hz i] at h5
  exact h5

theorem rd_positions_limited {u x v a z : Fin 7 → ℝ} {b : Bool} {st : RobotState (Rd A)} {m m' : MotionGeneratorCommand (Rd A)} {cutoff : Rd A} (hx : st.q_d = Arr.rd x)
    (hv : st.dq_d = Arr.rd v) (ha : st.ddq_d = Arr.rd a) (h : JointPositions.convert_motion ⟨b, Arr.rd u⟩ st m cutoff true = .ok m') (hz : m'.q_c = Arr.rd z) :
    ∃ r : Fin 7 → ℝ, (if Fl.flt cutoff MAX_CUTOFF_FREQUENCY then
        (Arr.tabulateP fun i => low_pass_filter DELTA_T ((Arr.rd u : Arr (Rd A) 7) i) ((Arr.rd x : Arr (Rd A) 7) i) cutoff) else pure (Arr.rd u)) = .ok (Arr.rd r) ∧
      ∀ i, limit_rate_position (MAX_JOINT_VELOCITY i) (MAX_JOINT_ACCELERATION i) (MAX_JOINT_JERK i) (Rd.fin (r i)) (Rd.fin (x i)) (Rd.fin (v i)) (Rd.fin (a i)) =
        (.ok (Rd.fin (z i)) : P (Rd A)) := by
  have h : ((if Fl.flt cutoff MAX_CUTOFF_FREQUENCY then Arr.tabulateP fun i => low_pass_filter DELTA_T ((Arr.rd u : Arr (Rd A) 7) i) (st.q_d i) cutoff else pure (Arr.rd u)) >>= fun x =>
      limit_rate_joint_positions MAX_JOINT_VELOCITY MAX_JOINT_ACCELERATION MAX_JOINT_JERK x st.q_d st.dq_d st.ddq_d >>= fun y =>
      assertFinite y >>= fun _ => (pure { m with q_c := y } : P (MotionGeneratorCommand (Rd A)))) = .ok m' := by
    rw [← h]
    unfold JointPositions.convert_motion
    split <;> rfl
  rw [hx, hv, ha] at h
  obtain ⟨x, h1, h⟩ := P_bind_inv h
  obtain ⟨y, h2, h⟩ := P_bind_inv h
  obtain ⟨_, -, h⟩ := P_bind_inv h
  have h9 : { m with q_c := y } = m' := by injection h
  unfold limit_rate_joint_positions at h2
  obtain ⟨_, h4, h2⟩ := P_bind_inv h2
  obtain ⟨r, rfl⟩ := rd_assertFinite_inv h4
  refine ⟨r, h1, fun i => ?_⟩
  have h5 := Arr.tabulateP_inv h2 i
  rw [show y i = Rd.fin (z i) by rw [← h9] at hz; exact congrFun hz i] at h5
  exact h5

theorem rd_torques_limited {u l z : Fin 7 → ℝ} {st : RobotState (Rd A)} {τ : Arr (Rd A) 7} {cutoff : Rd A} (hl : st.tau_J_d = Arr.rd l)
    (h : ControlLoop.convert_torques true cutoff st (Arr.rd u) = .ok τ) (hz : τ = Arr.rd z) :
    ∃ r : Fin 7 → ℝ, (if Fl.flt cutoff MAX_CUTOFF_FREQUENCY then
        (Arr.tabulateP fun i => low_pass_filter DELTA_T ((Arr.rd u : Arr (Rd A) 7) i) ((Arr.rd l : Arr (Rd A) 7) i) cutoff) else pure (Arr.rd u)) = .ok (Arr.rd r) ∧
      ∀ i, (Rd.fin (l i) + Fl.fmax (Fl.fmin ((Rd.fin (r i) - Rd.fin (l i)) / DELTA_T) (Fl.lit 1000 - LIMIT_EPS)) (-(Fl.lit 1000 - LIMIT_EPS)) * DELTA_T : Rd A) = Rd.fin (z i) := by
  have h : ((if Fl.flt cutoff MAX_CUTOFF_FREQUENCY then Arr.tabulateP fun i => low_pass_filter DELTA_T ((Arr.rd u : Arr (Rd A) 7) i) (st.tau_J_d i) cutoff else pure (Arr.rd u)) >>= fun x =>
      limit_rate_torques MAX_TORQUE_RATE x st.tau_J_d >>= fun y => assertFinite y >>= fun _ => (pure y : P (Arr (Rd A) 7))) = .ok τ := by
    rw [← h]
    unfold ControlLoop.convert_torques
    split <;> rfl
  rw [hl] at h
  obtain ⟨x, h1, h⟩ := P_bind_inv h
  obtain ⟨y, h2, h⟩ := P_bind_inv h
  obtain ⟨_, -, h⟩ := P_bind_inv h
  have h9 : y = τ := by injection h
  unfold limit_rate_torques at h2
  obtain ⟨_, h4, h2⟩ := P_bind_inv h2
  obtain ⟨r, rfl⟩ := rd_assertFinite_inv h4
  refine ⟨r, h1, fun i => ?_⟩
  injection h2 with h5
  rw [h9, hz] at h5
  exact congrFun h5 i

/-- Without the filter, or with it: what reaches the limiter. -/
theorem reaches_limiter {k : ℕ} {u l r : Fin k → ℝ} {cutoff : Rd A} {f : ℝ} {g : ℝ} {B : ℝ} (b0 : 1 / 10 ^ 50 ≤ B) (b1 : B ≤ 10 ^ 40)
    (hf : (Fl.flt cutoff MAX_CUTOFF_FREQUENCY = false ∧ g = 1) ∨ (cutoff = Rd.fin f ∧ 0.1 ≤ f ∧ f ≤ 999 ∧ g = share f))
    (h : (if Fl.flt cutoff MAX_CUTOFF_FREQUENCY then
      (Arr.tabulateP fun i => low_pass_filter DELTA_T ((Arr.rd u : Arr (Rd A) k) i) ((Arr.rd l : Arr (Rd A) k) i) cutoff) else pure (Arr.rd u)) = .ok (Arr.rd r)) (i : Fin k)
    (hu : |u i| ≤ B) (hl : |l i| ≤ B) : |r i - (g * u i + (1 - g) * l i)| ≤ 4 / 10 ^ 15 * B := by
  rcases hf with ⟨hf, rfl⟩ | ⟨rfl, h0, h1, rfl⟩
  · rw [hf] at h
    have h : (Arr.rd u : Arr (Rd A) k) = Arr.rd r := by injection h
    have : u i = r i := Rd.fin_inj (congrFun h i)
    rw [← this, show u i - (1 * u i + (1 - 1) * l i) = 0 by ring, abs_zero]
    have : (0 : ℝ) < 1 / 10 ^ 50 := by norm_num
    linarith
  · rw [rd_with_filter h1] at h
    obtain ⟨r', h2, h3⟩ := C100_step (A := A) (f := f) (by norm_num at h0 ⊢; linarith) (by linarith) b0 b1 hu hl
    have := filtered_joints h rfl i
    rw [h2] at this
    injection this with this
    rw [← Rd.fin_inj this]
    rwa [show share f * u i + (1 - share f) * l i = l i + share f * (u i - l i) by ring]

/-! ## Control calls -/

/-- The exact signal that the commands follow: without the filter the values of the callback, one step later, and with it these values after an exact low pass. -/
theorem followed_exact {N : ℕ} {f g : ℝ} {u x : ℕ → ℝ} (hg : g = share f) (hf : 0 < f) (h : LowPassedFor N f u x) : ∀ n < N, x (n + 1) = g * u n + (1 - g) * x n := by
  intro n hn
  rw [hg, share_gain f hf]
  exact (gain_eq hf).1 (h n hn)

theorem share_at_least {f : ℝ} (h0 : 0.1 ≤ f) : 6 / 10 ^ 4 ≤ share f := by
  have h1 := Real.pi_gt_d2
  have hp := Real.pi_pos
  have hf : 0 < f := lt_of_lt_of_le (by norm_num) h0
  unfold share
  rw [le_div_iff₀ (by positivity)]
  have h2 : 2 * 3.14 * 0.1 ≤ 2 * Real.pi * f := by
    have : (3.14 : ℝ) * 0.1 ≤ Real.pi * f := mul_le_mul h1.le h0 (by norm_num) hp.le
    linarith
  norm_num at *
  linarith

/-- Without the filter the whole way to the new value is gone at once. -/
def GoesBy (cutoff : Rd A) (f g : ℝ) : Prop := (Fl.flt cutoff MAX_CUTOFF_FREQUENCY = false ∧ g = 1) ∨ (cutoff = Rd.fin f ∧ 0.1 ≤ f ∧ f ≤ 999 ∧ g = share f)

theorem GoesBy.bounds {cutoff : Rd A} {f g : ℝ} (h : GoesBy cutoff f g) : 6 / 10 ^ 4 ≤ g ∧ g ≤ 1 := by
  rcases h with ⟨-, rfl⟩ | ⟨-, h0, -, rfl⟩
  · norm_num
  · exact ⟨share_at_least h0, (share_lt_one (lt_of_lt_of_le (by norm_num) h0)).le⟩

section
variable [Wire (Rd A)] [Geo (Rd A)] {w : World (Rd A)} (hw : RobotReachable w) {c : RobotCall (Rd A)} {σ : Type} {c0 : σ}
include hw

theorem rd_velocities_follow {f g : ℝ} {call : ControlCall (Rd A) σ .JointVelocities} (hc : IsControl c call c0) (hl : call.limit_rate = true) (hf : GoesBy call.cutoff f g)
    (u v a x : Fin 7 → ℕ → ℝ)
    (returned : ∀ n < answered w c, ∀ out, (motionOutputs .JointVelocities (newEvents w (c.run w).2))[n]? = some out → JointVelocities.dq out = Arr.rd fun i => u i n)
    (reported : ∀ n st x, Exchange w c n st x → st.dq_d = Arr.rd (fun i => v i n) ∧ st.ddq_d = Arr.rd fun i => a i n)
    (close : ∀ i n, n < answered w c → |a i n - rate (v i) n| ≤ 1 / 10 ^ 7)
    (commanded : ∀ n st x, Exchange w c n st x → x.motion.dq_c = Arr.rd fun i => v i (n + 1))
    (inside : ∀ i, VelocityInside (answered w c) (jointLimits i) (starting (v i 0) (u i)))
    (exact : ∀ i, x i 0 = v i 0 ∧ ∀ n < answered w c, x i (n + 1) = g * u i n + (1 - g) * x i n) (i : Fin 7) :
    ∀ n ≤ answered w c, |v i n - x i n| ≤ (2 / 10 ^ 14 + 2 / 10 ^ 12) / g := by
  obtain ⟨g1, g2⟩ := hf.bounds
  have g0 : 0 < g := lt_of_lt_of_le (by norm_num) g1
  have hW := most_wider i
  have hu : ∀ n < answered w c, |u i n| ≤ 4 := fun n hn => by
    have := allowed_velocity hW.ok (w := starting (v i 0) (u i)) (inside i).1 (inside i).2 (n + 1) hn
    linarith [show |u i n| ≤ _ from this, hW.velocity, hW.moderate.v2]
  refine velocity_follows hW g0 g2 (by norm_num) (by norm_num) ?_ (exact i).1 (exact i).2 (inside i).1 (inside i).2 (close i) fun n hn hv ha => ?_
  · rw [div_le_iff₀ g0]
    linarith
  obtain ⟨st, y, hx⟩ := exchange_exists hn
  obtain ⟨pre, t, k1, k2, k3, -, k5⟩ := turn_at hw hc hx
  obtain ⟨r1, r2⟩ := reported n st y hx
  have hr := returned n hn _ k5
  have hconv := k1.moved.conv
  rw [hl, k2] at hconv
  have hto : t.out = (⟨JointVelocities.motion_finished t.out, Arr.rd fun i => u i n⟩ : JointVelocities (Rd A)) := by rw [← hr]; rfl
  rw [hto] at hconv
  have hq : y.motion.dq_c = t.m.dq_c := by
    rw [← k3]
    unfold Turn.cmd
    split <;> rfl
  obtain ⟨r, h1, h2⟩ := rd_velocities_limited r1 r2 hconv (hq.symm.trans (commanded n st y hx))
  refine ⟨r i, ?_, fun h3 => limiter_passes (h2 i) hv ha h3⟩
  exact (reaches_limiter (B := 4) (by norm_num) (by norm_num) hf h1 i (hu n hn) (by linarith [hW.moderate.v2])).trans (by norm_num)

theorem rd_positions_follow {f g : ℝ} {call : ControlCall (Rd A) σ .JointPositions} (hc : IsControl c call c0) (hl : call.limit_rate = true) (hf : GoesBy call.cutoff f g)
    (u q v a x : Fin 7 → ℕ → ℝ) (range : ∀ i, |q i 0| ≤ 9 ∧ ∀ n < answered w c, |u i n| ≤ 9)
    (returned : ∀ n < answered w c, ∀ out, (motionOutputs .JointPositions (newEvents w (c.run w).2))[n]? = some out → JointPositions.q out = Arr.rd fun i => u i n)
    (reported : ∀ n st x, Exchange w c n st x → st.q_d = Arr.rd (fun i => q i n) ∧ st.dq_d = Arr.rd (fun i => v i n) ∧ st.ddq_d = Arr.rd fun i => a i n)
    (close1 : ∀ i n, n < answered w c → |v i n - rate (q i) n| ≤ 1 / 10 ^ 10) (close2 : ∀ i n, n < answered w c → |a i n - rate (rate (q i)) n| ≤ 1 / 10 ^ 7)
    (commanded : ∀ n st x, Exchange w c n st x → x.motion.q_c = Arr.rd fun i => q i (n + 1))
    (inside : ∀ i, PositionInside (answered w c) (jointLimits i) (starting (q i 0) (u i)))
    (exact : ∀ i, x i 0 = q i 0 ∧ ∀ n < answered w c, x i (n + 1) = g * u i n + (1 - g) * x i n) (i : Fin 7) :
    ∀ n ≤ answered w c, |q i n - x i n| ≤ (4 / 10 ^ 14 + 1 / 10 ^ 14) / g := by
  obtain ⟨g1, g2⟩ := hf.bounds
  have g0 : 0 < g := lt_of_lt_of_le (by norm_num) g1
  have hW := most_wider i
  have hxb := mean_bounded g0 g2 (exact i).2 (by rw [(exact i).1]; exact (range i).1) (range i).2
  refine position_follows hW g0 g2 (by norm_num) (by norm_num) ?_ (exact i).1 (exact i).2 (inside i).2 (close1 i) (close2 i) fun n hn hy hv ha => ?_
  · rw [div_le_iff₀ g0]
    linarith
  obtain ⟨st, y, hx⟩ := exchange_exists hn
  obtain ⟨pre, t, k1, k2, k3, -, k5⟩ := turn_at hw hc hx
  obtain ⟨r0, r1, r2⟩ := reported n st y hx
  have hr := returned n hn _ k5
  have hconv := k1.moved.conv
  rw [hl, k2] at hconv
  have hto : t.out = (⟨JointPositions.motion_finished t.out, Arr.rd fun i => u i n⟩ : JointPositions (Rd A)) := by rw [← hr]; rfl
  rw [hto] at hconv
  have hq : y.motion.q_c = t.m.q_c := by
    rw [← k3]
    unfold Turn.cmd
    split <;> rfl
  have hqb : |q i n| ≤ 10 := by linarith [abs_le_of_close hy (hxb n (by omega))]
  obtain ⟨r, h1, h2⟩ := rd_positions_limited r0 r1 r2 hconv (hq.symm.trans (commanded n st y hx))
  refine ⟨r i, ?_, fun h3 h4 => position_limiter_passes (h2 i) hqb h3 hv ha h4⟩
  exact (reaches_limiter (B := 10) (by norm_num) (by norm_num) hf h1 i (((range i).2 n hn).trans (by norm_num)) hqb).trans (by norm_num)

theorem rd_torques_follow {f g : ℝ} {k : MotionKind} {call : ControlCall (Rd A) σ k} (hc : IsControl c call c0) (ht : call.torque ≠ none) (hl : call.limit_rate = true)
    (hf : GoesBy call.cutoff f g) (u τ x : Fin 7 → ℕ → ℝ) {N : ℕ} (hN : N ≤ answered w c) (range : ∀ i, |τ i 0| ≤ 900 ∧ ∀ n < N, |u i n| ≤ 900)
    (returned : ∀ n < N, ∃ out, (torqueOutputs (newEvents w (c.run w).2))[n]? = some out ∧ out.tau_J = Arr.rd fun i => u i n)
    (reported : ∀ n st x, Exchange w c n st x → st.tau_J_d = Arr.rd fun i => τ i n)
    (commanded : ∀ n st x, Exchange w c n st x → x.control.tau_J_d = Arr.rd fun i => τ i (n + 1))
    (inside : ∀ i, ∀ n < N, |u i n - starting (τ i 0) (u i) n| ≤ 0.99)
    (exact : ∀ i, x i 0 = τ i 0 ∧ ∀ n < N, x i (n + 1) = g * u i n + (1 - g) * x i n) (i : Fin 7) :
    ∀ n ≤ N, |τ i n - x i n| ≤ (4 / 10 ^ 12 + 2 / 10 ^ 12) / g := by
  obtain ⟨g1, g2⟩ := hf.bounds
  have g0 : 0 < g := lt_of_lt_of_le (by norm_num) g1
  have hxb := mean_bounded g0 g2 (exact i).2 (by rw [(exact i).1]; exact (range i).1) (range i).2
  refine torque_follows g0 g2 (by norm_num) (by norm_num) ?_ (exact i).1 (exact i).2 (inside i) fun n hn hy => ?_
  · rw [div_le_iff₀ g0]
    linarith
  obtain ⟨st, y, hx⟩ := exchange_exists (by omega : n < answered w c)
  obtain ⟨out, k1, k2⟩ := returned n hn
  have hconv := torque_turn_at hw hc ht hx k1
  rw [hl, k2] at hconv
  have hτb : |τ i n| ≤ 950 := by linarith [abs_le_of_close hy (hxb n (by omega))]
  obtain ⟨r, h1, h2⟩ := rd_torques_limited (reported n st y hx) hconv (commanded n st y hx)
  refine ⟨r i, ?_, fun h3 => ?_⟩
  · exact (reaches_limiter (B := 1000) (by norm_num) (by norm_num) hf h1 i (((range i).2 n hn).trans (by norm_num)) (hτb.trans (by norm_num))).trans (by norm_num)
  · obtain ⟨z, e1, e2⟩ := rd_limit_torque_near (near_torque_rate (A := A)) (by norm_num) (by norm_num) (u := r i) (l := τ i n)
      (by
        have := abs_le_of_close h3 hτb
        norm_num at this ⊢
        linarith) (hτb.trans (by norm_num))
    rw [h2 i] at e1
    rw [Rd.fin_inj e1]
    obtain ⟨h4, h5⟩ := abs_le.1 h3
    rw [min_eq_left (by norm_num at h5 ⊢; linarith), max_eq_left (by norm_num at h4 ⊢; linarith), show τ i n + 1000 * (r i - τ i n) / 1000 = r i by ring] at e2
    exact e2

/-! ### Without the filter -/

/-- **C104**, joint velocities, with rate limiting and without the low-pass filter: `u i n` is the velocity of joint `i` which the motion callback returned in its `n`-th
call, `v i n` the one that the robot reports in the `n`-th state and `v i (n + 1)` the one in the command for it. The robot reports the acceleration with an error of at most
10⁻⁷ rad/s². If the velocities of the callback stay within 99.9 % of the limits, then every command has the velocities of the callback, up to 3·10⁻¹² rad/s. -/
theorem C104_joint_velocities {call : ControlCall (Rd A) σ .JointVelocities} (hc : IsControl c call c0) (hl : call.limit_rate = true)
    (hf : Fl.flt call.cutoff (Fl.lit 1000) = false) (u v a : Fin 7 → ℕ → ℝ)
    (returned : ∀ n out, (motionOutputs .JointVelocities (newEvents w (c.run w).2))[n]? = some out → JointVelocities.dq out = Arr.rd fun i => u i n)
    (reported : ∀ n st x, Exchange w c n st x → st.dq_d = Arr.rd (fun i => v i n) ∧ st.ddq_d = Arr.rd fun i => a i n)
    (close : ∀ i n, n < answered w c → |a i n - rate (v i) n| ≤ 1 / 10 ^ 7)
    (commanded : ∀ n st x, Exchange w c n st x → x.motion.dq_c = Arr.rd fun i => v i (n + 1))
    (inside : ∀ i, VelocityInside (answered w c) (jointLimits i) (starting (v i 0) (u i))) (i : Fin 7) :
    ∀ n < answered w c, |v i (n + 1) - u i n| ≤ 3 / 10 ^ 12 := fun n hn =>
  (rd_velocities_follow hw hc hl (f := 0) (.inl ⟨hf, rfl⟩) u v a (fun i => starting (v i 0) (u i)) (fun n _ => returned n) reported close commanded inside
    (fun i => ⟨rfl, fun n _ => by simp [starting]⟩) i (n + 1) hn).trans (by norm_num)

/-- **C104**, joint positions: the same for positions up to 9 rad. The robot reports the velocity with an error of at most 10⁻¹⁰ rad/s and the acceleration with one of 10⁻⁷
rad/s². Every command has the positions of the callback, up to 10⁻¹³ rad. -/
theorem C104_joint_positions {call : ControlCall (Rd A) σ .JointPositions} (hc : IsControl c call c0) (hl : call.limit_rate = true)
    (hf : Fl.flt call.cutoff (Fl.lit 1000) = false) (u q v a : Fin 7 → ℕ → ℝ) (range : ∀ i, |q i 0| ≤ 9 ∧ ∀ n < answered w c, |u i n| ≤ 9)
    (returned : ∀ n out, (motionOutputs .JointPositions (newEvents w (c.run w).2))[n]? = some out → JointPositions.q out = Arr.rd fun i => u i n)
    (reported : ∀ n st x, Exchange w c n st x → st.q_d = Arr.rd (fun i => q i n) ∧ st.dq_d = Arr.rd (fun i => v i n) ∧ st.ddq_d = Arr.rd fun i => a i n)
    (close1 : ∀ i n, n < answered w c → |v i n - rate (q i) n| ≤ 1 / 10 ^ 10) (close2 : ∀ i n, n < answered w c → |a i n - rate (rate (q i)) n| ≤ 1 / 10 ^ 7)
    (commanded : ∀ n st x, Exchange w c n st x → x.motion.q_c = Arr.rd fun i => q i (n + 1))
    (inside : ∀ i, PositionInside (answered w c) (jointLimits i) (starting (q i 0) (u i))) (i : Fin 7) :
    ∀ n < answered w c, |q i (n + 1) - u i n| ≤ 1 / 10 ^ 13 := fun n hn =>
  (rd_positions_follow hw hc hl (f := 0) (.inl ⟨hf, rfl⟩) u q v a (fun i => starting (q i 0) (u i)) range (fun n _ => returned n) reported close1 close2 commanded inside
    (fun i => ⟨rfl, fun n _ => by simp [starting]⟩) i (n + 1) hn).trans (by norm_num)

/-- **C104**, torques up to 900 Nm, for as long as the torque callback is called: if it changes each torque by at most 0.99 Nm per cycle, then every command has its torques,
up to 10⁻¹¹ Nm. -/
theorem C104_torques {k : MotionKind} {call : ControlCall (Rd A) σ k} (hc : IsControl c call c0) (ht : call.torque ≠ none) (hl : call.limit_rate = true)
    (hf : Fl.flt call.cutoff (Fl.lit 1000) = false) (u τ : Fin 7 → ℕ → ℝ) {N : ℕ} (hN : N ≤ answered w c) (range : ∀ i, |τ i 0| ≤ 900 ∧ ∀ n < N, |u i n| ≤ 900)
    (returned : ∀ n < N, ∃ out, (torqueOutputs (newEvents w (c.run w).2))[n]? = some out ∧ out.tau_J = Arr.rd fun i => u i n)
    (reported : ∀ n st x, Exchange w c n st x → st.tau_J_d = Arr.rd fun i => τ i n)
    (commanded : ∀ n st x, Exchange w c n st x → x.control.tau_J_d = Arr.rd fun i => τ i (n + 1))
    (inside : ∀ i, ∀ n < N, |u i n - starting (τ i 0) (u i) n| ≤ 0.99) (i : Fin 7) : ∀ n < N, |τ i (n + 1) - u i n| ≤ 1 / 10 ^ 11 := fun n hn =>
  (rd_torques_follow hw hc ht hl (f := 0) (.inl ⟨hf, rfl⟩) u τ (fun i => starting (τ i 0) (u i)) hN range returned reported commanded inside
    (fun i => ⟨rfl, fun n _ => by simp [starting]⟩) i (n + 1) hn).trans (by norm_num)

/-! ### With the filter -/

section
variable {f : ℝ} (h0 : 0.1 ≤ f) (h1 : f ≤ 999)
include h0 h1

theorem share_bound {a b : ℝ} (hb : 0 ≤ b) (h : a ≤ b * (6 / 10 ^ 4)) : a / share f ≤ b := by
  have h2 := share_at_least h0
  have h3 : 0 < share f := lt_of_lt_of_le (by norm_num) h2
  rw [div_le_iff₀ h3]
  exact h.trans (mul_le_mul_of_nonneg_left h2 hb)

/-- **C104**, joint velocities, with rate limiting and with the low-pass filter: as above, and `x i` are the velocities `u i` of the callback after an exact low pass with the
cutoff frequency `f`. The commands are these velocities, up to 10⁻⁸ rad/s, for as long as the motion lasts. -/
theorem C104_filtered_joint_velocities {call : ControlCall (Rd A) σ .JointVelocities} (hc : IsControl c call c0) (hl : call.limit_rate = true) (hf : call.cutoff = Rd.fin f)
    (u v a x : Fin 7 → ℕ → ℝ)
    (returned : ∀ n out, (motionOutputs .JointVelocities (newEvents w (c.run w).2))[n]? = some out → JointVelocities.dq out = Arr.rd fun i => u i n)
    (reported : ∀ n st x, Exchange w c n st x → st.dq_d = Arr.rd (fun i => v i n) ∧ st.ddq_d = Arr.rd fun i => a i n)
    (close : ∀ i n, n < answered w c → |a i n - rate (v i) n| ≤ 1 / 10 ^ 7)
    (commanded : ∀ n st x, Exchange w c n st x → x.motion.dq_c = Arr.rd fun i => v i (n + 1))
    (inside : ∀ i, VelocityInside (answered w c) (jointLimits i) (starting (v i 0) (u i)))
    (exact : ∀ i, x i 0 = v i 0 ∧ LowPassedFor (answered w c) f (u i) (x i)) (i : Fin 7) :
    ∀ n ≤ answered w c, |v i n - x i n| ≤ 1 / 10 ^ 8 := fun n hn =>
  (rd_velocities_follow hw hc hl (.inr ⟨hf, h0, h1, rfl⟩) u v a x (fun n _ => returned n) reported close commanded inside
    (fun i => ⟨(exact i).1, followed_exact rfl (lt_of_lt_of_le (by norm_num) h0) (exact i).2⟩) i n hn).trans (share_bound hw h0 h1 (by norm_num) (by norm_num))

/-- **C104**, joint positions with the low-pass filter: the commands are the positions of the callback after an exact low pass, up to 10⁻¹⁰ rad. -/
theorem C104_filtered_joint_positions {call : ControlCall (Rd A) σ .JointPositions} (hc : IsControl c call c0) (hl : call.limit_rate = true) (hf : call.cutoff = Rd.fin f)
    (u q v a x : Fin 7 → ℕ → ℝ) (range : ∀ i, |q i 0| ≤ 9 ∧ ∀ n < answered w c, |u i n| ≤ 9)
    (returned : ∀ n out, (motionOutputs .JointPositions (newEvents w (c.run w).2))[n]? = some out → JointPositions.q out = Arr.rd fun i => u i n)
    (reported : ∀ n st x, Exchange w c n st x → st.q_d = Arr.rd (fun i => q i n) ∧ st.dq_d = Arr.rd (fun i => v i n) ∧ st.ddq_d = Arr.rd fun i => a i n)
    (close1 : ∀ i n, n < answered w c → |v i n - rate (q i) n| ≤ 1 / 10 ^ 10) (close2 : ∀ i n, n < answered w c → |a i n - rate (rate (q i)) n| ≤ 1 / 10 ^ 7)
    (commanded : ∀ n st x, Exchange w c n st x → x.motion.q_c = Arr.rd fun i => q i (n + 1))
    (inside : ∀ i, PositionInside (answered w c) (jointLimits i) (starting (q i 0) (u i)))
    (exact : ∀ i, x i 0 = q i 0 ∧ LowPassedFor (answered w c) f (u i) (x i)) (i : Fin 7) :
    ∀ n ≤ answered w c, |q i n - x i n| ≤ 1 / 10 ^ 10 := fun n hn =>
  (rd_positions_follow hw hc hl (.inr ⟨hf, h0, h1, rfl⟩) u q v a x range (fun n _ => returned n) reported close1 close2 commanded inside
    (fun i => ⟨(exact i).1, followed_exact rfl (lt_of_lt_of_le (by norm_num) h0) (exact i).2⟩) i n hn).trans (share_bound hw h0 h1 (by norm_num) (by norm_num))

/-- **C104**, torques with the low-pass filter: the commands are the torques of the callback after an exact low pass, up to 10⁻⁸ Nm. -/
theorem C104_filtered_torques {k : MotionKind} {call : ControlCall (Rd A) σ k} (hc : IsControl c call c0) (ht : call.torque ≠ none) (hl : call.limit_rate = true)
    (hf : call.cutoff = Rd.fin f) (u τ x : Fin 7 → ℕ → ℝ) {N : ℕ} (hN : N ≤ answered w c) (range : ∀ i, |τ i 0| ≤ 900 ∧ ∀ n < N, |u i n| ≤ 900)
    (returned : ∀ n < N, ∃ out, (torqueOutputs (newEvents w (c.run w).2))[n]? = some out ∧ out.tau_J = Arr.rd fun i => u i n)
    (reported : ∀ n st x, Exchange w c n st x → st.tau_J_d = Arr.rd fun i => τ i n)
    (commanded : ∀ n st x, Exchange w c n st x → x.control.tau_J_d = Arr.rd fun i => τ i (n + 1))
    (inside : ∀ i, ∀ n < N, |u i n - starting (τ i 0) (u i) n| ≤ 0.99)
    (exact : ∀ i, x i 0 = τ i 0 ∧ LowPassedFor N f (u i) (x i)) (i : Fin 7) : ∀ n ≤ N, |τ i n - x i n| ≤ 1 / 10 ^ 8 := fun n hn =>
  (rd_torques_follow hw hc ht hl (.inr ⟨hf, h0, h1, rfl⟩) u τ x hN range returned reported commanded inside
    (fun i => ⟨(exact i).1, followed_exact rfl (lt_of_lt_of_le (by norm_num) h0) (exact i).2⟩) i n hn).trans (share_bound hw h0 h1 (by norm_num) (by norm_num))

end
end
end Verif
