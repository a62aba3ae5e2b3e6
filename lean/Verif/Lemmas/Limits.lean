import Verif.Lemmas.Real
import Verif.Spec.Limits
/-!
The rate limiters on finite doubles.
-/
namespace Verif
open Spec

/-! ## Velocities -/

/-- The acceleration that the velocity limiter chooses. -/
noncomputable def limitAcc (L : Limits) (u v a : ℝ) : ℝ :=
  max (min (a + max (min (1000 * (1000 * (u - v) - a)) L.jerk) (-L.jerk) / 1000) (min (L.jerk / L.acceleration * (L.velocity - v)) L.acceleration))
    (max (L.jerk / L.acceleration * (-L.velocity - v)) (-L.acceleration))

theorem limit_rate_velocity_fin (L : Limits) (hA : L.acceleration ≠ 0) (u v a : ℝ) :
    limit_rate_velocity (F := XR) (.fin L.velocity) (.fin L.acceleration) (.fin L.jerk) (.fin u) (.fin v) (.fin a) = .ok (.fin (v + limitAcc L u v a / 1000)) := by
  unfold limit_rate_velocity
  simp only [XR.isFinite_fin, assertP_true, P_bind_ok_eq, XR.fin_sub, fin_div_dt, XR.fmin_fin, XR.fin_neg, XR.fmax_fin, fin_mul_dt, XR.fin_add,
    XR.fin_div _ _ hA, XR.fin_mul]
  rfl

theorem limit_rate_velocity_inv {V A J u v a : XR} {r : XR} (h : limit_rate_velocity V A J u v a = .ok r) : Fl.isFinite u = true := by
  unfold limit_rate_velocity at h
  by_contra hn
  rw [Bool.not_eq_true] at hn
  rw [hn] at h
  cases h

/-- The limits fit to a sample time of 1 ms. -/
structure LimitsOk (L : Limits) : Prop where
  velocity : 0 ≤ L.velocity
  acceleration : 0 < L.acceleration
  jerk : 0 ≤ L.jerk
  step : L.jerk ≤ 1000 * L.acceleration

/-- The acceleration bounds the limiter uses near the velocity limit. -/
def InSafe (L : Limits) (v a : ℝ) : Prop :=
  a ≤ L.jerk / L.acceleration * (L.velocity - v) ∧ a ≤ L.acceleration ∧ L.jerk / L.acceleration * (-L.velocity - v) ≤ a ∧ -L.acceleration ≤ a

variable {L : Limits}

theorem limitAcc_safe (hL : LimitsOk L) {u v a : ℝ} (hv : |v| ≤ L.velocity) : InSafe L v (limitAcc L u v a) := by
  obtain ⟨h1, h2⟩ := abs_le.1 hv
  have hk : 0 ≤ L.jerk / L.acceleration := div_nonneg hL.jerk hL.acceleration.le
  have e1 : 0 ≤ L.jerk / L.acceleration * (L.velocity - v) := mul_nonneg hk (by linarith)
  have e2 : L.jerk / L.acceleration * (-L.velocity - v) ≤ 0 := mul_nonpos_of_nonneg_of_nonpos hk (by linarith)
  have hA := hL.acceleration
  unfold limitAcc InSafe
  refine ⟨max_le (le_trans (min_le_right _ _) (min_le_left _ _)) (max_le (by linarith) (by linarith)),
    max_le (le_trans (min_le_right _ _) (min_le_right _ _)) (max_le (by linarith) (by linarith)), ?_, ?_⟩
  · exact le_trans (le_max_left _ _) (le_max_right _ _)
  · exact le_trans (le_max_right _ _) (le_max_right _ _)

/-- The next velocity respects the limit. -/
theorem safe_velocity (hL : LimitsOk L) {v a : ℝ} (hv : |v| ≤ L.velocity) (ha : InSafe L v a) : |v + a / 1000| ≤ L.velocity := by
  obtain ⟨h1, h2⟩ := abs_le.1 hv
  obtain ⟨a1, a2, a3, a4⟩ := ha
  have hA := hL.acceleration
  have hk1 : L.jerk / L.acceleration ≤ 1000 := by rw [div_le_iff₀ hA]; exact hL.step
  have e1 : L.jerk / L.acceleration * (L.velocity - v) ≤ 1000 * (L.velocity - v) := mul_le_mul_of_nonneg_right hk1 (by linarith)
  have e2 : 1000 * (-L.velocity - v) ≤ L.jerk / L.acceleration * (-L.velocity - v) := mul_le_mul_of_nonpos_right hk1 (by linarith)
  rw [abs_le]
  constructor <;> linarith

/-- From a safe acceleration, the change of the acceleration respects the jerk limit. -/
theorem safe_jerk (hL : LimitsOk L) {u v a : ℝ} (hv : |v + a / 1000| ≤ L.velocity) (ha : InSafe L v a) :
    |limitAcc L u (v + a / 1000) a - a| ≤ L.jerk / 1000 := by
  obtain ⟨h1, h2⟩ := abs_le.1 hv
  obtain ⟨a1, a2, a3, a4⟩ := ha
  have hA := hL.acceleration
  have hJ := hL.jerk
  have hk : 0 ≤ L.jerk / L.acceleration := div_nonneg hJ hA.le
  have hkA : L.jerk / L.acceleration * L.acceleration = L.jerk := div_mul_cancel₀ _ hA.ne'
  have k1 : L.jerk / L.acceleration * a ≤ L.jerk := by
    have := mul_le_mul_of_nonneg_left a2 hk
    linarith
  have k2 : -L.jerk ≤ L.jerk / L.acceleration * a := by
    have := mul_le_mul_of_nonneg_left a4 hk
    linarith
  have m1 : a - L.jerk / 1000 ≤ L.jerk / L.acceleration * (L.velocity - (v + a / 1000)) := by
    have : L.jerk / L.acceleration * (L.velocity - (v + a / 1000)) = L.jerk / L.acceleration * (L.velocity - v) - L.jerk / L.acceleration * a / 1000 := by ring
    linarith
  have m2 : L.jerk / L.acceleration * (-L.velocity - (v + a / 1000)) ≤ a + L.jerk / 1000 := by
    have : L.jerk / L.acceleration * (-L.velocity - (v + a / 1000)) = L.jerk / L.acceleration * (-L.velocity - v) - L.jerk / L.acceleration * a / 1000 := by ring
    linarith
  unfold limitAcc
  rw [abs_le]
  constructor
  · refine le_sub_iff_add_le.2 (le_trans (le_min ?_ (le_min ?_ ?_)) (le_max_left _ _))
    · have := le_max_right (min (1000 * (1000 * (u - (v + a / 1000)) - a)) L.jerk) (-L.jerk)
      linarith
    · linarith
    · linarith
  · refine sub_le_iff_le_add.2 (max_le (le_trans (min_le_left _ _) ?_) (max_le ?_ ?_))
    · have : max (min (1000 * (1000 * (u - (v + a / 1000)) - a)) L.jerk) (-L.jerk) ≤ L.jerk := max_le (min_le_right _ _) (by linarith)
      linarith
    · linarith
    · linarith

/-- The first steps of a run of the limiter respect the limits. -/
theorem run_respects_for (hL : LimitsOk L) {u v : ℕ → ℝ} {N : ℕ} (h0 : v 0 = 0)
    (hs : ∀ n < N, v (n + 1) = v n + limitAcc L (u n) (v n) (rate v n) / 1000) : VelocityRespectsFor N L v := by
  have hrate : ∀ n < N, rate v (n + 1) = limitAcc L (u n) (v n) (rate v n) := by
    intro n hn
    show (v (n + 1) - v n) / 0.001 = _
    rw [hs n hn]
    norm_num
    ring
  -- the velocity before the sample
  have inv : ∀ n ≤ N, ∃ v', v n = v' + rate v n / 1000 ∧ |v n| ≤ L.velocity ∧ InSafe L v' (rate v n) := by
    intro n
    induction n with
    | zero =>
      intro _
      refine ⟨0, by simp [h0, rate], by rw [h0, abs_zero]; exact hL.velocity, ?_⟩
      have hk : 0 ≤ L.jerk / L.acceleration := div_nonneg hL.jerk hL.acceleration.le
      have := mul_nonneg hk hL.velocity
      refine ⟨?_, hL.acceleration.le, ?_, ?_⟩ <;> simp only [rate]
      · linarith
      · linarith
      · linarith [hL.acceleration]
    | succ n ih =>
      intro hn
      obtain ⟨v', h1, h2, h3⟩ := ih (by omega)
      have hsafe : InSafe L (v n) (rate v (n + 1)) := by rw [hrate n (by omega)]; exact limitAcc_safe hL h2
      refine ⟨v n, by rw [hs n (by omega), hrate n (by omega)], ?_, hsafe⟩
      rw [hs n (by omega), ← hrate n (by omega)]
      exact safe_velocity hL h2 hsafe
  intro n hn
  obtain ⟨v', h1, h2, h3⟩ := inv n hn.le
  obtain ⟨v'', -, g2, g3⟩ := inv (n + 1) hn
  refine ⟨g2, abs_le.2 ⟨g3.2.2.2, g3.2.1⟩, ?_⟩
  have := safe_jerk hL (u := u n) (by rw [← h1]; exact h2) h3
  rw [← h1, ← hrate n hn] at this
  rw [abs_div]
  norm_num
  linarith

/-- A run of the limiter respects the limits. -/
theorem run_respects (hL : LimitsOk L) {u v : ℕ → ℝ} (h0 : v 0 = 0) (hs : ∀ n, v (n + 1) = v n + limitAcc L (u n) (v n) (rate v n) / 1000) :
    VelocityRespects L v := by
  intro n
  have h := run_respects_for hL (N := n + 1) h0 fun n _ => hs n
  refine ⟨?_, ?_, (h n (by omega)).2.2⟩
  · cases n with
    | zero => rw [h0, abs_zero]; exact hL.velocity
    | succ n => exact (h n (by omega)).1
  · cases n with
    | zero => show |(0 : ℝ)| ≤ _; rw [abs_zero]; exact hL.acceleration.le
    | succ n => exact (h n (by omega)).2.1

theorem VelocityRespectsFor.weaken {L L' : Limits} {N : ℕ} {v : ℕ → ℝ} (h : VelocityRespectsFor N L v) (h1 : L.velocity ≤ L'.velocity)
    (h2 : L.acceleration ≤ L'.acceleration) (h3 : L.jerk ≤ L'.jerk) : VelocityRespectsFor N L' v :=
  fun n hn => ⟨(h n hn).1.trans h1, (h n hn).2.1.trans h2, (h n hn).2.2.trans h3⟩

theorem VelocityRespects.weaken {L L' : Limits} {v : ℕ → ℝ} (h : VelocityRespects L v) (h1 : L.velocity ≤ L'.velocity)
    (h2 : L.acceleration ≤ L'.acceleration) (h3 : L.jerk ≤ L'.jerk) : VelocityRespects L' v :=
  fun n => ⟨(h n).1.trans h1, (h n).2.1.trans h2, (h n).2.2.trans h3⟩

/-- The command is passed through if it respects the limits. -/
theorem limitAcc_transparent {u v a : ℝ} (hj : |1000 * (u - v) - a| ≤ L.jerk / 1000) (hs : InSafe L v (1000 * (u - v))) :
    v + limitAcc L u v a / 1000 = u := by
  obtain ⟨j1, j2⟩ := abs_le.1 hj
  obtain ⟨a1, a2, a3, a4⟩ := hs
  unfold limitAcc
  rw [min_eq_left (a := 1000 * (1000 * (u - v) - a)) (by linarith), max_eq_left (a := 1000 * (1000 * (u - v) - a)) (by linarith),
    show a + 1000 * (1000 * (u - v) - a) / 1000 = 1000 * (u - v) by ring, min_eq_left (le_min a1 a2), max_eq_left (max_le a3 a4)]
  ring

/-! ## The constants -/

/-- The joint limits of the code: documented limits with a margin. -/
noncomputable def codeLimits (i : Fin 7) : Limits where
  velocity := (jointLimits i).velocity - 1 / 1000 - 1 / 1000 * (1 / 1000) * ((jointLimits i).acceleration - 1 / 1000)
  acceleration := (jointLimits i).acceleration - 1 / 1000
  jerk := (jointLimits i).jerk - 1 / 1000

theorem LIMIT_EPS_fin : (LIMIT_EPS : XR) = .fin (1 / 1000) := by
  unfold LIMIT_EPS
  rw [XR.lit_fin]
  norm_num

theorem TOL_fin : (TOL_NUMBER_PACKETS_LOST : XR) = .fin (1 / 1000) := by
  unfold TOL_NUMBER_PACKETS_LOST
  rw [XR.lit_fin]
  norm_num

theorem MAX_JOINT_JERK_fin : (MAX_JOINT_JERK : Arr XR 7) = Arr.fin fun i => (codeLimits i).jerk := by
  funext i
  fin_cases i <;> simp [MAX_JOINT_JERK, codeLimits, jointLimits, LIMIT_EPS_fin, XR.lit_fin]

theorem MAX_JOINT_ACCELERATION_fin : (MAX_JOINT_ACCELERATION : Arr XR 7) = Arr.fin fun i => (codeLimits i).acceleration := by
  funext i
  fin_cases i <;> simp [MAX_JOINT_ACCELERATION, codeLimits, jointLimits, LIMIT_EPS_fin, XR.lit_fin] <;> norm_num

theorem MAX_JOINT_VELOCITY_fin : (MAX_JOINT_VELOCITY : Arr XR 7) = Arr.fin fun i => (codeLimits i).velocity := by
  funext i
  fin_cases i <;> simp [MAX_JOINT_VELOCITY, MAX_JOINT_ACCELERATION_fin, codeLimits, jointLimits, LIMIT_EPS_fin, DELTA_T_fin, TOL_fin, XR.lit_fin] <;> norm_num

theorem codeLimits_ok (i : Fin 7) : LimitsOk (codeLimits i) := by
  constructor <;> fin_cases i <;> simp [codeLimits, jointLimits] <;> norm_num

theorem codeLimits_le (i : Fin 7) : (codeLimits i).velocity ≤ (jointLimits i).velocity ∧ (codeLimits i).acceleration ≤ (jointLimits i).acceleration ∧
    (codeLimits i).jerk ≤ (jointLimits i).jerk := by
  refine ⟨?_, ?_, ?_⟩ <;> fin_cases i <;> simp [codeLimits, jointLimits] <;> norm_num

/-- The elbow limits of the code. -/
noncomputable def codeElbow : Limits where
  velocity := 2.175 - 1 / 1000 - 1 / 1000 * (1 / 1000) * (10 - 1 / 1000)
  acceleration := 10 - 1 / 1000
  jerk := 5000 - 1 / 1000

theorem MAX_ELBOW_fin : (MAX_ELBOW_VELOCITY : XR) = .fin codeElbow.velocity ∧ (MAX_ELBOW_ACCELERATION : XR) = .fin codeElbow.acceleration ∧
    (MAX_ELBOW_JERK : XR) = .fin codeElbow.jerk := by
  refine ⟨?_, ?_, ?_⟩ <;> simp [MAX_ELBOW_VELOCITY, MAX_ELBOW_ACCELERATION, MAX_ELBOW_JERK, codeElbow, LIMIT_EPS_fin, DELTA_T_fin, TOL_fin, XR.lit_fin] ;
    norm_num

theorem codeElbow_ok : LimitsOk codeElbow := by
  constructor <;> simp [codeElbow] <;> norm_num

theorem codeElbow_le : codeElbow.velocity ≤ elbowLimits.velocity ∧ codeElbow.acceleration ≤ elbowLimits.acceleration ∧
    codeElbow.jerk ≤ elbowLimits.jerk := by
  refine ⟨?_, ?_, ?_⟩ <;> simp [codeElbow, elbowLimits]; norm_num

/-! ## Joints -/

theorem limit_rate_joint_velocities_fin (u v a : Fin 7 → ℝ) :
    limit_rate_joint_velocities MAX_JOINT_VELOCITY MAX_JOINT_ACCELERATION MAX_JOINT_JERK (Arr.fin u) (Arr.fin v) (Arr.fin a) =
      .ok (Arr.fin fun i => v i + limitAcc (codeLimits i) (u i) (v i) (a i) / 1000) := by
  unfold limit_rate_joint_velocities
  rw [assertFinite_fin, P_bind_ok_eq]
  refine Arr.tabulateP_ok fun i => ?_
  rw [MAX_JOINT_VELOCITY_fin, MAX_JOINT_ACCELERATION_fin, MAX_JOINT_JERK_fin]
  exact limit_rate_velocity_fin (codeLimits i) (codeLimits_ok i).acceleration.ne' _ _ _

theorem limit_rate_position_fin (L : Limits) (hA : L.acceleration ≠ 0) (u x v a : ℝ) :
    limit_rate_position (F := XR) (.fin L.velocity) (.fin L.acceleration) (.fin L.jerk) (.fin u) (.fin x) (.fin v) (.fin a) =
      .ok (.fin (x + (v + limitAcc L (1000 * (u - x)) v a / 1000) / 1000)) := by
  unfold limit_rate_position
  simp only [XR.isFinite_fin, assertP_true, P_bind_ok_eq, XR.fin_sub, fin_div_dt, limit_rate_velocity_fin L hA, fin_mul_dt, XR.fin_add]
  rfl

theorem limit_rate_joint_positions_fin (u x v a : Fin 7 → ℝ) :
    limit_rate_joint_positions MAX_JOINT_VELOCITY MAX_JOINT_ACCELERATION MAX_JOINT_JERK (Arr.fin u) (Arr.fin x) (Arr.fin v) (Arr.fin a) =
      .ok (Arr.fin fun i => x i + (v i + limitAcc (codeLimits i) (1000 * (u i - x i)) (v i) (a i) / 1000) / 1000) := by
  unfold limit_rate_joint_positions
  rw [assertFinite_fin, P_bind_ok_eq]
  refine Arr.tabulateP_ok fun i => ?_
  rw [MAX_JOINT_VELOCITY_fin, MAX_JOINT_ACCELERATION_fin, MAX_JOINT_JERK_fin]
  exact limit_rate_position_fin (codeLimits i) (codeLimits_ok i).acceleration.ne' _ _ _ _

theorem assertFinite_inv {n : Nat} {v : Arr XR n} {u : Unit} (h : assertFinite v = .ok u) : ∃ x, v = Arr.fin x := by
  unfold assertFinite at h
  refine Arr.fin_of_isFinite fun i => ?_
  cases hv : Arr.all Fl.isFinite v with
  | false => rw [hv] at h; cases h
  | true => exact of_decide_eq_true hv i

theorem P_bind_inv {α β : Type} {x : P α} {f : α → P β} {b : β} (h : (x >>= f) = .ok b) : ∃ a, x = .ok a ∧ f a = .ok b := by
  cases x with
  | error e => cases h
  | ok a => exact ⟨a, rfl, h⟩

end Verif
