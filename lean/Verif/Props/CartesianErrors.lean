import Verif.Lemmas.CartesianErrors
/-!
# Cartesian velocities and small errors: C79

Doubles are real numbers here (`Spec/Real.lean`), but the robot reports the last velocity with an error.
-/
set_option linter.unusedSectionVars false
namespace Verif
open Spec

/-- **C79**, one step: if the last velocity and acceleration that the robot reports are any with at most 1.999 m/s and 2.499 rad/s, then whatever
the callback returns, and with any filter, the step from the reported velocity to the one that is sent respects the documented limits for velocity and
acceleration. The limits in the code are a bit below 1.999 m/s and 2.499 rad/s.
Missing: that this goes on for whole motions, which does not hold (`C79_error_breaks_the_limit`). -/
theorem C79_step_partial {out : CartesianVelocities XR} {state : RobotState XR} {m m' : MotionGeneratorCommand XR} {cutoff : XR} {v a : Fin 6 → ℝ}
    (hv : state.O_dP_EE_c = Arr.fin v) (ha : state.O_ddP_EE_c = Arr.fin a) (h : out.convert_motion state m cutoff true = .ok m')
    (h1 : len (linear v) ≤ 1.999) (h2 : len (angular v) ≤ 2.499) :
    ∃ x, m'.O_dP_EE_c = Arr.fin x ∧ StepRespects translationLimits (linear v) (linear x) ∧ StepRespects rotationLimits (angular v) (angular x) := by
  have h : ((if Fl.flt cutoff MAX_CUTOFF_FREQUENCY then Arr.tabulateP fun i => low_pass_filter DELTA_T (out.O_dP_EE i) (state.O_dP_EE_c i) cutoff else pure out.O_dP_EE) >>= fun x =>
      limit_rate_cartesian_velocity MAX_TRANSLATIONAL_VELOCITY MAX_TRANSLATIONAL_ACCELERATION MAX_TRANSLATIONAL_JERK
        MAX_ROTATIONAL_VELOCITY MAX_ROTATIONAL_ACCELERATION MAX_ROTATIONAL_JERK x state.O_dP_EE_c state.O_ddP_EE_c >>= fun y =>
      assertFinite y >>= fun _ => convert_elbow out.elbow state { m with O_dP_EE_c := y } cutoff true) = .ok m' := by
    rw [← h]
    unfold CartesianVelocities.convert_motion
    split <;> rfl
  obtain ⟨x, -, h⟩ := P_bind_inv h
  obtain ⟨y, h3, h5⟩ := P_bind_inv h
  obtain ⟨_, -, h6⟩ := P_bind_inv h5
  have hx : ∃ u, x = Arr.fin u := by
    unfold limit_rate_cartesian_velocity at h3
    obtain ⟨_, h4, -⟩ := P_bind_inv h3
    exact assertFinite_inv h4
  obtain ⟨u, rfl⟩ := hx
  obtain ⟨t1, t2, t3⟩ := MAX_TRANSLATIONAL_fin
  obtain ⟨r1, r2, r3⟩ := MAX_ROTATIONAL_fin
  obtain ⟨p, hp, hp'⟩ := single_above (L := codeTranslation) (D := translationLimits) codeTranslation_ok (η := 1.999 - codeTranslation.velocity)
    (by norm_num [codeTranslation]) (by norm_num [codeTranslation]) (by norm_num [codeTranslation, translationLimits]) (by norm_num [codeTranslation, translationLimits])
    (c := 0.008) (by norm_num) (by norm_num [codeTranslation]) (by norm_num [codeTranslation]) (by norm_num [codeTranslation, translationLimits])
    (linear u) (linear v) (linear a) (by linarith)
  obtain ⟨q, hq, hq'⟩ := single_above (L := codeRotation) (D := rotationLimits) codeRotation_ok (η := 2.499 - codeRotation.velocity)
    (by norm_num [codeRotation]) (by norm_num [codeRotation]) (by norm_num [codeRotation, rotationLimits]) (by norm_num [codeRotation, rotationLimits])
    (c := 0.012) (by norm_num) (by norm_num [codeRotation]) (by norm_num [codeRotation]) (by norm_num [codeRotation, rotationLimits])
    (angular u) (angular v) (angular a) (by linarith)
  refine ⟨join p q, ?_, by rwa [linear_join], by rwa [angular_join]⟩
  rw [(convert_elbow_keeps h6).1]
  rw [t1, t2, t3, r1, r2, r3, hv, ha] at h3
  unfold limit_rate_cartesian_velocity at h3
  rw [assertFinite_fin, P_bind_ok_eq, head3_fin, head3_fin, head3_fin, tail3_fin, tail3_fin, tail3_fin, hp, hq] at h3
  injection h3 with h3
  show y = _
  rw [← h3]
  funext i
  fin_cases i <;> rfl

/-! ## An error in the last digit breaks the limit -/
namespace Escape

/-- The velocity limit in the code. -/
noncomputable abbrev V : ℝ := codeTranslation.velocity

/-- On the way to the limit, along the first axis. -/
noncomputable def up (n : ℕ) : ℝ := V * (1 - 0.997 ^ n)

/-- A quarter turn around the third axis. -/
def perp (y : Fin 3 → ℝ) : Fin 3 → ℝ := ![-y 1, y 0, 0]

/-- Faster and faster around the third axis: the acceleration of 6 m/s² is always at a right angle to the velocity. -/
noncomputable def spiral : ℕ → Fin 3 → ℝ
  | 0 => ![V + 1 / 10 ^ 16, 0, 0]
  | k + 1 => fun i => spiral k i + 0.006 / len (spiral k) * perp (spiral k) i

theorem V_bounds : 1.99 ≤ V ∧ V ≤ 1.999 := by constructor <;> norm_num [V, codeTranslation]

theorem perp_len {y : Fin 3 → ℝ} (h : y 2 = 0) : len (perp y) = len y := by
  unfold len perp
  congr 1
  simp [h]
  ring

theorem spiral_flat (k : ℕ) : spiral k 2 = 0 := by
  induction k with
  | zero => rfl
  | succ k ih => show spiral k 2 + _ * 0 = 0; rw [ih]; ring

theorem dot_perp (y : Fin 3 → ℝ) : dot3 y (perp y) = 0 := by
  show y 0 * -y 1 + y 1 * y 0 + y 2 * 0 = 0
  ring

theorem spiral_sq (k : ℕ) : len (spiral k) ^ 2 = (V + 1 / 10 ^ 16) ^ 2 + k * 0.006 ^ 2 := by
  obtain ⟨v1, v2⟩ := V_bounds
  induction k with
  | zero =>
    rw [len_sq]
    show (V + 1 / 10 ^ 16) ^ 2 + 0 ^ 2 + 0 ^ 2 = _
    simp
  | succ k ih =>
    have h0 : len (spiral k) ≠ 0 := by
      intro h
      rw [h] at ih
      have : 0 < (V + 1 / 10 ^ 16) ^ 2 + k * 0.006 ^ 2 := by positivity
      rw [← ih] at this
      simp at this
    have e : len (spiral (k + 1)) = len (fun i => spiral k i + 0.006 / len (spiral k) * perp (spiral k) i) := rfl
    have e2 : dot3 (spiral k) (fun i => 0.006 / len (spiral k) * perp (spiral k) i) = 0.006 / len (spiral k) * dot3 (spiral k) (perp (spiral k)) := by
      unfold dot3; ring
    rw [e, len_add_sq, e2, dot_perp, len_smul, perp_len (spiral_flat k), mul_pow, sq_abs, div_pow, div_mul_cancel₀ _ (pow_ne_zero 2 h0), ih]
    push_cast
    ring

theorem spiral_above (k : ℕ) : V < len (spiral k) := by
  obtain ⟨v1, v2⟩ := V_bounds
  have h : V ^ 2 < len (spiral k) ^ 2 := by
    rw [spiral_sq]
    have : (0 : ℝ) ≤ k * 0.006 ^ 2 := by positivity
    nlinarith
  exact lt_of_pow_lt_pow_left₀ 2 (len_nonneg _) h

theorem spiral_pos (k : ℕ) : 0 < len (spiral k) := by
  have := V_bounds
  have := spiral_above k
  linarith

/-- A jerk within the limits leads to the acceleration that was asked for. -/
theorem cAcc_follow {J : ℝ} {u v a : Fin 3 → ℝ} (h : tiny < len (cJerk u v a)) (hJ : len (cJerk u v a) ≤ J) :
    cAcc J u v a = fun i => 1000 * (u i - v i) := by
  unfold cAcc
  rw [if_pos h, min_eq_left hJ]
  funext i
  rw [div_mul_cancel₀ _ (tiny_pos.trans h).ne']
  unfold cJerk
  ring

/-- The acceleration on the spiral. -/
noncomputable def acc (k : ℕ) : Fin 3 → ℝ := fun i => 6 / len (spiral k) * perp (spiral k) i

theorem acc_eq (k : ℕ) : (fun i => 1000 * (spiral (k + 1) i - spiral k i)) = acc k := by
  funext i
  show 1000 * (spiral k i + 0.006 / len (spiral k) * perp (spiral k) i - spiral k i) = 6 / len (spiral k) * perp (spiral k) i
  ring

theorem acc_len (k : ℕ) : len (acc k) = 6 := by
  have := spiral_pos k
  unfold acc
  rw [len_smul, perp_len (spiral_flat k), abs_of_pos (by positivity)]
  field_simp

/-- On the spiral the limiter changes nothing. -/
theorem spiral_step {k : ℕ} {a : Fin 3 → ℝ} (h : tiny < len (cJerk (spiral (k + 1)) (spiral k) a)) (hJ : len (cJerk (spiral (k + 1)) (spiral k) a) ≤ codeTranslation.jerk) :
    limit_rate_single_cartesian_velocity (.fin codeTranslation.velocity) (.fin codeTranslation.acceleration) (.fin codeTranslation.jerk)
      (Arr.fin (spiral (k + 1))) (Arr.fin (spiral k)) (Arr.fin a) = Arr.fin (spiral (k + 1)) := by
  have e := (cAcc_follow h hJ).trans (acc_eq k)
  have t6 : tiny < 6 := by norm_num [tiny]
  have hd : dot3 (acc k) (spiral k) = 0 := by
    have : dot3 (acc k) (spiral k) = 6 / len (spiral k) * dot3 (spiral k) (perp (spiral k)) := by unfold dot3 acc; ring
    rw [this, dot_perp, mul_zero]
  rw [single_nan codeTranslation_ok.jerk, e]
  · congr 1
    unfold cFree
    rw [acc_len, min_eq_left (by norm_num [codeTranslation])]
    funext i
    show spiral k i + 6 / len (spiral k) * perp (spiral k) i / 6 * 6 / 1000 = spiral k i + 0.006 / len (spiral k) * perp (spiral k) i
    ring
  · rw [e, acc_len]; exact t6
  · rw [e, hd]
    have := spiral_above k
    have := V_bounds
    simp only [zero_div]
    nlinarith

theorem change_real {x r q : ℝ} (hx : 0 ≤ x) (main : x ^ 2 = 72 - 72 * r) (hr0 : 0 < r) (hr1 : r < 1) (hr2 : (1 - r ^ 2) * q = 0.006 ^ 2) (h1 : 3.9 ≤ q) (h2 : q ≤ 106) :
    1 / 1000 ≤ x ∧ x ≤ 1 := by
  have hp : 0 < 1 - r ^ 2 := by nlinarith
  have b1 : 1 - r ^ 2 ≤ 1 / 100000 := by nlinarith
  have b2 : 1 / 3000000 ≤ 1 - r ^ 2 := by nlinarith
  have c1 : 1 - r ≤ 1 / 100000 := by nlinarith
  have c2 : 1 / 6000000 ≤ 1 - r := by nlinarith
  constructor <;> nlinarith

/-- How much the acceleration changes on the spiral. -/
theorem acc_change {k : ℕ} (hk' : (k : ℝ) ≤ 2800000) : 1 / 1000 ≤ len (fun i => acc (k + 1) i - acc k i) ∧ len (fun i => acc (k + 1) i - acc k i) ≤ 1 := by
  obtain ⟨v1, v2⟩ := V_bounds
  have p0 := spiral_pos k
  have p1 := spiral_pos (k + 1)
  have s0 := spiral_sq k
  have s1 := spiral_sq (k + 1)
  have hk0 : (0 : ℝ) ≤ k := k.cast_nonneg
  have hlow : 3.9 ≤ len (spiral k) ^ 2 := by rw [s0]; nlinarith
  have hhigh : len (spiral k) ^ 2 ≤ 105 := by rw [s0]; nlinarith
  have hs : len (spiral (k + 1)) ^ 2 = len (spiral k) ^ 2 + 0.006 ^ 2 := by rw [s0, s1]; push_cast; ring
  have hp : ∀ x y : Fin 3 → ℝ, dot3 (perp x) (perp y) = x 1 * y 1 + x 0 * y 0 := by
    intro x y
    show -x 1 * -y 1 + x 0 * y 0 + 0 * 0 = _
    ring
  have hdot : dot3 (perp (spiral k)) (perp (spiral (k + 1))) = len (spiral k) ^ 2 := by
    rw [hp, len_sq, spiral_flat]
    show spiral k 1 * (spiral k 1 + 0.006 / len (spiral k) * spiral k 0) + spiral k 0 * (spiral k 0 + 0.006 / len (spiral k) * -spiral k 1) = _
    ring
  have main : len (fun i => acc (k + 1) i - acc k i) ^ 2 = 72 - 72 * (len (spiral k) / len (spiral (k + 1))) := by
    have e : (fun i => acc (k + 1) i - acc k i) = fun i => acc (k + 1) i + -1 * acc k i := by funext i; ring
    have e2 : dot3 (acc (k + 1)) (fun i => -1 * acc k i) = -(36 / (len (spiral k) * len (spiral (k + 1)))) * dot3 (perp (spiral k)) (perp (spiral (k + 1))) := by
      unfold dot3 acc
      field_simp
      ring
    rw [e, len_add_sq, e2, hdot, len_smul, acc_len, acc_len]
    norm_num
    field_simp
    ring
  set r := len (spiral k) / len (spiral (k + 1)) with hr
  have hr0 : 0 < r := by positivity
  have hrs : r * len (spiral (k + 1)) = len (spiral k) := div_mul_cancel₀ _ p1.ne'
  have hr2 : (1 - r ^ 2) * len (spiral (k + 1)) ^ 2 = 0.006 ^ 2 := by
    have : r ^ 2 * len (spiral (k + 1)) ^ 2 = len (spiral k) ^ 2 := by rw [← mul_pow, hrs]
    linarith
  have hpos : 0 < 1 - r ^ 2 := by
    by_contra h
    have := mul_nonpos_of_nonpos_of_nonneg (not_lt.1 h) (sq_nonneg (len (spiral (k + 1))))
    rw [hr2] at this
    norm_num at this
  have hr1 : r < 1 := by nlinarith
  exact change_real (len_nonneg _) main hr0 hr1 hr2 (by rw [hs]; linarith) (by rw [hs]; linarith)

/-- The jerk on the spiral, if the reported acceleration is off a bit. -/
theorem jerk_bounds {D : Fin 3 → ℝ} {β : ℝ} (h1 : 1 / 1000 ≤ len D) (h2 : len D ≤ 6.1) (hβ : |β| ≤ 1 / 10000) {j : Fin 3 → ℝ}
    (hj : j = fun i => 1000 * (D i - ![β, 0, 0] i)) : tiny < len j ∧ len j ≤ codeTranslation.jerk := by
  have lb : len ![β, 0, 0] = |β| := by simp [len, Real.sqrt_sq_eq_abs]
  have e : j = fun i => 1000 * (D i + -1 * ![β, 0, 0] i) := by rw [hj]; funext i; ring
  have t : tiny < 1 / 10 ^ 6 := by norm_num [tiny]
  have u1 := len_add_le D fun i => -1 * ![β, 0, 0] i
  have u2 := len_add_le (fun i => D i + -1 * ![β, 0, 0] i) ![β, 0, 0]
  have e2 : (fun i => D i + -1 * ![β, 0, 0] i + ![β, 0, 0] i) = D := by funext i; ring
  rw [len_smul] at u1
  rw [e2] at u2
  have hJ : 6499 ≤ codeTranslation.jerk := by norm_num [codeTranslation]
  rw [e, len_smul, show |(1000 : ℝ)| = 1000 by norm_num]
  rw [lb] at u1 u2
  rw [show |(-1 : ℝ)| = 1 by norm_num] at u1
  constructor <;> linarith

/-- Steps along the first axis. -/
theorem line_step {s d α : ℝ} (hs : 0 ≤ s) (hd : 2⁻¹ ^ 52 < 1000 * d) (hd' : d ≤ 0.006) (hV : s + 2 * d ≤ V)
    (hj : 2⁻¹ ^ 52 < |1000 * (1000 * d - α)|) (hj' : |1000 * (1000 * d - α)| ≤ 6499) :
    limit_rate_single_cartesian_velocity (.fin codeTranslation.velocity) (.fin codeTranslation.acceleration) (.fin codeTranslation.jerk)
      (Arr.fin ![s + d, 0, 0]) (Arr.fin ![s, 0, 0]) (Arr.fin ![α, 0, 0]) = Arr.fin ![s + d, 0, 0] := by
  have l : ∀ x : ℝ, len ![x, 0, 0] = |x| := fun x => by simp [len, Real.sqrt_sq_eq_abs]
  have hd0 : 0 < d := by
    have : (0 : ℝ) < 2⁻¹ ^ 52 := by positivity
    linarith
  have hsV : len ![s, 0, 0] ≤ codeTranslation.velocity := by rw [l, abs_of_nonneg hs]; show s ≤ V; linarith
  have e1 : (fun i => (((![s + d, 0, 0] : Fin 3 → ℝ) i - ![s, 0, 0] i) / 0.001 - ![α, 0, 0] i) / 0.001) = ![1000 * (1000 * d - α), 0, 0] := by
    funext i; fin_cases i <;> norm_num; ring
  have e2 : (fun i => ((![s + d, 0, 0] : Fin 3 → ℝ) i - ![s, 0, 0] i) / 0.001) = ![1000 * d, 0, 0] := by
    funext i; fin_cases i <;> norm_num; ring
  have e3 : (fun i => (![s, 0, 0] : Fin 3 → ℝ) i + codeTranslation.acceleration / codeTranslation.jerk * (((![s + d, 0, 0] : Fin 3 → ℝ) i - ![s, 0, 0] i) / 0.001)) =
      ![s + codeTranslation.acceleration / codeTranslation.jerk * (1000 * d), 0, 0] := by
    have : ∀ i, ((![s + d, 0, 0] : Fin 3 → ℝ) i - ![s, 0, 0] i) / 0.001 = ![1000 * d, 0, 0] i := congrFun e2
    funext i
    rw [this]
    fin_cases i <;> simp
  rw [single_fin codeTranslation_ok.jerk codeTranslation_ok.acceleration _ _ _ (codeTranslation_ok.roots hsV), cOut_same codeTranslation_ok hsV]
  · refine ⟨?_, ?_, ?_⟩
    · rw [e1, l]; exact hj'.trans (by norm_num [codeTranslation])
    · rw [e2, l, abs_of_pos (by linarith)]
      have : 12 ≤ codeTranslation.acceleration := by norm_num [codeTranslation]
      linarith
    · have hk : codeTranslation.acceleration / codeTranslation.jerk ≤ 1 / 500 := by norm_num [codeTranslation]
      have hk0 : 0 ≤ codeTranslation.acceleration / codeTranslation.jerk := by norm_num [codeTranslation]
      rw [e3, l, abs_of_nonneg (by positivity)]
      have := mul_le_mul_of_nonneg_right hk (show 0 ≤ 1000 * d by linarith)
      show _ ≤ V
      linarith
  · refine ⟨.inr ?_, .inr ?_⟩
    · rw [e1, l]; exact hj
    · rw [e2, l, abs_of_pos (by linarith)]; exact hd

/-- A step of the limiter for the translation is a step of the conversion. -/
theorem convert_step {u v a : Fin 3 → ℝ} (h : limit_rate_single_cartesian_velocity (.fin codeTranslation.velocity) (.fin codeTranslation.acceleration) (.fin codeTranslation.jerk)
      (Arr.fin u) (Arr.fin v) (Arr.fin a) = Arr.fin u) {state : RobotState XR} (hv : state.O_dP_EE_c = Arr.fin (join v 0))
    (ha : state.O_ddP_EE_c = Arr.fin (join a 0)) (m : MotionGeneratorCommand XR) :
    ∃ m', CartesianVelocities.convert_motion ⟨false, Arr.fin (join u 0), none⟩ state m MAX_CUTOFF_FREQUENCY true = .ok m' ∧ m'.O_dP_EE_c = Arr.fin (join u 0) := by
  refine ⟨{ m with O_dP_EE_c := Arr.fin (join u 0), valid_elbow := false, elbow_c := fun _ => Fl.lit 0 }, ?_, rfl⟩
  obtain ⟨t1, t2, t3⟩ := MAX_TRANSLATIONAL_fin
  obtain ⟨r1, r2, r3⟩ := MAX_ROTATIONAL_fin
  have l0 : len 0 = 0 := by simp [len]
  have hz : limit_rate_single_cartesian_velocity (.fin codeRotation.velocity) (.fin codeRotation.acceleration) (.fin codeRotation.jerk)
      (Arr.fin 0) (Arr.fin 0) (Arr.fin 0) = Arr.fin 0 := by
    have hV : len 0 ≤ codeRotation.velocity := by rw [l0]; norm_num [codeRotation]
    rw [single_fin codeRotation_ok.jerk codeRotation_ok.acceleration _ _ _ (codeRotation_ok.roots hV), cOut_same codeRotation_ok hV]
    · have e1 : (fun i => (((0 : Fin 3 → ℝ) i - (0 : Fin 3 → ℝ) i) / 0.001 - (0 : Fin 3 → ℝ) i) / 0.001) = 0 := by funext i; simp
      have e2 : (fun i => ((0 : Fin 3 → ℝ) i - (0 : Fin 3 → ℝ) i) / 0.001) = 0 := by funext i; simp
      have e3 : (fun i => (0 : Fin 3 → ℝ) i + codeRotation.acceleration / codeRotation.jerk * (((0 : Fin 3 → ℝ) i - (0 : Fin 3 → ℝ) i) / 0.001)) = 0 := by funext i; simp
      refine ⟨?_, ?_, ?_⟩
      · rw [e1, l0]; norm_num [codeRotation]
      · rw [e2, l0]; norm_num [codeRotation]
      · rw [e3, l0]; norm_num [codeRotation]
    · exact ⟨.inl fun i => by simp, .inl fun i => by simp⟩
  have hl : limit_rate_cartesian_velocity (.fin codeTranslation.velocity) (.fin codeTranslation.acceleration) (.fin codeTranslation.jerk)
      (.fin codeRotation.velocity) (.fin codeRotation.acceleration) (.fin codeRotation.jerk)
      (Arr.fin (join u 0)) (Arr.fin (join v 0)) (Arr.fin (join a 0)) = .ok (Arr.fin (join u 0)) := by
    unfold limit_rate_cartesian_velocity
    rw [assertFinite_fin, P_bind_ok_eq, head3_fin, head3_fin, head3_fin, tail3_fin, tail3_fin, tail3_fin]
    simp only [linear_join, angular_join]
    rw [h, hz]
    show Except.ok _ = Except.ok _
    congr 1
    funext i
    fin_cases i <;> rfl
  unfold CartesianVelocities.convert_motion
  have hc : Fl.flt (MAX_CUTOFF_FREQUENCY : XR) MAX_CUTOFF_FREQUENCY = false := by
    rw [MAX_CUTOFF_FREQUENCY, XR.lit_fin, XR.flt_fin]; simp
  rw [hc]
  dsimp only
  rw [if_neg (by simp), pure_bind, if_pos rfl, t1, t2, t3, r1, r2, r3, hv, ha, hl, P_bind_ok_eq, assertFinite_fin, P_bind_ok_eq]
  rfl

theorem up_succ (n : ℕ) : up (n + 1) = up n + 0.003 * (V * 0.997 ^ n) := by
  unfold up
  rw [pow_succ]
  ring

theorem up_le (n : ℕ) : up n = V - V * 0.997 ^ n := by unfold up; ring

theorem gap_nonneg (n : ℕ) : 0 ≤ V * 0.997 ^ n := mul_nonneg (by linarith [V_bounds.1]) (by positivity)

theorem gap_le (n : ℕ) : V * 0.997 ^ n ≤ V := by
  have := V_bounds
  have h : (0.997 : ℝ) ^ n ≤ 1 := pow_le_one₀ (by norm_num) (by norm_num)
  nlinarith

theorem rate_up (n : ℕ) : rate up (n + 1) = 3 * (V * 0.997 ^ n) := by
  show (up (n + 1) - up n) / 0.001 = _
  rw [up_succ]
  ring

/-- On the way to the limit the limiter changes nothing. -/
theorem up_step {n : ℕ} (h : 1 / 10 ^ 16 < V * 0.997 ^ n) :
    limit_rate_single_cartesian_velocity (.fin codeTranslation.velocity) (.fin codeTranslation.acceleration) (.fin codeTranslation.jerk)
      (Arr.fin ![up (n + 1), 0, 0]) (Arr.fin ![up n, 0, 0]) (Arr.fin ![rate up n, 0, 0]) = Arr.fin ![up (n + 1), 0, 0] := by
  obtain ⟨v1, v2⟩ := V_bounds
  have hg := gap_le n
  have hu := up_le n
  have t : (2⁻¹ : ℝ) ^ 52 < 2.3 / 10 ^ 16 := by norm_num
  rw [up_succ]
  refine line_step (by linarith) (by linarith) (by linarith) (by linarith) ?_ ?_
  all_goals
    rcases n with _ | n
    · rw [show rate up 0 = 0 from rfl, pow_zero, mul_one, sub_zero, abs_of_nonneg (by linarith)]
      linarith
    · rw [rate_up]
      have hg' := gap_le n
      have hp : (0.997 : ℝ) ^ (n + 1) = 0.997 ^ n * 0.997 := pow_succ _ _
      rw [hp] at h ⊢
      rw [show 1000 * (1000 * (0.003 * (V * (0.997 ^ n * 0.997))) - 3 * (V * 0.997 ^ n)) = -(9 * (V * 0.997 ^ n)) by ring, abs_neg, abs_of_nonneg (by linarith)]
      linarith

/-- The velocities that are sent. -/
noncomputable def sent (N n : ℕ) : Fin 3 → ℝ := if n ≤ N then ![up n, 0, 0] else spiral (n - N)
/-- The velocities that the robot reports. -/
noncomputable def seen (N n : ℕ) : Fin 3 → ℝ := if n < N then ![up n, 0, 0] else spiral (n - N)
/-- The accelerations that the robot reports. -/
noncomputable def seenAcc (N n : ℕ) : Fin 3 → ℝ := fun i => rate (fun n => sent N n i) n

theorem sent_up {N n : ℕ} (h : n ≤ N) : sent N n = ![up n, 0, 0] := if_pos h
theorem sent_spiral {N k : ℕ} : sent N (N + k + 1) = spiral (k + 1) := by
  unfold sent
  rw [if_neg (by omega)]
  congr 1
  omega
theorem seen_spiral {N k : ℕ} : seen N (N + k) = spiral k := by
  unfold seen
  rw [if_neg (by omega)]
  congr 1
  omega

theorem seenAcc_up {N n : ℕ} (h : n ≤ N) : seenAcc N n = ![rate up n, 0, 0] := by
  unfold seenAcc
  rcases n with _ | n
  · funext i; fin_cases i <;> rfl
  · show (fun i => (sent N (n + 1) i - sent N n i) / 0.001) = ![(up (n + 1) - up n) / 0.001, 0, 0]
    rw [sent_up h, sent_up (by omega)]
    funext i; fin_cases i <;> simp

/-- The last steps before the limit are short. -/
def Close (N : ℕ) : Prop := V * 0.997 ^ N ≤ 1 / 10 ^ 16

theorem seenAcc_spiral {N j : ℕ} (hN : Close N) : ∃ β, |β| ≤ 1 / 10000 ∧ seenAcc N (N + j + 1) = fun i => acc j i + ![β, 0, 0] i := by
  have hV := V_bounds
  rcases j with _ | j
  · refine ⟨1000 * (V + 1 / 10 ^ 16 - up N), ?_, ?_⟩
    · have h0 := gap_nonneg N
      unfold Close at hN
      rw [up_le, abs_of_nonneg (by linarith)]
      linarith
    · show (fun i => (sent N (N + 0 + 1) i - sent N N i) / 0.001) = _
      rw [sent_spiral (k := 0), sent_up le_rfl, ← acc_eq]
      have h0 : spiral 0 = ![V + 1 / 10 ^ 16, 0, 0] := rfl
      rw [h0]
      funext i
      fin_cases i
      · show (spiral 1 0 - up N) / 0.001 = 1000 * (spiral 1 0 - (V + 1 / 10 ^ 16)) + 1000 * (V + 1 / 10 ^ 16 - up N)
        ring
      · show (spiral 1 1 - 0) / 0.001 = 1000 * (spiral 1 1 - 0) + 0
        ring
      · show (spiral 1 2 - 0) / 0.001 = 1000 * (spiral 1 2 - 0) + 0
        ring
  · refine ⟨0, by norm_num, ?_⟩
    show (fun i => (sent N (N + (j + 1) + 1) i - sent N (N + j + 1) i) / 0.001) = _
    rw [sent_spiral, sent_spiral, ← acc_eq]
    funext i
    have : (![0, 0, 0] : Fin 3 → ℝ) i = 0 := by fin_cases i <;> rfl
    rw [this]
    ring

theorem step {N : ℕ} (hN : Close (N + 1)) (hlt : ∀ n < N + 1, ¬ Close n) {n : ℕ} (hn : n < N + 1 + 2800000) :
    limit_rate_single_cartesian_velocity (.fin codeTranslation.velocity) (.fin codeTranslation.acceleration) (.fin codeTranslation.jerk)
      (Arr.fin (sent (N + 1) (n + 1))) (Arr.fin (seen (N + 1) n)) (Arr.fin (seenAcc (N + 1) n)) = Arr.fin (sent (N + 1) (n + 1)) := by
  rcases lt_or_ge n (N + 1) with h | h
  · rw [sent_up h, seenAcc_up h.le, show seen (N + 1) n = ![up n, 0, 0] from if_pos h]
    exact up_step (not_le.1 (hlt n h))
  · obtain ⟨k, rfl⟩ := Nat.exists_eq_add_of_le h
    rw [sent_spiral, seen_spiral]
    have hV := V_bounds
    have main : ∃ (D : Fin 3 → ℝ) (β : ℝ), 1 / 1000 ≤ len D ∧ len D ≤ 6.1 ∧ |β| ≤ 1 / 10000 ∧
        cJerk (spiral (k + 1)) (spiral k) (seenAcc (N + 1) (N + 1 + k)) = fun i => 1000 * (D i - ![β, 0, 0] i) := by
      have hc : ∀ a : Fin 3 → ℝ, cJerk (spiral (k + 1)) (spiral k) a = fun i => 1000 * (acc k i - a i) := by
        intro a
        rw [← acc_eq]
        rfl
      rcases k with _ | k
      · refine ⟨acc 0, rate up (N + 1), by rw [acc_len]; norm_num, by rw [acc_len]; norm_num, ?_, ?_⟩
        · have h0 := gap_nonneg N
          unfold Close at hN
          rw [show (0.997 : ℝ) ^ (N + 1) = 0.997 ^ N * 0.997 from pow_succ _ _] at hN
          rw [rate_up, abs_of_nonneg (by linarith)]
          linarith
        · rw [hc, Nat.add_zero, seenAcc_up le_rfl]
      · obtain ⟨β, hβ, e⟩ := seenAcc_spiral (j := k) hN
        have hk : (k : ℝ) ≤ 2800000 := by
          have : k ≤ 2800000 := by omega
          exact_mod_cast this
        obtain ⟨c1, c2⟩ := acc_change hk
        refine ⟨fun i => acc (k + 1) i - acc k i, β, c1, by linarith, hβ, ?_⟩
        rw [hc, ← Nat.add_assoc, e]
        funext i
        ring
    obtain ⟨D, β, h1, h2, hβ, e⟩ := main
    obtain ⟨j1, j2⟩ := jerk_bounds h1 h2 hβ e
    exact spiral_step j1 j2

theorem fast : 10 < len (spiral 2800000) := by
  have hV := V_bounds
  have h := spiral_sq 2800000
  refine lt_of_pow_lt_pow_left₀ 2 (len_nonneg _) ?_
  rw [h]
  push_cast
  nlinarith

theorem joined_rate (x : ℕ → Fin 3 → ℝ) (n : ℕ) : (fun i => rate (fun n => join (x n) 0 i) n) = join (fun i => rate (fun n => x n i) n) 0 := by
  rcases n with _ | n
  · funext i; fin_cases i <;> rfl
  · funext i
    fin_cases i
    · rfl
    · rfl
    · rfl
    all_goals show ((0 : ℝ) - 0) / 0.001 = 0; norm_num

end Escape

open Escape in
/-- The finding about **C79**: there is a motion from rest, in which the robot reports all velocities with errors of at most 2⁻⁵² (the distance of two
neighbouring doubles between 1 and 2) and all accelerations exactly, but the velocities that are sent exceed 10 m/s, five times the documented limit.
If the last velocity is just above the limit and the commanded acceleration at a right angle to it, then the code takes the root of a negative number,
and ignores the velocity limit. -/
theorem C79_error_breaks_the_limit (s : RobotState XR) (m : MotionGeneratorCommand XR) : ∃ (M : ℕ) (x w : ℕ → Fin 6 → ℝ) (state : ℕ → RobotState XR),
    x 0 = 0 ∧ (∀ n i, |w n i - x n i| ≤ 2⁻¹ ^ 52) ∧ (∀ n, (state n).O_dP_EE_c = Arr.fin (w n)) ∧
    (∀ n, (state n).O_ddP_EE_c = Arr.fin fun i => rate (fun n => x n i) n) ∧
    (∀ n < M, ∃ out m', CartesianVelocities.convert_motion out (state n) m MAX_CUTOFF_FREQUENCY true = .ok m' ∧ m'.O_dP_EE_c = Arr.fin (x (n + 1))) ∧
    10 < len (linear (x M)) := by
  classical
  obtain ⟨v1, v2⟩ := V_bounds
  have ex : ∃ n, Close n := by
    obtain ⟨n, hn⟩ := exists_pow_lt_of_lt_one (show (0 : ℝ) < 1 / 10 ^ 16 / 2 by norm_num) (show (0.997 : ℝ) < 1 by norm_num)
    refine ⟨n, ?_⟩
    unfold Close
    have h0 : (0 : ℝ) < 0.997 ^ n := by positivity
    nlinarith
  have hfind := Nat.find_spec ex
  have hmin := fun n => Nat.find_min (m := n) ex
  generalize Nat.find ex = N at hfind hmin
  rcases N with _ | N
  · unfold Close at hfind
    rw [pow_zero, mul_one] at hfind
    norm_num at hfind
    linarith
  refine ⟨N + 1 + 2800000, fun n => join (sent (N + 1) n) 0, fun n => join (seen (N + 1) n) 0,
    fun n => { s with O_dP_EE_c := Arr.fin (join (seen (N + 1) n) 0), O_ddP_EE_c := Arr.fin (join (seenAcc (N + 1) n) 0) }, ?_, ?_, fun _ => rfl, ?_, ?_, ?_⟩
  · show join (sent (N + 1) 0) 0 = 0
    rw [sent_up (by omega)]
    have : up 0 = 0 := by unfold up; simp
    rw [this]
    funext i; fin_cases i <;> rfl
  · intro n i
    have t : (2.2 : ℝ) / 10 ^ 16 < 2⁻¹ ^ 52 := by norm_num
    have hc : ∀ i, |seen (N + 1) n i - sent (N + 1) n i| ≤ 2⁻¹ ^ 52 := by
      intro i
      rcases lt_trichotomy n (N + 1) with h | rfl | h
      · rw [sent_up h.le, show seen (N + 1) n = ![up n, 0, 0] from if_pos h]
        simp
      · rw [sent_up le_rfl, show seen (N + 1) (N + 1) = spiral 0 from seen_spiral (k := 0)]
        have hp := gap_nonneg (N + 1)
        unfold Close at hfind
        fin_cases i
        · show |V + 1 / 10 ^ 16 - up (N + 1)| ≤ _
          rw [up_le, abs_of_nonneg (by linarith)]
          linarith
        all_goals
          show |(0 : ℝ) - 0| ≤ _
          simp
      · obtain ⟨k, rfl⟩ : ∃ k, n = N + 1 + k + 1 := ⟨n - (N + 2), by omega⟩
        rw [sent_spiral, show N + 1 + k + 1 = N + 1 + (k + 1) from rfl, seen_spiral]
        simp
    fin_cases i
    · exact hc 0
    · exact hc 1
    · exact hc 2
    all_goals
      show |(0 : ℝ) - 0| ≤ _
      simp
  · intro n
    show Arr.fin (join (seenAcc (N + 1) n) 0) = _
    rw [joined_rate]
    rfl
  · intro n hn
    exact ⟨_, convert_step (step hfind hmin hn) rfl rfl m⟩
  · have e : sent (N + 1) (N + 1 + 2800000) = spiral 2800000 := sent_spiral (k := 2799999)
    show 10 < len (linear (join (sent (N + 1) (N + 1 + 2800000)) 0))
    rw [linear_join, e]
    exact fast

/-- The bounds of `C79_step_partial` hold for a fast motion in two directions. -/
example : len (linear ![1.1, 1.6, 0.4, 1, 2, 1]) ≤ 1.999 ∧ len (angular ![1.1, 1.6, 0.4, 1, 2, 1]) ≤ 2.499 := by
  constructor <;> refine Real.sqrt_le_iff.2 ⟨by norm_num, ?_⟩ <;> simp [linear, angular] <;> norm_num

end Verif
