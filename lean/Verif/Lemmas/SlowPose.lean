import Verif.Lemmas.PlannedPose
import Verif.Lemmas.Waves
/-!
Lemmas: slow motions of the end effector and of the elbow, and how far the low pass lags behind them.
-/
namespace Verif
open Spec

/-- A slow motion. -/
theorem slow_cartesian {p q r : Fin 3 → ℝ} (hq : len q ≤ 1) (ha : len (fun i => (p i - q i) / 0.001) ≤ 0.5) (hr : len r ≤ 0.5) :
    CartesianAllowed (below (below translationLimits)) p q r := by
  refine ⟨?_, ha.trans (by norm_num [below, translationLimits]), ?_⟩
  · have h := len_diff ha hr
    have e : (fun i => ((p i - q i) / 0.001 - r i) / 0.001) = fun i => 1000 * ((p i - q i) / 0.001 - r i) := by
      funext i
      rw [div_milli]
    rw [e, len_scale (by norm_num)]
    have : (1000 : ℝ) ≤ (below (below translationLimits)).jerk := by norm_num [below, translationLimits]
    linarith
  · have hk : (below (below translationLimits)).acceleration / (below (below translationLimits)).jerk ≤ 0.01 ∧
        0 ≤ (below (below translationLimits)).acceleration / (below (below translationLimits)).jerk := by norm_num [below, translationLimits]
    have h := len_scale hk.2 fun i => (p i - q i) / 0.001
    have h2 := mul_le_mul hk.1 ha (len_nonneg _) (by norm_num)
    have := len_sum hq (h.trans_le h2)
    exact this.trans (by norm_num [below, translationLimits])

/-- A slow motion of the elbow. -/
theorem slow_elbow {u v a : ℝ} (hv : |v| ≤ 1) (ha : |(u - v) / 0.001| ≤ 0.5) (hr : |a| ≤ 0.5) : Allowed (below elbowLimits) u v a := by
  obtain ⟨v1, v2⟩ := abs_le.1 hv
  obtain ⟨a1, a2⟩ := abs_le.1 ha
  refine ⟨ha.trans (by norm_num [below, elbowLimits]), ?_, ?_, ?_⟩
  · rw [abs_div, abs_of_pos (by norm_num : (0 : ℝ) < 0.001), div_le_iff₀ (by norm_num)]
    refine (abs_sub _ _).trans ((add_le_add ha hr).trans (by norm_num [below, elbowLimits]))
  · refine a2.trans ?_
    norm_num [below, elbowLimits]
    linarith
  · refine le_trans ?_ a1
    norm_num [below, elbowLimits]
    linarith

/-- The lag of a signal that is nearly low passed. -/
theorem noisy_lag {f s e B : ℝ} (hf : 0 < f) {x0 : Fin 3 → ℝ} {u y : Fin 3 → ℕ → ℝ} (hy : ∀ i, y i 0 = x0 i) (hs : ∀ n, len (fun i => u i n - starting (x0 i) (u i) n) ≤ s)
    (h : ∀ n, len (fun i => y i (n + 1) - (gain (1 / 1000) f * u i n + (1 - gain (1 / 1000) f) * y i n)) ≤ e) (hB : (1 - gain (1 / 1000) f) * s + e ≤ gain (1 / 1000) f * B) (n : ℕ) :
    len (fun i => y i (n + 1) - u i n) ≤ B := by
  obtain ⟨g0, g1⟩ := gain_range hf
  have one : ∀ n, ∀ b, len (fun i => y i n - starting (x0 i) (u i) n) ≤ b → len (fun i => y i (n + 1) - u i n) ≤ (1 - gain (1 / 1000) f) * (b + s) + e := by
    intro n b hb
    have h1 := len_diff hb (hs n)
    have h2 : len (fun i => (1 - gain (1 / 1000) f) * ((y i n - starting (x0 i) (u i) n) - (u i n - starting (x0 i) (u i) n))) ≤ (1 - gain (1 / 1000) f) * (b + s) := by
      rw [len_scale (by linarith)]
      exact mul_le_mul_of_nonneg_left h1 (by linarith)
    refine le_trans (le_of_eq (congrArg len (funext fun i => ?_))) (len_sum h2 (h n))
    ring
  induction n with
  | zero =>
    have h0 := one 0 0 (by simp only [starting, hy, sub_self, len_zero]; exact le_rfl)
    have hs0 : 0 ≤ s := (len_nonneg _).trans (hs 0)
    have he : 0 ≤ e := (len_nonneg _).trans (h 0)
    rw [zero_add] at h0
    have hgB : 0 ≤ gain (1 / 1000) f * B := le_trans (add_nonneg (mul_nonneg (by linarith) hs0) he) hB
    have g2 := gain_pos (dt := 1 / 1000) (by norm_num) hf
    have hB0 : 0 ≤ B := nonneg_of_mul_nonneg_right hgB g2
    have : gain (1 / 1000) f * B ≤ 1 * B := mul_le_mul_of_nonneg_right g1 hB0
    linarith
  | succ n ih =>
    have h1 := one (n + 1) B ih
    linarith

/-- The rates of a low passed signal are low passed. -/
theorem rate_lowPass_eq {f a : ℝ} {u : ℕ → ℝ} (n : ℕ) : rate (lowPass f a u) n = lowPass f 0 (fun n => rate (starting a u) (n + 1)) n := by
  induction n with
  | zero => rfl
  | succ n ih => rw [rate_lowPass, ih]; rfl

theorem starting_rate {a : ℝ} {u : ℕ → ℝ} (n : ℕ) : starting 0 (fun n => rate (starting a u) (n + 1)) n = rate (starting a u) n := by cases n <;> rfl

theorem gain_100 : 0.385 ≤ gain (1 / 1000) 100 ∧ (1 - gain (1 / 1000) 100) * 0.00015 + 1 / 10 ^ 20 ≤ gain (1 / 1000) 100 * 0.00025 := by
  have h1 := Real.pi_gt_d2
  have h2 : 0.385 ≤ gain (1 / 1000) 100 := by
    unfold gain
    rw [le_div_iff₀ (by nlinarith)]
    nlinarith
  exact ⟨h2, by linarith⟩

/-! ## Motion on a circle -/

/-- The way on a circle with a radius of 0.3 m. -/
noncomputable def circle (i : Fin 3) (φ : ℝ) : ℝ := ![0.3 * Real.sin φ, 0, 0.3 * (Real.cos φ - 1)] i

theorem circle_step (a b : ℝ) : len (fun i => circle i a - circle i b) ≤ 0.3 * |a - b| := by
  unfold len
  rw [Real.sqrt_le_left (by positivity)]
  show (0.3 * Real.sin a - 0.3 * Real.sin b) ^ 2 + (0 - 0) ^ 2 + (0.3 * (Real.cos a - 1) - 0.3 * (Real.cos b - 1)) ^ 2 ≤ _
  have h := one_sub_cos_le (a - b)
  rw [Real.cos_sub] at h
  have ha := Real.sin_sq_add_cos_sq a
  have hb := Real.sin_sq_add_cos_sq b
  rw [mul_pow, sq_abs]
  nlinarith

theorem circle_second (b p q : ℝ) :
    len (fun i => (circle i (b + p) - circle i b) - (circle i b - circle i (b - q))) ≤ 0.3 * (p ^ 2 / 2 + q ^ 2 / 2 + |p - q|) := by
  have hp := one_sub_cos_le p
  have hq := one_sub_cos_le q
  have hp1 := Real.cos_le_one p
  have hq1 := Real.cos_le_one q
  have hs : |Real.sin p - Real.sin q| ≤ |p - q| := by
    have h := one_sub_cos_le (p - q)
    rw [Real.sin_sub_sin, abs_mul, abs_mul, abs_two]
    have h1 := Real.abs_cos_le_one ((p + q) / 2)
    have h2 : |Real.sin ((p - q) / 2)| ≤ |p - q| / 2 := Real.abs_sin_le_abs.trans (by rw [abs_div, abs_two])
    nlinarith [abs_nonneg (Real.sin ((p - q) / 2)), abs_nonneg (Real.cos ((p + q) / 2))]
  obtain ⟨C, hC⟩ : ∃ C, C = Real.cos p + Real.cos q - 2 := ⟨_, rfl⟩
  obtain ⟨S, hS⟩ : ∃ S, S = Real.sin p - Real.sin q := ⟨_, rfl⟩
  have e : (fun i => (circle i (b + p) - circle i b) - (circle i b - circle i (b - q))) =
      fun i => 0.3 * (C * ![Real.sin b, 0, Real.cos b] i + S * ![Real.cos b, 0, -Real.sin b] i) := by
    funext i
    fin_cases i
    · show (0.3 * Real.sin (b + p) - 0.3 * Real.sin b) - (0.3 * Real.sin b - 0.3 * Real.sin (b - q)) = 0.3 * (C * Real.sin b + S * Real.cos b)
      rw [Real.sin_add, Real.sin_sub, hC, hS]
      ring
    · show ((0 : ℝ) - 0) - (0 - 0) = 0.3 * (C * 0 + S * 0)
      ring
    · show (0.3 * (Real.cos (b + p) - 1) - 0.3 * (Real.cos b - 1)) - (0.3 * (Real.cos b - 1) - 0.3 * (Real.cos (b - q) - 1)) = 0.3 * (C * Real.cos b + S * -Real.sin b)
      rw [Real.cos_add, Real.cos_sub, hC, hS]
      ring
  have l1 : len ![Real.sin b, 0, Real.cos b] = 1 := by
    unfold len
    rw [show (![Real.sin b, 0, Real.cos b] : Fin 3 → ℝ) 0 ^ 2 + (![Real.sin b, 0, Real.cos b] : Fin 3 → ℝ) 1 ^ 2 + (![Real.sin b, 0, Real.cos b] : Fin 3 → ℝ) 2 ^ 2 =
      Real.sin b ^ 2 + 0 ^ 2 + Real.cos b ^ 2 from rfl]
    rw [show Real.sin b ^ 2 + 0 ^ 2 + Real.cos b ^ 2 = 1 by rw [← Real.sin_sq_add_cos_sq b]; ring, Real.sqrt_one]
  have l2 : len ![Real.cos b, 0, -Real.sin b] = 1 := by
    unfold len
    rw [show (![Real.cos b, 0, -Real.sin b] : Fin 3 → ℝ) 0 ^ 2 + (![Real.cos b, 0, -Real.sin b] : Fin 3 → ℝ) 1 ^ 2 + (![Real.cos b, 0, -Real.sin b] : Fin 3 → ℝ) 2 ^ 2 =
      Real.cos b ^ 2 + 0 ^ 2 + (-Real.sin b) ^ 2 from rfl]
    rw [show Real.cos b ^ 2 + 0 ^ 2 + (-Real.sin b) ^ 2 = 1 by rw [← Real.sin_sq_add_cos_sq b]; ring, Real.sqrt_one]
  have k1 := len_smul C ![Real.sin b, 0, Real.cos b]
  have k2 := len_smul S ![Real.cos b, 0, -Real.sin b]
  rw [l1, mul_one] at k1
  rw [l2, mul_one] at k2
  rw [e, len_scale (by norm_num)]
  have := len_sum k1.le k2.le
  have hCa : |C| ≤ p ^ 2 / 2 + q ^ 2 / 2 := by
    rw [hC, abs_of_nonpos (by linarith)]
    linarith
  rw [← hS] at hs
  linarith

end Verif
