import Verif.Lemmas.Filter
import Mathlib.Analysis.SpecificLimits.Basic
import Mathlib.Analysis.Real.Pi.Bounds
/-!
# The low pass filter: C47, C48
-/
namespace Verif
open Filter Topology

/-! ## C47 -/

section
variable {dt f : ℝ} (hd : 0 < dt) (hf : 0 < f)
include hd hf

/-- C47: the filter returns a number between the last value and the new value, strictly between if they differ. -/
theorem C47_between (y y_last : ℝ) : ∃ r, low_pass_filter (XR.fin dt) (.fin y) (.fin y_last) (.fin f) = .ok (.fin r) ∧ r ∈ Set.uIcc y_last y ∧
    (y_last ≠ y → r ≠ y_last ∧ r ≠ y) := by
  refine ⟨_, low_pass_filter_fin hd.le hf.le y y_last, mix_mem (gain_nonneg hd.le hf.le) (gain_lt_one hd.le hf.le).le, fun hne => ⟨?_, ?_⟩⟩
  · intro h
    have : gain dt f * (y - y_last) = 0 := by linarith
    rcases mul_eq_zero.1 this with h | h
    · exact (gain_pos hd hf).ne' h
    · exact hne (by linarith)
  · intro h
    have : (1 - gain dt f) * (y_last - y) = 0 := by linarith
    rcases mul_eq_zero.1 this with h | h
    · exact (gain_lt_one hd.le hf.le).ne (by linarith)
    · exact hne (by linarith)

/-- C47: a constant signal is not changed. -/
theorem C47_constant (y : ℝ) : low_pass_filter (XR.fin dt) (.fin y) (.fin y) (.fin f) = .ok (.fin y) := by
  rw [low_pass_filter_fin hd.le hf.le]
  congr 2
  ring

/-- C47: a greater new value gives a greater output. -/
theorem C47_monotone {y y' y_last r r' : ℝ} (h : y < y') (hr : low_pass_filter (XR.fin dt) (.fin y) (.fin y_last) (.fin f) = .ok (.fin r))
    (hr' : low_pass_filter (XR.fin dt) (.fin y') (.fin y_last) (.fin f) = .ok (.fin r')) : r < r' := by
  rw [low_pass_filter_fin hd.le hf.le] at hr hr'
  injection hr with hr
  injection hr' with hr'
  rw [XR.fin_inj] at hr hr'
  rw [← hr, ← hr']
  have := mul_lt_mul_of_pos_left h (gain_pos hd hf)
  linarith

/-- C47: filtering a constant again and again converges to it, from any initial value. -/
theorem C47_converges {y : ℝ} {z : ℕ → ℝ} (hz : ∀ n, low_pass_filter (XR.fin dt) (.fin y) (.fin (z n)) (.fin f) = .ok (.fin (z (n + 1)))) :
    Tendsto z atTop (𝓝 y) := by
  have key : ∀ n, z n = (1 - gain dt f) ^ n * (z 0 - y) + y := by
    intro n
    induction n with
    | zero => simp
    | succ n ih =>
      have := hz n
      rw [low_pass_filter_fin hd.le hf.le] at this
      injection this with this
      rw [XR.fin_inj] at this
      rw [← this, ih]
      ring
  have h1 : Tendsto (fun n => (1 - gain dt f) ^ n * (z 0 - y) + y) atTop (𝓝 (0 * (z 0 - y) + y)) := by
    refine Tendsto.add (Tendsto.mul (tendsto_pow_atTop_nhds_zero_of_lt_one ?_ ?_) tendsto_const_nhds) tendsto_const_nhds
    · linarith [gain_lt_one hd.le hf.le]
    · linarith [gain_pos hd hf]
  rw [zero_mul, zero_add] at h1
  rwa [show z = fun n => (1 - gain dt f) ^ n * (z 0 - y) + y from funext key]

/-- C47: a signal that stays in an interval stays there after filtering, for every sequence of inputs. -/
theorem C47_stays_in_range {a b : ℝ} {y z : ℕ → ℝ} (h0 : z 0 ∈ Set.Icc a b) (hy : ∀ n, y n ∈ Set.Icc a b)
    (hz : ∀ n, low_pass_filter (XR.fin dt) (.fin (y n)) (.fin (z n)) (.fin f) = .ok (.fin (z (n + 1)))) : ∀ n, z n ∈ Set.Icc a b := by
  intro n
  induction n with
  | zero => exact h0
  | succ n ih =>
    obtain ⟨r, h1, h2, -⟩ := C47_between hd hf (y n) (z n)
    rw [hz n] at h1
    injection h1 with h1
    rw [XR.fin_inj] at h1
    rw [h1]
    exact Set.uIcc_subset_Icc ih (hy n) h2

end

/-- Example: with the sample time of the robot and the default cutoff frequency of 100 Hz the output for a step from 0 to 1 is between 0.38 and
0.39. -/
example : ∃ r, low_pass_filter (DELTA_T : XR) (.fin 1) (.fin 0) DEFAULT_CUTOFF_FREQUENCY = .ok (.fin r) ∧ 0.38 < r ∧ r < 0.39 := by
  have h100 : (DEFAULT_CUTOFF_FREQUENCY : XR) = .fin 100 := by unfold DEFAULT_CUTOFF_FREQUENCY; rw [XR.lit_fin]; norm_num
  rw [DELTA_T_fin, h100]
  refine ⟨_, low_pass_filter_fin (by norm_num) (by norm_num) 1 0, ?_, ?_⟩
  all_goals
    have h1 := Real.pi_gt_d2
    have h2 := Real.pi_lt_d2
    unfold gain
    have h3 : 0 < 1 + 2 * Real.pi * 100 * (1 / 1000) := by linarith
    simp only [mul_one, mul_zero, add_zero]
  · rw [lt_div_iff₀ h3]; linarith
  · rw [div_lt_iff₀ h3]; linarith

/-! ## C48 -/

/-- C48, except for zero: the filter returns exactly if the sample time and the cutoff frequency are finite and not negative and both values
are finite; otherwise it panics. Missing: it does not panic for zero, see `C48_zero_is_accepted`. -/
theorem C48_arguments_are_checked_partial (sample_time y y_last cutoff : XR) : (∃ r, low_pass_filter sample_time y y_last cutoff = .ok r) ↔
    (∃ dt : ℝ, sample_time = .fin dt ∧ 0 ≤ dt) ∧ (∃ f : ℝ, cutoff = .fin f ∧ 0 ≤ f) ∧ (∃ x : ℝ, y = .fin x) ∧ ∃ x : ℝ, y_last = .fin x := by
  constructor
  · rintro ⟨r, h⟩
    obtain ⟨a, b, c, d, rfl, h1, rfl, rfl, rfl, h2⟩ := low_pass_filter_inv h
    exact ⟨⟨a, rfl, h1⟩, ⟨d, rfl, h2⟩, ⟨b, rfl⟩, ⟨c, rfl⟩⟩
  · rintro ⟨⟨a, rfl, h1⟩, ⟨d, rfl, h2⟩, ⟨b, rfl⟩, ⟨c, rfl⟩⟩
    exact ⟨_, low_pass_filter_fin h1 h2 b c⟩

/-- The property C48 is false of the code: a sample time or a cutoff frequency of zero is accepted; the new value is ignored for ever. -/
theorem C48_zero_is_accepted (y y_last f : ℝ) (hf : 0 ≤ f) : low_pass_filter (XR.fin 0) (.fin y) (.fin y_last) (.fin f) = .ok (.fin y_last) ∧
    low_pass_filter (XR.fin f) (.fin y) (.fin y_last) (.fin 0) = .ok (.fin y_last) := by
  rw [low_pass_filter_fin le_rfl hf, low_pass_filter_fin hf le_rfl]
  simp [gain]

example : (∃ m, low_pass_filter (XR.fin (-1)) (.fin 1) (.fin 2) (.fin 3) = .error m) ∧ (∃ m, low_pass_filter (XR.fin 1) .nan (.fin 2) (.fin 3) = .error m) ∧
    ∃ m, low_pass_filter (XR.fin 1) (.fin 1) (.fin 2) (.inf false) = .error m := by
  have key : ∀ {a b c d : XR}, (¬ ∃ r, low_pass_filter a b c d = .ok r) → ∃ m, low_pass_filter a b c d = .error m := by
    intro a b c d h
    cases hr : low_pass_filter a b c d with
    | ok r => exact absurd ⟨r, hr⟩ h
    | error m => exact ⟨m, rfl⟩
  refine ⟨key ?_, key ?_, key ?_⟩ <;> rw [C48_arguments_are_checked_partial]
  · rintro ⟨⟨x, h1, h2⟩, -⟩
    rw [XR.fin_inj] at h1
    linarith
  · rintro ⟨-, -, ⟨x, h⟩, -⟩
    cases h
  · rintro ⟨-, ⟨x, h, -⟩, -⟩
    cases h

end Verif
