import Verif.Spec.Smooth
import Verif.Lemmas.Filter
/-!
Low passed signals respect the limits which the unfiltered ones respect.
-/
namespace Verif
open Spec

theorem gain_eq {f : ℝ} (hf : 0 < f) {u y z : ℝ} : y + (y - z) / 0.001 / (2 * Real.pi * f) = u ↔ y = gain (1 / 1000) f * u + (1 - gain (1 / 1000) f) * z := by
  have hp := Real.pi_pos
  unfold gain
  have h1 : (0 : ℝ) < 2 * Real.pi * f := by positivity
  have h2 : (0 : ℝ) < 1 + 2 * Real.pi * f * (1 / 1000) := by positivity
  generalize 2 * Real.pi * f = b at *
  constructor
  · rintro rfl
    field_simp
    ring
  · intro h
    rw [h]
    field_simp
    ring

theorem mix_abs {g a b c : ℝ} (h0 : 0 ≤ g) (h1 : g ≤ 1) (ha : |a| ≤ c) (hb : |b| ≤ c) : |g * a + (1 - g) * b| ≤ c := by
  rw [abs_le] at *
  constructor <;> nlinarith

theorem Spec.Allowed.mix {L : Limits} {u v a u' v' a' g : ℝ} (h : Allowed L u v a) (h' : Allowed L u' v' a') (h0 : 0 ≤ g) (h1 : g ≤ 1) :
    Allowed L (g * u + (1 - g) * u') (g * v + (1 - g) * v') (g * a + (1 - g) * a') := by
  have e1 : ((g * u + (1 - g) * u') - (g * v + (1 - g) * v')) / 0.001 = g * ((u - v) / 0.001) + (1 - g) * ((u' - v') / 0.001) := by ring
  have e2 : (g * ((u - v) / 0.001) + (1 - g) * ((u' - v') / 0.001) - (g * a + (1 - g) * a')) / 0.001 =
    g * (((u - v) / 0.001 - a) / 0.001) + (1 - g) * (((u' - v') / 0.001 - a') / 0.001) := by ring
  have h2 : 0 ≤ 1 - g := by linarith
  refine ⟨?_, ?_, ?_, ?_⟩
  · rw [e1]; exact mix_abs h0 h1 h.acceleration h'.acceleration
  · rw [e1, e2]; exact mix_abs h0 h1 h.jerk h'.jerk
  · rw [e1]
    have := mul_le_mul_of_nonneg_left h.above h0
    have := mul_le_mul_of_nonneg_left h'.above h2
    linarith
  · rw [e1]
    have := mul_le_mul_of_nonneg_left h.below h0
    have := mul_le_mul_of_nonneg_left h'.below h2
    linarith

theorem allowed_rest {L : Limits} (hL : LimitsOk L) {v : ℝ} (hv : |v| ≤ L.velocity) : Allowed L v v 0 := by
  have h1 : 0 ≤ L.jerk / L.acceleration := div_nonneg hL.jerk hL.acceleration.le
  obtain ⟨h2, h3⟩ := abs_le.1 hv
  have h4 := mul_nonneg h1 (by linarith : 0 ≤ L.velocity - v)
  have h5 := mul_nonneg h1 (by linarith : 0 ≤ L.velocity + v)
  constructor <;> simp
  · exact hL.acceleration.le
  · exact hL.jerk
  · exact h4
  · exact h5

/-- The next value of a low passed velocity. -/
theorem lowpass_next {L : Limits} (hL : LimitsOk L) {g : ℝ} (h0 : 0 ≤ g) (h1 : g ≤ 1) {N : ℕ} {v w : ℕ → ℝ} (hv : |v 0| ≤ L.velocity) (hw : w 0 = v 0)
    (ha : ∀ n < N, Allowed L (v (n + 1)) (v n) (rate v n)) :
    ∀ n < N, (∀ j < n, w (j + 1) = g * v (j + 1) + (1 - g) * w j) → Allowed L (g * v (n + 1) + (1 - g) * w n) (w n) (rate w n) := by
  intro n
  induction n with
  | zero =>
    intro hn hj
    have := (ha 0 hn).mix (allowed_rest hL hv) h0 h1
    rw [hw]
    rw [show g * v 0 + (1 - g) * v 0 = v 0 by ring] at this
    simpa [rate] using this
  | succ n ih =>
    intro hn hj
    have e2 : w (n + 1) = g * v (n + 1) + (1 - g) * w n := hj n (by omega)
    have h2 := ih (by omega) fun j h => hj j (by omega)
    rw [← e2] at h2
    have h2 := (ha (n + 1) hn).mix h2 h0 h1
    have e3 : rate w (n + 1) = g * rate v (n + 1) + (1 - g) * rate w n := by
      cases n with
      | zero =>
        simp only [rate]
        rw [e2, hw]
        ring
      | succ n =>
        have e4 : w (n + 1) = g * v (n + 1) + (1 - g) * w n := hj n (by omega)
        simp only [rate]
        rw [e2]
        nth_rewrite 2 [e4]
        ring
    rw [e3]
    nth_rewrite 2 [e2]
    exact h2

/-- The same for a position that starts from rest. -/
theorem lowpass_next_position {L : Limits} (hL : LimitsOk L) {g : ℝ} (h0 : 0 ≤ g) (h1 : g ≤ 1) {N : ℕ} {u y : ℕ → ℝ}
    (ha : ∀ n < N, Allowed L (rate (starting (y 0) u) (n + 1)) (rate (starting (y 0) u) n) (rate (rate (starting (y 0) u)) n)) :
    ∀ n < N, (∀ j < n, y (j + 1) = g * u j + (1 - g) * y j) → Allowed L ((g * u n + (1 - g) * y n - y n) / 0.001) (rate y n) (rate (rate y) n) := by
  intro n hn hj
  have hr : ∀ j < n, rate y (j + 1) = g * rate (starting (y 0) u) (j + 1) + (1 - g) * rate y j := by
    intro j hjn
    cases j with
    | zero =>
      simp only [rate, starting]
      rw [hj 0 hjn]
      ring
    | succ j =>
      simp only [rate, starting]
      rw [hj (j + 1) hjn]
      have := hj j (by omega)
      nth_rewrite 2 [this]
      ring
  have := lowpass_next hL h0 h1 (v := rate (starting (y 0) u)) (w := rate y) (by simp only [rate, abs_zero]; exact hL.velocity) rfl ha n hn hr
  have e : g * rate (starting (y 0) u) (n + 1) + (1 - g) * rate y n = (g * u n + (1 - g) * y n - y n) / 0.001 := by
    cases n with
    | zero =>
      simp only [rate, starting]
      ring
    | succ n =>
      simp only [rate, starting]
      have := hj n (by omega)
      rw [this]
      ring
  rw [← e]
  exact this

/-- The same for a signal with bounded steps. -/
theorem lowpass_next_step {b g : ℝ} (h0 : 0 ≤ g) (h1 : g ≤ 1) {N : ℕ} {u y : ℕ → ℝ} (ha : ∀ n < N, |u n - starting (y 0) u n| ≤ b) :
    ∀ n < N, (∀ j < n, y (j + 1) = g * u j + (1 - g) * y j) → |g * u n + (1 - g) * y n - y n| ≤ b := by
  intro n
  induction n with
  | zero =>
    intro hn _
    have hb := ha 0 hn
    have := mix_abs h0 h1 hb (show |(0 : ℝ)| ≤ b by rw [abs_zero]; exact (abs_nonneg _).trans hb)
    refine le_of_eq_of_le (congrArg _ ?_) this
    simp only [starting]
    ring
  | succ n ih =>
    intro hn hj
    have h2 := ih (by omega) fun j h => hj j (by omega)
    have := mix_abs h0 h1 (ha (n + 1) hn) h2
    refine le_of_eq_of_le (congrArg _ ?_) this
    have := hj n (by omega)
    simp only [starting]
    rw [this]
    ring

theorem allowed_velocity {L : Limits} (hL : LimitsOk L) {w : ℕ → ℝ} {N : ℕ} (h0 : |w 0| ≤ L.velocity) (h : ∀ n < N, Allowed L (w (n + 1)) (w n) (rate w n)) :
    ∀ n ≤ N, |w n| ≤ L.velocity := by
  intro n
  induction n with
  | zero => intro _; exact h0
  | succ n ih =>
    intro hn
    obtain ⟨-, -, h3, h4⟩ := h n hn
    have h1 := abs_le.1 (ih (by omega))
    have hr : L.jerk / L.acceleration ≤ 1000 := by
      rw [div_le_iff₀ hL.acceleration]
      exact hL.step
    have e : (w (n + 1) - w n) / 0.001 = 1000 * (w (n + 1) - w n) := by ring
    rw [e] at h3 h4
    rw [abs_le]
    constructor
    · have : L.jerk / L.acceleration * (L.velocity + w n) ≤ 1000 * (L.velocity + w n) := mul_le_mul_of_nonneg_right hr (by linarith)
      linarith
    · have : L.jerk / L.acceleration * (L.velocity - w n) ≤ 1000 * (L.velocity - w n) := mul_le_mul_of_nonneg_right hr (by linarith)
      linarith

end Verif
