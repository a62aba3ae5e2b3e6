import Verif.Lemmas.RoundedTransparent
import Verif.Lemmas.Smooth
/-!
Signals that keep a distance to the limits, after a low pass and a limiter with small errors.
-/
namespace Verif
open Spec

/-- The limits `M` are larger than `L`, by enough for the errors below. -/
structure Wider (L M : Limits) : Prop where
  ok : LimitsOk L
  moderate : Moderate M
  ratio : L.jerk / L.acceleration ≤ M.jerk / M.acceleration
  velocity : L.velocity + 1 / 1000 ≤ M.velocity
  acceleration : L.acceleration + 6 / 1000 ≤ M.acceleration
  jerk : L.jerk + 37 / 10 ≤ M.jerk

theorem Wider.allowed {L M : Limits} (h : Wider L M) {p q r u v a : ℝ} (ha : Allowed L p q r) (hq : |q| ≤ L.velocity) (hu : |u - p| ≤ 1 / 10 ^ 6)
    (hv : |v - q| ≤ 1 / 10 ^ 6) (hr : |a - r| ≤ 1 / 1000) : Allowed M u v a :=
  allowed_robust h.moderate h.ratio h.velocity h.acceleration h.jerk ha hq hu hv hr

theorem rate_close {y x : ℕ → ℝ} {η : ℝ} {n : ℕ} (h : ∀ j ≤ n, |y j - x j| ≤ η) : |rate y n - rate x n| ≤ 2000 * η := by
  cases n with
  | zero => simpa [rate] using (abs_nonneg _).trans (h 0 le_rfl)
  | succ n =>
    have e : rate y (n + 1) - rate x (n + 1) = 1000 * ((y (n + 1) - x (n + 1)) - (y n - x n)) := by
      simp only [rate]
      norm_num
      ring
    rw [e, abs_mul, abs_of_pos (by norm_num : (0 : ℝ) < 1000)]
    linarith [abs_sub_le_add (h (n + 1) le_rfl) (h n (by omega))]

theorem abs_le_of_close {x y a b : ℝ} (h : |x - y| ≤ a) (hy : |y| ≤ b) : |x| ≤ b + a := by
  have := abs_sub_abs_le_abs_sub x y
  linarith

/-- One step of the error. -/
theorem error_step {g e δ y x u r z : ℝ} (g0 : 0 < g) (g1 : g ≤ 1) (hyx : |y - x| ≤ (e + δ) / g) (hr : |r - (g * u + (1 - g) * y)| ≤ e) (hz : |z - r| ≤ δ) :
    |z - (g * u + (1 - g) * x)| ≤ (e + δ) / g := by
  have h1 : z - (g * u + (1 - g) * x) = (z - r) + (r - (g * u + (1 - g) * y)) + (1 - g) * (y - x) := by ring
  rw [h1]
  refine (abs_add_three _ _ _).trans ?_
  have h2 := abs_mul_le (abs_of_nonneg (by linarith : 0 ≤ 1 - g)).le hyx
  have h3 : (e + δ) / g * g = e + δ := div_mul_cancel₀ _ g0.ne'
  nlinarith

theorem filtered_close {g e δ y x u r : ℝ} (g0 : 0 < g) (g1 : g ≤ 1) (d0 : 0 ≤ δ) (hyx : |y - x| ≤ (e + δ) / g) (hr : |r - (g * u + (1 - g) * y)| ≤ e) :
    |r - (g * u + (1 - g) * x)| ≤ (e + δ) / g :=
  error_step g0 g1 hyx hr (by simpa using d0)

/-- Velocities. -/
theorem velocity_follows {L M : Limits} (h : Wider L M) {g e δ : ℝ} (g0 : 0 < g) (g1 : g ≤ 1) (e0 : 0 ≤ e) (d0 : 0 ≤ δ) (small : (e + δ) / g ≤ 4 / 10 ^ 7) {N : ℕ} {u x y a : ℕ → ℝ} (x0 : x 0 = y 0)
    (hx : ∀ n < N, x (n + 1) = g * u n + (1 - g) * x n) (h0 : |y 0| ≤ L.velocity)
    (ha : ∀ n < N, Allowed L (starting (y 0) u (n + 1)) (starting (y 0) u n) (rate (starting (y 0) u) n)) (close : ∀ n < N, |a n - rate y n| ≤ 1 / 10 ^ 7)
    (step : ∀ n < N, |y n| ≤ M.velocity → |a n| ≤ 100 → ∃ r, |r - (g * u n + (1 - g) * y n)| ≤ e ∧ (Allowed M r (y n) (a n) → |y (n + 1) - r| ≤ δ)) :
    ∀ n ≤ N, |y n - x n| ≤ (e + δ) / g := by
  have exact : ∀ n < N, Allowed L (g * u n + (1 - g) * x n) (x n) (rate x n) := fun n hn =>
    lowpass_next (v := starting (y 0) u) (w := x) h.ok g0.le g1 h0 x0 ha n hn fun j hj => hx j (by omega)
  have hax : ∀ n < N, Allowed L (x (n + 1)) (x n) (rate x n) := fun n hn => by rw [hx n hn]; exact exact n hn
  have hv := allowed_velocity h.ok (by rwa [x0]) hax
  have hrx : ∀ n ≤ N, |rate x n| ≤ 30 := by
    intro n hn
    cases n with
    | zero => simp [rate]
    | succ n => exact (hax n (by omega)).acceleration.trans (by linarith [h.acceleration, h.moderate.a2])
  have key : ∀ n ≤ N, ∀ j ≤ n, |y j - x j| ≤ (e + δ) / g := by
    intro n
    induction n with
    | zero =>
      intro hn j hj
      obtain rfl : j = 0 := by omega
      rw [x0, sub_self, abs_zero]
      exact div_nonneg (by linarith) g0.le
    | succ n ih =>
      intro hn j hj
      have ih := ih (by omega)
      rcases Nat.lt_or_ge j (n + 1) with hj' | hj'
      · exact ih j (by omega)
      obtain rfl : j = n + 1 := by omega
      have hrc := rate_close ih
      have hac : |a n - rate x n| ≤ 1 / 1000 := by
        have := abs_sub_le (a n) (rate y n) (rate x n)
        linarith [close n (by omega)]
      obtain ⟨r, h1, h2⟩ := step n (by omega) (by linarith [abs_le_of_close (ih n le_rfl) (hv n (by omega)), h.velocity])
        (by linarith [abs_le_of_close hac (hrx n (by omega))])
      have h3 := h2 (h.allowed (exact n (by omega)) (hv n (by omega)) ((filtered_close g0 g1 d0 (ih n le_rfl) h1).trans (by linarith))
        ((ih n le_rfl).trans (by linarith)) hac)
      rw [hx n (by omega)]
      exact error_step g0 g1 (ih n le_rfl) h1 h3
  exact fun n hn => key n hn n le_rfl

/-- Positions. -/
theorem position_follows {L M : Limits} (h : Wider L M) {g e δ : ℝ} (g0 : 0 < g) (g1 : g ≤ 1) (e0 : 0 ≤ e) (d0 : 0 ≤ δ) (small : (e + δ) / g ≤ 2 / 10 ^ 10) {N : ℕ}
    {u x y v a : ℕ → ℝ} (x0 : x 0 = y 0) (hx : ∀ n < N, x (n + 1) = g * u n + (1 - g) * x n)
    (ha : ∀ n < N, Allowed L (rate (starting (y 0) u) (n + 1)) (rate (starting (y 0) u) n) (rate (rate (starting (y 0) u)) n))
    (close1 : ∀ n < N, |v n - rate y n| ≤ 1 / 10 ^ 10) (close2 : ∀ n < N, |a n - rate (rate y) n| ≤ 1 / 10 ^ 7)
    (step : ∀ n < N, |y n - x n| ≤ 1 → |v n| ≤ M.velocity → |a n| ≤ 100 →
      ∃ r, |r - (g * u n + (1 - g) * y n)| ≤ e ∧ (|r - y n| ≤ 1 / 20 → Allowed M ((r - y n) / 0.001) (v n) (a n) → |y (n + 1) - r| ≤ δ)) :
    ∀ n ≤ N, |y n - x n| ≤ (e + δ) / g := by
  have exact : ∀ n < N, Allowed L ((g * u n + (1 - g) * x n - x n) / 0.001) (rate x n) (rate (rate x) n) := fun n hn =>
    lowpass_next_position (y := x) h.ok g0.le g1 (by rw [x0]; exact ha) n hn fun j hj => hx j (by omega)
  have hax : ∀ n < N, Allowed L (rate x (n + 1)) (rate x n) (rate (rate x) n) := fun n hn => by
    have := exact n hn
    rw [← hx n hn] at this
    exact this
  have hv := allowed_velocity (w := rate x) h.ok (by simpa [rate] using h.ok.velocity) hax
  have hrx : ∀ n ≤ N, |rate (rate x) n| ≤ 30 := by
    intro n hn
    cases n with
    | zero => simp [rate]
    | succ n => exact (hax n (by omega)).acceleration.trans (by linarith [h.acceleration, h.moderate.a2])
  have key : ∀ n ≤ N, ∀ j ≤ n, |y j - x j| ≤ (e + δ) / g := by
    intro n
    induction n with
    | zero =>
      intro hn j hj
      obtain rfl : j = 0 := by omega
      rw [x0, sub_self, abs_zero]
      exact div_nonneg (by linarith) g0.le
    | succ n ih =>
      intro hn j hj
      have ih := ih (by omega)
      rcases Nat.lt_or_ge j (n + 1) with hj' | hj'
      · exact ih j (by omega)
      obtain rfl : j = n + 1 := by omega
      have hr1 : ∀ j ≤ n, |rate y j - rate x j| ≤ 2000 * ((e + δ) / g) := fun j hj => rate_close fun i hi => ih i (by omega)
      have hr2 := rate_close hr1
      have hvc : |v n - rate x n| ≤ 1 / 10 ^ 6 := by
        have := abs_sub_le (v n) (rate y n) (rate x n)
        linarith [close1 n (by omega), hr1 n le_rfl]
      have hac : |a n - rate (rate x) n| ≤ 1 / 1000 := by
        have := abs_sub_le (a n) (rate (rate y) n) (rate (rate x) n)
        linarith [close2 n (by omega)]
      obtain ⟨r, h1, h2⟩ := step n (by omega) ((ih n le_rfl).trans (by linarith)) (by linarith [abs_le_of_close hvc (hv n (by omega)), h.velocity])
        (by linarith [abs_le_of_close hac (hrx n (by omega))])
      have h4 := filtered_close g0 g1 d0 (ih n le_rfl) h1
      have h5 : |(r - y n) / 0.001 - (g * u n + (1 - g) * x n - x n) / 0.001| ≤ 1 / 10 ^ 6 := by
        rw [show (r - y n) / 0.001 - (g * u n + (1 - g) * x n - x n) / 0.001 = 1000 * ((r - (g * u n + (1 - g) * x n)) - (y n - x n)) by norm_num; ring, abs_mul,
          abs_of_pos (by norm_num : (0 : ℝ) < 1000)]
        linarith [abs_sub_le_add h4 (ih n le_rfl)]
      have h6 : |r - y n| ≤ 1 / 20 := by
        have hb := hv (n + 1) hn
        rw [show rate x (n + 1) = (x (n + 1) - x n) / 0.001 from rfl, hx n (by omega)] at hb
        have := abs_le_of_close h5 hb
        rw [abs_div, abs_of_pos (by norm_num : (0 : ℝ) < 0.001), div_le_iff₀ (by norm_num)] at this
        have := h.velocity
        have := h.moderate.v2
        linarith
      have h3 := h2 h6 (h.allowed (exact n (by omega)) (hv n (by omega)) h5 hvc hac)
      rw [hx n (by omega)]
      exact error_step g0 g1 (ih n le_rfl) h1 h3
  exact fun n hn => key n hn n le_rfl

/-- Torques. -/
theorem torque_follows {g e δ : ℝ} (g0 : 0 < g) (g1 : g ≤ 1) (e0 : 0 ≤ e) (d0 : 0 ≤ δ) (small : (e + δ) / g ≤ 1 / 1000) {N : ℕ}
    {u x y : ℕ → ℝ} (x0 : x 0 = y 0) (hx : ∀ n < N, x (n + 1) = g * u n + (1 - g) * x n) (ha : ∀ n < N, |u n - starting (y 0) u n| ≤ 0.99)
    (step : ∀ n < N, |y n - x n| ≤ 1 → ∃ r, |r - (g * u n + (1 - g) * y n)| ≤ e ∧ (|r - y n| ≤ 0.999 → |y (n + 1) - r| ≤ δ)) :
    ∀ n ≤ N, |y n - x n| ≤ (e + δ) / g := by
  have exact : ∀ n < N, |g * u n + (1 - g) * x n - x n| ≤ 0.99 := fun n hn =>
    lowpass_next_step (y := x) g0.le g1 (by rw [x0]; exact ha) n hn fun j hj => hx j (by omega)
  intro n
  induction n with
  | zero =>
    intro hn
    rw [x0, sub_self, abs_zero]
    exact div_nonneg (by linarith) g0.le
  | succ n ih =>
    intro hn
    have ih := ih (by omega)
    obtain ⟨r, h1, h2⟩ := step n (by omega) (ih.trans (by linarith))
    have h4 := filtered_close g0 g1 d0 ih h1
    have h6 : |r - y n| ≤ 0.999 := by
      have h5 := abs_sub_le_add h4 ih
      rw [show r - (g * u n + (1 - g) * x n) - (y n - x n) = (r - y n) - (g * u n + (1 - g) * x n - x n) by ring] at h5
      have := abs_le_of_close h5 (exact n (by omega))
      norm_num at this small ⊢
      linarith
    rw [hx n (by omega)]
    exact error_step g0 g1 ih h1 (h2 h6)

/-- A mean of bounded values is bounded. -/
theorem mean_bounded {g B : ℝ} (g0 : 0 < g) (g1 : g ≤ 1) {N : ℕ} {u x : ℕ → ℝ} (hx : ∀ n < N, x (n + 1) = g * u n + (1 - g) * x n) (h0 : |x 0| ≤ B) (hu : ∀ n < N, |u n| ≤ B) :
    ∀ n ≤ N, |x n| ≤ B := by
  intro n
  induction n with
  | zero => exact fun _ => h0
  | succ n ih =>
    intro hn
    rw [hx n (by omega)]
    exact mix_abs g0.le g1 (hu n (by omega)) (ih (by omega))

end Verif
