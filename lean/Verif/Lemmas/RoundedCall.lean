import Verif.Lemmas.RoundedRun
/-!
Runs of the limiter with bounded errors that have an end.
-/
namespace Verif
open Spec

/-- A run of `N` steps with reported velocities `v` and accelerations `a` near the commanded ones respects the limits. -/
theorem rounded_run_for {L : Limits} (hL : Moderate L) {N : ℕ} {u v a : ℕ → ℝ} (h0 : u 0 = 0) (hv : ∀ n < N, |v n - u n| ≤ 1 / 10 ^ 10)
    (ha : ∀ n < N, |a n - rate u n| ≤ 1 / 10 ^ 7)
    (hs : ∀ n < N, |v n| ≤ L.velocity + 1 / 1000 → |a n| ≤ 100 →
      ∃ v' t, |v' - (v n + t / 1000)| ≤ 1 / 10 ^ 14 ∧ Target L (v n) (a n) t ∧ |u (n + 1) - v'| ≤ 1 / 10 ^ 11) :
    VelocityRespectsFor N ⟨L.velocity + 1 / 10 ^ 8, L.acceleration + 1 / 10 ^ 6, L.jerk + 9 / 10 ^ 4⟩ u := by
  obtain ⟨v1, v2, a1, a2, j1, j2⟩ := id hL
  have k1 := hL.k1
  have step : ∀ n < N, Settled L (v n) (a n) → ∃ t, Chosen L (v n) (a n) t ∧ |u (n + 1) - (v n + t / 1000)| ≤ 11 / 10 ^ 12 := by
    intro n hn h
    obtain ⟨v', t, h1, h2, h3⟩ := hs n hn (h.velocity.trans (by linarith)) (abs_le.2 ⟨by linarith [h.below2], by linarith [h.above2]⟩)
    refine ⟨t, h.choose hL h2, ?_⟩
    have := abs_sub_le (u (n + 1)) v' (v n + t / 1000)
    linarith
  have rate_near : ∀ n < N, ∀ t, |u (n + 1) - (v n + t / 1000)| ≤ 11 / 10 ^ 12 → |rate u (n + 1) - t| ≤ 12 / 10 ^ 8 := by
    intro n hn t h
    show |(u (n + 1) - u n) / 0.001 - t| ≤ _
    have e : (u (n + 1) - u n) / 0.001 - t = 1000 * ((u (n + 1) - (v n + t / 1000)) + (v n - u n)) := by
      norm_num
      ring
    rw [e, abs_mul, abs_of_pos (by norm_num)]
    have := abs_add_le (u (n + 1) - (v n + t / 1000)) (v n - u n)
    linarith [hv n hn]
  have inv : ∀ n < N, Settled L (v n) (a n) := by
    intro n
    induction n with
    | zero =>
      intro hn
      have hv := abs_le.1 (hv 0 hn)
      have ha := abs_le.1 (ha 0 hn)
      have hr : rate u 0 = 0 := rfl
      rw [h0] at hv
      rw [hr] at ha
      refine ⟨abs_le.2 ⟨by linarith, by linarith⟩, ?_, by linarith, ?_, by linarith⟩
      · have : 0 ≤ L.jerk / L.acceleration * (L.velocity - v 0) := mul_nonneg (by linarith) (by linarith)
        linarith
      · have : L.jerk / L.acceleration * (-L.velocity - v 0) ≤ 0 := mul_nonpos_of_nonneg_of_nonpos (by linarith) (by linarith)
        linarith
    | succ n ih =>
      intro hn
      have ih := ih (by omega)
      obtain ⟨t, h1, h2⟩ := step n (by omega) ih
      refine h1.settle hL ih ?_ ?_
      · have := abs_sub_le (v (n + 1)) (u (n + 1)) (v n + t / 1000)
        linarith [hv (n + 1) hn]
      · have := abs_sub_le (a (n + 1)) (rate u (n + 1)) t
        linarith [ha (n + 1) hn, rate_near n (by omega) t h2]
  intro n hn
  obtain ⟨t, h1, h2⟩ := step n hn (inv n hn)
  have h3 := rate_near n hn t h2
  have h4 := h1.settle hL (inv n hn) (v' := u (n + 1)) (a' := rate u (n + 1)) (by linarith) (by linarith)
  refine ⟨h4.velocity.trans (by norm_num), ?_, ?_⟩
  · show |rate u (n + 1)| ≤ L.acceleration + 1 / 10 ^ 6
    have := abs_le.1 h3
    exact abs_le.2 ⟨by linarith [h1.below2], by linarith [h1.above2]⟩
  · show |(rate u (n + 1) - rate u n) / 0.001| ≤ L.jerk + 9 / 10 ^ 4
    have e : (rate u (n + 1) - rate u n) / 0.001 = 1000 * ((rate u (n + 1) - t) + (t - a n) + (a n - rate u n)) := by
      norm_num
      ring
    rw [e, abs_mul, abs_of_pos (by norm_num)]
    have := abs_add_le (rate u (n + 1) - t + (t - a n)) (a n - rate u n)
    have := abs_add_le (rate u (n + 1) - t) (t - a n)
    linarith [ha n hn, h1.jerk]

end Verif
