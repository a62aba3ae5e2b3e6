import Verif.Lemmas.Rounding
/-!
Runs of the limiter with bounded errors.
-/
namespace Verif
open Spec

/-- The invariant of a run: the velocity is within the limit, and the acceleration can be reduced in time. -/
structure Settled (L : Limits) (v a : ℝ) : Prop where
  velocity : |v| ≤ L.velocity + 1 / 10 ^ 9
  above1 : a ≤ L.jerk / L.acceleration * (L.velocity - v) + L.jerk / 1000 + 4 / 10 ^ 7
  above2 : a ≤ L.acceleration + L.jerk / 1000 + 4 / 10 ^ 7
  below1 : L.jerk / L.acceleration * (-L.velocity - v) - L.jerk / 1000 - 4 / 10 ^ 7 ≤ a
  below2 : -L.acceleration - L.jerk / 1000 - 4 / 10 ^ 7 ≤ a

/-- What one step does. -/
structure Chosen (L : Limits) (v a t : ℝ) : Prop where
  above1 : t ≤ L.jerk / L.acceleration * (L.velocity - v) + 3 / 10 ^ 9
  above2 : t ≤ L.acceleration + 3 / 10 ^ 9
  below1 : L.jerk / L.acceleration * (-L.velocity - v) - 3 / 10 ^ 9 ≤ t
  below2 : -L.acceleration - 3 / 10 ^ 9 ≤ t
  jerk : |t - a| ≤ L.jerk / 1000 + 41 / 10 ^ 8

theorem Settled.choose {L : Limits} (hL : Moderate L) {v a t : ℝ} (h : Settled L v a) (ht : Target L v a t) : Chosen L v a t := by
  obtain ⟨v1, v2, a1, a2, j1, j2⟩ := id hL
  obtain ⟨h1, h2, h3, h4, h5⟩ := h
  obtain ⟨ca, S, s, rfl, hc, hS, hs⟩ := ht.out
  have k1 := hL.k1
  have k2 := hL.k2
  set k := L.jerk / L.acceleration
  obtain ⟨b1, b2⟩ := abs_le.1 h1
  have c1 : k * (-L.velocity - v) ≤ k * (L.velocity - v) := mul_le_mul_of_nonneg_left (by linarith) (by linarith)
  have c2 : k * (-L.velocity - v) ≤ 1 := by nlinarith
  have c3 : -1 ≤ k * (L.velocity - v) := by nlinarith
  set K := k * (L.velocity - v)
  set K' := k * (-L.velocity - v)
  obtain ⟨s1, s2⟩ := abs_le.1 hs
  obtain ⟨S1, S2⟩ := abs_le.1 hS
  obtain ⟨d1, d2⟩ := abs_le.1 hc
  have m1 : min K L.acceleration ≤ K := min_le_left _ _
  have m2 : min K L.acceleration ≤ L.acceleration := min_le_right _ _
  have m3 : K' ≤ max K' (-L.acceleration) := le_max_left _ _
  have m4 : -L.acceleration ≤ max K' (-L.acceleration) := le_max_right _ _
  have n1 : max K' (-L.acceleration) ≤ K := max_le c1 (by linarith)
  have n2 : max K' (-L.acceleration) ≤ L.acceleration := max_le (by linarith) (by linarith)
  have n3 : max K' (-L.acceleration) ≤ a + L.jerk / 1000 + 4 / 10 ^ 7 := max_le (by linarith) (by linarith)
  have n4 : a - L.jerk / 1000 - 4 / 10 ^ 7 ≤ min K L.acceleration := le_min (by linarith) (by linarith)
  have p1 : min ca S ≤ S := min_le_right _ _
  have p2 : min ca S ≤ ca := min_le_left _ _
  refine ⟨max_le (by linarith) (by linarith), max_le (by linarith) (by linarith), le_trans (by linarith) (le_max_right _ _),
    le_trans (by linarith) (le_max_right _ _), abs_le.2 ⟨?_, ?_⟩⟩
  · have : a - L.jerk / 1000 - 41 / 10 ^ 8 ≤ min ca S := le_min (by linarith) (by linarith)
    have := this.trans (le_max_left (min ca S) s)
    linarith
  · have : max (min ca S) s ≤ a + L.jerk / 1000 + 41 / 10 ^ 8 := max_le (by linarith) (by linarith)
    linarith

theorem Chosen.settle {L : Limits} (hL : Moderate L) {v a t v' a' : ℝ} (h : Settled L v a) (hc : Chosen L v a t) (hv : |v' - (v + t / 1000)| ≤ 12 / 10 ^ 11)
    (ha : |a' - t| ≤ 22 / 10 ^ 8) : Settled L v' a' := by
  obtain ⟨v1, v2, a1, a2, j1, j2⟩ := id hL
  obtain ⟨t1, t2, t3, t4, -⟩ := hc
  have k1 := hL.k1
  have k2 := hL.k2
  have kA : L.jerk / L.acceleration * L.acceleration = L.jerk := div_mul_cancel₀ _ (by linarith)
  set k := L.jerk / L.acceleration
  obtain ⟨b1, b2⟩ := abs_le.1 h.velocity
  obtain ⟨e1, e2⟩ := abs_le.1 hv
  obtain ⟨f1, f2⟩ := abs_le.1 ha
  have g1 : k * t ≤ L.jerk + 2 / 10 ^ 6 := by nlinarith
  have g2 : -(L.jerk + 2 / 10 ^ 6) ≤ k * t := by nlinarith
  have g3 : k * v' ≤ k * v + k * t / 1000 + 7 / 10 ^ 8 := by nlinarith
  have g4 : k * v + k * t / 1000 - 7 / 10 ^ 8 ≤ k * v' := by nlinarith
  rw [mul_sub] at t1 t3
  have kV : 0 ≤ k * L.velocity := mul_nonneg (by linarith) (by linarith)
  refine ⟨abs_le.2 ⟨?_, ?_⟩, ?_, by linarith, ?_, by linarith⟩
  · -- the distance to the limit is multiplied by a number below one
    have : (1 - k / 1000) * (v + L.velocity) ≥ (1 - k / 1000) * (-(1 / 10 ^ 9)) := mul_le_mul_of_nonneg_left (by linarith) (by linarith)
    nlinarith
  · have : (1 - k / 1000) * (v - L.velocity) ≤ (1 - k / 1000) * (1 / 10 ^ 9) := mul_le_mul_of_nonneg_left (by linarith) (by linarith)
    nlinarith
  · rw [mul_sub]
    linarith
  · rw [mul_sub]
    linarith

/-- One step of a run with reported velocities `v` and accelerations `a` near the commanded ones. -/
theorem rounded_step {L : Limits} (hL : Moderate L) {u v a : ℕ → ℝ}
    (hs : ∀ n, |v n| ≤ L.velocity + 1 / 1000 → |a n| ≤ 100 →
      ∃ v' t, |v' - (v n + t / 1000)| ≤ 1 / 10 ^ 14 ∧ Target L (v n) (a n) t ∧ |u (n + 1) - v'| ≤ 1 / 10 ^ 11) :
    ∀ n, Settled L (v n) (a n) → ∃ t, Chosen L (v n) (a n) t ∧ |u (n + 1) - (v n + t / 1000)| ≤ 11 / 10 ^ 12 := by
  obtain ⟨v1, v2, a1, a2, j1, j2⟩ := id hL
  intro n h
  obtain ⟨v', t, h1, h2, h3⟩ := hs n (h.velocity.trans (by linarith)) (abs_le.2 ⟨by linarith [h.below2], by linarith [h.above2]⟩)
  refine ⟨t, h.choose hL h2, ?_⟩
  have := abs_sub_le (u (n + 1)) v' (v n + t / 1000)
  linarith

theorem rounded_rate {u v : ℕ → ℝ} (hv : ∀ n, |v n - u n| ≤ 1 / 10 ^ 10) :
    ∀ n t, |u (n + 1) - (v n + t / 1000)| ≤ 11 / 10 ^ 12 → |rate u (n + 1) - t| ≤ 12 / 10 ^ 8 := by
  intro n t h
  show |(u (n + 1) - u n) / 0.001 - t| ≤ _
  have e : (u (n + 1) - u n) / 0.001 - t = 1000 * ((u (n + 1) - (v n + t / 1000)) + (v n - u n)) := by
    norm_num
    ring
  rw [e, abs_mul, abs_of_pos (by norm_num)]
  have := abs_add_le (u (n + 1) - (v n + t / 1000)) (v n - u n)
  linarith [hv n]

theorem rounded_settled {L : Limits} (hL : Moderate L) {u v a : ℕ → ℝ} (h0 : u 0 = 0) (hv : ∀ n, |v n - u n| ≤ 1 / 10 ^ 10) (ha : ∀ n, |a n - rate u n| ≤ 1 / 10 ^ 7)
    (hs : ∀ n, |v n| ≤ L.velocity + 1 / 1000 → |a n| ≤ 100 →
      ∃ v' t, |v' - (v n + t / 1000)| ≤ 1 / 10 ^ 14 ∧ Target L (v n) (a n) t ∧ |u (n + 1) - v'| ≤ 1 / 10 ^ 11) :
    ∀ n, Settled L (v n) (a n) := by
  obtain ⟨v1, v2, a1, a2, j1, j2⟩ := id hL
  have k1 := hL.k1
  have step := rounded_step hL hs
  have rate_near := rounded_rate hv
  intro n
  induction n with
  | zero =>
    have hv := abs_le.1 (hv 0)
    have ha := abs_le.1 (ha 0)
    have hr : rate u 0 = 0 := rfl
    rw [h0] at hv
    rw [hr] at ha
    refine ⟨abs_le.2 ⟨by linarith, by linarith⟩, ?_, by linarith, ?_, by linarith⟩
    · have : 0 ≤ L.jerk / L.acceleration * (L.velocity - v 0) := mul_nonneg (by linarith) (by linarith)
      linarith
    · have : L.jerk / L.acceleration * (-L.velocity - v 0) ≤ 0 := mul_nonpos_of_nonneg_of_nonpos (by linarith) (by linarith)
      linarith
  | succ n ih =>
    obtain ⟨t, h1, h2⟩ := step n ih
    refine h1.settle hL ih ?_ ?_
    · have := abs_sub_le (v (n + 1)) (u (n + 1)) (v n + t / 1000)
      linarith [hv (n + 1)]
    · have := abs_sub_le (a (n + 1)) (rate u (n + 1)) t
      linarith [ha (n + 1), rate_near n t h2]

/-- A run with reported velocities `v` and accelerations `a` near the commanded ones respects the limits. -/
theorem rounded_run {L : Limits} (hL : Moderate L) {u v a : ℕ → ℝ} (h0 : u 0 = 0) (hv : ∀ n, |v n - u n| ≤ 1 / 10 ^ 10) (ha : ∀ n, |a n - rate u n| ≤ 1 / 10 ^ 7)
    (hs : ∀ n, |v n| ≤ L.velocity + 1 / 1000 → |a n| ≤ 100 →
      ∃ v' t, |v' - (v n + t / 1000)| ≤ 1 / 10 ^ 14 ∧ Target L (v n) (a n) t ∧ |u (n + 1) - v'| ≤ 1 / 10 ^ 11) :
    VelocityRespects ⟨L.velocity + 1 / 10 ^ 8, L.acceleration + 1 / 10 ^ 6, L.jerk + 9 / 10 ^ 4⟩ u := by
  obtain ⟨v1, v2, a1, a2, j1, j2⟩ := id hL
  have step := rounded_step hL hs
  have rate_near := rounded_rate hv
  have inv := rounded_settled hL h0 hv ha hs
  intro n
  refine ⟨?_, ?_, ?_⟩
  · have := abs_sub_abs_le_abs_sub (u n) (v n)
    rw [abs_sub_comm] at this
    show |u n| ≤ L.velocity + 1 / 10 ^ 8
    linarith [hv n, (inv n).velocity]
  · show |rate u n| ≤ L.acceleration + 1 / 10 ^ 6
    cases n with
    | zero =>
      show |(0 : ℝ)| ≤ _
      rw [abs_zero]
      linarith
    | succ n =>
      obtain ⟨t, h1, h2⟩ := step n (inv n)
      have := abs_le.1 (rate_near n t h2)
      exact abs_le.2 ⟨by linarith [h1.below2], by linarith [h1.above2]⟩
  · show |(rate u (n + 1) - rate u n) / 0.001| ≤ L.jerk + 9 / 10 ^ 4
    obtain ⟨t, h1, h2⟩ := step n (inv n)
    have e : (rate u (n + 1) - rate u n) / 0.001 = 1000 * ((rate u (n + 1) - t) + (t - a n) + (a n - rate u n)) := by
      norm_num
      ring
    rw [e, abs_mul, abs_of_pos (by norm_num)]
    have := abs_add_le (rate u (n + 1) - t + (t - a n)) (a n - rate u n)
    have := abs_add_le (rate u (n + 1) - t) (t - a n)
    linarith [ha n, rate_near n t h2, h1.jerk]

end Verif
