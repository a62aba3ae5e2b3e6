import Verif.Lemmas.RoundedFirst
import Verif.Lemmas.Jerk
import Verif.Spec.NearLimits
/-!
The differences of the samples of the paths that are planned if every operation is rounded, and of positions close to them.
-/
namespace Verif
open Spec

/-- The third difference of the change of a ramp that is moved a little. -/
theorem ramp_moved_third {τ ε h : ℝ} (hτ : 0 < τ) (hε : 0 ≤ ε) (hh : 0 ≤ h) (c t : ℝ) :
    |(ramp ((t - c) / τ + ε) - ramp ((t - c) / τ)) - 3 * (ramp ((t - h - c) / τ + ε) - ramp ((t - h - c) / τ)) +
      3 * (ramp ((t - 2 * h - c) / τ + ε) - ramp ((t - 2 * h - c) / τ)) - (ramp ((t - 3 * h - c) / τ + ε) - ramp ((t - 3 * h - c) / τ))| ≤ 12 * ε * (h / τ) ^ 2 := by
  have sc : ∀ {f f' : ℝ → ℝ}, (∀ z, HasDerivAt f (f' z) z) → ∀ b t, HasDerivAt (fun t => f ((t - c) / τ + b)) (f' ((t - c) / τ + b) * (1 / τ)) t := fun hf b t =>
    HasDerivAt.comp (h := fun t => (t - c) / τ + b) t (hf ((t - c) / τ + b)) ((((hasDerivAt_id t).sub_const c).div_const τ).add_const b)
  have d1 : ∀ t, HasDerivAt (fun t => ramp ((t - c) / τ + ε) - ramp ((t - c) / τ + 0)) (1 / τ * (step ((t - c) / τ + ε) - step ((t - c) / τ + 0))) t := fun t =>
    ((sc hasDerivAt_ramp ε t).sub (sc hasDerivAt_ramp 0 t)).congr_deriv (by ring)
  have d2 : ∀ s t, |1 / τ * (step ((t - c) / τ + ε) - step ((t - c) / τ + 0)) - 1 / τ * (step ((s - c) / τ + ε) - step ((s - c) / τ + 0))| ≤ 6 * ε / τ ^ 2 * |t - s| := by
    intro s t
    refine lip_of_deriv (f := fun t => 1 / τ * (step ((t - c) / τ + ε) - step ((t - c) / τ + 0)))
      (fun t => ((sc hasDerivAt_step ε t).sub (sc hasDerivAt_step 0 t)).const_mul (1 / τ)) (fun t => ?_) s t
    have := slope_lip (show (t - c) / τ + 0 ≤ (t - c) / τ + ε by linarith)
    rw [← sub_mul, abs_mul, abs_mul, abs_of_pos (by positivity : 0 < 1 / τ)]
    calc 1 / τ * (|slope ((t - c) / τ + ε) - slope ((t - c) / τ + 0)| * (1 / τ)) ≤ 1 / τ * (6 * ((t - c) / τ + ε - ((t - c) / τ + 0)) * (1 / τ)) := by gcongr
      _ = _ := by field_simp; ring
  have e1 := second_diff d1 d2 hh t
  have e2 := second_diff d1 d2 hh (t - h)
  rw [show t - h - h = t - 2 * h by ring, show t - h - 2 * h = t - 3 * h by ring] at e2
  simp only [add_zero] at e1 e2
  have e3 : 12 * ε * (h / τ) ^ 2 = 2 * (6 * ε / τ ^ 2 * h ^ 2) := by field_simp; ring
  rw [e3]
  rw [abs_le] at e1 e2 ⊢
  constructor <;> linarith

/-- The third difference of a profile that slows down a little early. -/
theorem profile_third_early {a d v τ t2 h : ℝ} (hd : d = 1 ∨ d = -1) (hv : 0 < v) (hτ : 0 < τ) (ht2 : (1 - 1 / 10 ^ 4) * τ ≤ t2) (hh : 0 < h) (t : ℝ) :
    |profile a d v τ t2 t - 3 * profile a d v τ t2 (t - h) + 3 * profile a d v τ t2 (t - 2 * h) - profile a d v τ t2 (t - 3 * h)| ≤
      6 * v / τ ^ 2 * h ^ 3 + 12 / 10 ^ 4 * (v / τ) * h ^ 2 := by
  rcases le_total τ t2 with h1 | h1
  · have := profile_third (a := a) hd hv hτ h1 hh t
    have : 0 ≤ 12 / 10 ^ 4 * (v / τ) * h ^ 2 := by positivity
    linarith
  · have hda : |d| = 1 := by rcases hd with rfl | rfl <;> norm_num
    have e : ∀ s, profile a d v τ t2 s = profile a d v τ τ s - d * (v * τ) * (ramp ((s - τ) / τ + (τ - t2) / τ) - ramp ((s - τ) / τ)) := fun s => by
      have : (s - τ) / τ + (τ - t2) / τ = (s - t2) / τ := by ring
      rw [this]
      unfold profile
      ring
    have k1 := profile_third (a := a) hd hv hτ le_rfl hh t
    have k2 := ramp_moved_third hτ (ε := (τ - t2) / τ) (div_nonneg (by linarith) hτ.le) hh.le τ t
    rw [e, e, e, e]
    generalize (ramp ((t - τ) / τ + (τ - t2) / τ) - ramp ((t - τ) / τ)) = r0 at *
    generalize (ramp ((t - h - τ) / τ + (τ - t2) / τ) - ramp ((t - h - τ) / τ)) = r1 at *
    generalize (ramp ((t - 2 * h - τ) / τ + (τ - t2) / τ) - ramp ((t - 2 * h - τ) / τ)) = r2 at *
    generalize (ramp ((t - 3 * h - τ) / τ + (τ - t2) / τ) - ramp ((t - 3 * h - τ) / τ)) = r3 at *
    have k3 : |d * (v * τ) * (r0 - 3 * r1 + 3 * r2 - r3)| ≤ 12 / 10 ^ 4 * (v / τ) * h ^ 2 := by
      rw [abs_mul, abs_mul, hda, one_mul, abs_of_pos (by positivity : 0 < v * τ)]
      have hε : (τ - t2) / τ ≤ 1 / 10 ^ 4 := by rw [div_le_iff₀ hτ]; linarith
      calc v * τ * |r0 - 3 * r1 + 3 * r2 - r3| ≤ v * τ * (12 * ((τ - t2) / τ) * (h / τ) ^ 2) := by gcongr
        _ ≤ v * τ * (12 * (1 / 10 ^ 4) * (h / τ) ^ 2) := by gcongr
        _ = _ := by field_simp
    rw [abs_le] at k1 k3 ⊢
    constructor <;> linarith

/-- The third difference of a planned path. -/
theorem shape_third {start sf T V p q : ℝ} {x : ℝ → ℝ} (hs : PathShape start sf T x) (hm : Move p q V (1001 / 1000 * (sf * jointAcceleration)) T x) (hsf : 0 < sf) (hsf1 : sf ≤ 0.98)
    (hg : sf ≤ 0.37 ∨ T = 0 ∨ 0.014 ≤ T) (t : ℝ) :
    |x t - 3 * x (t - 0.001) + 3 * x (t - 2 * 0.001) - x (t - 3 * 0.001)| ≤ 3705 * 0.001 ^ 3 := by
  unfold jointAcceleration at hm
  rcases hs with ⟨c, -, rfl⟩ | ⟨d, v, τ, t2, hd, rfl, h1, h2, h3, h4, h5⟩
  · simp only
    rw [show c - 3 * c + 3 * c - c = 0 by ring, abs_zero]
    norm_num
  unfold jointAcceleration at h5
  rcases hg with hg | hg
  · obtain ⟨w, g1, -, -, g2⟩ := hm.velocity
    have e1 := second_diff g1 g2 (show (0 : ℝ) ≤ 0.001 by norm_num) t
    have e2 := second_diff g1 g2 (show (0 : ℝ) ≤ 0.001 by norm_num) (t - 0.001)
    rw [show t - 0.001 - 0.001 = t - 2 * 0.001 by ring, show t - 0.001 - 2 * 0.001 = t - 3 * 0.001 by ring] at e2
    rw [abs_le] at e1 e2 ⊢
    constructor <;> norm_num at e1 e2 hg ⊢ <;> linarith
  · have ht2 : 0 < t2 := by nlinarith
    have hT : 0.014 ≤ T := by
      rcases hg with hg | hg
      · linarith
      · exact hg
    have hvτ : v / τ ≤ 2 / 3 * (1001 / 1000 * (sf * 5)) := by
      have : 3 / 2 * v / τ = 3 / 2 * (v / τ) := by ring
      linarith
    by_cases hJ : 6 * v / τ ^ 2 ≤ 3699
    · refine (profile_third_early hd h1 h2 h3 (show (0 : ℝ) < 0.001 by norm_num) t).trans ?_
      have : 6 * v / τ ^ 2 * 0.001 ^ 3 ≤ 3699 * 0.001 ^ 3 := mul_le_mul_of_nonneg_right hJ (by norm_num)
      norm_num at this hsf1 ⊢
      linarith
    · have k1 : 3699 * τ < 6 * (v / τ) := by
        have k : 3699 < 6 * v / τ ^ 2 := not_le.1 hJ
        rw [lt_div_iff₀ (by positivity)] at k
        rw [← mul_div_assoc, lt_div_iff₀ h2]
        linarith
      have k2 : τ < 0.00531 := by norm_num at *; linarith
      refine (profile_third_short hd h1 h2 (show (0 : ℝ) < 0.001 by norm_num) (by norm_num at *; linarith) (by norm_num at *; linarith) t).trans ?_
      rw [mul_div_assoc]
      norm_num at hsf1 ⊢
      linarith

/-- Bounds that suffice for 99.9 % of the limits of every joint. -/
theorem mostOf_allowed (i : Fin 7) {u v a : ℝ} (hv : |v| ≤ 1002 / 1000 * jointSpeed i) (hacc : |(u - v) / 0.001| ≤ 6) (hj : |((u - v) / 0.001 - a) / 0.001| ≤ 3746) :
    Allowed (mostOf (jointLimits i)) u v a := by
  rw [abs_le] at hv
  have hacc' := abs_le.1 hacc
  constructor
  · refine hacc.trans ?_
    fin_cases i <;> simp [mostOf, jointLimits] <;> norm_num
  · refine hj.trans ?_
    fin_cases i <;> simp [mostOf, jointLimits] <;> norm_num
  · refine hacc'.2.trans ?_
    revert hv
    fin_cases i <;> simp [mostOf, jointLimits, jointSpeed] <;> intros <;> norm_num at * <;> linarith
  · refine le_trans ?_ hacc'.1
    revert hv
    fin_cases i <;> simp [mostOf, jointLimits, jointSpeed] <;> intros <;> norm_num at * <;> linarith

/-- The rates of samples, with the first sample repeated. -/
theorem rates_before (y : ℕ → ℝ) (n : ℕ) : rate y n = (y (n + 3 - 3) - y (n + 2 - 3)) / 0.001 ∧
    rate (rate y) n = (y (n + 3 - 3) - 2 * y (n + 2 - 3) + y (n + 1 - 3)) / 0.001 / 0.001 := by
  match n with
  | 0 => constructor <;> simp [rate]; ring
  | 1 => constructor <;> simp [rate]; ring
  | n + 2 => constructor <;> simp [rate]; ring

/-- Positions close to samples with small differences stay inside the limits. -/
theorem inside_near (i : Fin 7) {N : ℕ} {y X : ℕ → ℝ} (h : ∀ k ≤ N + 3, |y (k - 3) - X k| ≤ 47 / 10 ^ 10)
    (h1 : ∀ k, |X (k + 1) - X k| ≤ 1001 / 1000 * jointSpeed i * 0.001) (h2 : ∀ k, |X (k + 2) - 2 * X (k + 1) + X k| ≤ 5.01 * 0.001 ^ 2)
    (h3 : ∀ k, |X (k + 3) - 3 * X (k + 2) + 3 * X (k + 1) - X k| ≤ 3705 * 0.001 ^ 3) : PositionInside N (jointLimits i) y := by
  have hV := jointSpeed_range i
  refine ⟨?_, fun n hn => ?_⟩
  · show |(0 : ℝ)| ≤ _
    rw [abs_zero]
    unfold mostOf jointLimits
    fin_cases i <;> norm_num
  · rw [(rates_before y (n + 1)).1, (rates_before y n).1, (rates_before y n).2]
    have q0 := h (n + 1) (by omega)
    have q1 := h (n + 2) (by omega)
    have q2 := h (n + 3) (by omega)
    have q3 := h (n + 4) (by omega)
    have a1 := h1 (n + 2)
    have a2 := h2 (n + 2)
    have a3 := h3 (n + 1)
    simp only [show n + 1 + 3 = n + 4 by ring, show n + 1 + 2 = n + 3 by ring, show n + 1 + 1 = n + 2 by ring] at *
    generalize y (n + 1 - 3) = y0 at *
    generalize y (n + 2 - 3) = y1 at *
    generalize y (n + 3 - 3) = y2 at *
    generalize y (n + 4 - 3) = y3 at *
    generalize X (n + 1) = X0 at *
    generalize X (n + 2) = X1 at *
    generalize X (n + 3) = X2 at *
    generalize X (n + 4) = X3 at *
    rw [abs_le] at q0 q1 q2 q3 a1 a2 a3
    refine mostOf_allowed i ?_ ?_ ?_
    · rw [abs_div, abs_of_pos (by norm_num : (0 : ℝ) < 0.001), div_le_iff₀ (by norm_num), abs_le]
      constructor <;> norm_num at * <;> linarith
    · rw [show ((y3 - y2) / 0.001 - (y2 - y1) / 0.001) / 0.001 = (y3 - 2 * y2 + y1) / 0.001 ^ 2 by ring, abs_div, abs_of_pos (by norm_num : (0 : ℝ) < 0.001 ^ 2),
        div_le_iff₀ (by norm_num), abs_le]
      constructor <;> norm_num at * <;> linarith
    · rw [show (((y3 - y2) / 0.001 - (y2 - y1) / 0.001) / 0.001 - (y2 - 2 * y1 + y0) / 0.001 / 0.001) / 0.001 = (y3 - 3 * y2 + 3 * y1 - y0) / 0.001 ^ 3 by ring,
        abs_div, abs_of_pos (by norm_num : (0 : ℝ) < 0.001 ^ 3), div_le_iff₀ (by norm_num), abs_le]
      constructor <;> norm_num at * <;> linarith

end Verif
