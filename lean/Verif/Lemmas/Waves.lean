import Mathlib.Analysis.SpecialFunctions.Trigonometric.Bounds
import Verif.Spec.Limits
import Verif.Spec.Smooth
/-!
Lemmas: sampled cosine waves and their differences.
-/
namespace Verif
open Spec

/-- A wave that starts at zero, sampled in steps of `θ`. -/
noncomputable def sampledWave (A θ : ℝ) (n : ℕ) : ℝ := A * (1 - Real.cos (θ * n))

variable {A θ : ℝ}

theorem sampledWave_zero : sampledWave A θ 0 = 0 := by simp [sampledWave]

theorem one_sub_cos_le (θ : ℝ) : 1 - Real.cos θ ≤ θ ^ 2 / 2 := by
  have := Real.one_sub_sq_div_two_le_cos (x := θ)
  linarith

theorem cos_step (x θ : ℝ) : |Real.cos (x + θ) - Real.cos x| ≤ |θ| := by
  rw [Real.cos_sub_cos, abs_mul, abs_mul, abs_neg, abs_two]
  have h1 := Real.abs_sin_le_one ((x + θ + x) / 2)
  have h2 : |Real.sin ((x + θ - x) / 2)| ≤ |θ| / 2 := by
    rw [show (x + θ - x) / 2 = θ / 2 by ring]
    refine (Real.abs_sin_le_abs).trans ?_
    rw [abs_div, abs_two]
  have := abs_nonneg (Real.sin ((x + θ - x) / 2))
  nlinarith [abs_nonneg (Real.sin ((x + θ + x) / 2))]

theorem sampledWave_step (hA : 0 ≤ A) (hθ : 0 ≤ θ) (n : ℕ) : |sampledWave A θ (n + 1) - sampledWave A θ n| ≤ A * θ := by
  unfold sampledWave
  have e : A * (1 - Real.cos (θ * ((n + 1 : ℕ) : ℝ))) - A * (1 - Real.cos (θ * n)) = -(A * (Real.cos (θ * n + θ) - Real.cos (θ * n))) := by
    push_cast
    rw [show θ * ((n : ℝ) + 1) = θ * n + θ by ring]
    ring
  rw [e, abs_neg, abs_mul, abs_of_nonneg hA]
  refine mul_le_mul_of_nonneg_left ?_ hA
  have := cos_step (θ * n) θ
  rwa [abs_of_nonneg hθ] at this

theorem sampledWave_second (hA : 0 ≤ A) (n : ℕ) : |sampledWave A θ (n + 2) - sampledWave A θ (n + 1) - (sampledWave A θ (n + 1) - sampledWave A θ n)| ≤ A * θ ^ 2 := by
  unfold sampledWave
  have e : A * (1 - Real.cos (θ * ((n + 2 : ℕ) : ℝ))) - A * (1 - Real.cos (θ * ((n + 1 : ℕ) : ℝ))) - (A * (1 - Real.cos (θ * ((n + 1 : ℕ) : ℝ))) - A * (1 - Real.cos (θ * n))) =
      A * (2 * Real.cos (θ * n + θ) * (1 - Real.cos θ)) := by
    push_cast
    have e1 : Real.cos (θ * ((n : ℝ) + 2)) = Real.cos (θ * n + θ) * Real.cos θ - Real.sin (θ * n + θ) * Real.sin θ := by
      rw [← Real.cos_add]
      congr 1
      ring
    have e2 : Real.cos (θ * n) = Real.cos (θ * n + θ) * Real.cos θ + Real.sin (θ * n + θ) * Real.sin θ := by
      rw [← Real.cos_sub]
      congr 1
      ring
    rw [e1, e2, show θ * ((n : ℝ) + 1) = θ * n + θ by ring]
    ring
  rw [e, abs_mul, abs_of_nonneg hA]
  refine mul_le_mul_of_nonneg_left ?_ hA
  have h1 := Real.cos_le_one θ
  have h2 := one_sub_cos_le θ
  rw [abs_mul, abs_mul, abs_two, abs_of_nonneg (by linarith : 0 ≤ 1 - Real.cos θ)]
  have h3 := Real.abs_cos_le_one (θ * n + θ)
  nlinarith [abs_nonneg (Real.cos (θ * n + θ))]

theorem sampledWave_first (hA : 0 ≤ A) : |sampledWave A θ 1| ≤ A * θ ^ 2 / 2 := by
  unfold sampledWave
  rw [abs_mul, abs_of_nonneg hA, Nat.cast_one, mul_one, abs_of_nonneg (by linarith [Real.cos_le_one θ])]
  have := mul_le_mul_of_nonneg_left (one_sub_cos_le θ) hA
  linarith

theorem sampledWave_abs (hA : 0 ≤ A) (n : ℕ) : |sampledWave A θ n| ≤ 2 * A := by
  unfold sampledWave
  rw [abs_mul, abs_of_nonneg hA]
  have h1 := Real.cos_le_one (θ * n)
  have h2 := Real.neg_one_le_cos (θ * n)
  rw [abs_of_nonneg (by linarith)]
  nlinarith

/-- The second difference of the wave at a whole period is symmetric. -/
theorem sampledWave_symm {m : ℕ} {j : ℕ} (h : θ * m = 2 * Real.pi * j) (n : ℕ) : sampledWave A θ (m + n) = sampledWave A θ n := by
  unfold sampledWave
  push_cast
  rw [mul_add, h, show 2 * Real.pi * (j : ℝ) + θ * n = θ * n + (j : ℝ) * (2 * Real.pi) by ring, Real.cos_add_nat_mul_two_pi]

end Verif
