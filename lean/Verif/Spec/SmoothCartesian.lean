import Verif.Spec.Smooth
import Verif.Spec.Cartesian
/-!
# Filtered Cartesian signals

A signal has a value for each of its components every millisecond, see `Spec/Smooth.lean`.
-/
namespace Verif.Spec

/-- The value of a signal at the time `n`. -/
def sample {k : ℕ} (x : Fin k → ℕ → ℝ) (n : ℕ) : Fin k → ℝ := fun i => x i n

/-- The velocities of the translation and those of the rotation. -/
def translation (x : Fin 6 → ℕ → ℝ) : Fin 3 → ℕ → ℝ := fun i n => linear (sample x n) i
def rotation (x : Fin 6 → ℕ → ℝ) : Fin 3 → ℕ → ℝ := fun i n => angular (sample x n) i

/-- In the first `N` steps the signal `y` is the signal `u` after a low pass of first order with the cutoff frequency `f` in Hz, up to the error `ε`. -/
def NearlyLowPassedFor (N : ℕ) (ε f : ℝ) (u y : Fin 3 → ℕ → ℝ) : Prop :=
  ∀ n < N, len (fun i => y i (n + 1) + (y i (n + 1) - y i n) / 0.001 / (2 * Real.pi * f) - u i n) ≤ ε

/-- The sampled velocity stays a little below the limits in the first `N` steps, see `CartesianAllowed` in Spec/Cartesian.lean and `below` in
Spec/Transparent.lean. -/
def CartesianAllowedFor (N : ℕ) (L : Limits) (v : Fin 3 → ℕ → ℝ) : Prop :=
  ∀ n < N, CartesianAllowed (below (below L)) (sample v (n + 1)) (sample v n) (fun i => rate (v i) n)

end Verif.Spec
