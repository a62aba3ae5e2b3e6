import Verif.Spec.SmoothCartesian
/-!
# Motions that keep a small distance to the limits

A motion is sampled every millisecond.
-/
namespace Verif.Spec

/-- 99.9 % of limits. -/
noncomputable def mostOf (L : Limits) : Limits := ⟨0.999 * L.velocity, 0.999 * L.acceleration, 0.999 * L.jerk⟩

/-- The sampled velocity stays within 99.9 % of the limits in the first `N` steps, see `Allowed` in Spec/Limits.lean. -/
def VelocityInside (N : ℕ) (L : Limits) (v : ℕ → ℝ) : Prop := |v 0| ≤ (mostOf L).velocity ∧ ∀ n < N, Allowed (mostOf L) (v (n + 1)) (v n) (rate v n)

/-- The same for a sampled position. -/
def PositionInside (N : ℕ) (L : Limits) (x : ℕ → ℝ) : Prop := VelocityInside N L (rate x)

/-- The sampled Cartesian velocity stays within 99.9 % of the limits in the first `N` steps, see `CartesianAllowed` in Spec/Cartesian.lean. -/
def CartesianInside (N : ℕ) (L : Limits) (v : Fin 3 → ℕ → ℝ) : Prop :=
  len (sample v 0) ≤ (mostOf L).velocity ∧ ∀ n < N, CartesianAllowed (mostOf L) (sample v (n + 1)) (sample v n) fun i => rate (v i) n

end Verif.Spec
