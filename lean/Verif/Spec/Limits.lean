import Verif.Spec.Real
/-!
# Limits of motions

A motion is sampled every millisecond. Accelerations and jerks are difference quotients.
-/
namespace Verif.Spec

/-- Limits for the velocity, the acceleration and the jerk of one axis. -/
structure Limits where
  velocity : ℝ
  acceleration : ℝ
  jerk : ℝ

/-- The limits of the seven joints (rad/s, rad/s², rad/s³), as in the documentation of the robot. -/
noncomputable def jointLimits : Fin 7 → Limits := ![⟨2.175, 15, 7500⟩, ⟨2.175, 7.5, 3750⟩, ⟨2.175, 10, 5000⟩, ⟨2.175, 12.5, 6250⟩,
  ⟨2.61, 15, 7500⟩, ⟨2.61, 20, 10000⟩, ⟨2.61, 20, 10000⟩]

/-- The limits of the elbow. -/
noncomputable def elbowLimits : Limits := ⟨2.175, 10, 5000⟩

/-- The rate of change of a sampled signal that rests before the first sample. -/
noncomputable def rate (v : ℕ → ℝ) : ℕ → ℝ
  | 0 => 0
  | n + 1 => (v (n + 1) - v n) / 0.001

/-- A sampled velocity respects limits, in every step. -/
def VelocityRespects (L : Limits) (v : ℕ → ℝ) : Prop := ∀ n,
  |v n| ≤ L.velocity ∧ |rate v n| ≤ L.acceleration ∧ |(rate v (n + 1) - rate v n) / 0.001| ≤ L.jerk

/-- The same for the first `N` steps. -/
def VelocityRespectsFor (N : ℕ) (L : Limits) (v : ℕ → ℝ) : Prop := ∀ n < N,
  |v (n + 1)| ≤ L.velocity ∧ |rate v (n + 1)| ≤ L.acceleration ∧ |(rate v (n + 1) - rate v n) / 0.001| ≤ L.jerk

/-- A sampled position respects limits in the first `N` steps. -/
def PositionRespectsFor (N : ℕ) (L : Limits) (x : ℕ → ℝ) : Prop := VelocityRespectsFor N L (rate x)

/-- A sampled position respects limits, in every step. -/
def PositionRespects (L : Limits) (x : ℕ → ℝ) : Prop := VelocityRespects L (rate x)

/-- A commanded velocity `u` after the velocity `v` and the acceleration `a` respects the limits; near the velocity limit only smaller accelerations
are safe, in proportion to the distance to the limit. -/
structure Allowed (L : Limits) (u v a : ℝ) : Prop where
  acceleration : |(u - v) / 0.001| ≤ L.acceleration
  jerk : |((u - v) / 0.001 - a) / 0.001| ≤ L.jerk
  above : (u - v) / 0.001 ≤ L.jerk / L.acceleration * (L.velocity - v)
  below : -(L.jerk / L.acceleration * (L.velocity + v)) ≤ (u - v) / 0.001

end Verif.Spec
