import Verif.Spec.Limits
/-!
# Limits of Cartesian motions

Velocities are vectors in metres or radians per second, sampled every millisecond.
-/
namespace Verif.Spec

/-- The Euclidean length. -/
noncomputable def len (v : Fin 3 → ℝ) : ℝ := √(v 0 ^ 2 + v 1 ^ 2 + v 2 ^ 2)

/-- The limits of the translation of the end effector (m/s, m/s², m/s³), as in the documentation of the robot. -/
noncomputable def translationLimits : Limits := ⟨2, 13, 6500⟩
/-- The limits of its rotation (rad/s, rad/s², rad/s³). -/
noncomputable def rotationLimits : Limits := ⟨2.5, 25, 12500⟩

/-- A step from the velocity `v` to the velocity `v'` respects the limits for velocity and acceleration. -/
structure StepRespects (L : Limits) (v v' : Fin 3 → ℝ) : Prop where
  velocity : len v' ≤ L.velocity
  acceleration : len (fun i => (v' i - v i) / 0.001) ≤ L.acceleration

/-- The first three components. -/
def linear (x : Fin 6 → ℝ) : Fin 3 → ℝ := ![x 0, x 1, x 2]
/-- The last three components. -/
def angular (x : Fin 6 → ℝ) : Fin 3 → ℝ := ![x 3, x 4, x 5]

/-- What a velocity command `u` must satisfy to be sent unchanged, if the last velocity and acceleration are `v` and `a`: it respects the limits for
jerk and acceleration, and the velocity that would be reached if the acceleration were kept for the time `acceleration / jerk` is not too high. -/
structure CartesianAllowed (L : Limits) (u v a : Fin 3 → ℝ) : Prop where
  jerk : len (fun i => ((u i - v i) / 0.001 - a i) / 0.001) ≤ L.jerk
  acceleration : len (fun i => (u i - v i) / 0.001) ≤ L.acceleration
  margin : len (fun i => v i + L.acceleration / L.jerk * ((u i - v i) / 0.001)) ≤ L.velocity

/-- Zero or longer than the smallest length the code distinguishes from zero (`f64::EPSILON`). -/
def NotTiny (x : Fin 3 → ℝ) : Prop := (∀ i, x i = 0) ∨ 2⁻¹ ^ 52 < len x

/-- `NotTiny` for the jerk and the acceleration that a command asks for. -/
structure NoTinySteps (u v a : Fin 3 → ℝ) : Prop where
  jerk : NotTiny fun i => ((u i - v i) / 0.001 - a i) / 0.001
  acceleration : NotTiny fun i => (u i - v i) / 0.001

end Verif.Spec
