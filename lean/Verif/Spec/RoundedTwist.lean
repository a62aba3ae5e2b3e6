import Verif.Spec.CartesianExamples
import Verif.Spec.RoundedVelocity
/-! The Cartesian velocity example with rounded numbers (C110). -/
namespace Verif.Spec

/-- The control call of the Cartesian velocity example. -/
noncomputable def roundedTwistExample (A : Rounding) : RobotCall (Rd A) := .control_motion _ .CartesianVelocities Examples.cartesian_velocity_callback none none none (Fl.lit 0)

/-- The robot is at rest when the motion starts, and then takes the velocity of the end effector in each command over: `v i n` is the component `i` of the velocity in the
`n`-th state. It reports the accelerations that follow from its velocities, with errors of at most 10⁻⁷ m/s² and rad/s². A millisecond passes between two states. -/
structure FollowsTwistsRounded {A : Rounding} (v : Fin 6 → ℕ → ℝ) (l : List (RobotState (Rd A) × RobotCommand (Rd A))) : Prop where
  first : ∀ i, v i 0 = 0
  velocity : ∀ n st x, l[n]? = some (st, x) → st.O_dP_EE_c = Arr.rd fun i => v i n
  acceleration : ∀ n st x, l[n]? = some (st, x) → ∃ a : Fin 6 → ℝ, st.O_ddP_EE_c = Arr.rd a ∧ ∀ i, |a i - rate (v i) n| ≤ 1 / 10 ^ 7
  next : ∀ n st x st' x', l[n]? = some (st, x) → l[n + 1]? = some (st', x') → st'.O_dP_EE_c = x.motion.O_dP_EE_c ∧ st'.time = st.time + 1

end Verif.Spec
