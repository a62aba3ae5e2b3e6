import Verif.Spec.Examples
import Verif.Spec.RoundedFollow
import Verif.Spec.Smooth
/-! The joint velocity examples with rounded numbers (C109). -/
namespace Verif.Spec

/-- The operations that only the examples use: `floor` and `fmod` of doubles are exact, powers are rounded. -/
noncomputable instance (A : Rounding) : FlExtra (Rd A) where
  ffloor a := FlExtra.ffloor (F := XR) a
  fmod a b := FlExtra.fmod (F := XR) a b
  powf a b := Rd.round A (FlExtra.powf (F := XR) a b)

/-- The integers of less than 54 bits are doubles: they are not rounded. -/
def KeepsIntegers (A : Rounding) : Prop := ∀ k : ℤ, |k| < 2 ^ 53 → A.rnd k = k

/-- The control calls of the joint velocity example (`ω = 1`, `T = 1`) and of the consecutive motions example (`ω = 0.2`, `T = 4`). -/
noncomputable def roundedVelocityExample (A : Rounding) (ω : ℚ) (T : ℕ) : RobotCall (Rd A) :=
  .control_motion _ .JointVelocities (Examples.velocity_callback (Fl.lit ω) (Fl.lit T)) none none none (Fl.lit 0)

/-- The robot is at rest when the motion starts, and then takes the joint velocities of each command over: `v i n` is the velocity of joint `i` in the `n`-th state. It reports
the accelerations that follow from its velocities, with errors of at most 10⁻⁷ rad/s². A millisecond passes between two states. -/
structure FollowsVelocitiesRounded {A : Rounding} (v : Fin 7 → ℕ → ℝ) (l : List (RobotState (Rd A) × RobotCommand (Rd A))) : Prop where
  first : ∀ i, v i 0 = 0
  velocity : ∀ n st x, l[n]? = some (st, x) → st.dq_d = Arr.rd fun i => v i n
  acceleration : ∀ n st x, l[n]? = some (st, x) → ∃ a : Fin 7 → ℝ, st.ddq_d = Arr.rd a ∧ ∀ i, |a i - rate (v i) n| ≤ 1 / 10 ^ 7
  next : ∀ n st x st' x', l[n]? = some (st, x) → l[n + 1]? = some (st', x') → st'.dq_d = x.motion.dq_c ∧ st'.time = st.time + 1

end Verif.Spec
