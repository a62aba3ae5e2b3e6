import Verif.Spec.Exchange
import Verif.Spec.Limits
import Verif.Spec.Rounding
/-!
# A robot that follows joint positions, with rounded numbers

States and the commands that answer them, see `Spec/Exchange.lean`. A millisecond passes between two states.
-/
namespace Verif.Spec

/-- The robot has the joint positions `start` and is at rest when the motion starts, and then takes the joint positions of each command over: `q i n` is the position of joint
`i` in the `n`-th state. It reports the velocities and the accelerations that follow from its positions, with errors of at most 10⁻¹⁰ rad/s and 10⁻⁷ rad/s². -/
structure FollowsRounded {A : Rounding} (start : Fin 7 → ℝ) (q : Fin 7 → ℕ → ℝ) (l : List (RobotState (Rd A) × RobotCommand (Rd A))) : Prop where
  first : ∀ i, q i 0 = start i
  position : ∀ n st x, l[n]? = some (st, x) → st.q_d = Arr.rd fun i => q i n
  velocity : ∀ n st x, l[n]? = some (st, x) → ∃ v : Fin 7 → ℝ, st.dq_d = Arr.rd v ∧ ∀ i, |v i - rate (q i) n| ≤ 1 / 10 ^ 10
  acceleration : ∀ n st x, l[n]? = some (st, x) → ∃ a : Fin 7 → ℝ, st.ddq_d = Arr.rd a ∧ ∀ i, |a i - rate (rate (q i)) n| ≤ 1 / 10 ^ 7
  next : ∀ n st x st' x', l[n]? = some (st, x) → l[n + 1]? = some (st', x') → st'.q_d = x.motion.q_c ∧ st'.time = st.time + 1

end Verif.Spec
