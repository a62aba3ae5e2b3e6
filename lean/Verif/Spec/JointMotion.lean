import Verif.Spec.Real
import Verif.Spec.Rounding
import Verif.Model.MotionGen
import Mathlib.Analysis.Calculus.Deriv.Basic
/-!
# Joint motions from one position to another
-/
namespace Verif.Spec

/-- The position `x` of a joint over time moves from `a` to `b`: it rests at `a` up to time 0 and at `b` from time `T` on and not earlier; it has a
velocity at all times, which always points to `b`, is at most `V` and changes at most by `A` per second. -/
structure Move (a b V A T : ℝ) (x : ℝ → ℝ) : Prop where
  before : ∀ t ≤ 0, x t = a
  after : ∀ t, T ≤ t → x t = b
  not_earlier : a ≠ b → ∀ t < T, x t ≠ b
  velocity : ∃ v : ℝ → ℝ, (∀ t, HasDerivAt x (v t) t) ∧ (∀ t, (a ≤ b → 0 ≤ v t) ∧ (b ≤ a → v t ≤ 0)) ∧ (∀ t, |v t| ≤ V) ∧
    ∀ s t, |v t - v s| ≤ A * |t - s|

/-- The greatest velocities of the joints at full speed, in rad/s. -/
noncomputable def jointSpeed : Fin 7 → ℝ := ![2, 2, 2, 2, 2.5, 2.5, 2.5]

/-- The greatest acceleration of the joints at full speed, in rad/s². -/
noncomputable def jointAcceleration : ℝ := 5

/-- What a `MotionGenerator` answers when it is called with these states and periods (in ms), one after the other. -/
def answers {F : Type} [Fl F] (g : MotionGenerator F) : List (RobotState F × Nat) → List (JointPositions F)
  | [] => []
  | (s, p) :: cs => (g.generate_motion s p).2 :: answers (g.generate_motion s p).1 cs

/-- The time of each call in seconds, if the first of them is the time `t` (in ms) plus its period. -/
noncomputable def callTimes {F : Type} (t : Nat) : List (RobotState F × Nat) → List ℝ
  | [] => []
  | (_, p) :: cs => ((t + p : Nat) : ℝ) / 1000 :: callTimes (t + p) cs

/-- The time a joint needs for the way `d` if it speeds up and slows down smoothly, with an acceleration of at most `A`, and its velocity is at most
`V`: a short way is covered without reaching `V`. -/
noncomputable def profileTime (V A d : ℝ) : ℝ := if d < 3 / 2 * V ^ 2 / A then Real.sqrt (6 * d / A) else 3 / 2 * V / A + d / V

/-- What is planned for a joint if numbers are rounded: the joint moves from `start` to `goal` on the path `x` in the time `T`, exceeding the velocity
`V` and the acceleration `a` by 0.1 % at most. All joints that move do so in the same time `L` up to 0.1 %, which is long enough for each of them. A joint
with less than 1.001e-6 to go may rest; its path then is where it is or where it shall be. -/
structure JointPlan (start goal V a L T : ℝ) (x : ℝ → ℝ) : Prop where
  path : ∃ p q, |p - start| ≤ 1001 / 10 ^ 9 ∧ |q - goal| ≤ 1001 / 10 ^ 9 ∧ (1001 / 10 ^ 9 < |goal - start| → p = start ∧ |q - goal| ≤ 1 / 10 ^ 14) ∧
    Move p q (1001 / 1000 * V) (1001 / 1000 * a) T x
  time : T = 0 ∨ |T - L| ≤ L / 1000
  least : 1001 / 10 ^ 9 < |goal - start| → T ≠ 0 ∧ profileTime V a (|goal - start|) ≤ 1001 / 1000 * L

/-- What the answer `y` at time `t` has to do with the paths of the joints, which take the times `T`, if numbers are rounded: it is on the paths up to a
few 1e-9 rad, and it is the last one if and, up to a few 1e-9 s, only if the time of every path is over; then the joints are at their goals. -/
structure NearPath {A : Rounding} (start goal T : Fin 7 → ℝ) (path : Fin 7 → ℝ → ℝ) (t : ℝ) (y : JointPositions (Rd A)) : Prop where
  near : ∃ q : Fin 7 → ℝ, y.q = Arr.rd q ∧ (∀ i, |q i - path i t| ≤ (2 + t) / 10 ^ 9) ∧
    (y.motion_finished = true → ∀ i, |q i - goal i| ≤ 11 / 10 ^ 7 ∧ (1001 / 10 ^ 9 < |goal i - start i| → |q i - goal i| ≤ 1 / 10 ^ 8))
  over : y.motion_finished = true → ∀ i, T i ≤ t + (1 + t) / 10 ^ 9
  ends : (∀ i, T i + (1 + t) / 10 ^ 9 ≤ t) → y.motion_finished = true

end Verif.Spec
