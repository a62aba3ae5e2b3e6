import Verif.Spec.ProgramMotions
import Verif.Spec.JointMotion
import Verif.Spec.RoundedFollow
/-!
# The motion to the start position of the examples, with rounded numbers
-/
namespace Verif.Spec

/-- The commands of one motion lead from `start` to `home` with half of the speed of `joint_motion`, up to 0.1 %: they are, millisecond by millisecond and up to 5·10⁻⁹ rad, on smooth
paths (see `JointPlan`) that are over when the motion ends, and the last command is `rest`, which is `home` up to 2·10⁻⁸ rad, or up to 1.2·10⁻⁶ rad for a joint that was there
from the beginning and need not move. The speed factor and the goal are given with rounded numbers. -/
structure LeadsHomeRounded {A : Rounding} (start : Fin 7 → ℝ) (l : List (RobotState (Rd A) × RobotCommand (Rd A))) (rest : Fin 7 → ℝ) : Prop where
  path : ∃ (sf L : ℝ) (goal T : Fin 7 → ℝ) (path : Fin 7 → ℝ → ℝ), |sf - 1 / 2| ≤ 1 / 10 ^ 15 ∧ (∀ i, |goal i - home i| ≤ 1 / 10 ^ 12) ∧
    (∀ i, JointPlan (start i) (goal i) (sf * jointSpeed i) (sf * jointAcceleration) L (T i) (path i)) ∧
    (∀ i, T i ≤ ((l.length - 1 : ℕ) : ℝ) / 1000 + 2 / 10 ^ 7) ∧
    ∀ (n : ℕ) p, l[n]? = some p → ∃ y : Fin 7 → ℝ, p.2.motion.q_c = Arr.rd y ∧ ∀ i, |y i - path i ((n : ℝ) / 1000)| ≤ 5 / 10 ^ 9
  arrives : ∀ p ∈ l.getLast?, p.2.motion.q_c = Arr.rd rest
  near : ∀ i, |rest i - home i| ≤ 12 / 10 ^ 7 ∧ (11 / 10 ^ 7 < |home i - start i| → |rest i - home i| ≤ 2 / 10 ^ 8)

/-- Some joint starts at least 0.00021 rad from `home`, and all are within 4 rad of zero. -/
def StartsAway (start : Fin 7 → ℝ) : Prop := (∀ i, |start i| ≤ 4) ∧ ∃ i, 0.00021 ≤ |home i - start i|

end Verif.Spec
