import Verif.Spec.Examples
import Verif.Spec.JointMotion
import Verif.Spec.Programs
/-!
# Whole programs: how the robot moves

States and the commands that answer them, see `Spec/Exchange.lean`.
-/
namespace Verif.Spec

/-- The states and commands of one motion: the last command, and no other one, says that the motion is finished. -/
def OneMotion {F : Type} (l : List (RobotState F × RobotCommand F)) : Prop :=
  ∃ pre p, l = pre ++ [p] ∧ p.2.motion.motion_generation_finished = true ∧ ∀ q ∈ pre, q.2.motion.motion_generation_finished = false

/-- The position in which the examples start, in rad. -/
noncomputable def home : Fin 7 → ℝ := ![0, -Real.pi / 4, 0, -3 * Real.pi / 4, 0, Real.pi / 2, Real.pi / 4]

/-- The commands of one motion lead from `start` to `home` with at most half of the speed of `joint_motion`: they are, millisecond by millisecond, on smooth paths that
end when the motion ends, and the last command is `rest`, which is `home` but for a joint that was there from the beginning and need not move. -/
structure LeadsHome (start : Fin 7 → ℝ) (l : List (RobotState XR × RobotCommand XR)) (rest : Fin 7 → ℝ) : Prop where
  path : ∃ (T : ℝ) (path : Fin 7 → ℝ → ℝ), 0 ≤ T ∧ T ≤ ((l.length - 1 : ℕ) : ℝ) / 1000 ∧ ((l.length - 1 : ℕ) : ℝ) / 1000 < T + 1 / 1000 ∧
    (∀ i, ∃ a, |a - start i| ≤ 1 / 1000000 ∧ (1 / 1000000 < |home i - start i| → a = start i) ∧
      Move a (rest i) (jointSpeed i / 2) (jointAcceleration / 2) T (path i)) ∧
    ∀ (n : ℕ) p, l[n]? = some p → p.2.motion.q_c = Arr.fin fun i => path i ((n : ℝ) / 1000)
  arrives : ∀ p ∈ l.getLast?, p.2.motion.q_c = Arr.fin rest
  near : ∀ i, |rest i - home i| ≤ 1 / 1000000 ∧ (1 / 1000000 < |home i - start i| → rest i = home i)

end Verif.Spec
