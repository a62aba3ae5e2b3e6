import Verif.Spec.ProgramMotions
/-!
# Several motions in a program: where one ends and the next one starts
-/
namespace Verif.Spec

/-- `tr` is what happens before the first Move request, and then one part for each Move request: the request and everything until the next one. -/
structure Divided {F : Type} (tr before : List (Ev F)) (parts : List (List (Ev F))) : Prop where
  all : tr = before ++ parts.flatten
  before : ∀ e ∈ before, ¬ IsMove e
  each : ∀ m ∈ parts, ∃ e rest, m = e :: rest ∧ IsMove e ∧ ∀ e' ∈ rest, ¬ IsMove e'

/-- The robot is asked to recover from an error. -/
def Recovers {F : Type} (tr : List (Ev F)) : Prop := ∃ h, .robotReq ⟨h, .AutomaticErrorRecovery⟩ ∈ tr

/-- The commands of one motion turn the joints 4 to 7 forth and back, at most with 0.2 rad/s, in two times four seconds. Motions that are interrupted are the first part of that. -/
structure TurnsForthAndBack (l : List (RobotState XR × RobotCommand XR)) : Prop where
  commands : ∃ v : Fin 7 → ℕ → ℝ, (∀ (n : ℕ) p, l[n]? = some p → p.2.motion.dq_c = Arr.fin (fun i => v i n) ∧
      ∀ i, |v i n - forthAndBack (1 / 5) 4 i ((n : ℝ) / 1000)| ≤ 0.00025) ∧
    (OneMotion l → ∀ i, |∑ n ∈ Finset.range l.length, v i n * 0.001| ≤ 0.00001)
  long : l.length ≤ 8001 ∧ (OneMotion l → l.length = 8001)

end Verif.Spec
