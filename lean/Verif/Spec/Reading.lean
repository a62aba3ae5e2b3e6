import Verif.Spec.Session
/-!
# What the callback of `read` is shown
-/
namespace Verif.Spec
variable {F : Type} [Fl F] {σ : Type}

/-- What the callback `cb` answers when it is shown these states one after the other; it starts with the captured value `c`. -/
def callbackAnswers (cb : σ → RobotState F → σ × Bool) : σ → List (RobotStateIntern F) → List (RobotStateIntern F × Bool)
  | _, [] => []
  | c, s :: ss => (s, (cb c (RobotState.ofIntern s)).2) :: callbackAnswers cb (cb c (RobotState.ofIntern s)).1 ss

/-- A state is received and shown to the callback. -/
def shownEvents (p : RobotStateIntern F × Bool) : List (Ev F) := [.accepted p.1, .readCb (RobotState.ofIntern p.1) p.2]

end Verif.Spec
