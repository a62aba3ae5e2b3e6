import Verif.Props.MirrorProgram
import Verif.Props.ProgramsExample
import Verif.Props.ImpedanceExample
/-!
Runs of the mirror example, for C102. There is only one number here, so that every motion to the start position ends with its first command.
-/
namespace Verif
open Prog Spec Examples

namespace Toy

/-- The user's robot is connected, its settings are answered, the last of them with `status`, and a state is sent. -/
def userScript (status : UInt8) : List Tick := handshake ++ (asking (response 2 1 0)).script ++ (asking (response 3 2 0)).script ++ (asking (response 4 3 status)).script ++
  ([quiet] ++ st 8 0 3 1)

/-- The mirror is connected, sends the model, and its settings are answered. -/
def mirrorScript : List Tick := handshake ++ loading { accept := 10 } ++ (asking (response 2 2 0)).script ++ (asking (response 3 3 0)).script ++ (asking (response 4 4 0)).script

/-- How the program ends (0 Ok, 1 error, 2 panic, 3 it hangs), and what the two robots are asked for. -/
def mirrorShown (e : MirrorEnd Unit) : ℕ × List ℕ × List ℕ :=
  ((match e.result with | .ok _ => 0 | .err _ => 1 | .panic _ => 2 | .blocked => 3), (Spec.asked e.user).map bodyKind, (Spec.asked e.mirror).map bodyKind)

/-- Both robots reach the start position. Then the mirror refuses to be controlled with torques. -/
def mirrorPair : Pair Unit := ⟨unitWorld (userScript 0 ++ oneMotion 1 0 10 4 ++ [quiet]), unitWorld (mirrorScript ++ oneMotion 1 0 10 5 ++ (asking (response 1 6 3)).script)⟩

/-- The user's robot refuses to go to the start position. -/
def refusingPair : Pair Unit := ⟨unitWorld (userScript 0 ++ (asking (response 1 4 3)).script), unitWorld (mirrorScript ++ oneMotion 1 0 10 5)⟩

/-- The mirror refuses to go to the start position. -/
def refusingMirror : Pair Unit := ⟨unitWorld (userScript 0 ++ oneMotion 1 0 10 4), unitWorld (mirrorScript ++ (asking (response 1 5 3)).script)⟩

/-- The user's robot refuses its last setting. -/
def unpreparedPair : Pair Unit := ⟨unitWorld (userScript 1), unitWorld (mirrorScript ++ oneMotion 1 0 10 5)⟩

end Toy
open Toy

variable [GeoExtra Unit] (model : ModelLibrary Unit) (received : ℕ → Option (Arr Unit 16))

/-- C102: the error of the mirror is the result. By then the thread of the user's robot may have asked for nothing, or for the motion with torques (101). -/
example : Fresh mirrorPair.user ∧ Fresh mirrorPair.mirror ∧
    mirrorShown (mirror_robot model .enter received 0 mirrorPair) = (1, [9, 9, 9, 9, 100], [9, 9, 9, 9, 9, 100, 101]) ∧
    mirrorShown (mirror_robot model .enter received 1000 mirrorPair) = (1, [9, 9, 9, 9, 100, 101], [9, 9, 9, 9, 9, 100, 101]) :=
  ⟨unit_fresh _, unit_fresh _, by kernel_rfl, by kernel_rfl⟩

/-- C102: nobody presses Enter. -/
example : mirrorShown (mirror_robot model .silence received 0 mirrorPair) = (3, [9, 9, 9, 9], [9, 9, 9, 9, 9]) := by kernel_rfl

/-- C102: if the user's robot does not reach the start position then the program panics, although the mirror has reached it. -/
example : Fresh refusingPair.user ∧ Fresh refusingPair.mirror ∧
    mirrorShown (mirror_robot model .enter received 0 refusingPair) = (2, [9, 9, 9, 9, 100], [9, 9, 9, 9, 9, 100]) :=
  ⟨unit_fresh _, unit_fresh _, by kernel_rfl⟩

/-- C102: if the mirror does not reach the start position then the program ends while the user's robot may be on its way. -/
example : Fresh refusingMirror.user ∧ Fresh refusingMirror.mirror ∧
    mirrorShown (mirror_robot model .enter received 20 refusingMirror) = (1, [9, 9, 9, 9, 100], [9, 9, 9, 9, 9, 100]) :=
  ⟨unit_fresh _, unit_fresh _, by kernel_rfl⟩

/-- C102: a setting is refused, and neither robot moves. -/
example : Fresh unpreparedPair.user ∧ Fresh unpreparedPair.mirror ∧ mirrorShown (mirror_robot model .enter received 0 unpreparedPair) = (1, [9, 9, 9, 9], [9, 9, 9, 9, 9]) :=
  ⟨unit_fresh _, unit_fresh _, by kernel_rfl⟩

/-- C102: the robots of the first example get ready and reach the start position. -/
example : ∃ st u' m', BothReady mirrorPair.user mirrorPair.mirror st u' m' ∧ (toStart.run u').1 = .ok () ∧ (toStart.run m').1 = .ok () := by
  have h : (2 ≤ moves (Spec.asked (mirror_robot model .enter received 1000 mirrorPair).mirror)) := by
    rw [show moves (Spec.asked (mirror_robot model .enter received 1000 mirrorPair).mirror) = 2 by kernel_rfl]
  exact (C102_order (u := mirrorPair.user) (m := mirrorPair.mirror) model .enter received 1000 (unit_fresh _) (unit_fresh _)).2 (.inr h)

end Verif
