import Verif.Spec.Follow
import Verif.Spec.Smooth
import Verif.Spec.Session
import Verif.Spec.Motion
import Verif.Model.Examples
import Mathlib.Analysis.SpecialFunctions.Pow.Real
/-!
# What the example programs are to do
-/
namespace Verif.Spec

/-- The joint position example swings the joints 4, 5 and 7 by up to 45 degrees and back, in five seconds. -/
noncomputable def swing (i : Fin 7) (t : ℝ) : ℝ := if i = 3 ∨ i = 4 ∨ i = 6 then Real.pi / 8 * (1 - Real.cos (2 * Real.pi * t / 5)) else 0

/-- The control call of the joint position example. -/
noncomputable def positionExample : RobotCall XR := .control_motion _ .JointPositions Examples.position_callback none none none Examples.PositionState.new

/-- `floor`, `fmod` and `pow` of real numbers. Those of infinite numbers, which the examples do not use, are not distinguished here. -/
noncomputable instance : FlExtra XR where
  ffloor
    | .fin x => .fin ⌊x⌋
    | x => x
  fmod
    | .fin x, .fin y => if y = 0 then .nan else .fin (x - y * if 0 ≤ x / y then (⌊x / y⌋ : ℝ) else ⌈x / y⌉)
    | _, _ => .nan
  powf
    | .fin x, .fin y => if (x < 0 ∧ y ≠ ⌊y⌋) ∨ (x = 0 ∧ y < 0) then .nan else .fin (x ^ y)
    | _, _ => .nan

/-- The joint velocity example turns the joints 4 to 7 forth for the time `T` and back for the time `T`, with angular velocities up to `ω`. -/
noncomputable def forthAndBack (ω T : ℝ) (i : Fin 7) (t : ℝ) : ℝ :=
  if 3 ≤ i then (if t < T then 1 else -1) * (ω / 2 * (1 - Real.cos (2 * Real.pi * t / T))) else 0

/-- The control calls of the joint velocity example (`ω = 1`, `T = 1`) and of the consecutive motions example (`ω = 0.2`, `T = 4`). -/
noncomputable def velocityExample (ω T : ℚ) : RobotCall XR := .control_motion _ .JointVelocities (Examples.velocity_callback (Fl.lit ω) (Fl.lit T)) none none none (Fl.lit 0)

/-! ## The communication test -/

/-- The control call of the communication test. -/
def communicationTest {F : Type} [Fl F] : RobotCall F := .control_torques _ Examples.communication_callback (some false) (some (Fl.lit 1000)) Examples.CommunicationState.new

/-- What the communication test has counted when these are the events of its control call. -/
def counted {F : Type} [Fl F] (tr : List (Ev F)) : Examples.CommunicationState F := capturedAfter Examples.communication_callback .new (torqueCalls tr)

/-- The success rate that a robot state shows. -/
noncomputable def successRate (st : RobotState XR) : ℝ := match st.control_command_success_rate with
  | .fin r => r
  | _ => 0

end Verif.Spec
