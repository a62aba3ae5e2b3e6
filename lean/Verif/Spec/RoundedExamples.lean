import Verif.Spec.Examples
import Verif.Spec.RoundedFollow
import Verif.Spec.Smooth
/-! The joint position example with rounded numbers (C108). -/
namespace Verif.Spec

/-- The control call of the joint position example. -/
noncomputable def roundedPositionExample (A : Rounding) : RobotCall (Rd A) :=
  .control_motion _ .JointPositions Examples.position_callback none none none Examples.PositionState.new

end Verif.Spec
