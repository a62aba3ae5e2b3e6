import Verif.Model.Logger
/-!
# The log of a motion
-/
namespace Verif.Spec
variable {F : Type}

/-- The loggers that arise: a new one, and what logging and flushing make of one. -/
inductive Arises (L : Nat) : Logger F → Prop where
  | new : Arises L (Logger.new L)
  | log {l l' : Logger F} (s : RobotState F) (c : RobotCommand F) : Arises L l → l.log s c = .ok l' → Arises L l'
  | flush {l l' : Logger F} (r : List (Record F)) : Arises L l → l.flush = .ok (r, l') → Arises L l'

/-- The last `L` elements of a list, or all if there are not so many. -/
def lastOf {α : Type} (L : Nat) (l : List α) : List α := l.drop (l.length - L)

/-- A record shows this state and the values of this command. -/
structure Shows (r : Record F) (p : RobotState F × RobotCommand F) : Prop where
  state : r.state = p.1
  joint_positions : r.command.joint_positions.q = p.2.motion.q_c
  joint_velocities : r.command.joint_velocities.dq = p.2.motion.dq_c
  cartesian_pose : r.command.cartesian_pose.O_T_EE = p.2.motion.O_T_EE_c
  cartesian_velocities : r.command.cartesian_velocities.O_dP_EE = p.2.motion.O_dP_EE_c
  torques : r.command.torques.tau_J = p.2.control.tau_J_d

end Verif.Spec
