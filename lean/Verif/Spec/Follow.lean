import Verif.Spec.Exchange
import Verif.Spec.Real
/-!
# A robot that follows joint positions

States and the commands that answer them, see `Spec/Exchange.lean`. A millisecond passes between two states.
-/
namespace Verif.Spec

/-- The robot was in the state `st`, got the joint positions `q` and is now in the state `st'`: it has taken the positions over, and reports the velocities and the
accelerations that follow from them. -/
structure TakesOver (st : RobotState XR) (q : Arr XR 7) (st' : RobotState XR) : Prop where
  time : st'.time = st.time + 1
  position : st'.q_d = q
  velocity : ∀ i, st'.dq_d i = (st'.q_d i - st.q_d i) / .fin 0.001
  acceleration : ∀ i, st'.ddq_d i = (st'.dq_d i - st.dq_d i) / .fin 0.001

/-- The robot is at rest with the joint positions `start` when the motion starts, and then follows the joint positions of the commands. -/
structure FollowsJoints (start : Fin 7 → ℝ) (l : List (RobotState XR × RobotCommand XR)) : Prop where
  first : ∀ p ∈ l.head?, p.1.q_d = Arr.fin start ∧ p.1.dq_d = Arr.fin (fun _ => 0) ∧ p.1.ddq_d = Arr.fin fun _ => 0
  next : l.IsChain fun p p' => TakesOver p.1 p.2.motion.q_c p'.1

/-- The same for joint velocities: the robot has taken the velocities over. -/
structure TakesVelocitiesOver (st : RobotState XR) (dq : Arr XR 7) (st' : RobotState XR) : Prop where
  time : st'.time = st.time + 1
  velocity : st'.dq_d = dq
  acceleration : ∀ i, st'.ddq_d i = (st'.dq_d i - st.dq_d i) / .fin 0.001

/-- The robot is at rest when the motion starts, and then follows the joint velocities of the commands. -/
structure FollowsVelocities (l : List (RobotState XR × RobotCommand XR)) : Prop where
  first : ∀ p ∈ l.head?, p.1.dq_d = Arr.fin (fun _ => 0) ∧ p.1.ddq_d = Arr.fin fun _ => 0
  next : l.IsChain fun p p' => TakesVelocitiesOver p.1 p.2.motion.dq_c p'.1

/-- The motion is slow, or it is not a tiny one. (For tiny motions at high speed the planned path exceeds the jerk limits when it is sampled every millisecond.) -/
def Gentle (sf : ℝ) (start goal : Fin 7 → ℝ) : Prop := sf ≤ 0.37 ∨ ∃ i, 0.0002 ≤ |goal i - start i|

end Verif.Spec
