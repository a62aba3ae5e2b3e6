import Verif.Spec.Examples
import Verif.Spec.SmoothCartesian
import Verif.Spec.Rotation
/-!
# What the Cartesian example programs are to do
-/
namespace Verif.Spec

/-- The Cartesian velocity example moves the end effector forward and down (x and z in equal parts) for four seconds and back for four seconds, at up to 0.1 m/s.
It does not turn it. -/
noncomputable def downAndBack (i : Fin 6) (t : ℝ) : ℝ :=
  let v := (if t < 4 then 1 else -1) * (0.05 * (1 - Real.cos (2 * Real.pi * t / 4)))
  ![v / √2, 0, -v / √2, 0, 0, 0] i

/-- The control call of the Cartesian velocity example. -/
noncomputable def cartesianVelocityExample : RobotCall XR := .control_motion _ .CartesianVelocities Examples.cartesian_velocity_callback none none none (Fl.lit 0)

/-- The robot was in the state `st`, got the velocity `v` of the end effector and is now in the state `st'`: it has taken the velocity over. -/
structure TakesTwistOver (st : RobotState XR) (v : Arr XR 6) (st' : RobotState XR) : Prop where
  time : st'.time = st.time + 1
  velocity : st'.O_dP_EE_c = v
  acceleration : ∀ i, st'.O_ddP_EE_c i = (st'.O_dP_EE_c i - st.O_dP_EE_c i) / .fin 0.001

/-- The robot is at rest when the motion starts, and then follows the velocities of the commands. -/
structure FollowsTwists (l : List (RobotState XR × RobotCommand XR)) : Prop where
  first : ∀ p ∈ l.head?, p.1.O_dP_EE_c = Arr.fin (fun _ => 0) ∧ p.1.O_ddP_EE_c = Arr.fin fun _ => 0
  next : l.IsChain fun p p' => TakesTwistOver p.1 p.2.motion.O_dP_EE_c p'.1

/-! ## Poses and the elbow -/

/-- The pose example moves the end effector on a circle with a radius of 0.3 m, forward and down by up to 90 degrees, and back again: the way from the start after `t`
seconds. -/
noncomputable def arc (i : Fin 3) (t : ℝ) : ℝ :=
  let φ := Real.pi / 4 * (1 - Real.cos (Real.pi / 5 * t))
  ![0.3 * Real.sin φ, 0, 0.3 * (Real.cos φ - 1)] i

/-- The elbow example moves the elbow by up to 36 degrees, and back again. -/
noncomputable def elbowWay (t : ℝ) : ℝ := Real.pi / 10 * (1 - Real.cos (Real.pi / 5 * t))

/-- The control calls of the examples. -/
noncomputable def poseExample : RobotCall XR := .control_motion _ .CartesianPose Examples.pose_callback none none none Examples.PoseState.new
noncomputable def elbowExample : RobotCall XR := .control_motion _ .CartesianPose Examples.elbow_callback none none none Examples.ElbowState.new

/-- The robot was in the state `st`, got the pose `T` (see `pose`) and is now in the state `st'`: it has taken the pose over, and reports the velocities that follow from
the positions; it reports no turning if the rotation is the same. -/
structure TakesPoseOver (st : RobotState XR) (T : Arr XR 16) (st' : RobotState XR) : Prop where
  time : st'.time = st.time + 1
  position : st'.O_T_EE_c = T
  velocity : ∀ i : Fin 3, st'.O_dP_EE_c ⟨i, by omega⟩ = (st'.O_T_EE_c ⟨12 + i, by omega⟩ - st.O_T_EE_c ⟨12 + i, by omega⟩) / .fin 0.001
  turning : (∀ i < 12, st'.O_T_EE_c i = st.O_T_EE_c i) → ∀ i : Fin 3, st'.O_dP_EE_c ⟨3 + i, by omega⟩ = .fin 0
  acceleration : ∀ i, st'.O_ddP_EE_c i = (st'.O_dP_EE_c i - st.O_dP_EE_c i) / .fin 0.001

/-- The end effector of the robot is at rest at `x` with the rotation `R` when the motion starts, and then follows the commands. -/
structure FollowsPoses (x : Fin 3 → ℝ) (R : M3) (l : List (RobotState XR × RobotCommand XR)) : Prop where
  first : ∀ p ∈ l.head?, p.1.O_T_EE_c = Arr.fin (pose x R) ∧ p.1.O_dP_EE_c = Arr.fin (fun _ => 0) ∧ p.1.O_ddP_EE_c = Arr.fin fun _ => 0
  next : l.IsChain fun p p' => TakesPoseOver p.1 p.2.motion.O_T_EE_c p'.1

/-- The same for the elbow. -/
structure TakesElbowOver (st : RobotState XR) (e : Arr XR 2) (st' : RobotState XR) : Prop where
  position : st'.elbow_c = e
  velocity : st'.delbow_c 0 = (st'.elbow_c 0 - st.elbow_c 0) / .fin 0.001
  acceleration : st'.ddelbow_c 0 = (st'.delbow_c 0 - st.delbow_c 0) / .fin 0.001

/-- The elbow of the robot is at rest at `e` with the sign `s` when the motion starts, and then follows the commands. -/
structure FollowsElbow (e s : ℝ) (l : List (RobotState XR × RobotCommand XR)) : Prop where
  first : ∀ p ∈ l.head?, p.1.elbow_c = Arr.fin ![e, s] ∧ p.1.delbow_c 0 = .fin 0 ∧ p.1.ddelbow_c 0 = .fin 0
  next : l.IsChain fun p p' => TakesElbowOver p.1 p.2.motion.elbow_c p'.1

end Verif.Spec
