import Verif.Spec.Motion
import Verif.Spec.Cartesian
import Verif.Spec.Nalgebra
/-!
# Values that need no limiting

What the values a callback returns must satisfy, given the state it was called with, to respect the limits. The limits in the code are a little below the
documented ones.
-/
namespace Verif.Spec

section
variable {F : Type}

/-- The motion callback that was called last got this state and returned this output. -/
def LastMotion (tr : List (Ev F)) (k : MotionKind) (st : RobotState F) (out : Motion F k) : Prop :=
  ∃ pre dt post, tr = pre ++ .motionCb k st dt out :: post ∧ ∀ e ∈ post, ∀ k' st' dt' out', e ≠ .motionCb k' st' dt' out'

/-- The torque callback that was called last got this state and returned this output. -/
def LastTorque (tr : List (Ev F)) (st : RobotState F) (out : Torques F) : Prop :=
  ∃ pre dt post, tr = pre ++ .controlCb st dt out :: post ∧ ∀ e ∈ post, ∀ st' dt' out', e ≠ .controlCb st' dt' out'

/-- No torque callback was called. -/
def NoTorqueYet (tr : List (Ev F)) : Prop := ∀ e ∈ tr, ∀ st dt out, e ≠ .controlCb st dt out

end

/-- Limits that are a little below these. -/
noncomputable def below (L : Limits) : Limits where
  velocity := L.velocity - 0.001 - 0.000001 * (L.acceleration - 0.001)
  acceleration := L.acceleration - 0.001
  jerk := L.jerk - 0.001

/-- An elbow position that respects the limits, with a valid sign. -/
def ElbowAdmissible (e : Arr XR 2) (st : RobotState XR) : Prop :=
  ∃ u s x v a : ℝ, e = Arr.fin ![u, s] ∧ |s| = 1 ∧ st.elbow_c 0 = .fin x ∧ st.delbow_c 0 = .fin v ∧ st.ddelbow_c 0 = .fin a ∧
    Allowed (below elbowLimits) ((u - x) / 0.001) v a

/-- Joint positions that respect the limits. -/
def PositionsAdmissible (q : Arr XR 7) (st : RobotState XR) : Prop :=
  ∃ u x v a : Fin 7 → ℝ, q = Arr.fin u ∧ st.q_d = Arr.fin x ∧ st.dq_d = Arr.fin v ∧ st.ddq_d = Arr.fin a ∧
    ∀ i, Allowed (below (jointLimits i)) ((u i - x i) / 0.001) (v i) (a i)

/-- Joint velocities that respect the limits. -/
def VelocitiesAdmissible (dq : Arr XR 7) (st : RobotState XR) : Prop :=
  ∃ u v a : Fin 7 → ℝ, dq = Arr.fin u ∧ st.dq_d = Arr.fin v ∧ st.ddq_d = Arr.fin a ∧ ∀ i, Allowed (below (jointLimits i)) (u i) (v i) (a i)

/-- Cartesian velocities that respect the limits. -/
def TwistAdmissible (x : Arr XR 6) (st : RobotState XR) : Prop :=
  ∃ u v a : Fin 6 → ℝ, x = Arr.fin u ∧ st.O_dP_EE_c = Arr.fin v ∧ st.O_ddP_EE_c = Arr.fin a ∧ len (linear v) ≤ 1.99 ∧ len (angular v) ≤ 2.49 ∧
    CartesianAllowed (below translationLimits) (linear u) (linear v) (linear a) ∧ CartesianAllowed (below rotationLimits) (angular u) (angular v) (angular a) ∧
    NoTinySteps (linear u) (linear v) (linear a) ∧ NoTinySteps (angular u) (angular v) (angular a)

/-- A pose that respects the limits: it is a rigid one, and the turn `w` that leads to it from the last one and the translation are allowed. The code limits
rotations to 0.99 of the documented limits. -/
def PoseAdmissible (x : Arr XR 16) (st : RobotState XR) : Prop :=
  ∃ (p p0 : Fin 16 → ℝ) (v a : Fin 6 → ℝ) (w : Fin 3 → ℝ), x = Arr.fin p ∧ st.O_T_EE_c = Arr.fin p0 ∧ st.O_dP_EE_c = Arr.fin v ∧ st.O_ddP_EE_c = Arr.fin a ∧
    BottomRow p ∧ IsRotation (rotationPart p) ∧ ¬ IsHalfTurn (rotationPart p) ∧ IsRotation (rotationPart p0) ∧ ¬ IsHalfTurn (rotationPart p0) ∧
    rotationPart p = turn w * rotationPart p0 ∧ len w < Real.pi ∧ ((∀ i, w i = 0) ∨ 2⁻¹ ^ 52 < len fun i => w i / 0.001) ∧
    len (linear v) ≤ 1.99 ∧ len (angular v) ≤ 2.46 ∧
    CartesianAllowed (below translationLimits) (fun i => (position p i - position p0 i) / 0.001) (linear v) (linear a) ∧
    CartesianAllowed ⟨0.99 * (below rotationLimits).velocity, 0.99 * (below rotationLimits).acceleration, 0.99 * (below rotationLimits).jerk⟩
      (fun i => w i / 0.001) (angular v) (angular a) ∧
    NoTinySteps (fun i => (position p i - position p0 i) / 0.001) (linear v) (linear a) ∧ NoTinySteps (fun i => w i / 0.001) (angular v) (angular a)

/-- The output of a motion callback that was called with the state `st` respects the limits. -/
def Admissible : {k : MotionKind} → Motion XR k → RobotState XR → Prop
  | .JointPositions, out, st => PositionsAdmissible (JointPositions.q out) st
  | .JointVelocities, out, st => VelocitiesAdmissible (JointVelocities.dq out) st
  | .CartesianPose, out, st => PoseAdmissible (CartesianPose.O_T_EE out) st ∧ ∀ e, CartesianPose.elbow out = some e → ElbowAdmissible e st
  | .CartesianVelocities, out, st => TwistAdmissible (CartesianVelocities.O_dP_EE out) st ∧ ∀ e, CartesianVelocities.elbow out = some e → ElbowAdmissible e st

/-- Torques that differ by less than 1 Nm from the last ones. -/
def TorquesAdmissible (tau : Arr XR 7) (st : RobotState XR) : Prop :=
  ∃ u l : Fin 7 → ℝ, tau = Arr.fin u ∧ st.tau_J_d = Arr.fin l ∧ ∀ i, |u i - l i| ≤ 0.999

end Verif.Spec
