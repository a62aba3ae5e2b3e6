import Verif.Spec.Nalgebra
import Verif.Spec.Session
import Verif.Model.Impedance
import Mathlib.Data.Matrix.Mul
/-!
# Springs and dampers

What the two example programs that compute torques are to do, and what is assumed about quaternions and the pseudo-inverse of nalgebra.
-/
namespace Verif.Spec
open Matrix

/-- The rotation that a unit quaternion stands for. Its coordinates are i, j, k, w. -/
def ofQuaternion (c : Fin 4 → ℝ) : M3 :=
  !![1 - 2 * (c 1 ^ 2 + c 2 ^ 2), 2 * (c 0 * c 1 - c 2 * c 3), 2 * (c 0 * c 2 + c 1 * c 3);
     2 * (c 0 * c 1 + c 2 * c 3), 1 - 2 * (c 0 ^ 2 + c 2 ^ 2), 2 * (c 1 * c 2 - c 0 * c 3);
     2 * (c 0 * c 2 - c 1 * c 3), 2 * (c 1 * c 2 + c 0 * c 3), 1 - 2 * (c 0 ^ 2 + c 1 ^ 2)]

/-- The coordinates of a rotation are those of a unit quaternion for it. Which one of the two is open. -/
def QuaternionLibrary [Geo XR] [GeoExtra XR] : Prop := ∀ (q : Geo.Q XR) (R : M3), IsRotation R → Geo.toMatrix q = arr9 R →
  ∃ c : Fin 4 → ℝ, GeoExtra.coords q = Arr.fin c ∧ ∑ i, c i ^ 2 = 1 ∧ ofQuaternion c = R

/-- A Jacobian in column major order. -/
noncomputable def jacobianArray (J : Matrix (Fin 6) (Fin 7) ℝ) : Arr XR 42 := fun k => .fin (J ⟨k.val % 6, by omega⟩ ⟨k.val / 6, by omega⟩)

/-- A wrench from its force and its moment. -/
def wrench (f m : Fin 3 → ℝ) : Fin 6 → ℝ := ![f 0, f 1, f 2, m 0, m 1, m 2]

/-- The wrench of a spring with the stiffnesses `kt` and `kr` and a critical damping, when the pose is off by the displacement `e` and by the rotation about the direction
of `w` by the length of `w`, and moves with the twist `v`. -/
noncomputable def springDamper (kt kr : ℝ) (e w : Fin 3 → ℝ) (v : Fin 6 → ℝ) : Fin 6 → ℝ :=
  wrench (fun i => -kt * e i - 2 * √kt * linear v i) (fun i => -kr * Real.sin (len w / 2) * (w i / len w) - 2 * √kr * angular v i)

/-- The energy in the spring, when the pose is off by the displacement `e` and by the rotation `D`. -/
noncomputable def springEnergy (kt kr : ℝ) (e : Fin 3 → ℝ) (D : M3) : ℝ := kt / 2 * len e ^ 2 + kr * (2 - √(1 + D.trace))

/-- What a robot state and the library tell the controller: the pose of the end effector, the Jacobian, the joint positions and velocities and the Coriolis torques. -/
structure ArmState (model : ModelLibrary XR) (st : RobotState XR) (x : Fin 3 → ℝ) (R : M3) (J : Matrix (Fin 6) (Fin 7) ℝ) (q d c : Fin 7 → ℝ) : Prop where
  pose : st.O_T_EE = Arr.fin (pose x R)
  jacobian : Model.zero_jacobian_from_state model .EndEffector st = jacobianArray J
  joints : st.q = Arr.fin q
  velocities : st.dq = Arr.fin d
  coriolis : Model.coriolis_from_state model st = Arr.fin c

/-- The control call of the impedance example, which has found the robot in the state `st0`. -/
def impedanceExample {F : Type} [Fl F] [Geo F] [GeoExtra F] (model : ModelLibrary F) (st0 : RobotState F) : RobotCall F :=
  .control_torques _ (Examples.impedance_callback model) none none (Examples.ImpedanceState.new st0)

/-! ## The mirror -/

/-- A point behind a mirror at y = 0. -/
def mirrorPoint (x : Fin 3 → ℝ) : Fin 3 → ℝ := ![x 0, -x 1, x 2]
/-- The mirror as a matrix. -/
def mirrorMatrix : M3 := !![1, 0, 0; 0, -1, 0; 0, 0, 1]
/-- A rotation as it is seen in the mirror. -/
def mirrorRotation (R : M3) : M3 := mirrorMatrix * R * mirrorMatrix

/-- The joint positions to which the mirror is drawn. -/
noncomputable def homePosition : Fin 7 → ℝ := ![0, -Real.pi / 4, 0, -3 * Real.pi / 4, 0, Real.pi / 2, Real.pi / 4]

/-- What holds of the pseudo-inverse `P` of `A` that neglects small singular values. -/
structure IsPseudoInverse {m n : ℕ} (A : Matrix (Fin m) (Fin n) ℝ) (P : Matrix (Fin n) (Fin m) ℝ) : Prop where
  reflexive : P * A * P = P
  symmetric : (A * P)ᵀ = A * P

/-- The library computes pseudo-inverses. They are exact if no small singular value is neglected: `exact` says of which matrices that holds. -/
def PseudoInverseLibrary [Geo XR] [GeoExtra XR] (exact : Matrix (Fin 7) (Fin 6) ℝ → Prop) : Prop := ∀ A : Matrix (Fin 7) (Fin 6) ℝ,
  ∃ P : Matrix (Fin 6) (Fin 7) ℝ, GeoExtra.pseudo_inverse (fun i j => XR.fin (A i j)) (.fin (1 / 1000)) = (fun i j => XR.fin (P i j)) ∧
    IsPseudoInverse A P ∧ (exact A → A * P * A = A)

end Verif.Spec
