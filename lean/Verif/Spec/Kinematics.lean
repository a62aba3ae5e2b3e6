import Verif.Spec.Real
import Verif.Model.ModelLib
import Mathlib.Data.Matrix.Mul
/-!
# Kinematics and dynamics of an arm

What the downloaded library computes is given by an arbitrary arm: the poses of its frames, its Jacobians and its dynamics.
-/
namespace Verif.Spec

/-- Joint positions. -/
abbrev Joints := Fin 7 → ℝ
/-- A 4x4 matrix. -/
abbrev Mat := Matrix (Fin 4) (Fin 4) ℝ

/-- The column major array of a 4x4 matrix. -/
noncomputable def colMajor (M : Mat) : Arr XR 16 := fun k => .fin (M ⟨k.val % 4, by omega⟩ ⟨k.val / 4, by omega⟩)

/-- A load at the flange: mass, centre of mass and inertia tensor. -/
structure Load where
  mass : ℝ
  centre : Fin 3 → ℝ
  inertia : Fin 9 → ℝ

/-- An arm: the poses of the frames of the seven joints and of the flange in the base frame; the Jacobians of a frame that moves with the joints;
the dynamics with a load. -/
structure Arm where
  joint : Fin 7 → Joints → Mat
  flange : Joints → Mat
  bodyJacobian : (Joints → Mat) → Joints → Arr XR 42
  zeroJacobian : (Joints → Mat) → Joints → Arr XR 42
  mass : Joints → Load → Arr XR 49
  coriolis : Joints → Joints → Load → Arr XR 7
  gravity : Joints → (Fin 3 → ℝ) → ℝ → (Fin 3 → ℝ) → Arr XR 7

/-- The pose of a frame in the base frame. The end effector is attached to the flange by `F_T_EE`, the stiffness frame to the end effector by
`EE_T_K`. -/
def Arm.frame (a : Arm) (f : Frame) (F_T_EE EE_T_K : Mat) : Joints → Mat :=
  match f with
  | .Joint1 => a.joint 0
  | .Joint2 => a.joint 1
  | .Joint3 => a.joint 2
  | .Joint4 => a.joint 3
  | .Joint5 => a.joint 4
  | .Joint6 => a.joint 5
  | .Joint7 => a.joint 6
  | .Flange => a.flange
  | .EndEffector => fun q => a.flange q * F_T_EE
  | .Stiffness => fun q => a.flange q * F_T_EE * EE_T_K

/-- The functions of the library compute what their names in the library say, for this arm. The frames 8 and 9 of the library are the flange and
a frame attached to the flange. -/
structure LibraryOf (a : Arm) (l : ModelLibrary XR) : Prop where
  O_T_J1 : ∀ q, l.O_T_J1 (Arr.fin q) = colMajor (a.joint 0 q)
  O_T_J2 : ∀ q, l.O_T_J2 (Arr.fin q) = colMajor (a.joint 1 q)
  O_T_J3 : ∀ q, l.O_T_J3 (Arr.fin q) = colMajor (a.joint 2 q)
  O_T_J4 : ∀ q, l.O_T_J4 (Arr.fin q) = colMajor (a.joint 3 q)
  O_T_J5 : ∀ q, l.O_T_J5 (Arr.fin q) = colMajor (a.joint 4 q)
  O_T_J6 : ∀ q, l.O_T_J6 (Arr.fin q) = colMajor (a.joint 5 q)
  O_T_J7 : ∀ q, l.O_T_J7 (Arr.fin q) = colMajor (a.joint 6 q)
  O_T_J8 : ∀ q, l.O_T_J8 (Arr.fin q) = colMajor (a.flange q)
  O_T_J9 : ∀ q T, l.O_T_J9 (Arr.fin q) (colMajor T) = colMajor (a.flange q * T)
  Ji_J_J1 : ∀ q, l.Ji_J_J1 = a.bodyJacobian (a.joint 0) q
  Ji_J_J2 : ∀ q, l.Ji_J_J2 (Arr.fin q) = a.bodyJacobian (a.joint 1) q
  Ji_J_J3 : ∀ q, l.Ji_J_J3 (Arr.fin q) = a.bodyJacobian (a.joint 2) q
  Ji_J_J4 : ∀ q, l.Ji_J_J4 (Arr.fin q) = a.bodyJacobian (a.joint 3) q
  Ji_J_J5 : ∀ q, l.Ji_J_J5 (Arr.fin q) = a.bodyJacobian (a.joint 4) q
  Ji_J_J6 : ∀ q, l.Ji_J_J6 (Arr.fin q) = a.bodyJacobian (a.joint 5) q
  Ji_J_J7 : ∀ q, l.Ji_J_J7 (Arr.fin q) = a.bodyJacobian (a.joint 6) q
  Ji_J_J8 : ∀ q, l.Ji_J_J8 (Arr.fin q) = a.bodyJacobian a.flange q
  Ji_J_J9 : ∀ q T, l.Ji_J_J9 (Arr.fin q) (colMajor T) = a.bodyJacobian (fun q => a.flange q * T) q
  O_J_J1 : ∀ q, l.O_J_J1 = a.zeroJacobian (a.joint 0) q
  O_J_J2 : ∀ q, l.O_J_J2 (Arr.fin q) = a.zeroJacobian (a.joint 1) q
  O_J_J3 : ∀ q, l.O_J_J3 (Arr.fin q) = a.zeroJacobian (a.joint 2) q
  O_J_J4 : ∀ q, l.O_J_J4 (Arr.fin q) = a.zeroJacobian (a.joint 3) q
  O_J_J5 : ∀ q, l.O_J_J5 (Arr.fin q) = a.zeroJacobian (a.joint 4) q
  O_J_J6 : ∀ q, l.O_J_J6 (Arr.fin q) = a.zeroJacobian (a.joint 5) q
  O_J_J7 : ∀ q, l.O_J_J7 (Arr.fin q) = a.zeroJacobian (a.joint 6) q
  O_J_J8 : ∀ q, l.O_J_J8 (Arr.fin q) = a.zeroJacobian a.flange q
  O_J_J9 : ∀ q T, l.O_J_J9 (Arr.fin q) (colMajor T) = a.zeroJacobian (fun q => a.flange q * T) q
  M_NE : ∀ q L, l.M_NE (Arr.fin q) (Arr.fin L.inertia) (.fin L.mass) (Arr.fin L.centre) = a.mass q L
  c_NE : ∀ q dq L, l.c_NE (Arr.fin q) (Arr.fin dq) (Arr.fin L.inertia) (.fin L.mass) (Arr.fin L.centre) = a.coriolis q dq L
  g_NE : ∀ q g m c, l.g_NE (Arr.fin q) (Arr.fin g) (.fin m) (Arr.fin c) = a.gravity q g m c

end Verif.Spec
