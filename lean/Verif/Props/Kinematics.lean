import Verif.Spec.Kinematics
import Verif.Props.Body
import Mathlib.Algebra.BigOperators.Fin
/-!
# Model queries: C55, C56

The library that is downloaded from the robot is any library that computes the kinematics and dynamics of an arm (`Spec/Kinematics.lean`).
-/
namespace Verif
open Spec

/-- The product of arrays is the product of matrices. -/
theorem mul_colMajor (A B : Mat) : Mat4.mul (colMajor A) (colMajor B) = colMajor (A * B) := by
  funext k
  simp only [Mat4.mul, colMajor, XR.fin_mul, XR.fin_add, XR.fin_inj, Matrix.mul_apply, Fin.sum_univ_four]
  fin_cases k <;> rfl

section
variable {a : Arm} {l : ModelLibrary XR} (h : LibraryOf a l)
include h

/-- C55: `pose` returns the pose of the requested frame. -/
theorem C55_pose (f : Frame) (q : Joints) (F_T_EE EE_T_K : Mat) :
    Model.pose l f (Arr.fin q) (colMajor F_T_EE) (colMajor EE_T_K) = colMajor (a.frame f F_T_EE EE_T_K q) := by
  cases f
  · exact h.O_T_J1 q
  · exact h.O_T_J2 q
  · exact h.O_T_J3 q
  · exact h.O_T_J4 q
  · exact h.O_T_J5 q
  · exact h.O_T_J6 q
  · exact h.O_T_J7 q
  · exact h.O_T_J8 q
  · exact h.O_T_J9 q F_T_EE
  · show l.O_T_J9 _ (Mat4.mul _ _) = colMajor (a.flange q * F_T_EE * EE_T_K)
    rw [mul_colMajor, h.O_T_J9, Matrix.mul_assoc]

/-- C55: `body_jacobian` returns the Jacobian of the requested frame relative to that frame. -/
theorem C55_body_jacobian (f : Frame) (q : Joints) (F_T_EE EE_T_K : Mat) :
    Model.body_jacobian l f (Arr.fin q) (colMajor F_T_EE) (colMajor EE_T_K) = a.bodyJacobian (a.frame f F_T_EE EE_T_K) q := by
  cases f
  · exact h.Ji_J_J1 q
  · exact h.Ji_J_J2 q
  · exact h.Ji_J_J3 q
  · exact h.Ji_J_J4 q
  · exact h.Ji_J_J5 q
  · exact h.Ji_J_J6 q
  · exact h.Ji_J_J7 q
  · exact h.Ji_J_J8 q
  · exact h.Ji_J_J9 q F_T_EE
  · show l.Ji_J_J9 _ (Mat4.mul _ _) = a.bodyJacobian (fun q => a.flange q * F_T_EE * EE_T_K) q
    rw [mul_colMajor, h.Ji_J_J9]
    congr 1
    funext q
    rw [Matrix.mul_assoc]

/-- C55: `zero_jacobian` returns the Jacobian of the requested frame relative to the base frame. -/
theorem C55_zero_jacobian (f : Frame) (q : Joints) (F_T_EE EE_T_K : Mat) :
    Model.zero_jacobian l f (Arr.fin q) (colMajor F_T_EE) (colMajor EE_T_K) = a.zeroJacobian (a.frame f F_T_EE EE_T_K) q := by
  cases f
  · exact h.O_J_J1 q
  · exact h.O_J_J2 q
  · exact h.O_J_J3 q
  · exact h.O_J_J4 q
  · exact h.O_J_J5 q
  · exact h.O_J_J6 q
  · exact h.O_J_J7 q
  · exact h.O_J_J8 q
  · exact h.O_J_J9 q F_T_EE
  · show l.O_J_J9 _ (Mat4.mul _ _) = a.zeroJacobian (fun q => a.flange q * F_T_EE * EE_T_K) q
    rw [mul_colMajor, h.O_J_J9]
    congr 1
    funext q
    rw [Matrix.mul_assoc]

/-- C55: the variants for a state use its joint positions and its end effector and stiffness frames. -/
theorem C55_from_state (f : Frame) {s : RobotState XR} {q : Joints} {F_T_EE EE_T_K : Mat} (hq : s.q = Arr.fin q) (hF : s.F_T_EE = colMajor F_T_EE)
    (hK : s.EE_T_K = colMajor EE_T_K) : Model.pose_from_state l f s = colMajor (a.frame f F_T_EE EE_T_K q) ∧
      Model.body_jacobian_from_state l f s = a.bodyJacobian (a.frame f F_T_EE EE_T_K) q ∧
      Model.zero_jacobian_from_state l f s = a.zeroJacobian (a.frame f F_T_EE EE_T_K) q := by
  unfold Model.pose_from_state Model.body_jacobian_from_state Model.zero_jacobian_from_state
  rw [hq, hF, hK]
  exact ⟨C55_pose h f q F_T_EE EE_T_K, C55_body_jacobian h f q F_T_EE EE_T_K, C55_zero_jacobian h f q F_T_EE EE_T_K⟩

/-- C56, the mass matrix and gravity: they are evaluated with the total load of the state, and gravity with the given vector or the one of the state.
The part about the Coriolis forces is false of the code, see below. -/
theorem C56_mass_and_gravity_partial {s : RobotState XR} {q : Joints} {L : Load} (hq : s.q = Arr.fin q) (hm : s.m_total = .fin L.mass)
    (hc : s.F_x_Ctotal = Arr.fin L.centre) (hI : s.I_total = Arr.fin L.inertia) :
    Model.mass_from_state l s = a.mass q L ∧
    (∀ g : Fin 3 → ℝ, Model.gravity_from_state l s (some (Arr.fin g)) = a.gravity q g L.mass L.centre) ∧
    (∀ g : Fin 3 → ℝ, s.O_ddP_O = Arr.fin g → Model.gravity_from_state l s none = a.gravity q g L.mass L.centre) ∧
    Model.gravity l s.q s.m_total s.F_x_Ctotal none = a.gravity q ![0, 0, -9.81] L.mass L.centre := by
  unfold Model.mass_from_state Model.gravity_from_state Model.gravity Model.mass
  rw [hq, hm, hc, hI]
  refine ⟨h.M_NE q L, fun g => h.g_NE q g _ _, fun g hg => ?_, ?_⟩
  · rw [hg]; exact h.g_NE q g _ _
  · rw [← h.g_NE]
    congr 1
    simp only [Option.getD_none]
    funext i
    fin_cases i <;> simp [XR.lit_fin, XR.fin_neg]
    norm_num

/-- C56, the Coriolis forces: `coriolis` uses the tensor it is given; `coriolis_from_state` is right if the tensor of the load is the total one. -/
theorem C56_coriolis_partial {s : RobotState XR} {q dq : Joints} {L : Load} (hq : s.q = Arr.fin q) (hd : s.dq = Arr.fin dq) (hm : s.m_total = .fin L.mass)
    (hc : s.F_x_Ctotal = Arr.fin L.centre) (hI : s.I_total = Arr.fin L.inertia) :
    Model.coriolis l s.q s.dq s.I_total s.m_total s.F_x_Ctotal = a.coriolis q dq L ∧
    (s.I_load = s.I_total → Model.coriolis_from_state l s = a.coriolis q dq L) := by
  unfold Model.coriolis_from_state Model.coriolis
  constructor
  · rw [hq, hd, hm, hc, hI]
    exact h.c_NE q dq L
  · intro he
    rw [he, hq, hd, hm, hc, hI]
    exact h.c_NE q dq L

end

/-- C56: without an end effector the tensor of the load is the total one. -/
theorem C56_coriolis_without_end_effector {s : RobotStateIntern XR} {m : ℝ} {c1 c2 : Fin 3 → ℝ} {I1 I2 : Fin 9 → ℝ} (h : FiniteLoads s 0 c1 I1 m c2 I2)
    (hm : 0 < m) : (RobotState.ofIntern s).I_load = (RobotState.ofIntern s).I_total := by
  rw [total_inertia_fin h, show (RobotState.ofIntern s).I_load = s.I_load from rfl, h.I_load]
  funext k
  have : (fun i => if 0 < 0 + m then (0 * c1 i + m * c2 i) / (0 + m) else 0) = c2 := by
    funext i
    rw [if_pos (by linarith)]
    field_simp
    ring
  rw [this]
  simp only [Arr.fin_apply, XR.fin_inj, if_true, hm.ne', if_false]
  ring

/-! ## A concrete arm -/

/-- The numbers of an array. -/
noncomputable def Arr.real {n : Nat} (a : Arr XR n) (i : Fin n) : ℝ := match a i with | .fin x => x | _ => 0

theorem Arr.real_fin {n : Nat} (v : Fin n → ℝ) : Arr.real (Arr.fin v) = v := rfl

noncomputable def ofColMajor (a : Arr XR 16) : Mat := fun i j => Arr.real a ⟨i.val + 4 * j.val, by omega⟩

theorem ofColMajor_colMajor (M : Mat) : ofColMajor (colMajor M) = M := by
  funext i j
  fin_cases i <;> fin_cases j <;> rfl

namespace Toy

/-- An arm that lifts its flange by the sum of the first two joint positions. The "Jacobians" are the height of the frame, the dynamics are
proportional to some of the arguments. -/
noncomputable def arm : Arm where
  joint i q := 1 + Matrix.of fun r c => if r = 2 ∧ c = 3 ∧ 0 < i then q 0 + i else 0
  flange q := 1 + Matrix.of fun r c => if r = 2 ∧ c = 3 then q 0 + q 1 else 0
  bodyJacobian T q := fun _ => .fin (T q 2 3)
  zeroJacobian T q := fun _ => .fin (2 * T q 2 3)
  mass q L := fun _ => .fin (L.mass + q 0 * L.inertia 0 + L.centre 0)
  coriolis _ dq L := fun _ => .fin (dq 0 * L.inertia 0 + L.mass + L.centre 0)
  gravity q g m c := fun _ => .fin (m * g 2 + c 0 + q 0)

/-- A library for this arm. -/
noncomputable def library : ModelLibrary XR where
  M_NE q I m c := arm.mass q.real ⟨Arr.real (n := 1) (fun _ => m) 0, c.real, I.real⟩
  Ji_J_J1 := arm.bodyJacobian (arm.joint 0) 0
  Ji_J_J2 q := arm.bodyJacobian (arm.joint 1) q.real
  Ji_J_J3 q := arm.bodyJacobian (arm.joint 2) q.real
  Ji_J_J4 q := arm.bodyJacobian (arm.joint 3) q.real
  Ji_J_J5 q := arm.bodyJacobian (arm.joint 4) q.real
  Ji_J_J6 q := arm.bodyJacobian (arm.joint 5) q.real
  Ji_J_J7 q := arm.bodyJacobian (arm.joint 6) q.real
  Ji_J_J8 q := arm.bodyJacobian arm.flange q.real
  Ji_J_J9 q T := arm.bodyJacobian (fun q => arm.flange q * ofColMajor T) q.real
  O_J_J1 := arm.zeroJacobian (arm.joint 0) 0
  O_J_J2 q := arm.zeroJacobian (arm.joint 1) q.real
  O_J_J3 q := arm.zeroJacobian (arm.joint 2) q.real
  O_J_J4 q := arm.zeroJacobian (arm.joint 3) q.real
  O_J_J5 q := arm.zeroJacobian (arm.joint 4) q.real
  O_J_J6 q := arm.zeroJacobian (arm.joint 5) q.real
  O_J_J7 q := arm.zeroJacobian (arm.joint 6) q.real
  O_J_J8 q := arm.zeroJacobian arm.flange q.real
  O_J_J9 q T := arm.zeroJacobian (fun q => arm.flange q * ofColMajor T) q.real
  O_T_J1 q := colMajor (arm.joint 0 q.real)
  O_T_J2 q := colMajor (arm.joint 1 q.real)
  O_T_J3 q := colMajor (arm.joint 2 q.real)
  O_T_J4 q := colMajor (arm.joint 3 q.real)
  O_T_J5 q := colMajor (arm.joint 4 q.real)
  O_T_J6 q := colMajor (arm.joint 5 q.real)
  O_T_J7 q := colMajor (arm.joint 6 q.real)
  O_T_J8 q := colMajor (arm.flange q.real)
  O_T_J9 q T := colMajor (arm.flange q.real * ofColMajor T)
  c_NE q dq I m c := arm.coriolis q.real dq.real ⟨Arr.real (n := 1) (fun _ => m) 0, c.real, I.real⟩
  g_NE q g m c := arm.gravity q.real g.real (Arr.real (n := 1) (fun _ => m) 0) c.real

theorem library_ok : LibraryOf arm library where
  O_T_J1 _ := rfl
  O_T_J2 _ := rfl
  O_T_J3 _ := rfl
  O_T_J4 _ := rfl
  O_T_J5 _ := rfl
  O_T_J6 _ := rfl
  O_T_J7 _ := rfl
  O_T_J8 _ := rfl
  O_T_J9 q T := by simp only [library, Arr.real_fin, ofColMajor_colMajor]
  Ji_J_J1 q := by funext k; simp [library, arm]
  Ji_J_J2 _ := rfl
  Ji_J_J3 _ := rfl
  Ji_J_J4 _ := rfl
  Ji_J_J5 _ := rfl
  Ji_J_J6 _ := rfl
  Ji_J_J7 _ := rfl
  Ji_J_J8 _ := rfl
  Ji_J_J9 q T := by simp only [library, Arr.real_fin, ofColMajor_colMajor]
  O_J_J1 q := by funext k; simp [library, arm]
  O_J_J2 _ := rfl
  O_J_J3 _ := rfl
  O_J_J4 _ := rfl
  O_J_J5 _ := rfl
  O_J_J6 _ := rfl
  O_J_J7 _ := rfl
  O_J_J8 _ := rfl
  O_J_J9 q T := by simp only [library, Arr.real_fin, ofColMajor_colMajor]
  M_NE _ _ := rfl
  c_NE _ _ _ := rfl
  g_NE _ _ _ _ := rfl

end Toy

/-- C56 is false of the code in full: `coriolis_from_state` evaluates the model with the tensor of the load alone. There is an arm with its
library, and a state with an end effector and no load, for which the result differs from the Coriolis forces of the arm with the total load. -/
theorem C56_coriolis_uses_the_load_tensor : ∃ (a : Arm) (l : ModelLibrary XR), LibraryOf a l ∧ ∀ (s0 : RobotStateIntern XR) (q dq : Joints),
    dq 0 ≠ 0 → s0.q = Arr.fin q → s0.dq = Arr.fin dq → FiniteLoads s0 1 0 (fun _ => 5) 0 0 0 →
    ∃ L : Load, (RobotState.ofIntern s0).m_total = .fin L.mass ∧ (RobotState.ofIntern s0).F_x_Ctotal = Arr.fin L.centre ∧
      (RobotState.ofIntern s0).I_total = Arr.fin L.inertia ∧ Model.coriolis_from_state l (RobotState.ofIntern s0) ≠ a.coriolis q dq L := by
  refine ⟨Toy.arm, Toy.library, Toy.library_ok, fun s0 q dq hdq hq hd h => ?_⟩
  have hc : (RobotState.ofIntern s0).F_x_Ctotal = Arr.fin 0 := by
    rw [total_centre_fin h]
    funext i
    simp [Arr.fin]
  have hI : (RobotState.ofIntern s0).I_total = Arr.fin fun _ => 5 := by
    rw [total_inertia_fin h]
    funext i
    simp [crossSquare]
  refine ⟨⟨1 + 0, 0, fun _ => 5⟩, (congrArg₂ _ h.m_ee h.m_load).trans (XR.fin_add _ _), hc, hI, fun he => ?_⟩
  have h1 : Model.coriolis_from_state Toy.library (RobotState.ofIntern s0) = Toy.library.c_NE s0.q s0.dq s0.I_load (s0.m_ee + s0.m_load) (RobotState.ofIntern s0).F_x_Ctotal := rfl
  rw [h1, hq, hd, h.I_load, h.m_ee, h.m_load, XR.fin_add, hc] at he
  have h2 := congrFun he 0
  simp [Toy.library, Toy.arm, Arr.real] at h2
  exact hdq h2

/-- Example: there are such states. -/
example (s : RobotStateIntern XR) : ∃ s0 : RobotStateIntern XR, s0.q = Arr.fin 0 ∧ s0.dq = Arr.fin 1 ∧ FiniteLoads s0 1 0 (fun _ => 5) 0 0 0 :=
  ⟨{ s with
      q := Arr.fin 0, dq := Arr.fin 1, m_ee := .fin 1, F_x_Cee := Arr.fin 0, I_ee := Arr.fin (fun _ => 5), m_load := .fin 0,
      F_x_Cload := Arr.fin 0, I_load := Arr.fin 0 }, rfl, rfl, ⟨rfl, rfl, rfl, rfl, rfl, rfl⟩⟩

/-- Example: the stiffness frame of the arm above is at the sum of the heights of flange, end effector and stiffness frame. -/
example : Toy.arm.frame .Stiffness (1 + Matrix.of fun r c => if r = 2 ∧ c = 3 then 5 else 0) (1 + Matrix.of fun r c => if r = 2 ∧ c = 3 then 7 else 0)
    (fun _ => 1) 2 3 = 14 := by
  simp [Arm.frame, Toy.arm, Matrix.mul_apply, Fin.sum_univ_four]
  norm_num

end Verif
