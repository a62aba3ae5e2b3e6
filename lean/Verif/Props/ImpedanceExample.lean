import Verif.Props.Impedance
import Verif.Props.Kinematics
import Verif.Props.ModelFile
import Verif.Props.CoopSession
/-!
# Cases that meet the hypotheses of C93 and C94
-/
namespace Verif
open Prog Spec Matrix Fl

namespace Impedance

/-- Unit quaternions. -/
abbrev UnitQ := { c : Fin 4 → ℝ // ∑ i, c i ^ 2 = 1 }

def UnitQ.one : UnitQ := ⟨![0, 0, 0, 1], by simp [Fin.sum_univ_four]⟩

open Classical in
/-- A quaternion for a matrix, if there is one. -/
noncomputable def readQuaternion (m : Arr XR 9) : UnitQ := if h : ∃ c : UnitQ, m = arr9 (ofQuaternion c.1) then h.choose else .one

theorem readQuaternion_spec (c : UnitQ) : arr9 (ofQuaternion (readQuaternion (arr9 (ofQuaternion c.1))).1) = arr9 (ofQuaternion c.1) := by
  have h : ∃ d : UnitQ, arr9 (ofQuaternion c.1) = arr9 (ofQuaternion d.1) := ⟨c, rfl⟩
  unfold readQuaternion
  rw [dif_pos h]
  exact h.choose_spec.symm

/-- Rotations kept as unit quaternions. -/
@[instance_reducible] noncomputable def quatGeo : Geo XR where
  Q := UnitQ
  fromMatrix := readQuaternion
  quatFromMatrix := readQuaternion
  toMatrix q := arr9 (ofQuaternion q.1)
  slerp a _ _ := some a
  renormalizedScaledAxis _ := Arr.fin 0

open Classical in
/-- A pseudo-inverse, if there is one. -/
noncomputable def invert (A : Matrix (Fin 7) (Fin 6) ℝ) : Matrix (Fin 6) (Fin 7) ℝ := if h : ∃ P, IsPseudoInverse A P ∧ A * P * A = A then h.choose else 0

/-- The number, or zero. -/
def toReal : XR → ℝ
  | .fin x => x
  | _ => 0

@[instance_reducible] noncomputable def quatExtra : @GeoExtra XR quatGeo :=
  @GeoExtra.mk XR quatGeo (fun q => Arr.fin q.1) fun m _ i j => XR.fin (invert (Matrix.of fun i j => toReal (m i j)) i j)

theorem quatGeo_lawful : @QuaternionLibrary quatGeo quatExtra := fun q _ _ h => ⟨q.1, rfl, q.2, arr9_inj h⟩

theorem quatGeo_reads {c : Fin 4 → ℝ} (h : ∑ i, c i ^ 2 = 1) : @ReadsRight quatGeo (ofQuaternion c) := readQuaternion_spec ⟨c, h⟩

theorem quatExtra_lawful : @PseudoInverseLibrary quatGeo quatExtra (fun A => ∃ P, IsPseudoInverse A P ∧ A * P * A = A) := by
  intro A
  refine ⟨invert A, rfl, ?_⟩
  unfold invert
  by_cases h : ∃ P, IsPseudoInverse A P ∧ A * P * A = A
  · rw [dif_pos h]
    exact ⟨h.choose_spec.1, fun _ => h.choose_spec.2⟩
  · rw [dif_neg h]
    exact ⟨⟨by simp, by simp⟩, fun hA => absurd hA h⟩

/-- An arm whose first joint moves the end effector along the x axis and whose second joint turns it about the z axis. -/
def toyJacobian : Matrix (Fin 6) (Fin 7) ℝ :=
  !![1, 0, 0, 0, 0, 0, 0; 0, 0, 0, 0, 0, 0, 0; 0, 0, 0, 0, 0, 0, 0; 0, 0, 0, 0, 0, 0, 0; 0, 0, 0, 0, 0, 0, 0; 0, 1, 0, 0, 0, 0, 0]

theorem toyJacobian_inverse : IsPseudoInverse toyJacobianᵀ toyJacobian ∧ toyJacobianᵀ * toyJacobian * toyJacobianᵀ = toyJacobianᵀ := by
  have h : toyJacobian * toyJacobianᵀ * toyJacobian = toyJacobian := by
    ext i j
    rw [Matrix.mul_apply]
    simp only [Matrix.mul_apply, Fin.sum_univ_six, Fin.sum_univ_seven, Matrix.transpose_apply]
    fin_cases i <;> fin_cases j <;> simp [toyJacobian]
  refine ⟨⟨h, by rw [transpose_mul, transpose_transpose]⟩, ?_⟩
  have := congrArg Matrix.transpose h
  rw [transpose_mul, transpose_mul, transpose_transpose] at this
  rw [Matrix.mul_assoc]
  exact this

/-- Its library. -/
noncomputable def toyModel : ModelLibrary XR := { Toy.library with
  O_J_J9 := fun _ _ => jacobianArray toyJacobian
  c_NE := fun _ dq _ _ _ => dq }

/-- A state of the arm in some pose: the first joint moves with `v`, the second one turns with `ω`. -/
noncomputable def toyState (x : Fin 3 → ℝ) (X : M3) (v ω : ℝ) : RobotState XR := { RobotState.ofIntern (RobotStateIntern.dummy XR) with
  O_T_EE := Arr.fin (pose x X)
  q := Arr.fin ![1, 2, 3, 0, 0, 0, 0]
  dq := Arr.fin ![v, ω, 0, 0, 0, 0, 0] }

theorem toy_shows (x : Fin 3 → ℝ) (X : M3) (v ω : ℝ) : ArmState toyModel (toyState x X v ω) x X toyJacobian ![1, 2, 3, 0, 0, 0, 0] ![v, ω, 0, 0, 0, 0, 0] ![v, ω, 0, 0, 0, 0, 0] :=
  ⟨rfl, rfl, rfl, rfl, rfl⟩

theorem turn_reads (w : Fin 3 → ℝ) : @ReadsRight quatGeo (turn w) := by
  rw [turn_quaternion]
  exact quatGeo_reads (halfTurn_unit w)

theorem turn_mul_reads (w u : Fin 3 → ℝ) : @ReadsRight quatGeo (turn w * turn u) := by
  rw [turn_quaternion, turn_quaternion, ← ofQuaternion_mul (halfTurn_unit w) (halfTurn_unit u)]
  exact quatGeo_reads (qMul_unit (halfTurn_unit w) (halfTurn_unit u))

theorem len_z (s : ℝ) (h : 0 ≤ s) : len ![0, 0, s] = s := by
  simp [len, Real.sqrt_sq h]

/-- The end effector moves along the x axis and turns about the z axis. -/
theorem moves (t : ℝ) (i : Fin 3) : HasDerivAt (fun s => (![s, 0, 0] : Fin 3 → ℝ) i) (linear (toyJacobian *ᵥ ![1, 1, 0, 0, 0, 0, 0]) i) t := by
  fin_cases i
  · have h : linear (toyJacobian *ᵥ ![1, 1, 0, 0, 0, 0, 0]) 0 = 1 := by simp [linear, toyJacobian, mulVec, dotProduct, Fin.sum_univ_succ]
    refine HasDerivAt.congr_deriv (f' := 1) ?_ h.symm
    exact hasDerivAt_id' t
  · simpa [linear, toyJacobian, mulVec, dotProduct, Fin.sum_univ_succ] using hasDerivAt_const t (0 : ℝ)
  · simpa [linear, toyJacobian, mulVec, dotProduct, Fin.sum_univ_succ] using hasDerivAt_const t (0 : ℝ)

theorem spin : angular (toyJacobian *ᵥ ![1, 1, 0, 0, 0, 0, 0]) = ![0, 0, 1] := by
  funext i
  fin_cases i <;> simp [angular, toyJacobian, mulVec, dotProduct, Fin.sum_univ_succ]

theorem rotate_z (s : ℝ) : rotate ![0, 0, 1] s = !![Real.cos s, -Real.sin s, 0; Real.sin s, Real.cos s, 0; 0, 0, 1] := by
  ext i j
  fin_cases i <;> fin_cases j <;> simp [rotate, skew]

theorem turns (t : ℝ) (i j : Fin 3) : HasDerivAt (fun s => rotate ![0, 0, 1] s i j) ((skew (angular (toyJacobian *ᵥ ![1, 1, 0, 0, 0, 0, 0])) * rotate ![0, 0, 1] t) i j) t := by
  rw [spin, rotate_z]
  simp only [rotate_z]
  have hs := Real.hasDerivAt_sin t
  have hc := Real.hasDerivAt_cos t
  have hn := hs.neg
  have h0 := hasDerivAt_const t (0 : ℝ)
  have h1 := hasDerivAt_const t (1 : ℝ)
  fin_cases i <;> fin_cases j <;> simp [skew] <;> assumption

theorem turn_z (s : ℝ) (h : 0 < s) : turn ![0, 0, s] = rotate ![0, 0, 1] s := by
  unfold turn
  rw [len_z s h.le]
  congr 1
  funext i
  fin_cases i <;> simp [h.ne']

/-- C93: an arm in motion that is off by one metre and one radian, with the torque at its first joint. -/
example (dt : ℕ) : let _ := quatGeo; let _ := quatExtra; ∃ τ : Fin 7 → ℝ,
    (Examples.impedance_callback toyModel (.new (toyState 0 1 0 0)) (toyState ![1, 0, 0] (rotate ![0, 0, 1] 1) 1 1) dt).2 = .new (Arr.fin τ) ∧ τ 0 = -150 - 2 * √150 + 1 ∧
    HasDerivAt (fun s => springEnergy 150 10 (fun i => (![s, 0, 0] : Fin 3 → ℝ) i - (0 : Fin 3 → ℝ) i) (rotate ![0, 0, 1] s * (1 : M3)ᵀ))
      (-(∑ j, (τ j - (![1, 1, 0, 0, 0, 0, 0] : Fin 7 → ℝ) j) * (![1, 1, 0, 0, 0, 0, 0] : Fin 7 → ℝ) j) -
        (2 * √150 * len (linear (toyJacobian *ᵥ ![1, 1, 0, 0, 0, 0, 0])) ^ 2 + 2 * √10 * len (angular (toyJacobian *ᵥ ![1, 1, 0, 0, 0, 0, 0])) ^ 2)) 1 := by
  intro _ _
  have r0 : ReadsRight (1 : M3) := by
    have := turn_reads 0
    rwa [turn_of_len_zero (by simp [len])] at this
  have hX : rotate ![0, 0, 1] 1 = turn ![0, 0, 1] * 1 := by rw [Matrix.mul_one, turn_z 1 one_pos]
  have r : ReadsRight (turn ![0, 0, 1] * (1 : M3)) := by rw [Matrix.mul_one]; exact turn_reads _
  have hw : len ![0, 0, 1] < Real.pi := by rw [len_z 1 zero_le_one]; linarith [Real.pi_gt_three]
  have h0 : (toyState 0 1 0 0).O_T_EE = Arr.fin (pose 0 1) := rfl
  have hs := toy_shows ![1, 0, 0] (turn ![0, 0, 1] * 1) 1 1
  rw [← hX] at hs
  have ht := C93_torques quatGeo_lawful h0 isRotation_one r0 (hX ▸ hs) r hw dt
  rw [← hX] at ht
  refine ⟨_, congrArg Prod.snd ht, ?_, ?_⟩
  · simp [springDamper, wrench, linear, toyJacobian, mulVec, dotProduct, Fin.sum_univ_succ]
  · exact C93_energy quatGeo_lawful (x := fun s => ![s, 0, 0]) (X := fun s => rotate ![0, 0, 1] s) h0 isRotation_one r0 hs hX (by rw [hX]; exact r) hw (moves 1) (turns 1)
      (congrArg Prod.snd ht)

/-- C93: the same arm at rest. -/
example (dt : ℕ) : let _ := quatGeo; let _ := quatExtra;
    (Examples.impedance_callback toyModel (.new (toyState ![1, 2, 3] (turn ![1, 0, 0]) 5 0)) (toyState ![1, 2, 3] (turn ![1, 0, 0]) 0 0) dt).2 = .new (Arr.fin 0) := by
  intro _ _
  have h := toy_shows ![1, 2, 3] (turn ![1, 0, 0]) 0 0
  have hz : (![0, 0, 0, 0, 0, 0, 0] : Fin 7 → ℝ) = 0 := by
    funext i
    fin_cases i <;> rfl
  rw [hz] at h
  exact C93_rest quatGeo_lawful rfl (turn_isRotation _) (turn_reads _) h dt

/-- C94: the mirror of a pose that is turned about the x axis is turned about that axis the other way round; the arm is off by one radian about the z axis, and not at home. -/
example (dt : ℕ) : let _ := quatGeo; let _ := quatExtra; ∃ n : Fin 7 → ℝ,
    (Examples.mirror_callback toyModel (Arr.fin 0) (some (Arr.fin (pose ![1, 2, 3] (turn ![1, 0, 0])))) (toyState ![1, -2, 4] (turn ![0, 0, 1] * turn ![-1, 0, 0]) 1 1) dt).2 =
        .new (Arr.fin (toyJacobianᵀ *ᵥ springDamper 400 50 ![0, 0, 1] ![0, 0, 1] (toyJacobian *ᵥ ![1, 1, 0, 0, 0, 0, 0]) + n + ![1, 1, 0, 0, 0, 0, 0])) ∧ toyJacobian *ᵥ n = 0 := by
  intro _ _
  have hm : turn ![-1, 0, 0] = mirrorRotation (turn ![1, 0, 0]) := by
    rw [turn_quaternion, turn_quaternion, ← Mirror.mirror_quaternion]
    congr 1
    funext i
    fin_cases i <;> simp [halfTurn, len]
  have hs := toy_shows ![1, -2, 4] (turn ![0, 0, 1] * turn ![-1, 0, 0]) 1 1
  rw [hm] at hs ⊢
  have r : ReadsRight (turn ![0, 0, 1] * mirrorRotation (turn ![1, 0, 0])) := by rw [← hm]; exact turn_mul_reads _ _
  obtain ⟨n, h1, h2, -⟩ := C94_torques quatGeo_lawful quatExtra_lawful (last := Arr.fin 0) (received := some (Arr.fin (pose ![1, 2, 3] (turn ![1, 0, 0])))) rfl (turn_isRotation _)
    (turn_reads _) hs r (by rw [len_z 1 zero_le_one]; linarith [Real.pi_gt_three]) dt
  refine ⟨n, ?_, h2 ⟨_, toyJacobian_inverse⟩⟩
  rw [h1]
  have : (![1, -2, 4] - mirrorPoint ![1, 2, 3] : Fin 3 → ℝ) = ![0, 0, 1] := by
    funext i
    fin_cases i <;> simp [mirrorPoint]
    norm_num
  rw [this]

end Impedance

/-! ## The program -/

namespace Toy

/-- The library is downloaded, the three requests are answered, a state is sent, the motion is refused. -/
def impedanceScript : List Tick := handshake ++ loading { accept := 10 } ++ (asking (response 2 2 0)).script ++ (asking (response 3 3 0)).script ++ (asking (response 4 4 0)).script ++
  ([quiet] ++ st 8 0 3 1) ++ (asking (response 1 5 3)).script

def isOk (r : Res UInt64 Unit) : Bool := match r with
  | .ok _ => true
  | _ => false

end Toy

/-- C93: the robot refuses the motion, and the program returns Ok. -/
example [GeoExtra UInt64] (model : ModelLibrary UInt64) : Fresh (Toy.world Toy.impedanceScript) ∧
    Toy.isOk (Examples.cartesian_impedance_control model (Toy.world Toy.impedanceScript)).1 = true := ⟨Toy.fresh _ _ _, by kernel_rfl⟩

end Verif
