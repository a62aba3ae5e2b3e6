import Verif.Lemmas.Impedance
import Verif.Lemmas.Threads
import Verif.Lemmas.Next
import Verif.Props.Pose
import Mathlib.Analysis.SpecialFunctions.Sqrt
/-!
# The torque examples: C93, C94
-/
set_option linter.unusedSectionVars false
namespace Verif
open Prog Spec Matrix Fl

namespace Impedance

theorem sum_six (f : Fin 6 → ℝ) : ∑ i, f i = f 0 + f 1 + f 2 + f 3 + f 4 + f 5 := by
  rw [Fin.sum_univ_six]

/-- The controller of both examples. -/
theorem task [Geo XR] [GeoExtra XR] (hq : QuaternionLibrary) {kt kr : ℝ} (ht : 0 ≤ kt) (hr : 0 ≤ kr) {x x0 w : Fin 3 → ℝ} {R : M3} {c0 : Fin 4 → ℝ} (h0 : ∑ i, c0 i ^ 2 = 1)
    (hR : ofQuaternion c0 = R) (h : ReadsRight (turn w * R)) (hw : len w < Real.pi) (J : Matrix (Fin 6) (Fin 7) ℝ) (d : Fin 7 → ℝ) :
    Examples.tau_task (XR.fin kt) (XR.fin kr) (fun i j => XR.fin (J i j)) (Examples.pose_error (array_to_isometry (Arr.fin (pose x (turn w * R)))) (Arr.fin x0) (Arr.fin c0)) (Arr.fin d) =
      Arr.fin (Jᵀ *ᵥ springDamper kt kr (fun i => x i - x0 i) w (J *ᵥ d)) := by
  have hx : position (pose x (turn w * R)) = x := by
    funext i
    fin_cases i <;> rfl
  rw [array_to_isometry_fin, hx, rotationPart_pose, pose_error_fin hq h0 hR h hw, tau_task_fin ht hr]
  congr 2
  funext i
  fin_cases i <;> simp [springDamper, wrench, linear, angular] <;> ring

theorem add_fin' {n : ℕ} (a b : Fin n → ℝ) : Arr.add (Arr.fin a) (Arr.fin b) = Arr.fin (a + b) := by
  funext i
  exact XR.fin_add _ _

end Impedance

section
variable [Geo XR] [GeoExtra XR] {model : ModelLibrary XR} {st0 st : RobotState XR} {x0 x w : Fin 3 → ℝ} {R : M3} {J : Matrix (Fin 6) (Fin 7) ℝ} {q d c : Fin 7 → ℝ}

/-- **C93**: the torques are those of a spring and a damper between the pose of the end effector and the initial one, and the Coriolis torques. -/
theorem C93_torques (hq : QuaternionLibrary) (h0 : st0.O_T_EE = Arr.fin (pose x0 R)) (hR : IsRotation R) (r0 : ReadsRight R) (h : ArmState model st x (turn w * R) J q d c)
    (r : ReadsRight (turn w * R)) (hw : len w < Real.pi) (dt : ℕ) :
    Examples.impedance_callback model (.new st0) st dt =
      (.new st0, .new (Arr.fin (Jᵀ *ᵥ springDamper 150 10 (fun i => x i - x0 i) w (J *ᵥ d) + c))) := by
  obtain ⟨c0, e1, e2, e3⟩ := hq _ R hR r0
  unfold Examples.impedance_callback
  refine Prod.ext rfl ?_
  have hn : Examples.ImpedanceState.new st0 = ⟨Arr.fin x0, Geo.fromMatrix (arr9 R)⟩ := by
    unfold Examples.ImpedanceState.new
    rw [h0, array_to_isometry_fin, rotationPart_pose, show position (pose x0 R) = x0 by funext i; fin_cases i <;> rfl]
  dsimp only
  rw [hn]
  dsimp only
  rw [h.coriolis, h.jacobian, h.pose, h.velocities, from_jacobianArray, e1]
  have h150 : (lit 150 : XR) = .fin 150 := by rw [XR.lit_fin]; norm_num
  have h10 : (lit 10 : XR) = .fin 10 := by rw [XR.lit_fin]; norm_num
  rw [h150, h10, Impedance.task hq (by norm_num) (by norm_num) e2 e3 r hw, Impedance.add_fin']
  rfl

/-- **C93**: at rest in the initial pose the torques are the Coriolis torques. -/
theorem C93_rest (hq : QuaternionLibrary) (h0 : st0.O_T_EE = Arr.fin (pose x0 R)) (hR : IsRotation R) (r0 : ReadsRight R) (h : ArmState model st x0 R J q 0 c) (dt : ℕ) :
    (Examples.impedance_callback model (.new st0) st dt).2 = .new (Arr.fin c) := by
  have h1 : turn 0 = 1 := turn_of_len_zero (by simp [len])
  have hl : len (0 : Fin 3 → ℝ) = 0 := by simp [len]
  rw [C93_torques hq h0 hR r0 (w := 0) (by rw [h1, one_mul]; exact h) (by rw [h1, one_mul]; exact r0) (by rw [hl]; exact Real.pi_pos)]
  have : springDamper 150 10 (fun i => x0 i - x0 i) 0 (J *ᵥ 0) = 0 := by
    funext i
    fin_cases i <;> simp [springDamper, wrench, linear, angular]
  rw [this, mulVec_zero, zero_add]

end

/-! ## Energy -/

namespace Impedance

theorem power (J : Matrix (Fin 6) (Fin 7) ℝ) (F : Fin 6 → ℝ) (d : Fin 7 → ℝ) : ∑ j, (Jᵀ *ᵥ F) j * d j = ∑ i, F i * (J *ᵥ d) i := by
  show (Jᵀ *ᵥ F) ⬝ᵥ d = F ⬝ᵥ (J *ᵥ d)
  rw [mulVec_transpose, dotProduct_mulVec]

theorem trace_skew (a n : Fin 3 → ℝ) (θ : ℝ) : (skew a * rotate n θ).trace = -2 * Real.sin θ * (a 0 * n 0 + a 1 * n 1 + a 2 * n 2) := by
  have h : (skew a * rotate n θ).trace = -(a 0 * vee (rotate n θ) 0 + a 1 * vee (rotate n θ) 1 + a 2 * vee (rotate n θ) 2) := by
    generalize rotate n θ = M
    simp [skew, vee, Matrix.trace, Fin.sum_univ_three, vecMul, dotProduct]
    ring
  rw [h, vee_rotate]
  ring

end Impedance

/-- **C93**: the energy of the spring is positive, and zero just at the initial pose. -/
theorem C93_energy_positive {kt kr : ℝ} (ht : 0 < kt) (hr : 0 < kr) (e : Fin 3 → ℝ) {D : M3} (hD : IsRotation D) :
    0 ≤ springEnergy kt kr e D ∧ (springEnergy kt kr e D = 0 ↔ e = 0 ∧ D = 1) := by
  obtain ⟨h1, h2⟩ := hD.trace_range
  have h3 : √(1 + D.trace) ≤ 2 := by
    rw [show (2 : ℝ) = √(2 ^ 2) by rw [Real.sqrt_sq]; norm_num]
    exact Real.sqrt_le_sqrt (by linarith)
  have h4 : 0 ≤ kt / 2 * len e ^ 2 := by positivity
  have h5 : 0 ≤ kr * (2 - √(1 + D.trace)) := mul_nonneg hr.le (by linarith)
  refine ⟨add_nonneg h4 h5, ?_, ?_⟩
  · intro h
    unfold springEnergy at h
    have h6 : kt / 2 * len e ^ 2 = 0 := by linarith
    have h7 : kr * (2 - √(1 + D.trace)) = 0 := by linarith
    have h8 : len e = 0 := by
      rcases mul_eq_zero.1 h6 with h | h
      · linarith
      · exact pow_eq_zero_iff (by norm_num) |>.1 h
    have h9 : √(1 + D.trace) = 2 := by
      rcases mul_eq_zero.1 h7 with h | h
      · linarith
      · linarith
    have h10 : 1 + D.trace = 4 := by
      have := Real.sq_sqrt (show 0 ≤ 1 + D.trace by linarith)
      rw [h9] at this
      linarith
    refine ⟨funext (len_eq_zero h8), ?_⟩
    obtain ⟨n, θ, hn, t0, t1, rfl⟩ := hD.axis_angle (by unfold IsHalfTurn; linarith)
    rw [rotate_trace hn] at h10
    have : θ = 0 := Real.injOn_cos ⟨t0, t1.le⟩ ⟨le_refl _, Real.pi_pos.le⟩ (by rw [Real.cos_zero]; linarith)
    rw [this, rotate_zero]
  · rintro ⟨rfl, rfl⟩
    have : (1 + (1 : M3).trace : ℝ) = 2 ^ 2 := by rw [Matrix.trace_one]; norm_num
    unfold springEnergy
    rw [this, Real.sqrt_sq (by norm_num)]
    simp [len]

section
variable [Geo XR] [GeoExtra XR] {model : ModelLibrary XR} {st0 : RobotState XR} {x0 w : Fin 3 → ℝ} {R : M3} {J : Matrix (Fin 6) (Fin 7) ℝ} {q d c τ : Fin 7 → ℝ}

/-- **C93**: when the end effector moves on the path `x`, `X`, the torques (without the Coriolis torques) do not feed energy into the arm that was not stored in the spring: the energy
of the spring changes by their power, taken negative, less what the damper takes. -/
theorem C93_energy {x : ℝ → Fin 3 → ℝ} {X : ℝ → M3} {t : ℝ} {st : RobotState XR} (hq : QuaternionLibrary) (h0 : st0.O_T_EE = Arr.fin (pose x0 R)) (hR : IsRotation R) (r0 : ReadsRight R)
    (h : ArmState model st (x t) (X t) J q d c) (hX : X t = turn w * R) (r : ReadsRight (X t)) (hw : len w < Real.pi)
    (hv : ∀ i, HasDerivAt (fun s => x s i) (linear (J *ᵥ d) i) t) (hω : ∀ i j, HasDerivAt (fun s => X s i j) ((skew (angular (J *ᵥ d)) * X t) i j) t)
    {dt : ℕ} (hτ : (Examples.impedance_callback model (.new st0) st dt).2 = .new (Arr.fin τ)) :
    HasDerivAt (fun s => springEnergy 150 10 (fun i => x s i - x0 i) (X s * Rᵀ))
      (-(∑ j, (τ j - c j) * d j) - (2 * √150 * len (linear (J *ᵥ d)) ^ 2 + 2 * √10 * len (angular (J *ᵥ d)) ^ 2)) t := by
  rw [hX] at r
  rw [hX] at h
  rw [C93_torques hq h0 hR r0 h r hw] at hτ
  have hτ' : τ = Jᵀ *ᵥ springDamper 150 10 (fun i => x t i - x0 i) w (J *ᵥ d) + c := by
    have := congrArg Torques.tau_J hτ
    funext j
    exact ((XR.fin_inj _ _).1 (congrFun this j)).symm
  have hp : ∑ j, (τ j - c j) * d j = ∑ i, springDamper 150 10 (fun i => x t i - x0 i) w (J *ᵥ d) i * (J *ᵥ d) i := by
    rw [← Impedance.power, hτ']
    refine Finset.sum_congr rfl fun j _ => ?_
    rw [Pi.add_apply, add_sub_cancel_right]
  set v := J *ᵥ d with hvd
  -- the displacement
  have hlen : HasDerivAt (fun s => len (fun i => x s i - x0 i) ^ 2) (2 * ((x t 0 - x0 0) * v 0 + (x t 1 - x0 1) * v 1 + (x t 2 - x0 2) * v 2)) t := by
    have e : (fun s => len (fun i => x s i - x0 i) ^ 2) = fun s => (x s 0 - x0 0) ^ 2 + (x s 1 - x0 1) ^ 2 + (x s 2 - x0 2) ^ 2 := by
      funext s
      exact len_sq _
    rw [e]
    have g0 := ((hv 0).sub_const (x0 0)).pow 2
    have g1 := ((hv 1).sub_const (x0 1)).pow 2
    have g2 := ((hv 2).sub_const (x0 2)).pow 2
    refine ((g0.add g1).add g2).congr_deriv ?_
    simp [linear]
    ring
  -- the rotation
  have htr : HasDerivAt (fun s => 1 + (X s * Rᵀ).trace) ((skew (angular v) * turn w).trace) t := by
    have e : (fun s => 1 + (X s * Rᵀ).trace) = fun s => 1 + ∑ i, ∑ j, X s i j * R i j := by
      funext s
      simp [Matrix.trace, Matrix.mul_apply]
    have e2 : (skew (angular v) * turn w).trace = ∑ i, ∑ j, (skew (angular v) * X t) i j * R i j := by
      have : turn w = X t * Rᵀ := by rw [hX, Matrix.mul_assoc, hR.orthogonal, Matrix.mul_one]
      rw [this, ← Matrix.mul_assoc]
      simp only [Matrix.trace, Matrix.diag_apply, Matrix.mul_apply (M := skew (angular v) * X t), Matrix.transpose_apply]
    rw [e, e2]
    refine HasDerivAt.const_add _ ?_
    refine HasDerivAt.fun_sum fun i _ => HasDerivAt.fun_sum fun j _ => ?_
    exact (hω i j).mul_const _
  have hval : 1 + (X t * Rᵀ).trace = (2 * Real.cos (len w / 2)) ^ 2 := by
    rw [hX, Matrix.mul_assoc, hR.orthogonal, Matrix.mul_one, turn_trace]
    have := Real.cos_two_mul (len w / 2)
    rw [show 2 * (len w / 2) = len w by ring] at this
    rw [this]
    ring
  have hcos : 0 < Real.cos (len w / 2) := Real.cos_pos_of_mem_Ioo ⟨by have := len_nonneg w; linarith [Real.pi_pos], by linarith⟩
  have hsqrt := htr.sqrt (by rw [hval]; positivity)
  rw [hval, Real.sqrt_sq (by positivity)] at hsqrt
  have htot := (hlen.const_mul (150 / 2)).add ((hsqrt.const_sub 2).const_mul 10)
  refine htot.congr_deriv ?_
  rw [hp, turn, Impedance.trace_skew, show Real.sin (len w) = 2 * Real.sin (len w / 2) * Real.cos (len w / 2) by rw [← Real.sin_two_mul]; congr 1; ring,
    len_sq, len_sq, Impedance.sum_six]
  simp [springDamper, wrench, linear, angular]
  field_simp
  ring

end

/-! ## The program -/

section
variable {F : Type} [Fl F] [Wire F] [LawfulWire F] [Geo F] [GeoExtra F] {model : ModelLibrary F}

/-- **C93**: the controller never finishes, so the control call does not return Ok. -/
theorem C93_never_finishes {st0 : RobotState F} {w : World F} (hw : RobotReachable w) : ((impedanceExample model st0).run w).1 ≠ .ok () := by
  intro hok
  have hc : IsControl (impedanceExample model st0) _ _ := .torques _ _ _ _ _
  obtain ⟨pre, y, hx, hfin⟩ := call_thread_ok hw hc rfl (fun _ _ _ => ⟨rfl, rfl⟩) hok
  have := (call_thread hw hc rfl (fun _ _ _ => ⟨rfl, rfl⟩) pre y [] hx).1
  rw [this] at hfin
  cases hfin

namespace Impedance

theorem bind_ok {α β : Type} {p : Prog F α} {f : α → Prog F β} {w w' : World F} {b : β} (h : (p >>= f) w = (.ok b, w')) :
    ∃ a w1, p w = (.ok a, w1) ∧ f a w1 = (.ok b, w') := by
  change Prog.bind p f w = _ at h
  unfold Prog.bind at h
  cases hp : p w with
  | mk r w1 =>
    rw [hp] at h
    cases r with
    | ok a => exact ⟨a, w1, rfl, h⟩
    | err e => cases congrArg Prod.fst h
    | panic m => cases congrArg Prod.fst h
    | blocked => cases congrArg Prod.fst h

end Impedance

/-- **C93**: so the program returns Ok just after the control call has failed, from the pose that it has read before. It does not tell the error to who started it. -/
theorem C93_program {w w' : World F} (hw : Fresh w) (hok : Examples.cartesian_impedance_control model w = (.ok (), w')) :
    ∃ (w0 w1 : World F) (st0 : RobotState F) (e : FrankaException F), RobotReachable w0 ∧ Robot.read_once w0 = (.ok st0, w1) ∧ RobotReachable w1 ∧
      (impedanceExample model st0).run w1 = (.err e, w') := by
  unfold Examples.cartesian_impedance_control at hok
  obtain ⟨⟨⟩, w2, h2, hok⟩ := Impedance.bind_ok hok
  have r2 : RobotReachable w2 := ⟨none, none, [], w, hw, by
    unfold robotSession
    show Prog.bind _ _ w = _
    unfold Prog.bind
    rw [h2]
    rfl⟩
  have next : ∀ {w w' : World F} (c : RobotCall F), RobotReachable w → c.run w = (.ok (), w') → RobotReachable w' := fun c h e => by
    have := h.after c (.inl (by rw [e]))
    rw [e] at this
    exact this
  obtain ⟨b, w3, h3, hok⟩ := Impedance.bind_ok hok
  have r3 := next (.load_model true) r2 (w' := w3) (by
    show Prog.bind _ _ w2 = _
    unfold Prog.bind
    rw [h3]
    rfl)
  obtain ⟨⟨⟩, w4, h4, hok⟩ := Impedance.bind_ok hok
  have r4 := next (.set_collision_behavior _ _ _ _ _ _ _ _) r3 h4
  obtain ⟨⟨⟩, w5, h5, hok⟩ := Impedance.bind_ok hok
  have r5 := next (.set_joint_impedance _) r4 h5
  obtain ⟨⟨⟩, w6, h6, hok⟩ := Impedance.bind_ok hok
  have r6 := next (.set_cartesian_impedance _) r5 h6
  obtain ⟨st0, w7, h7, hok⟩ := Impedance.bind_ok hok
  have r7 := next .read_once r6 (w' := w7) (by
    show Prog.bind _ _ w6 = _
    unfold Prog.bind
    rw [h7]
    rfl)
  obtain ⟨res, w8, h8, hok⟩ := Impedance.bind_ok hok
  have h9 := C93_never_finishes (model := model) (st0 := st0) r7
  have e8 : w8 = w' := by
    cases res <;> exact congrArg Prod.snd hok
  rw [e8] at h8
  refine ⟨w6, w7, st0, ?_⟩
  change Prog.attempt ((impedanceExample model st0).run) w7 = _ at h8
  unfold Prog.attempt at h8
  cases hr : (impedanceExample model st0).run w7 with
  | mk r w9 =>
    rw [hr] at h8 h9
    cases r with
    | ok a => exact absurd rfl h9
    | err e => exact ⟨e, r6, h7, r7, by rw [show w9 = w' from congrArg Prod.snd h8]⟩
    | panic m => cases congrArg Prod.fst h8
    | blocked => cases congrArg Prod.fst h8

end

/-! ## The mirror -/

namespace Mirror

theorem mirror_unit {c : Fin 4 → ℝ} (h : ∑ i, c i ^ 2 = 1) : ∑ i, (![-c 0, c 1, -c 2, c 3] : Fin 4 → ℝ) i ^ 2 = 1 := by
  rw [sum_four] at *
  simp only [cons_val_zero, cons_val_one, cons_val]
  linear_combination h

theorem mirror_quaternion (c : Fin 4 → ℝ) : ofQuaternion ![-c 0, c 1, -c 2, c 3] = mirrorRotation (ofQuaternion c) := by
  ext i j
  fin_cases i <;> fin_cases j <;> simp [ofQuaternion, mirrorRotation, mirrorMatrix] <;> ring

theorem home_fin : (Examples.q_goal : Arr XR 7) = Arr.fin homePosition := by
  funext i
  have h0 : (lit 0 : XR) = .fin 0 := by rw [XR.lit_fin]; norm_num
  have h2 : (lit 2 : XR) = .fin 2 := by rw [XR.lit_fin]; norm_num
  have h3 : (lit 3 : XR) = .fin 3 := by rw [XR.lit_fin]; norm_num
  have h4 : (lit 4 : XR) = .fin 4 := by rw [XR.lit_fin]; norm_num
  have hp : (pi : XR) = .fin Real.pi := rfl
  unfold Examples.q_goal
  rw [h0, h2, h3, h4, hp, XR.fin_neg, XR.fin_neg, XR.fin_mul, XR.fin_div _ _ (by norm_num), XR.fin_div _ _ (by norm_num), XR.fin_div _ _ (by norm_num),
    XR.fin_div _ _ (by norm_num)]
  fin_cases i <;> rfl

theorem nullspace [Geo XR] [GeoExtra XR] {J : Matrix (Fin 6) (Fin 7) ℝ} {P : Matrix (Fin 6) (Fin 7) ℝ}
    (hP : GeoExtra.pseudo_inverse (fun i j => XR.fin (Jᵀ i j)) (.fin (1 / 1000)) = (fun i j => XR.fin (P i j))) (q : Fin 7 → ℝ) :
    Examples.tau_nullspace (fun i j => XR.fin (J i j)) (Arr.fin q) = Arr.fin ((5 : ℝ) • (1 - Jᵀ * P) *ᵥ (homePosition - q)) := by
  unfold Examples.tau_nullspace
  dsimp only
  have h1 : Mat.transpose (fun i j => XR.fin (J i j)) = fun i j => XR.fin (Jᵀ i j) := rfl
  have h2 : (lit (1 / 1000) : XR) = .fin (1 / 1000) := by rw [XR.lit_fin]; norm_num
  have h5 : (lit 5 : XR) = .fin 5 := by rw [XR.lit_fin]; norm_num
  rw [h1, h2, hP, mul_fin, h5]
  have h6 : (fun i j => ((Mat.identity i j : XR) - XR.fin ((Jᵀ * P) i j)) * XR.fin 5) = fun i j => XR.fin (((5 : ℝ) • (1 - Jᵀ * P) : Matrix (Fin 7) (Fin 7) ℝ) i j) := by
    funext i j
    have : (Mat.identity i j : XR) = .fin ((1 : Matrix (Fin 7) (Fin 7) ℝ) i j) := by
      unfold Mat.identity
      rw [Matrix.one_apply]
      split <;> rw [XR.lit_fin] <;> norm_num
    rw [this, XR.fin_sub, XR.fin_mul, Matrix.smul_apply, Matrix.sub_apply, smul_eq_mul, mul_comm]
  have h7 : (Examples.q_goal : Arr XR 7).sub (Arr.fin q) = Arr.fin (homePosition - q) := by
    rw [home_fin]
    funext i
    exact XR.fin_sub _ _
  rw [h6, h7, mulVec_fin, smul_mulVec]

end Mirror

section
variable [Geo XR] [GeoExtra XR] {model : ModelLibrary XR} {st : RobotState XR} {y x w : Fin 3 → ℝ} {R : M3} {J : Matrix (Fin 6) (Fin 7) ℝ} {q d c : Fin 7 → ℝ}

/-- **C94**: a mirrored pose is the pose that is seen in a mirror: it takes the mirror image of each point of the end effector to where the mirror shows that point. -/
theorem C94_mirror (y p : Fin 3 → ℝ) (R : M3) : mirrorPoint (y + R *ᵥ p) = mirrorPoint y + mirrorRotation R *ᵥ mirrorPoint p := by
  have h : ∀ v : Fin 3 → ℝ, mirrorPoint v = mirrorMatrix *ᵥ v := fun v => by
    funext i
    fin_cases i <;> simp [mirrorPoint, mirrorMatrix, mulVec, dotProduct, Fin.sum_univ_three]
  have h1 : mirrorMatrix * mirrorMatrix = 1 := by
    ext i j
    fin_cases i <;> fin_cases j <;> simp [mirrorMatrix]
  rw [h, h, h, mirrorRotation, mulVec_add, mulVec_mulVec, mulVec_mulVec, Matrix.mul_assoc, Matrix.mul_assoc, h1, Matrix.mul_one]

/-- **C94**: the robot that the user guides gets no torques, and sends its pose. -/
theorem C94_user (st : RobotState XR) (dt : ℕ) : Examples.user_callback st dt = (st.O_T_EE, .new (Arr.fin 0)) := by
  unfold Examples.user_callback
  refine Prod.ext rfl ?_
  show Torques.new _ = _
  congr 1
  funext i
  rw [XR.lit_fin]
  simp [Arr.fin]

/-- **C94**: the torques of the other robot are those of a spring and a damper between the pose of its end effector and the mirror image of the last pose that has arrived, the Coriolis
torques, and torques `n` towards the home position that do not act on the end effector. -/
theorem C94_torques {exact : Matrix (Fin 7) (Fin 6) ℝ → Prop} (hq : QuaternionLibrary) (hp : PseudoInverseLibrary exact) {last : Arr XR 16} {received : Option (Arr XR 16)}
    (hy : received.getD last = Arr.fin (pose y R)) (hR : IsRotation R) (r0 : ReadsRight R) (h : ArmState model st x (turn w * mirrorRotation R) J q d c)
    (r : ReadsRight (turn w * mirrorRotation R)) (hw : len w < Real.pi) (dt : ℕ) :
    ∃ n : Fin 7 → ℝ, Examples.mirror_callback model last received st dt = (Arr.fin (pose y R),
        .new (Arr.fin (Jᵀ *ᵥ springDamper 400 50 (x - mirrorPoint y) w (J *ᵥ d) + n + c))) ∧
      (exact Jᵀ → J *ᵥ n = 0) ∧ 0 ≤ (homePosition - q) ⬝ᵥ n ∧ (q = homePosition → n = 0) ∧
      ∃ P, IsPseudoInverse Jᵀ P ∧ n = (5 : ℝ) • (1 - Jᵀ * P) *ᵥ (homePosition - q) ∧ P *ᵥ n = 0 := by
  obtain ⟨P, hP, hinv, hex⟩ := hp Jᵀ
  obtain ⟨c0, e1, e2, e3⟩ := hq _ R hR r0
  have hsq : (1 - Jᵀ * P)ᵀ * (1 - Jᵀ * P) = 1 - Jᵀ * P := by
    have h1 : Jᵀ * P * (Jᵀ * P) = Jᵀ * P := by
      rw [Matrix.mul_assoc, ← Matrix.mul_assoc P, hinv.reflexive]
    rw [transpose_sub, transpose_one, hinv.symmetric, Matrix.mul_sub, Matrix.mul_one, Matrix.sub_mul, Matrix.one_mul, h1, sub_self, sub_zero]
  refine ⟨(5 : ℝ) • (1 - Jᵀ * P) *ᵥ (homePosition - q), Prod.ext hy ?_, ?_, ?_, ?_, P, hinv, rfl, ?_⟩
  · unfold Examples.mirror_callback
    dsimp only
    have hm : Examples.mirrored (Arr.fin (pose y R)) = (Arr.fin (mirrorPoint y), Arr.fin ![-c0 0, c0 1, -c0 2, c0 3]) := by
      unfold Examples.mirrored
      dsimp only
      rw [array_to_isometry_fin, rotationPart_pose]
      dsimp only
      rw [e1]
      refine Prod.ext ?_ ?_
      · funext i
        fin_cases i <;> rfl
      · have : (![-(Arr.fin c0 0 : XR), Arr.fin c0 1, -(Arr.fin c0 2 : XR), Arr.fin c0 3] : Arr XR 4) = Arr.fin ![-c0 0, c0 1, -c0 2, c0 3] := by
          funext i
          fin_cases i <;> rfl
        dsimp only
        rw [this, qnormalize_fin (Mirror.mirror_unit e2)]
    rw [hy, hm, h.coriolis, h.jacobian, h.pose, h.velocities, h.joints, from_jacobianArray]
    have h400 : (lit 400 : XR) = .fin 400 := by rw [XR.lit_fin]; norm_num
    have h50 : (lit 50 : XR) = .fin 50 := by rw [XR.lit_fin]; norm_num
    dsimp only
    rw [h400, h50, Impedance.task hq (by norm_num) (by norm_num) (Mirror.mirror_unit e2) ((Mirror.mirror_quaternion c0).trans (by rw [e3])) r hw,
      Mirror.nullspace hP, Impedance.add_fin', Impedance.add_fin']
    rfl
  · intro he
    have h1 : J * (1 - Jᵀ * P) = 0 := by
      have h2 : (1 - Jᵀ * P) * Jᵀ = 0 := by rw [Matrix.sub_mul, Matrix.one_mul, hex he, sub_self]
      have h3 := congrArg Matrix.transpose h2
      rw [transpose_mul, transpose_sub, transpose_one, hinv.symmetric, transpose_transpose, transpose_zero] at h3
      exact h3
    rw [mulVec_smul, mulVec_mulVec, h1, zero_mulVec, smul_zero]
  · rw [dotProduct_smul, ← hsq, ← mulVec_mulVec, dotProduct_mulVec, vecMul_transpose, smul_eq_mul]
    refine mul_nonneg (by norm_num) ?_
    exact Finset.sum_nonneg fun i _ => mul_self_nonneg _
  · intro e
    rw [e, sub_self, mulVec_zero, smul_zero]
  · rw [mulVec_smul, mulVec_mulVec, Matrix.mul_sub, Matrix.mul_one, ← Matrix.mul_assoc, hinv.reflexive, sub_self, zero_mulVec, smul_zero]

end

end Verif
