import Verif.Spec.Nalgebra
import Verif.Lemmas.Rotation
import Verif.Props.Cartesian
import Verif.Props.Homogeneous
import Mathlib.Analysis.Real.Pi.Bounds
/-!
# Rate limiting of Cartesian poses: C46, C61

Doubles are real numbers here (`Spec/Real.lean`), and nalgebra computes with rotations as `Spec/Nalgebra.lean` says.
-/
set_option linter.unusedSectionVars false
namespace Verif
open Spec Matrix

/-! ## Matrices of the model -/

theorem get_arr9 (A : M3) (r c : Fin 3) : Mat3.get (arr9 A) r c = .fin (A r c) := by
  fin_cases r <;> fin_cases c <;> rfl

theorem of_arr9 (A : M3) : Mat3.of (fun r c => .fin (A r c)) = arr9 A := by
  funext i
  fin_cases i <;> rfl

theorem arr9_mul (A B : M3) : Mat3.mul (arr9 A) (arr9 B) = arr9 (A * B) := by
  unfold Mat3.mul
  simp only [get_arr9, XR.fin_mul, XR.fin_add]
  rw [← of_arr9]
  congr 1
  funext r c
  rw [Matrix.mul_apply, Fin.sum_univ_three]

theorem arr9_transpose (A : M3) : Mat3.transpose (arr9 A) = arr9 Aᵀ := by
  unfold Mat3.transpose
  simp only [get_arr9]
  rw [← of_arr9]
  rfl

theorem arr9_inj {A B : M3} (h : arr9 A = arr9 B) : A = B := by
  ext r c
  have := congrArg (fun m => Mat3.get m r c) h
  simp only [get_arr9] at this
  exact (XR.fin_inj _ _).1 this

theorem len_unit {w : Fin 3 → ℝ} (h : 0 < len w) : len (fun i => w i / len w) = 1 := by
  have : (fun i => w i / len w) = fun i => 1 / len w * w i := by
    funext i; ring
  rw [this, len_smul, abs_of_pos (by positivity)]
  field_simp

theorem arr9_add (A B : M3) : (arr9 A).add (arr9 B) = arr9 (A + B) := by
  funext i
  fin_cases i <;> rfl

theorem arr9_lmul (c : ℝ) (A : M3) : Arr.lmul (.fin c) (arr9 A) = arr9 (c • A) := by
  funext i
  fin_cases i <;> rfl

theorem arr9_one : Mat3.identity = arr9 1 := by
  funext i
  fin_cases i <;> simp [Mat3.identity, Mat3.of, arr9, Arr.fin, XR.lit_fin]

theorem arr9_skew (n : Fin 3 → ℝ) : (![Fl.lit 0, Arr.fin n 2, - Arr.fin n 1, - Arr.fin n 2, Fl.lit 0, Arr.fin n 0, Arr.fin n 1, - Arr.fin n 0, Fl.lit 0] : Arr XR 9) =
    arr9 (skew n) := by
  funext i
  fin_cases i <;> simp [skew, arr9, Arr.fin, XR.lit_fin, XR.fin_neg]

theorem arr9_rotate (n : Fin 3 → ℝ) (θ : ℝ) : ((Mat3.identity (F := XR)).add (Arr.lmul (Fl.fsin (.fin θ)) (arr9 (skew n)))).add
    (Arr.lmul (Fl.lit 1 - Fl.fcos (.fin θ)) (Mat3.mul (arr9 (skew n)) (arr9 (skew n)))) = arr9 (rotate n θ) := by
  rw [arr9_one, arr9_mul, XR.fsin_fin, XR.fcos_fin, XR.lit_fin, XR.fin_sub, arr9_lmul, arr9_lmul, arr9_add, arr9_add]
  unfold rotate
  norm_num

variable [Geo XR]

theorem array_to_isometry_fin (p : Fin 16 → ℝ) :
    array_to_isometry (Arr.fin p) = ⟨Arr.fin (position p), Geo.fromMatrix (arr9 (rotationPart p))⟩ := by
  unfold array_to_isometry
  congr 1
  · funext i
    fin_cases i <;> rfl
  · congr 1
    funext i
    fin_cases i <;> rfl

omit [Geo XR] in
theorem position_pose (x : Fin 3 → ℝ) (R : M3) : position (pose x R) = x := by
  funext i; fin_cases i <;> rfl
omit [Geo XR] in
theorem rotationPart_pose (x : Fin 3 → ℝ) (R : M3) : rotationPart (pose x R) = R := by
  ext i j; fin_cases i <;> fin_cases j <;> rfl
omit [Geo XR] in
theorem bottomRow_pose (x : Fin 3 → ℝ) (R : M3) : BottomRow (pose x R) := ⟨rfl, rfl, rfl, rfl⟩
omit [Geo XR] in
theorem pose_eq {p : Fin 16 → ℝ} (h : BottomRow p) : pose (position p) (rotationPart p) = p := by
  obtain ⟨h1, h2, h3, h4⟩ := h
  funext i; fin_cases i <;> first | rfl | exact h1.symm | exact h2.symm | exact h3.symm | exact h4.symm

theorem to_homogeneous_fin {x : Fin 3 → ℝ} {q : Geo.Q XR} {R : M3} (h : Geo.toMatrix q = arr9 R) :
    Isometry.to_homogeneous (⟨Arr.fin x, q⟩ : Isometry XR) = Arr.fin (pose x R) := by
  unfold Isometry.to_homogeneous
  dsimp only
  rw [h]
  funext i
  fin_cases i <;> simp [pose, arr9, Arr.fin, XR.lit_fin]

/-! ## The limiter -/

/-- The limits for rotations that the pose limiter uses. -/
noncomputable def posed (R : Limits) : Limits := ⟨99 / 100 * R.velocity, 99 / 100 * R.acceleration, 99 / 100 * R.jerk⟩

omit [Geo XR] in
theorem posed_ok {R : Limits} (h : CartesianOk R) : CartesianOk (posed R) := by
  obtain ⟨h1, h2, h3⟩ := h
  constructor <;> simp only [posed] <;> linarith

omit [Geo XR] in
theorem FACTOR_fin (x : ℝ) : (FACTOR_CARTESIAN_ROTATION_POSE_INTERFACE : XR) * .fin x = .fin (99 / 100 * x) := by
  rw [FACTOR_CARTESIAN_ROTATION_POSE_INTERFACE, XR.lit_fin, XR.fin_mul]
  norm_num

/-- What the limiter computes: a twist `u` is read from the poses and limited to `dx`. -/
theorem pose_fin_read (lib : RotationLibrary) {T R : Limits} (hT : CartesianOk T) (hR : CartesianOk R) {p p0 : Fin 16 → ℝ} {v a : Fin 6 → ℝ}
    (accepted : is_homogeneous_transformation (Arr.fin p) = true) (last : IsRotation (rotationPart p0)) (e0 : ReadsRight (rotationPart p0))
    (h1 : Roots T (fun i => (position p i - position p0 i) / 0.001) (linear v) (linear a)) (h2 : len (angular v) ≤ (posed R).velocity) :
    ∃ (C : M3) (w : Fin 3 → ℝ) (x : Fin 3 → ℝ) (dw : Fin 3 → ℝ) (S : M3), Geo.toMatrix (Geo.fromMatrix (arr9 (rotationPart p))) = arr9 C ∧ IsRotation C ∧
      Geo.renormalizedScaledAxis (arr9 (C * (rotationPart p0)ᵀ)) = Arr.fin w ∧
      x = cOut T (fun i => (position p i - position p0 i) / 0.001) (linear v) (linear a) ∧
      dw = cOut (posed R) (fun i => w i / 0.001) (angular v) (angular a) ∧ IsRotation S ∧
      limit_rate_cartesian_pose (.fin T.velocity) (.fin T.acceleration) (.fin T.jerk) (.fin R.velocity) (.fin R.acceleration) (.fin R.jerk)
        (Arr.fin p) (Arr.fin p0) (Arr.fin v) (Arr.fin a) = .ok (Arr.fin (pose (fun i => position p0 i + x i * 0.001) S)) ∧
      (len dw ≤ tiny → S = rotationPart p0) ∧
      (tiny < len dw → ¬ IsHalfTurn (rotate (fun i => dw i / len dw) (0.001 * len dw) * rotationPart p0) →
        S = rotate (fun i => dw i / len dw) (0.001 * len dw) * rotationPart p0) := by
  unfold ReadsRight at e0
  obtain ⟨C, hC, eC⟩ := lib.from_any_matrix (rotationPart p)
  obtain ⟨w, hw, -, -⟩ := lib.scaled_axis _ (hC.mul last.tr)
  set x := cOut T (fun i => (position p i - position p0 i) / 0.001) (linear v) (linear a) with hx
  set dw := cOut (posed R) (fun i => w i / 0.001) (angular v) (angular a) with hdw
  have main : ∀ (S : M3), (∀ q : Geo.Q XR, q = (if Fl.flt NORM_EPS (Vec3.norm (Arr.fin dw)) then
        let w_norm := Vec3.normalize (Arr.fin dw)
        let theta := DELTA_T * Vec3.norm (Arr.fin dw)
        let omega_skew : Arr XR 9 :=
          ![Fl.lit 0, w_norm 2, - w_norm 1,  - w_norm 2, Fl.lit 0, w_norm 0,  w_norm 1, - w_norm 0, Fl.lit 0]
        let R := ((Mat3.identity (F := XR)).add (Arr.lmul (Fl.fsin theta) omega_skew)).add
          (Arr.lmul (Fl.lit 1 - Fl.fcos theta) (Mat3.mul omega_skew omega_skew))
        Geo.quatFromMatrix (Mat3.mul R (arr9 (rotationPart p0)))
      else Geo.fromMatrix (arr9 (rotationPart p0))) → Geo.toMatrix q = arr9 S) →
      limit_rate_cartesian_pose (.fin T.velocity) (.fin T.acceleration) (.fin T.jerk) (.fin R.velocity) (.fin R.acceleration) (.fin R.jerk)
        (Arr.fin p) (Arr.fin p0) (Arr.fin v) (Arr.fin a) = .ok (Arr.fin (pose (fun i => position p0 i + x i * 0.001) S)) := by
    intro S hS
    unfold limit_rate_cartesian_pose
    rw [assertFinite_fin, P_bind_ok_eq, accepted]
    show (_ : P (Arr XR 16)) = _
    rw [show assertP true "assertion failed: is_homogeneous_transformation(O_T_EE_c)" = .ok () from rfl, P_bind_ok_eq]
    rw [array_to_isometry_fin, array_to_isometry_fin]
    dsimp only
    rw [eC, e0, arr9_transpose, arr9_mul, hw, sub_fin, divs_dt, divs_dt, FACTOR_fin, FACTOR_fin, FACTOR_fin]
    have hj : (![Arr.fin (fun i => 1000 * (position p i - position p0 i)) 0, Arr.fin (fun i => 1000 * (position p i - position p0 i)) 1,
        Arr.fin (fun i => 1000 * (position p i - position p0 i)) 2, Arr.fin (fun i => 1000 * w i) 0, Arr.fin (fun i => 1000 * w i) 1, Arr.fin (fun i => 1000 * w i) 2] : Arr XR 6) =
        Arr.fin (join (fun i => (position p i - position p0 i) / 0.001) (fun i => w i / 0.001)) := by
      funext i
      fin_cases i <;> simp [join, Arr.fin] <;> ring
    rw [hj]
    have hl := cartesian_fin' hT (posed_ok hR) (u := join (fun i => (position p i - position p0 i) / 0.001) (fun i => w i / 0.001)) (v := v) (a := a)
      (by rw [linear_join]; exact h1) ((posed_ok hR).roots h2)
    rw [linear_join, angular_join, ← hx, ← hdw] at hl
    unfold posed at hl
    dsimp only at hl
    rw [hl, P_bind_ok_eq, head3_fin, tail3_fin, linear_join, angular_join, DELTA_T_fin, rmul_fin, add_fin]
    show Except.ok _ = Except.ok _
    congr 1
    rw [← DELTA_T_fin]
    have := to_homogeneous_fin (x := fun i => position p0 i + x i * 0.001) (hS _ rfl)
    rw [← this]
    congr 2
    funext i
    simp only [Arr.fin]
    norm_num
  rw [NORM_EPS_fin, norm_fin, XR.flt_fin] at main
  by_cases ht : tiny < len dw
  · rw [decide_eq_true ht] at main
    simp only [if_true] at main
    rw [normalize_fin (tiny_pos.trans ht), DELTA_T_fin, XR.fin_mul, arr9_skew, arr9_rotate, arr9_mul] at main
    obtain ⟨S, hS, eS⟩ := lib.quat_from_any_matrix (rotate (fun i => dw i / len dw) (1 / 1000 * len dw) * rotationPart p0)
    refine ⟨C, w, x, dw, S, eC, hC, hw, rfl, rfl, hS, main S (fun q hq => by rw [hq, eS]), fun h => absurd ht (not_lt.2 h), fun _ hn => ?_⟩
    rw [show (0.001 : ℝ) = 1 / 1000 by norm_num] at hn ⊢
    have := lib.quat_from_matrix _ ((rotate_isRotation (len_unit (tiny_pos.trans ht)) _).mul last) hn
    rw [eS] at this
    exact arr9_inj this
  · rw [decide_eq_false ht] at main
    simp only [Bool.false_eq_true, if_false] at main
    exact ⟨C, w, x, dw, rotationPart p0, eC, hC, hw, rfl, rfl, last, main _ (fun q hq => by rw [hq, e0]), fun _ => rfl, fun h => absurd h ht⟩

theorem pose_fin (lib : RotationLibrary) {T R : Limits} (hT : CartesianOk T) (hR : CartesianOk R) {p p0 : Fin 16 → ℝ} {v a : Fin 6 → ℝ}
    (accepted : is_homogeneous_transformation (Arr.fin p) = true) (last : IsRotation (rotationPart p0)) (lastNot : ¬ IsHalfTurn (rotationPart p0))
    (h1 : Roots T (fun i => (position p i - position p0 i) / 0.001) (linear v) (linear a)) (h2 : len (angular v) ≤ (posed R).velocity) :
    ∃ (C : M3) (w : Fin 3 → ℝ) (x : Fin 3 → ℝ) (dw : Fin 3 → ℝ) (S : M3), Geo.toMatrix (Geo.fromMatrix (arr9 (rotationPart p))) = arr9 C ∧ IsRotation C ∧
      Geo.renormalizedScaledAxis (arr9 (C * (rotationPart p0)ᵀ)) = Arr.fin w ∧
      x = cOut T (fun i => (position p i - position p0 i) / 0.001) (linear v) (linear a) ∧
      dw = cOut (posed R) (fun i => w i / 0.001) (angular v) (angular a) ∧ IsRotation S ∧
      limit_rate_cartesian_pose (.fin T.velocity) (.fin T.acceleration) (.fin T.jerk) (.fin R.velocity) (.fin R.acceleration) (.fin R.jerk)
        (Arr.fin p) (Arr.fin p0) (Arr.fin v) (Arr.fin a) = .ok (Arr.fin (pose (fun i => position p0 i + x i * 0.001) S)) ∧
      (len dw ≤ tiny → S = rotationPart p0) ∧
      (tiny < len dw → ¬ IsHalfTurn (rotate (fun i => dw i / len dw) (0.001 * len dw) * rotationPart p0) →
        S = rotate (fun i => dw i / len dw) (0.001 * len dw) * rotationPart p0) :=
  pose_fin_read lib hT hR accepted last (lib.from_matrix _ last lastNot) h1 h2

/-! ## Axis times angle -/

omit [Geo XR] in
theorem turn_of_len_zero {w : Fin 3 → ℝ} (h : len w = 0) : turn w = 1 := by
  unfold turn
  rw [h, rotate_zero]

omit [Geo XR] in
theorem turn_isRotation (w : Fin 3 → ℝ) : IsRotation (turn w) := by
  rcases (len_nonneg w).eq_or_lt' with h | h
  · rw [turn_of_len_zero h]; exact isRotation_one
  · exact rotate_isRotation (len_unit h) _

omit [Geo XR] in
theorem turn_trace (w : Fin 3 → ℝ) : (turn w).trace = 1 + 2 * Real.cos (len w) := by
  rcases (len_nonneg w).eq_or_lt' with h | h
  · rw [turn_of_len_zero h, h]; simp; norm_num
  · exact rotate_trace (len_unit h) _

omit [Geo XR] in
theorem turn_inj {w w' : Fin 3 → ℝ} (h : len w < Real.pi) (h' : len w' < Real.pi) (e : turn w = turn w') : w = w' := by
  have hl : len w = len w' := by
    have := congrArg Matrix.trace e
    rw [turn_trace, turn_trace] at this
    exact Real.injOn_cos ⟨len_nonneg w, h.le⟩ ⟨len_nonneg w', h'.le⟩ (by linarith)
  rcases (len_nonneg w).eq_or_lt' with h0 | h0
  · funext i
    exact (len_eq_zero h0 i).trans (len_eq_zero (hl ▸ h0) i).symm
  · have hv := congrArg vee e
    unfold turn at hv
    rw [vee_rotate, vee_rotate, ← hl] at hv
    have hs := Real.sin_pos_of_pos_of_lt_pi h0 h
    funext i
    have := congrFun hv i
    have := mul_left_cancel₀ (by positivity) this
    field_simp at this
    exact this

omit [Geo XR] in
theorem turn_scale {c : ℝ} (hc : 0 < c) {w : Fin 3 → ℝ} (h : 0 < len w) : turn (fun i => c * w i) = rotate (fun i => w i / len w) (c * len w) := by
  unfold turn
  rw [len_smul, abs_of_pos hc]
  congr 1
  funext i
  field_simp

omit [Geo XR] in
theorem pose_velocity (x y : Fin 3 → ℝ) (R : M3) : (fun i => (position (pose (fun i => x i + y i * 0.001) R) i - x i) / 0.001) = y := by
  rw [position_pose]
  funext i
  ring

/-! ## C46 -/

/-- **C46**, one step: for all commands that are accepted and all last velocities within the limits, the result is a pose with the bottom row 0, 0, 0, 1
and a proper rotation. The velocity of its position respects the limits, and it is turned from the last pose by 1 ms of an angular velocity `w` that
respects the limits. The last point assumes that neither the last pose nor the result is a half turn, which nalgebra does not read from a matrix.
Missing: last velocities beyond the limit, for which the claim is false (`C46_beyond_the_limit`). -/
theorem C46_step_partial (lib : RotationLibrary) {T R : Limits} (hT : CartesianOk T) (hR : CartesianOk R) (hA : 1 ≤ R.acceleration) (hV : 0 ≤ R.velocity)
    (p p0 : Fin 16 → ℝ) (v a : Fin 6 → ℝ)
    (accepted : is_homogeneous_transformation (Arr.fin p) = true) (last : IsRotation (rotationPart p0)) (lastNot : ¬ IsHalfTurn (rotationPart p0))
    (h1 : len (linear v) ≤ T.velocity) (h2 : len (angular v) ≤ 0.99 * R.velocity) :
    ∃ (r : Fin 16 → ℝ) (w : Fin 3 → ℝ),
      limit_rate_cartesian_pose (.fin T.velocity) (.fin T.acceleration) (.fin T.jerk) (.fin R.velocity) (.fin R.acceleration) (.fin R.jerk)
        (Arr.fin p) (Arr.fin p0) (Arr.fin v) (Arr.fin a) = .ok (Arr.fin r) ∧
      BottomRow r ∧ IsRotation (rotationPart r) ∧
      StepRespects T (linear v) (fun i => (position r i - position p0 i) / 0.001) ∧
      len (fun i => position r i - position p0 i) ≤ T.velocity * 0.001 ∧
      StepRespects R (angular v) w ∧ len w ≤ 0.99 * R.velocity ∧
      (¬ IsHalfTurn (turn (fun i => 0.001 * w i) * rotationPart p0) → rotationPart r = turn (fun i => 0.001 * w i) * rotationPart p0) := by
  have h2 : len (angular v) ≤ (posed R).velocity := by
    unfold posed; dsimp only; linarith
  obtain ⟨C, w, x, dw, S, -, -, -, hx, hdw, hS, hr, s1, s2⟩ := pose_fin lib hT hR (a := a) accepted last lastNot (hT.roots h1) h2
  have gx : StepRespects T (linear v) x := by rw [hx]; exact cOut_respects hT.jerk hT.acceleration hT.ratio h1
  have gw : StepRespects (posed R) (angular v) dw := by
    rw [hdw]; exact cOut_respects (posed_ok hR).jerk (posed_ok hR).acceleration (posed_ok hR).ratio h2
  have gv : len dw ≤ 0.99 * R.velocity := by
    have := gw.velocity
    unfold posed at this
    dsimp only at this
    linarith
  have hrot := rotationPart_pose (fun i => position p0 i + x i * 0.001) S
  have hp : len (fun i => position (pose (fun i => position p0 i + x i * 0.001) S) i - position p0 i) ≤ T.velocity * 0.001 := by
    rw [position_pose, show (fun i => position p0 i + x i * 0.001 - position p0 i) = fun i => 0.001 * x i by funext i; ring, len_smul]
    have := gx.velocity
    rw [abs_of_pos (by norm_num)]
    linarith
  by_cases ht : tiny < len dw
  · refine ⟨_, dw, hr, bottomRow_pose _ _, by rw [hrot]; exact hS, by rw [pose_velocity]; exact gx, hp, ⟨by linarith, ?_⟩, gv, ?_⟩
    · refine gw.acceleration.trans ?_
      unfold posed
      dsimp only
      linarith [hR.acceleration]
    · rw [hrot, turn_scale (by norm_num) (tiny_pos.trans ht)]
      exact s2 ht
  · have hz : len (0 : Fin 3 → ℝ) = 0 := by simp [len]
    refine ⟨_, 0, hr, bottomRow_pose _ _, by rw [hrot]; exact hS, by rw [pose_velocity]; exact gx, hp, ⟨by rw [hz]; exact hV, ?_⟩, by rw [hz]; positivity, ?_⟩
    · have ha := gw.acceleration
      have : (fun i => ((0 : Fin 3 → ℝ) i - angular v i) / 0.001) = fun i => (dw i - angular v i) / 0.001 + (-1000) * dw i := by
        funext i
        simp only [Pi.zero_apply]
        ring
      rw [this]
      refine (len_add_le _ _).trans ?_
      rw [len_smul]
      unfold posed at ha
      dsimp only at ha
      have ht : len dw ≤ tiny := not_lt.1 ht
      have : tiny ≤ 1 / 1000000 := by norm_num [tiny]
      norm_num
      norm_num at ha
      linarith
    · intro _
      have : (fun i => 0.001 * (0 : Fin 3 → ℝ) i) = 0 := by funext i; simp
      rw [this, turn_of_len_zero hz, one_mul, hrot]
      exact s1 (not_lt.1 ht)

/-- The limited part of a conversion. -/
theorem convert_pose {out : CartesianPose XR} {state : RobotState XR} {m m' : MotionGeneratorCommand XR} {cutoff : XR}
    (h : out.convert_motion state m cutoff true = .ok m') :
    ∃ q : Fin 16 → ℝ, is_homogeneous_transformation (Arr.fin q) = true ∧
      limit_rate_cartesian_pose (.fin codeTranslation.velocity) (.fin codeTranslation.acceleration) (.fin codeTranslation.jerk)
        (.fin codeRotation.velocity) (.fin codeRotation.acceleration) (.fin codeRotation.jerk) (Arr.fin q) state.O_T_EE_c state.O_dP_EE_c state.O_ddP_EE_c =
        .ok m'.O_T_EE_c := by
  have h : ((if Fl.flt cutoff MAX_CUTOFF_FREQUENCY then cartesian_low_pass_filter DELTA_T out.O_T_EE state.O_T_EE_c cutoff else pure out.O_T_EE) >>= fun x =>
      limit_rate_cartesian_pose MAX_TRANSLATIONAL_VELOCITY MAX_TRANSLATIONAL_ACCELERATION MAX_TRANSLATIONAL_JERK
        MAX_ROTATIONAL_VELOCITY MAX_ROTATIONAL_ACCELERATION MAX_ROTATIONAL_JERK x state.O_T_EE_c state.O_dP_EE_c state.O_ddP_EE_c >>= fun y =>
      check_matrix y >>= fun _ => convert_elbow out.elbow state { m with O_T_EE_c := y } cutoff true) = .ok m' := by
    rw [← h]
    unfold CartesianPose.convert_motion
    split <;> rfl
  obtain ⟨x, -, h4⟩ := P_bind_inv h
  obtain ⟨y, h3, h5⟩ := P_bind_inv h4
  obtain ⟨_, -, h6⟩ := P_bind_inv h5
  obtain ⟨t1, t2, t3⟩ := MAX_TRANSLATIONAL_fin
  obtain ⟨r1, r2, r3⟩ := MAX_ROTATIONAL_fin
  rw [t1, t2, t3, r1, r2, r3] at h3
  have hy : m'.O_T_EE_c = y := (convert_elbow_keeps h6).2
  have h7 := h3
  unfold limit_rate_cartesian_pose at h7
  obtain ⟨_, h8, h9⟩ := P_bind_inv h7
  obtain ⟨_, h10, -⟩ := P_bind_inv h9
  obtain ⟨q, rfl⟩ := assertFinite_inv h8
  refine ⟨q, ?_, by rw [hy]; exact h3⟩
  unfold assertP at h10
  split at h10
  · assumption
  · cases h10

omit [Geo XR] in
/-- A small turn does not reach a half turn. -/
theorem away_not_half {R : M3} (hR : IsRotation R) (h : -0.99 ≤ R.trace) {w : Fin 3 → ℝ} (hw : len w ≤ 2.5) : ¬ IsHalfTurn (turn (fun i => 0.001 * w i) * R) := by
  intro e
  unfold IsHalfTurn at e
  rcases (len_nonneg w).eq_or_lt' with h0 | h0
  · rw [turn_of_len_zero (by rw [len_smul, h0, mul_zero]), one_mul] at e
    rw [e] at h
    norm_num at h
  · rw [turn_scale (by norm_num) h0] at e
    have := trace_rotate_mul (len_unit h0) (0.001 * len w) hR
    rw [e] at this
    nlinarith

/-- The first steps of a motion with poses. -/
theorem pose_run_respects (lib : RotationLibrary) {state : ℕ → RobotState XR} {cutoff : XR} {N : ℕ} {p : ℕ → Fin 16 → ℝ} {v a : ℕ → Fin 6 → ℝ}
    (start : len (linear (v 0)) ≤ 1.99 ∧ len (angular (v 0)) ≤ 2.47 ∧ IsRotation (rotationPart (p 0))) (away : ∀ n < N, -0.99 ≤ (rotationPart (p n)).trace)
    (hp : ∀ n < N, (state n).O_T_EE_c = Arr.fin (p n)) (hv : ∀ n < N, (state n).O_dP_EE_c = Arr.fin (v n)) (ha : ∀ n < N, (state n).O_ddP_EE_c = Arr.fin (a n))
    (hs : ∀ n < N, ∃ (out : CartesianPose XR) (m m' : MotionGeneratorCommand XR), out.convert_motion (state n) m cutoff true = .ok m' ∧
      m'.O_T_EE_c = Arr.fin (p (n + 1)))
    (hlin : ∀ n < N, linear (v (n + 1)) = fun i => (position (p (n + 1)) i - position (p n) i) / 0.001)
    (hang : ∀ n < N, len (angular (v (n + 1))) < 1000 * Real.pi ∧
      rotationPart (p (n + 1)) = turn (fun i => 0.001 * angular (v (n + 1)) i) * rotationPart (p n)) :
    ∀ n < N, BottomRow (p (n + 1)) ∧ IsRotation (rotationPart (p (n + 1))) ∧
      StepRespects translationLimits (linear (v n)) (linear (v (n + 1))) ∧ StepRespects rotationLimits (angular (v n)) (angular (v (n + 1))) := by
  have step : ∀ n < N, len (linear (v n)) ≤ codeTranslation.velocity → len (angular (v n)) ≤ 0.99 * codeRotation.velocity → IsRotation (rotationPart (p n)) →
      BottomRow (p (n + 1)) ∧ IsRotation (rotationPart (p (n + 1))) ∧ StepRespects codeTranslation (linear (v n)) (linear (v (n + 1))) ∧
        StepRespects codeRotation (angular (v n)) (angular (v (n + 1))) ∧ len (angular (v (n + 1))) ≤ 0.99 * codeRotation.velocity := by
    intro n hN h1 h2 h3
    obtain ⟨out, m, m', hs, hn⟩ := hs n hN
    have hlin := hlin n hN
    have hang := hang n hN
    obtain ⟨q, hq, hl⟩ := convert_pose hs
    have lastNot : ¬ IsHalfTurn (rotationPart (p n)) := by
      intro e
      have := away n hN
      rw [show (rotationPart (p n)).trace = -1 from e] at this
      norm_num at this
    obtain ⟨r, w, g1, g2, g3, g4, -, g5, g6, g7⟩ := C46_step_partial lib codeTranslation_ok codeRotation_ok (by norm_num [codeRotation]) (by norm_num [codeRotation])
      q (p n) (v n) (a n) hq h3 lastNot h1 h2
    rw [hp n hN, hv n hN, ha n hN, hn, g1] at hl
    have e : r = p (n + 1) := by
      injection hl with hl
      funext i
      exact (XR.fin_inj _ _).1 (congrFun hl i)
    subst e
    have hw : len w ≤ 2.5 := g6.trans (by norm_num [codeRotation])
    have e := g7 (away_not_half h3 (away n hN) hw)
    have e' : turn (fun i => 0.001 * angular (v (n + 1)) i) = turn (fun i => 0.001 * w i) := by
      have := congrArg (· * (rotationPart (p n))ᵀ) (hang.2.symm.trans e)
      simpa only [mul_assoc, h3.orthogonal, mul_one] using this
    have hpi := Real.pi_gt_three
    have hi := turn_inj (by rw [len_smul, abs_of_pos (by norm_num)]; linarith [hang.1]) (by rw [len_smul, abs_of_pos (by norm_num)]; linarith) e'
    have hw : angular (v (n + 1)) = w := by
      funext i
      have := congrFun hi i
      norm_num at this
      exact this
    rw [hw, hlin]
    exact ⟨g2, g3, g4, g5, g6⟩
  have inv : ∀ n ≤ N, len (linear (v n)) ≤ codeTranslation.velocity ∧ len (angular (v n)) ≤ 0.99 * codeRotation.velocity ∧ IsRotation (rotationPart (p n)) := by
    intro n
    induction n with
    | zero => exact fun _ => ⟨start.1.trans (by norm_num [codeTranslation]), start.2.1.trans (by norm_num [codeRotation]), start.2.2⟩
    | succ n ih =>
      intro hN
      obtain ⟨h1, h2, h3⟩ := ih (by omega)
      obtain ⟨-, g2, g3, -, g5⟩ := step n hN h1 h2 h3
      exact ⟨g3.velocity, g5, g2⟩
  intro n hN
  obtain ⟨h1, h2, h3⟩ := inv n hN.le
  obtain ⟨g1, g2, g3, g4, -⟩ := step n hN h1 h2 h3
  exact ⟨g1, g2, weaken g3 (by norm_num [codeTranslation, translationLimits]) (by norm_num [codeTranslation, translationLimits]),
    weaken g4 (by norm_num [codeRotation, rotationLimits]) (by norm_num [codeRotation, rotationLimits])⟩

/-- **C46**, runs: the robot reports the poses and velocities it was commanded as the last ones and any finite accelerations, a motion starts within the
limits and stays away from half turns. Then whatever the user's callback returns, every pose that is sent has the bottom row 0, 0, 0, 1 and a proper
rotation, and every step respects the limits of translation and rotation. -/
theorem C46_runs (lib : RotationLibrary) (out : ℕ → CartesianPose XR) (state : ℕ → RobotState XR) (m m' : ℕ → MotionGeneratorCommand XR) (cutoff : XR)
    (p : ℕ → Fin 16 → ℝ) (v a : ℕ → Fin 6 → ℝ)
    (start : len (linear (v 0)) ≤ 1.99 ∧ len (angular (v 0)) ≤ 2.47 ∧ IsRotation (rotationPart (p 0))) (away : ∀ n, -0.99 ≤ (rotationPart (p n)).trace)
    (hp : ∀ n, (state n).O_T_EE_c = Arr.fin (p n)) (hv : ∀ n, (state n).O_dP_EE_c = Arr.fin (v n)) (ha : ∀ n, (state n).O_ddP_EE_c = Arr.fin (a n))
    (hs : ∀ n, (out n).convert_motion (state n) (m n) cutoff true = .ok (m' n)) (hn : ∀ n, (m' n).O_T_EE_c = Arr.fin (p (n + 1)))
    (hlin : ∀ n, linear (v (n + 1)) = fun i => (position (p (n + 1)) i - position (p n) i) / 0.001)
    (hang : ∀ n, len (angular (v (n + 1))) < 1000 * Real.pi ∧
      rotationPart (p (n + 1)) = turn (fun i => 0.001 * angular (v (n + 1)) i) * rotationPart (p n)) :
    ∀ n, BottomRow (p (n + 1)) ∧ IsRotation (rotationPart (p (n + 1))) ∧
      StepRespects translationLimits (linear (v n)) (linear (v (n + 1))) ∧ StepRespects rotationLimits (angular (v n)) (angular (v (n + 1))) :=
  fun n => pose_run_respects lib (N := n + 1) start (fun n _ => away n) (fun n _ => hp n) (fun n _ => hv n) (fun n _ => ha n)
    (fun n _ => ⟨out n, m n, m' n, hs n, hn n⟩) (fun n _ => hlin n) (fun n _ => hang n) n n.lt_succ_self

/-! ## Beyond the velocity limit -/

omit [Geo XR] in
/-- If the command asks for the last velocity again and the last acceleration is zero, nothing is changed, however high the velocity is. -/
theorem cOut_steady {L : Limits} (v : Fin 3 → ℝ) : cOut L v v 0 = v ∧ Roots L v v 0 := by
  have hj : cJerk v v 0 = 0 := by
    funext i; simp [cJerk]
  have l0 : len 0 = 0 := by simp [len]
  have hc : cAcc L.jerk v v 0 = 0 := by
    unfold cAcc
    rw [hj, l0, if_neg (not_lt.2 tiny_pos.le)]
  constructor
  · unfold cOut
    dsimp only
    rw [hc, l0, if_neg (not_lt.2 tiny_pos.le)]
  · intro h
    rw [hc, l0] at h
    exact absurd h (not_lt.2 tiny_pos.le)

/-- The finding about **C46**: if the robot reports a velocity beyond the limit, a pose that keeps this velocity is not limited. Here the pose moves by
one centimetre in a millisecond, five times the limit. -/
theorem C46_beyond_the_limit (lib : RotationLibrary) : ∃ (p p0 r : Fin 16 → ℝ) (v a : Fin 6 → ℝ),
    limit_rate_cartesian_pose (.fin codeTranslation.velocity) (.fin codeTranslation.acceleration) (.fin codeTranslation.jerk)
        (.fin codeRotation.velocity) (.fin codeRotation.acceleration) (.fin codeRotation.jerk) (Arr.fin p) (Arr.fin p0) (Arr.fin v) (Arr.fin a) = .ok (Arr.fin r) ∧
      5 * translationLimits.velocity * 0.001 ≤ len (fun i => position r i - position p0 i) := by
  have hu : (fun i => (position (pose ![0.01, 0, 0] 1) i - position (pose 0 1) i) / 0.001) = ![10, 0, 0] := by
    rw [position_pose, position_pose]
    funext i; fin_cases i <;> norm_num
  have hz : linear (join 0 0) = 0 := linear_join _ _
  have l0 : len 0 = 0 := by simp [len]
  have hone : ¬ IsHalfTurn (1 : M3) := by
    unfold IsHalfTurn
    rw [trace_one]
    norm_num
  have ho := C37_rigid_accepted (bottomRow_pose ![0.01, 0, 0] 1) (by rw [rotationPart_pose]; exact isRotation_one)
  obtain ⟨C, w, x, dw, S, -, -, -, hx, -, hS, hr, -, -⟩ := pose_fin lib codeTranslation_ok codeRotation_ok (p := pose ![0.01, 0, 0] 1) (p0 := pose 0 1)
    (v := join ![10, 0, 0] 0) (a := join 0 0) ho.1 (by rw [rotationPart_pose]; exact isRotation_one) (by rw [rotationPart_pose]; exact hone)
    (by rw [hu, linear_join, linear_join]; exact (cOut_steady _).2) (by rw [angular_join, l0]; norm_num [posed, codeRotation])
  rw [hu, linear_join, linear_join, (cOut_steady _).1] at hx
  subst hx
  refine ⟨_, _, _, _, _, hr, ?_⟩
  have : (fun i => position (pose (fun i => position (pose 0 1) i + ![10, 0, 0] i * 0.001) S) i - position (pose 0 1) i) = ![0.01, 0, 0] := by
    rw [position_pose, position_pose]
    funext i; fin_cases i <;> norm_num
  rw [this]
  refine Real.le_sqrt_of_sq_le ?_
  simp [translationLimits]
  norm_num

/-! ## C61 -/

omit [Geo XR] in
theorem turn_div {w : Fin 3 → ℝ} : turn (fun i => 0.001 * (w i / 0.001)) = turn w := by
  congr 1
  funext i
  ring

/-- **C61**: let the commanded pose `p` be turned from the last pose `p0` by the axis times angle `w`, both no half turns. If the velocities from `p0` to
`p` are allowed, the pose is not changed. -/
theorem C61_allowed_pose (lib : RotationLibrary) {T R : Limits} (hT : CartesianOk T) (hR : CartesianOk R) {p p0 : Fin 16 → ℝ} {v a : Fin 6 → ℝ} {w : Fin 3 → ℝ}
    (hb : BottomRow p) (hp : IsRotation (rotationPart p)) (hn : ¬ IsHalfTurn (rotationPart p)) (last : IsRotation (rotationPart p0))
    (lastNot : ¬ IsHalfTurn (rotationPart p0)) (hw : rotationPart p = turn w * rotationPart p0) (hwl : len w < Real.pi)
    (hw0 : (∀ i, w i = 0) ∨ 2⁻¹ ^ 52 < len fun i => w i / 0.001)
    (h1 : len (linear v) ≤ T.velocity) (h2 : len (angular v) ≤ 0.99 * R.velocity)
    (g1 : CartesianAllowed T (fun i => (position p i - position p0 i) / 0.001) (linear v) (linear a))
    (g2 : CartesianAllowed ⟨0.99 * R.velocity, 0.99 * R.acceleration, 0.99 * R.jerk⟩ (fun i => w i / 0.001) (angular v) (angular a))
    (k1 : NoTinySteps (fun i => (position p i - position p0 i) / 0.001) (linear v) (linear a))
    (k2 : NoTinySteps (fun i => w i / 0.001) (angular v) (angular a)) :
    limit_rate_cartesian_pose (.fin T.velocity) (.fin T.acceleration) (.fin T.jerk) (.fin R.velocity) (.fin R.acceleration) (.fin R.jerk)
      (Arr.fin p) (Arr.fin p0) (Arr.fin v) (Arr.fin a) = .ok (Arr.fin p) := by
  have hq : (⟨0.99 * R.velocity, 0.99 * R.acceleration, 0.99 * R.jerk⟩ : Limits) = posed R := by
    unfold posed; norm_num
  rw [hq] at g2
  have h2 : len (angular v) ≤ (posed R).velocity := by rw [← hq]; exact h2
  obtain ⟨C, w', x, dw, S, hC, hC', hw', hx, hdw, hS, hr, s1, s2⟩ := pose_fin lib hT hR (a := a) (C37_rigid_accepted hb hp).1 last lastNot (hT.roots h1) h2
  rw [lib.from_matrix _ hp hn] at hC
  have hC := arr9_inj hC
  subst hC
  have hrel : rotationPart p * (rotationPart p0)ᵀ = turn w := by
    rw [hw, mul_assoc, last.orthogonal, mul_one]
  have hww : w' = w := by
    have ht : ¬ IsHalfTurn (turn w) := by
      unfold IsHalfTurn
      rw [turn_trace]
      intro e
      have : Real.cos (len w) = Real.cos Real.pi := by rw [Real.cos_pi]; linarith
      exact hwl.ne (Real.injOn_cos ⟨len_nonneg w, hwl.le⟩ ⟨Real.pi_pos.le, le_rfl⟩ this)
    obtain ⟨w'', e1, e2, e3⟩ := lib.scaled_axis _ (hp.mul last.tr)
    rw [hw'] at e1
    have e4 : w' = w'' := by
      funext i
      exact (XR.fin_inj _ _).1 (congrFun e1 i)
    subst e4
    rw [hrel] at e3
    have e3 := e3 ht
    have hl : len w' < Real.pi := by
      refine lt_of_le_of_ne e2 fun h => ht ?_
      rw [e3]
      unfold IsHalfTurn
      rw [turn_trace, h, Real.cos_pi]
      norm_num
    exact turn_inj hl hwl e3.symm
  subst hww
  rw [cOut_same hT h1 g1 k1] at hx
  rw [cOut_same (posed_ok hR) h2 g2 k2] at hdw
  have et : tiny = 2⁻¹ ^ 52 := by norm_num [tiny]
  have hpos : (fun i => position p0 i + x i * 0.001) = position p := by
    funext i
    rw [hx]
    ring
  have hrot : S = rotationPart p := by
    rcases hw0 with h0 | h0
    · have hd : len dw = 0 := by
        rw [hdw]
        have : (fun i => w' i / 0.001) = (fun _ => 0) := by
          funext i; rw [h0 i]; simp
        rw [this]
        simp [len]
      have hl : len w' = 0 := by
        have : w' = 0 := funext h0
        rw [this]
        simp [len]
      rw [s1 (by rw [hd]; exact tiny_pos.le), hw, turn_of_len_zero hl, one_mul]
    · have hd : tiny < len dw := by rw [hdw, et]; exact h0
      have e : rotate (fun i => dw i / len dw) (0.001 * len dw) = turn w' := by
        rw [← turn_scale (by norm_num) (tiny_pos.trans hd), hdw, turn_div]
      have := s2 hd
      rw [e, ← hw] at this
      exact this hn
  rw [hr, hpos, hrot, pose_eq hb]

/-! ## A library that meets the specification -/

omit [Geo XR] in
theorem rotation_is_turn {R : M3} (h : IsRotation R) (hn : ¬ IsHalfTurn R) : ∃ w, len w ≤ Real.pi ∧ R = turn w := by
  obtain ⟨n, θ, h1, h2, h3, h4⟩ := h.axis_angle hn
  rcases h2.eq_or_lt' with h0 | h0
  · refine ⟨0, ?_, ?_⟩
    · simp [len, Real.pi_pos.le]
    · rw [h4, h0, rotate_zero, turn_of_len_zero (by simp [len])]
  · have hl : len (fun i => θ * n i) = θ := by rw [len_smul, h1, abs_of_pos h0, mul_one]
    refine ⟨fun i => θ * n i, by rw [hl]; exact h3.le, ?_⟩
    rw [turn_scale h0 (by rw [h1]; norm_num), h1, mul_one, h4]
    congr 1
    funext i
    simp

open Classical in
/-- Rotations kept as matrices. -/
@[instance_reducible] noncomputable def matrixGeo : Geo XR where
  Q := M3
  fromMatrix m := if h : ∃ R, IsRotation R ∧ ¬ IsHalfTurn R ∧ m = arr9 R then h.choose else 1
  quatFromMatrix m := if h : ∃ R, IsRotation R ∧ ¬ IsHalfTurn R ∧ m = arr9 R then h.choose else 1
  toMatrix := arr9
  slerp a _ _ := some a
  renormalizedScaledAxis m := if h : ∃ w, len w ≤ Real.pi ∧ m = arr9 (turn w) then Arr.fin h.choose else Arr.fin 0

open Classical in
omit [Geo XR] in
/-- The specification of the library can be met. -/
theorem matrixGeo_lawful : @RotationLibrary matrixGeo := by
  let _ := matrixGeo
  have h1 : ∀ R, IsRotation R → ¬ IsHalfTurn R → Geo.toMatrix (Geo.fromMatrix (arr9 R)) = arr9 R := by
    intro R hR hn
    have h : ∃ S, IsRotation S ∧ ¬ IsHalfTurn S ∧ arr9 R = arr9 S := ⟨R, hR, hn, rfl⟩
    show arr9 (dite _ _ _) = _
    rw [dif_pos h]
    exact h.choose_spec.2.2.symm
  have h2 : ∀ M, ∃ R, IsRotation R ∧ Geo.toMatrix (Geo.fromMatrix (arr9 M)) = arr9 R := by
    intro M
    show ∃ R, IsRotation R ∧ arr9 (dite _ _ _) = arr9 R
    by_cases h : ∃ S, IsRotation S ∧ ¬ IsHalfTurn S ∧ arr9 M = arr9 S
    · rw [dif_pos h]
      exact ⟨_, h.choose_spec.1, rfl⟩
    · rw [dif_neg h]
      exact ⟨1, isRotation_one, rfl⟩
  refine ⟨h1, h1, h2, h2, ?_⟩
  intro R hR
  show ∃ w, dite _ _ _ = Arr.fin w ∧ _
  by_cases h : ∃ w, len w ≤ Real.pi ∧ arr9 R = arr9 (turn w)
  · rw [dif_pos h]
    exact ⟨_, rfl, h.choose_spec.1, fun _ => arr9_inj h.choose_spec.2⟩
  · rw [dif_neg h]
    refine ⟨0, rfl, by simp [len, Real.pi_pos.le], fun hn => absurd ?_ h⟩
    obtain ⟨w, g1, g2⟩ := rotation_is_turn hR hn
    exact ⟨w, g1, by rw [← g2]⟩

/-! ## The hypotheses can be met -/

omit [Geo XR] in
theorem one_not_half : ¬ IsHalfTurn (1 : M3) := by
  unfold IsHalfTurn
  rw [trace_one]
  norm_num

/-- Runs as in `C46_runs` exist, with any library and for all positions the user asks for: an end effector that does not turn. -/
theorem C46_runs_exist (lib : RotationLibrary) (y : ℕ → Fin 3 → ℝ) (a : ℕ → Fin 3 → ℝ) (v0 : Fin 3 → ℝ) (start : len v0 ≤ 1.99)
    (m : MotionGeneratorCommand XR) (s : RobotState XR) : ∃ (p : ℕ → Fin 16 → ℝ) (v : ℕ → Fin 6 → ℝ) (state : ℕ → RobotState XR) (m' : ℕ → MotionGeneratorCommand XR),
      linear (v 0) = v0 ∧ (∀ n, rotationPart (p n) = 1) ∧ (∀ n, (state n).O_T_EE_c = Arr.fin (p n)) ∧
      (∀ n, (state n).O_dP_EE_c = Arr.fin (v n)) ∧ (∀ n, (state n).O_ddP_EE_c = Arr.fin (join (a n) 0)) ∧
      (∀ n, CartesianPose.convert_motion ⟨false, Arr.fin (pose (y n) 1), none⟩ (state n) m MAX_CUTOFF_FREQUENCY true = .ok (m' n)) ∧
      (∀ n, (m' n).O_T_EE_c = Arr.fin (p (n + 1))) ∧
      (∀ n, linear (v (n + 1)) = fun i => (position (p (n + 1)) i - position (p n) i) / 0.001) ∧
      ∀ n, len (angular (v (n + 1))) < 1000 * Real.pi ∧ rotationPart (p (n + 1)) = turn (fun i => 0.001 * angular (v (n + 1)) i) * rotationPart (p n) := by
  let next : ℕ → (Fin 3 → ℝ) × (Fin 3 → ℝ) → (Fin 3 → ℝ) × (Fin 3 → ℝ) := fun n xv =>
    let v' := cOut codeTranslation (fun i => (y n i - xv.1 i) / 0.001) xv.2 (a n)
    (fun i => xv.1 i + v' i * 0.001, v')
  let z : ℕ → (Fin 3 → ℝ) × (Fin 3 → ℝ) := fun n => Nat.rec (0, v0) (fun n xv => next n xv) n
  have inv : ∀ n, len (z n).2 ≤ codeTranslation.velocity := by
    intro n
    induction n with
    | zero => exact start.trans (by norm_num [codeTranslation])
    | succ n ih => exact (cOut_respects codeTranslation_ok.jerk codeTranslation_ok.acceleration codeTranslation_ok.ratio ih).velocity
  have hz : len (0 : Fin 3 → ℝ) = 0 := by simp [len]
  refine ⟨fun n => pose (z n).1 1, fun n => join (z n).2 0, fun n => { s with O_T_EE_c := Arr.fin (pose (z n).1 1), O_dP_EE_c := Arr.fin (join (z n).2 0), O_ddP_EE_c := Arr.fin (join (a n) 0) },
    fun n => { m with O_T_EE_c := Arr.fin (pose (z (n + 1)).1 1), valid_elbow := false, elbow_c := fun _ => Fl.lit 0 },
    linear_join _ _, fun n => rotationPart_pose _ _, fun _ => rfl, fun _ => rfl, fun _ => rfl, ?_, fun _ => rfl, ?_, ?_⟩
  · intro n
    obtain ⟨C, w, x, dw, S, hC, hC', hw, hx, hdw, hS, hr, s1, -⟩ := pose_fin lib codeTranslation_ok codeRotation_ok (p := pose (y n) 1) (p0 := pose (z n).1 1)
      (v := join (z n).2 0) (a := join (a n) 0)
      (C37_rigid_accepted (bottomRow_pose _ _) (by rw [rotationPart_pose]; exact isRotation_one)).1 (by rw [rotationPart_pose]; exact isRotation_one)
      (by rw [rotationPart_pose]; exact one_not_half) (codeTranslation_ok.roots (by rw [linear_join]; exact inv n)) (by rw [angular_join, hz]; norm_num [posed, codeRotation])
    have hw0 : w = 0 := by
      rw [rotationPart_pose, lib.from_matrix _ isRotation_one one_not_half] at hC
      have hC := arr9_inj hC
      rw [← hC, rotationPart_pose, transpose_one, mul_one] at hw
      obtain ⟨w', e1, e2, e3⟩ := lib.scaled_axis 1 isRotation_one
      rw [hw] at e1
      have e4 : w = w' := by
        funext i
        exact (XR.fin_inj _ _).1 (congrFun e1 i)
      subst e4
      have ht := congrArg Matrix.trace (e3 one_not_half)
      rw [turn_trace, trace_one] at ht
      have : Real.cos (len w) = Real.cos 0 := by
        rw [Real.cos_zero]
        norm_num at ht
        linarith
      have := Real.injOn_cos ⟨len_nonneg w, e2⟩ ⟨le_rfl, Real.pi_pos.le⟩ this
      funext i
      exact len_eq_zero this i
    have hd : dw = 0 := by
      rw [hdw, hw0, angular_join, angular_join, show (fun i => (0 : Fin 3 → ℝ) i / 0.001) = 0 by funext i; simp]
      exact (cOut_steady _).1
    have hS1 : S = 1 := by
      rw [s1 (by rw [hd, hz]; exact tiny_pos.le), rotationPart_pose]
    rw [position_pose, position_pose, linear_join, linear_join] at hx
    have hlim : limit_rate_cartesian_pose (.fin codeTranslation.velocity) (.fin codeTranslation.acceleration) (.fin codeTranslation.jerk)
        (.fin codeRotation.velocity) (.fin codeRotation.acceleration) (.fin codeRotation.jerk) (Arr.fin (pose (y n) 1)) (Arr.fin (pose (z n).1 1))
        (Arr.fin (join (z n).2 0)) (Arr.fin (join (a n) 0)) = .ok (Arr.fin (pose (z (n + 1)).1 1)) := by
      rw [hr, hS1, position_pose, hx]
    obtain ⟨t1, t2, t3⟩ := MAX_TRANSLATIONAL_fin
    obtain ⟨r1, r2, r3⟩ := MAX_ROTATIONAL_fin
    unfold CartesianPose.convert_motion
    have hc : Fl.flt (MAX_CUTOFF_FREQUENCY : XR) MAX_CUTOFF_FREQUENCY = false := by
      rw [MAX_CUTOFF_FREQUENCY, XR.lit_fin, XR.flt_fin]; simp
    rw [hc]
    dsimp only
    rw [if_neg (by simp), pure_bind, if_pos rfl, t1, t2, t3, r1, r2, r3, hlim, P_bind_ok_eq,
      (C37_rigid_accepted (bottomRow_pose _ _) (by rw [rotationPart_pose]; exact isRotation_one)).2, P_bind_ok_eq]
    rfl
  · intro n
    rw [linear_join, position_pose, position_pose]
    funext i
    show cOut codeTranslation (fun i => (y n i - (z n).1 i) / 0.001) (z n).2 (a n) i = ((z n).1 i + cOut codeTranslation (fun i => (y n i - (z n).1 i) / 0.001) (z n).2 (a n) i * 0.001 - (z n).1 i) / 0.001
    ring
  · intro n
    have : (fun i => 0.001 * (0 : Fin 3 → ℝ) i) = 0 := by funext i; simp
    rw [angular_join, rotationPart_pose, rotationPart_pose, this, turn_of_len_zero hz, mul_one, hz]
    exact ⟨by positivity, rfl⟩

/-- A pose that meets the hypotheses of `C61_allowed_pose`: from rest, the end effector moves by 5 µm and turns by 10 µrad. -/
example (lib : RotationLibrary) : limit_rate_cartesian_pose (.fin codeTranslation.velocity) (.fin codeTranslation.acceleration) (.fin codeTranslation.jerk)
    (.fin codeRotation.velocity) (.fin codeRotation.acceleration) (.fin codeRotation.jerk)
    (Arr.fin (pose ![0.000005, 0, 0] (turn ![0, 0, 0.00001]))) (Arr.fin (pose 0 1)) (Arr.fin (join 0 0)) (Arr.fin (join 0 0)) =
      .ok (Arr.fin (pose ![0.000005, 0, 0] (turn ![0, 0, 0.00001]))) := by
  have lx : ∀ x : ℝ, len ![x, 0, 0] = |x| := fun x => by simp [len, Real.sqrt_sq_eq_abs]
  have lz : ∀ x : ℝ, len ![0, 0, x] = |x| := fun x => by simp [len, Real.sqrt_sq_eq_abs]
  have l0 : len (0 : Fin 3 → ℝ) = 0 := by simp [len]
  have hpi := Real.pi_gt_three
  have hp : (fun i => (position (pose ![0.000005, 0, 0] (turn ![0, 0, 0.00001])) i - position (pose 0 1) i) / 0.001) = ![0.005, 0, 0] := by
    rw [position_pose, position_pose]
    funext i; fin_cases i <;> norm_num
  have hw : (fun i => (![0, 0, 0.00001] : Fin 3 → ℝ) i / 0.001) = ![0, 0, 0.01] := by
    funext i; fin_cases i <;> norm_num
  have vx : ∀ x c : ℝ, (fun i => ((![x, 0, 0] : Fin 3 → ℝ) i - (0 : Fin 3 → ℝ) i) / c) = ![x / c, 0, 0] := by
    intro x c; funext i; fin_cases i <;> simp
  have vz : ∀ x c : ℝ, (fun i => ((![0, 0, x] : Fin 3 → ℝ) i - (0 : Fin 3 → ℝ) i) / c) = ![0, 0, x / c] := by
    intro x c; funext i; fin_cases i <;> simp
  have jx : ∀ x c : ℝ, (fun i => (((![x, 0, 0] : Fin 3 → ℝ) i - (0 : Fin 3 → ℝ) i) / c - (0 : Fin 3 → ℝ) i) / c) = ![x / c / c, 0, 0] := by
    intro x c; funext i; fin_cases i <;> simp
  have jz : ∀ x c : ℝ, (fun i => (((![0, 0, x] : Fin 3 → ℝ) i - (0 : Fin 3 → ℝ) i) / c - (0 : Fin 3 → ℝ) i) / c) = ![0, 0, x / c / c] := by
    intro x c; funext i; fin_cases i <;> simp
  have mx : ∀ x c d : ℝ, (fun i => (0 : Fin 3 → ℝ) i + d * (((![x, 0, 0] : Fin 3 → ℝ) i - (0 : Fin 3 → ℝ) i) / c)) = ![d * (x / c), 0, 0] := by
    intro x c d; funext i; fin_cases i <;> simp
  have mz : ∀ x c d : ℝ, (fun i => (0 : Fin 3 → ℝ) i + d * (((![0, 0, x] : Fin 3 → ℝ) i - (0 : Fin 3 → ℝ) i) / c)) = ![0, 0, d * (x / c)] := by
    intro x c d; funext i; fin_cases i <;> simp
  refine C61_allowed_pose lib codeTranslation_ok codeRotation_ok (w := ![0, 0, 0.00001]) (bottomRow_pose _ _) (by rw [rotationPart_pose]; exact turn_isRotation _) ?_
    (by rw [rotationPart_pose]; exact isRotation_one) (by rw [rotationPart_pose]; exact one_not_half) (by rw [rotationPart_pose, rotationPart_pose, mul_one])
    (by rw [lz, abs_of_pos (by norm_num)]; linarith) (.inr ?_) ?_ ?_ ?_ ?_ ?_ ?_
  · rw [rotationPart_pose]
    have := away_not_half isRotation_one (by rw [trace_one]; norm_num) (w := ![0, 0, 0.01]) (by rw [lz]; norm_num [abs_of_pos])
    rw [mul_one, ← hw, turn_div] at this
    exact this
  · rw [hw, lz, abs_of_pos (by norm_num)]; norm_num
  · rw [linear_join, l0]; norm_num [codeTranslation]
  · rw [angular_join, l0]; norm_num [codeRotation]
  · rw [hp, linear_join]
    refine ⟨?_, ?_, ?_⟩
    · rw [jx, lx, abs_of_pos (by norm_num)]; norm_num [codeTranslation]
    · rw [vx, lx, abs_of_pos (by norm_num)]; norm_num [codeTranslation]
    · rw [mx, lx, abs_of_pos (by norm_num [codeTranslation])]; norm_num [codeTranslation]
  · rw [hw, angular_join]
    refine ⟨?_, ?_, ?_⟩
    · rw [jz, lz, abs_of_pos (by norm_num)]; norm_num [codeRotation]
    · rw [vz, lz, abs_of_pos (by norm_num)]; norm_num [codeRotation]
    · rw [mz, lz, abs_of_pos (by norm_num [codeRotation])]; norm_num [codeRotation]
  · rw [hp, linear_join]
    refine ⟨.inr ?_, .inr ?_⟩
    · rw [jx, lx, abs_of_pos (by norm_num)]; norm_num
    · rw [vx, lx, abs_of_pos (by norm_num)]; norm_num
  · rw [hw, angular_join]
    refine ⟨.inr ?_, .inr ?_⟩
    · rw [jz, lz, abs_of_pos (by norm_num)]; norm_num
    · rw [vz, lz, abs_of_pos (by norm_num)]; norm_num

end Verif
