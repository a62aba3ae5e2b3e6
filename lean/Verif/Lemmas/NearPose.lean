import Verif.Lemmas.NearCartesian
import Verif.Lemmas.PlannedJoints
import Verif.Props.PoseFilter
import Verif.Props.Transparent
/-!
Lemmas: pose commands that move but do not turn the end effector, through the low pass filter and the rate limiting.
-/
set_option linter.unusedSectionVars false
namespace Verif
open Spec Matrix

/-! ## One command -/

/-- The velocities of a motion without a turn. -/
def straight (v : Fin 3 → ℝ) : Fin 6 → ℝ := join v fun _ => 0

theorem cOut_still {L : Limits} (hL : CartesianOk L) (hv : 0 ≤ L.velocity) : cOut L (fun _ => 0) (fun _ => 0) (fun _ => 0) = fun _ => (0 : ℝ) := by
  refine cOut_same hL ?_ (cartesian_rest hL ?_) ⟨.inl ?_, .inl ?_⟩
  · rw [len_zero]; exact hv
  · rw [len_zero]; exact hv
  · intro i; simp
  · intro i; simp

theorem no_axis [Geo XR] (lib : RotationLibrary) : Geo.renormalizedScaledAxis (arr9 1) = Arr.fin fun _ => 0 := by
  have h1 : IsRotation (1 : M3) := by
    rw [← turn_of_len_zero (w := fun _ => 0) len_zero]
    exact turn_isRotation _
  obtain ⟨w, e1, e2, e3⟩ := lib.scaled_axis 1 h1
  have e3 := e3 one_not_half
  have hl : len w < Real.pi := by
    refine lt_of_le_of_ne e2 fun h => one_not_half ?_
    rw [e3]
    unfold IsHalfTurn
    rw [turn_trace, h, Real.cos_pi]
    norm_num
  have : w = fun _ => 0 := turn_inj hl (by rw [len_zero]; exact Real.pi_pos) (by rw [← e3, turn_of_len_zero len_zero])
  rw [e1, this]

theorem pose_step [Geo XR] (lib : RotationLibrary) (slerp : Interpolates) {f : ℝ} (h0 : 0 < f) (h1 : f < 1000) {R : M3} (hR : IsRotation R) (hr : ReadsRight R) {p x v a : Fin 3 → ℝ}
    {st : RobotState XR} (s1 : st.O_T_EE_c = Arr.fin (pose x R)) (s2 : st.O_dP_EE_c = Arr.fin (straight v)) (s3 : st.O_ddP_EE_c = Arr.fin (straight a))
    (hv : len v ≤ codeTranslation.velocity) (b : Bool) (e : Option (Arr XR 2)) (m : MotionGeneratorCommand XR) :
    CartesianPose.convert_motion ⟨b, Arr.fin (pose p R), e⟩ st m (.fin f) true =
      convert_elbow e st { m with O_T_EE_c := Arr.fin (pose (fun i => x i + cOut codeTranslation (fun i => (gain (1 / 1000) f * p i + (1 - gain (1 / 1000) f) * x i - x i) / 0.001) v a i * 0.001) R) }
        (.fin f) true := by
  obtain ⟨s, -, -, -, hfil⟩ := pose_filter_read slerp h0 (y := pose p R) (last := pose x R) (w := fun _ => 0) (by rw [rotationPart_pose]; exact hR) (by rw [rotationPart_pose]; exact hr)
    (by rw [rotationPart_pose]; exact hr) (by rw [len_zero]; exact Real.pi_pos) (by rw [rotationPart_pose, rotationPart_pose, turn_of_len_zero len_zero, one_mul])
  rw [turn_of_len_zero (by simp [len]), one_mul, position_pose, position_pose, rotationPart_pose, share_gain f h0] at hfil
  obtain ⟨q, hq⟩ : ∃ q : Fin 3 → ℝ, q = fun i => gain (1 / 1000) f * p i + (1 - gain (1 / 1000) f) * x i := ⟨_, rfl⟩
  rw [← hq] at hfil
  have hqx : (fun i => (gain (1 / 1000) f * p i + (1 - gain (1 / 1000) f) * x i - x i) / 0.001) = fun i => (q i - x i) / 0.001 := by rw [hq]
  rw [hqx]
  obtain ⟨C, w, dx, dw, S, e1, e2, e3, e4, e5, e6, e7, e8, -⟩ := pose_fin_read lib codeTranslation_ok codeRotation_ok (p := pose q R) (p0 := pose x R) (v := straight v)
    (a := straight a) (C37_rigid_accepted (bottomRow_pose _ _) (by rw [rotationPart_pose]; exact hR)).1 (by rw [rotationPart_pose]; exact hR) (by rw [rotationPart_pose]; exact hr)
    (codeTranslation_ok.roots (by unfold straight; rw [linear_join]; exact hv)) (by
      unfold straight
      rw [angular_join, len_zero]
      norm_num [posed, codeRotation])
  rw [rotationPart_pose] at e1 e3 e8
  have hC : C = R := arr9_inj (e1.symm.trans hr)
  rw [hC, hR.orthogonal, no_axis lib] at e3
  have hw : w = fun _ => 0 := funext fun i => (XR.fin_inj _ _).1 (congrFun e3.symm i)
  have hdw : dw = fun _ => 0 := by
    rw [e5, hw]
    unfold straight
    rw [angular_join, angular_join]
    simp only [zero_div]
    exact cOut_still (posed_ok codeRotation_ok) (by norm_num [posed, codeRotation])
  have hS : S = R := e8 (by rw [hdw, len_zero]; exact tiny_pos.le)
  unfold straight at e4
  rw [position_pose, position_pose, linear_join, linear_join] at e4
  rw [hS, e4, position_pose] at e7
  obtain ⟨t1, t2, t3⟩ := MAX_TRANSLATIONAL_fin
  obtain ⟨r1, r2, r3⟩ := MAX_ROTATIONAL_fin
  have hd : (DELTA_T : XR) = .fin (1 / 1000) := by unfold DELTA_T; rw [XR.lit_fin]; norm_num
  unfold CartesianPose.convert_motion
  rw [with_filter h1]
  dsimp only
  rw [if_pos rfl, s1, s2, s3, hd, hfil, P_bind_ok_eq, if_pos rfl, t1, t2, t3, r1, r2, r3, e7, P_bind_ok_eq,
    (C37_rigid_accepted (bottomRow_pose _ _) (by rw [rotationPart_pose]; exact hR)).2, P_bind_ok_eq]

/-- The elbow. -/
theorem elbow_step {f : ℝ} (h0 : 0 < f) (h1 : f < 1000) {u x v a s : ℝ} (hs : |s| = 1) {st : RobotState XR} (hx : st.elbow_c 0 = .fin x) (hv : st.delbow_c 0 = .fin v)
    (ha : st.ddelbow_c 0 = .fin a) (h : Allowed codeElbow ((gain (1 / 1000) f * u + (1 - gain (1 / 1000) f) * x - x) / 0.001) v a) (m : MotionGeneratorCommand XR) :
    convert_elbow (some (Arr.fin ![u, s])) st m (.fin f) true =
      .ok { m with valid_elbow := true, elbow_c := Arr.fin ![gain (1 / 1000) f * u + (1 - gain (1 / 1000) f) * x, s] } := by
  obtain ⟨e1, e2, e3⟩ := MAX_ELBOW_fin
  obtain ⟨z, hz⟩ : ∃ z : ℝ, z = gain (1 / 1000) f * u + (1 - gain (1 / 1000) f) * x := ⟨_, rfl⟩
  rw [← hz] at h ⊢
  have hset : ∀ y z : ℝ, (Arr.fin ![y, s] : Arr XR 2).set 0 (.fin z) = Arr.fin ![z, s] := by
    intro y z
    funext i
    unfold Arr.set
    fin_cases i <;> rfl
  have e5 : check_elbow (Arr.fin ![z, s] : Arr XR 2) = .ok () := by
    unfold check_elbow
    rw [assertFinite_fin, P_bind_ok_eq]
    unfold assertP is_valid_elbow
    have : Fl.feq (Fl.fabs ((Arr.fin ![z, s] : Arr XR 2) 1)) (Fl.lit 1) = true := by
      show Fl.feq (Fl.fabs (XR.fin s)) (Fl.lit 1) = true
      rw [XR.fabs_fin, hs, XR.lit_fin, XR.feq_fin]
      simp
    rw [if_pos this]
  unfold convert_elbow
  rw [with_filter h1]
  dsimp only
  simp only [if_true]
  have hget : ∀ y : ℝ, (Arr.fin ![y, s] : Arr XR 2) 0 = .fin y := fun _ => rfl
  have hp : ∀ {α β : Type} (x : α) (k : α → P β), ((pure x : P α) >>= k) = k x := fun _ _ => rfl
  rw [hget, hx, hv, ha, DELTA_T_fin, low_pass_filter_fin (by norm_num) h0.le, ← hz, P_bind_ok_eq, hp, hset, hget, e1, e2, e3,
    C44_allowed_position codeElbow_ok.acceleration.ne' h, P_bind_ok_eq, hp, hset, e5]
  rfl

/-! ## Whole motions -/

theorem rate_lowPass {f a : ℝ} {u : ℕ → ℝ} (n : ℕ) : rate (lowPass f a u) (n + 1) = gain (1 / 1000) f * rate (starting a u) (n + 1) + (1 - gain (1 / 1000) f) * rate (lowPass f a u) n := by
  cases n with
  | zero =>
    simp only [rate, lowPass, starting]
    ring
  | succ n =>
    simp only [rate, lowPass, starting]
    ring

/-- The next command of a motion with low passed positions. -/
theorem noisy_next_position {L' L : Limits} (hL : Under L' L) {f : ℝ} (hf : 0 < f) {N n : ℕ} (hn : n < N) {u y : Fin 3 → ℕ → ℝ} (hv : 0 ≤ L'.velocity)
    (ha : ∀ n < N, CartesianAllowed L' (fun i => rate (starting (y i 0) (u i)) (n + 1)) (fun i => rate (starting (y i 0) (u i)) n) (fun i => rate (rate (starting (y i 0) (u i))) n))
    (h : ∀ j < n, len (fun i => y i (j + 1) - (gain (1 / 1000) f * u i j + (1 - gain (1 / 1000) f) * y i j)) ≤ slip / 1000) :
    Room L (tiny / 1000) (fun i => (gain (1 / 1000) f * u i n + (1 - gain (1 / 1000) f) * y i n - y i n) / 0.001) (fun i => rate (y i) n) (fun i => rate (rate (y i)) n) ∧
      len (fun i => rate (y i) n) ≤ L'.velocity + 1 / 10 ^ 12 ∧
      len (fun i => (gain (1 / 1000) f * u i n + (1 - gain (1 / 1000) f) * y i n - y i n) / 0.001) ≤ L'.velocity + 1 / 10 ^ 12 := by
  have g0 := gain_pos (dt := 1 / 1000) (by norm_num) hf
  have g1 := (gain_lt_one (dt := 1 / 1000) (by norm_num) hf.le).le
  have hs0 := slip_pos
  have hs1 := slip_le
  have hb := noise_bound hf (by positivity : 0 ≤ slip / 1000) h
  set z : Fin 3 → ℕ → ℝ := fun i => lowPass f (y i 0) (u i) with hz
  -- the velocities differ hardly
  have hd : ∀ j ≤ n, len (fun i => rate (y i) j - rate (z i) j) ≤ 2 * slip := by
    intro j hj
    cases j with
    | zero =>
      simp only [rate, sub_self, len_zero]
      positivity
    | succ j =>
      have b1 := hb j (by omega)
      have b2 := h j (by omega)
      have e : (fun i => rate (y i) (j + 1) - rate (z i) (j + 1)) = fun i => 1000 * ((y i (j + 1) - (gain (1 / 1000) f * u i j + (1 - gain (1 / 1000) f) * y i j)) -
          gain (1 / 1000) f * (y i j - z i j)) := by
        funext i
        have : z i (j + 1) = gain (1 / 1000) f * u i j + (1 - gain (1 / 1000) f) * z i j := rfl
        simp only [rate, div_milli]
        rw [this]
        ring
      rw [e, len_scale (by norm_num)]
      rw [← len_scale g0.le] at b1
      have := len_diff b2 b1
      linarith
  have hza : ∀ m < n + 1, CartesianAllowed L' (fun i => rate (z i) (m + 1)) (fun i => rate (z i) m) (fun i => rate (rate (z i)) m) := by
    intro m hm
    have := cartesian_next hL.ok' g0.le g1 (v := fun i => rate (starting (y i 0) (u i))) (w := fun i => rate (z i)) (le_trans (le_of_eq len_zero) hv) (fun _ => rfl) ha m (by omega)
      fun j _ i => rate_lowPass j
    refine Eq.mp ?_ this
    congr 1
    exact funext fun i => (rate_lowPass m).symm
  have hzn := hza n (by omega)
  have hzw := cartesian_within hL.ok' (w := fun i => rate (z i)) (le_trans (le_of_eq len_zero) hv) hza
  have hzv := hzw n (by omega)
  have hzv1 := hzw (n + 1) le_rfl
  have hu : len (fun i => (gain (1 / 1000) f * u i n + (1 - gain (1 / 1000) f) * y i n - y i n) / 0.001 - rate (z i) (n + 1)) ≤ slip := by
    have e : (fun i => (gain (1 / 1000) f * u i n + (1 - gain (1 / 1000) f) * y i n - y i n) / 0.001 - rate (z i) (n + 1)) = fun i => (-1) * (1000 * (gain (1 / 1000) f * (y i n - z i n))) := by
      funext i
      have : z i (n + 1) = gain (1 / 1000) f * u i n + (1 - gain (1 / 1000) f) * z i n := rfl
      simp only [rate, div_milli]
      rw [this]
      ring
    have := hb n le_rfl
    rw [e, len_smul, len_scale (by norm_num), len_scale g0.le]
    norm_num
    linarith
  have hdn := hd n le_rfl
  refine ⟨room_of_near hL hzn (hu.trans (by linarith)) (hdn.trans (by linarith)) ?_, ?_, ?_⟩
  · cases n with
    | zero =>
      simp only [rate, sub_self, len_zero]
      norm_num
    | succ n =>
      have e : (fun i => rate (rate (y i)) (n + 1) - rate (rate (z i)) (n + 1)) = fun i => 1000 * ((rate (y i) (n + 1) - rate (z i) (n + 1)) - (rate (y i) n - rate (z i) n)) := by
        funext i
        show (rate (y i) (n + 1) - rate (y i) n) / 0.001 - (rate (z i) (n + 1) - rate (z i) n) / 0.001 = _
        rw [div_milli, div_milli]
        ring
      rw [e, len_scale (by norm_num)]
      have := len_diff hdn (hd n (by omega))
      linarith
  · have := len_shift hzv hdn
    linarith
  · have := len_shift hzv1 hu
    linarith

end Verif
