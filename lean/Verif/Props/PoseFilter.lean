import Verif.Props.Pose
import Verif.Props.Filter
/-!
# The low pass filter for poses: C87

Doubles are real numbers here (`Spec/Real.lean`), and nalgebra computes with rotations as `Spec/Nalgebra.lean` says.
-/
set_option linter.unusedSectionVars false
namespace Verif
open Spec Matrix Filter Topology

theorem share_gain (f : ℝ) (hf : 0 < f) : share f = gain (1 / 1000) f := by
  have := Real.pi_pos
  unfold share gain
  rw [div_eq_div_iff (by positivity) (by positivity)]
  ring

theorem share_pos {f : ℝ} (hf : 0 < f) : 0 < share f := by rw [share_gain f hf]; exact gain_pos (by norm_num) hf
theorem share_lt_one {f : ℝ} (hf : 0 < f) : share f < 1 := by rw [share_gain f hf]; exact gain_lt_one (by norm_num) hf.le

theorem turn_zero_mul (w : Fin 3 → ℝ) : turn (fun i => 0 * w i) = 1 := turn_of_len_zero (by simp [len])

/-- Two turns about the same axis. -/
theorem turn_add {s t : ℝ} (hs : 0 ≤ s) (ht : 0 ≤ t) (w : Fin 3 → ℝ) : turn (fun i => s * w i) * turn (fun i => t * w i) = turn fun i => (s + t) * w i := by
  rcases (len_nonneg w).eq_or_lt' with h | h
  · have : ∀ c : ℝ, turn (fun i => c * w i) = 1 := fun c => turn_of_len_zero (by rw [len_smul, h, mul_zero])
    simp [this]
  · rcases hs.eq_or_lt' with rfl | hs
    · rw [turn_zero_mul, one_mul, zero_add]
    rcases ht.eq_or_lt' with rfl | ht
    · rw [turn_zero_mul, mul_one, add_zero]
    rw [turn_scale hs h, turn_scale ht h, turn_scale (by linarith) h, rotate_mul (len_unit h), ← add_mul]

theorem len_scaled {c : ℝ} (hc : 0 ≤ c) (w : Fin 3 → ℝ) : len (fun i => c * w i) = c * len w := by rw [len_smul, abs_of_nonneg hc]

variable [Geo XR]

theorem pose_filter_read (slerp : Interpolates) {f : ℝ} (hf : 0 < f) {y last : Fin 16 → ℝ} (hR : IsRotation (rotationPart last))
    (hn : ReadsRight (rotationPart last)) (hm : ReadsRight (rotationPart y)) {w : Fin 3 → ℝ} (hw : len w < Real.pi)
    (hy : rotationPart y = turn w * rotationPart last) :
    ∃ s, 0 ≤ s ∧ s ≤ 1 ∧ (4 / 2 ^ 52 ≤ len w → s = share f) ∧
      cartesian_low_pass_filter (XR.fin (1 / 1000)) (Arr.fin y) (Arr.fin last) (.fin f) = .ok (Arr.fin (pose (fun i => share f * position y i + (1 - share f) * position last i)
        (turn (fun i => s * w i) * rotationPart last))) := by
  have g0 := share_pos hf
  have g1 := share_lt_one hf
  obtain ⟨q, s, h1, h2, h3, h4, h5⟩ := slerp (Geo.fromMatrix (arr9 (rotationPart last))) (Geo.fromMatrix (arr9 (rotationPart y))) _ w (share f) hR hw g0.le g1.le
    hn (by rw [hm, hy])
  refine ⟨s, h3, h4, h5, ?_⟩
  unfold cartesian_low_pass_filter
  have hall : (Arr.all id fun i : Fin 16 => Fl.isFinite (Arr.fin y i) && Fl.isFinite (Arr.fin last i)) = true := by
    unfold Arr.all
    simp [Arr.fin]
  have e1 : (Fl.lit 1 : XR) = .fin 1 := by simp [XR.lit_fin]
  simp only [XR.isSignPositive_fin, XR.isFinite_fin, hf.le, hall, decide_true, Bool.and_self, assertP_true, P_bind_ok_eq, filter_gain_fin (show (0 : ℝ) ≤ 1 / 1000 by norm_num) hf.le,
    ← share_gain f hf, array_to_isometry_fin, h1, show (0 : ℝ) ≤ 1 / 1000 by norm_num]
  rw [← to_homogeneous_fin h2]
  congr 3
  funext i
  simp only [Arr.add, Arr.lmul, Arr.fin, e1, XR.fin_sub, XR.fin_mul, XR.fin_add]

theorem pose_filter_fin (lib : RotationLibrary) (slerp : Interpolates) {f : ℝ} (hf : 0 < f) {y last : Fin 16 → ℝ} (hR : IsRotation (rotationPart last))
    (hn : ¬ IsHalfTurn (rotationPart last)) (hS : IsRotation (rotationPart y)) (hm : ¬ IsHalfTurn (rotationPart y)) {w : Fin 3 → ℝ} (hw : len w < Real.pi)
    (hy : rotationPart y = turn w * rotationPart last) :
    ∃ s, 0 ≤ s ∧ s ≤ 1 ∧ (4 / 2 ^ 52 ≤ len w → s = share f) ∧
      cartesian_low_pass_filter (XR.fin (1 / 1000)) (Arr.fin y) (Arr.fin last) (.fin f) = .ok (Arr.fin (pose (fun i => share f * position y i + (1 - share f) * position last i)
        (turn (fun i => s * w i) * rotationPart last))) :=
  pose_filter_read slerp hf hR (lib.from_matrix _ hR hn) (lib.from_matrix _ hS hm) hw hy

/-- **C87.** A pose command with a cutoff frequency `f` below 1000 Hz, without rate limiting. The last command was the pose `last`, and the callback asks for
the pose `y`, which is `last` turned by `w` (axis times angle) and moved. Then the command is `last` with the share `share f` of both the way and the turn; the
position of the command lies on the segment between the two positions, its rotation on the shortest arc between the two rotations, and the rest of the
turn is left. A turn of less than 4 · 2⁻⁵² rad may be made by any share. -/
theorem C87_pose_filter (lib : RotationLibrary) (slerp : Interpolates) {f : ℝ} (hf : 0 < f) (hf1 : f < 1000) {y last : Fin 16 → ℝ} (hR : IsRotation (rotationPart last))
    (hn : ¬ IsHalfTurn (rotationPart last)) (hS : IsRotation (rotationPart y)) (hm : ¬ IsHalfTurn (rotationPart y)) {w : Fin 3 → ℝ} (hw : len w < Real.pi)
    (hy : rotationPart y = turn w * rotationPart last) (fin : Bool) (state : RobotState XR) (hs : state.O_T_EE_c = Arr.fin last) (m : MotionGeneratorCommand XR) :
    ∃ m' p s, CartesianPose.convert_motion ⟨fin, Arr.fin y, none⟩ state m (.fin f) false = .ok m' ∧ m'.O_T_EE_c = Arr.fin p ∧ BottomRow p ∧ IsRotation (rotationPart p) ∧
      (∀ i, position p i = position last i + share f * (position y i - position last i)) ∧ 0 ≤ s ∧ s ≤ 1 ∧ (4 / 2 ^ 52 ≤ len w → s = share f) ∧
      rotationPart p = turn (fun i => s * w i) * rotationPart last ∧ rotationPart y = turn (fun i => (1 - s) * w i) * rotationPart p := by
  obtain ⟨s, h1, h2, h3, h4⟩ := pose_filter_fin lib slerp hf hR hn hS hm hw hy
  obtain ⟨p, hp⟩ : ∃ p, p = pose (fun i => share f * position y i + (1 - share f) * position last i) (turn (fun i => s * w i) * rotationPart last) := ⟨_, rfl⟩
  rw [← hp] at h4
  have hpb : BottomRow p := by rw [hp]; exact bottomRow_pose _ _
  have hpr : rotationPart p = turn (fun i => s * w i) * rotationPart last := by rw [hp, rotationPart_pose]
  have hrot : IsRotation (rotationPart p) := by rw [hpr]; exact (turn_isRotation _).mul hR
  refine ⟨{ m with O_T_EE_c := Arr.fin p, valid_elbow := false, elbow_c := fun _ => Fl.lit 0 }, p, s, ?_, rfl, hpb, hrot, ?_, h1, h2, h3, hpr, ?_⟩
  · unfold CartesianPose.convert_motion
    have e1 : (DELTA_T : XR) = .fin (1 / 1000) := by unfold DELTA_T; rw [XR.lit_fin]; norm_num
    have e2 : Fl.flt (XR.fin f) (MAX_CUTOFF_FREQUENCY : XR) = true := by
      unfold MAX_CUTOFF_FREQUENCY
      rw [XR.lit_fin, XR.flt_fin]
      exact decide_eq_true (by push_cast; linarith)
    simp only [e2, if_true, hs, e1, h4, P_bind_ok_eq, Bool.false_eq_true, if_false]
    show (check_matrix (Arr.fin p) >>= fun _ => convert_elbow none state { m with O_T_EE_c := Arr.fin p } (XR.fin f) false) = _
    rw [(C37_rigid_accepted hpb hrot).2]
    rfl
  · intro i
    rw [hp, position_pose]
    ring
  · rw [hpr, ← mul_assoc, turn_add (by linarith) h1, hy]
    congr 2
    funext i
    ring

/-- **C87.** If the callback asks for the last command again, the command stays. -/
theorem C87_constant (lib : RotationLibrary) (slerp : Interpolates) {f : ℝ} (hf : 0 < f) (hf1 : f < 1000) {y : Fin 16 → ℝ} (hb : BottomRow y) (hR : IsRotation (rotationPart y))
    (hn : ¬ IsHalfTurn (rotationPart y)) (fin : Bool) (state : RobotState XR) (hs : state.O_T_EE_c = Arr.fin y) (m : MotionGeneratorCommand XR) :
    ∃ m', CartesianPose.convert_motion ⟨fin, Arr.fin y, none⟩ state m (.fin f) false = .ok m' ∧ m'.O_T_EE_c = Arr.fin y := by
  have hz : len (0 : Fin 3 → ℝ) = 0 := by simp [len]
  obtain ⟨m', p, s, h1, h2, h3, -, h5, -, -, -, h6, -⟩ := C87_pose_filter lib slerp hf hf1 hR hn hR hn (w := 0) (by rw [hz]; exact Real.pi_pos)
    (by rw [turn_of_len_zero hz, one_mul]) fin state hs m
  refine ⟨m', h1, h2.trans ?_⟩
  rw [turn_of_len_zero (by simp [len]), one_mul] at h6
  rw [← pose_eq h3, ← pose_eq hb, h6]
  congr 2
  funext i
  rw [h5 i]
  ring

/-- **C87.** The callback asks for the pose `y` again and again, and the robot reports each command as the last one. Then the commands converge to `y`: after
`n` cycles the share `(1 - share f) ^ n` of the way is left, and the same share of the turn `w`, up to a turn of 4 · 2⁻⁵² rad. -/
theorem C87_converges (lib : RotationLibrary) (slerp : Interpolates) {f : ℝ} (hf : 0 < f) (hf1 : f < 1000) {y : Fin 16 → ℝ} (hS : IsRotation (rotationPart y))
    (hm : ¬ IsHalfTurn (rotationPart y)) {z : ℕ → Fin 16 → ℝ} (hR : IsRotation (rotationPart (z 0))) (hn : ∀ n, ¬ IsHalfTurn (rotationPart (z n))) {w : Fin 3 → ℝ}
    (hw : len w < Real.pi) (hy : rotationPart y = turn w * rotationPart (z 0)) {fin : ℕ → Bool} {state : ℕ → RobotState XR} {m m' : ℕ → MotionGeneratorCommand XR}
    (hs : ∀ n, (state n).O_T_EE_c = Arr.fin (z n)) (sent : ∀ n, CartesianPose.convert_motion ⟨fin n, Arr.fin y, none⟩ (state n) (m n) (.fin f) false = .ok (m' n))
    (hz : ∀ n, (m' n).O_T_EE_c = Arr.fin (z (n + 1))) :
    (∀ n, IsRotation (rotationPart (z n)) ∧ (∀ i, position (z n) i = position y i + (1 - share f) ^ n * (position (z 0) i - position y i)) ∧
      ∃ s, 0 ≤ s ∧ s ≤ 1 ∧ rotationPart y = turn (fun i => s * w i) * rotationPart (z n) ∧ s * len w ≤ max ((1 - share f) ^ n * len w) (4 / 2 ^ 52)) ∧
    ∀ i, Tendsto (fun n => position (z n) i) atTop (𝓝 (position y i)) := by
  have g0 := share_pos hf
  have g1 := share_lt_one hf
  have main : ∀ n, IsRotation (rotationPart (z n)) ∧ (∀ i, position (z n) i = position y i + (1 - share f) ^ n * (position (z 0) i - position y i)) ∧
      ∃ s, 0 ≤ s ∧ s ≤ 1 ∧ rotationPart y = turn (fun i => s * w i) * rotationPart (z n) ∧ s * len w ≤ max ((1 - share f) ^ n * len w) (4 / 2 ^ 52) := by
    intro n
    induction n with
    | zero => exact ⟨hR, fun i => by rw [pow_zero]; ring, 1, zero_le_one, le_rfl, by simpa using hy, by rw [pow_zero]; exact le_max_left _ _⟩
    | succ n ih =>
      obtain ⟨i1, i2, s, s0, s1, i3, i4⟩ := ih
      have hl : len (fun i => s * w i) = s * len w := len_scaled s0 w
      obtain ⟨m1, p, r, k1, k2, -, k3, k4, r0, r1, k5, -, k6⟩ := C87_pose_filter lib slerp hf hf1 i1 (hn n) hS hm (w := fun i => s * w i)
        (by rw [hl]; exact lt_of_le_of_lt (mul_le_of_le_one_left (len_nonneg w) s1) hw) i3 (fin n) (state n) (hs n) (m n)
      have e := (sent n).symm.trans k1
      injection e with e
      have hp : z (n + 1) = p := by
        have := (hz n).symm.trans ((congrArg MotionGeneratorCommand.O_T_EE_c e).trans k2)
        funext i
        exact (XR.fin_inj _ _).1 (congrFun this i)
      rw [hp]
      have hrs : 0 ≤ (1 - r) * s := mul_nonneg (by linarith) s0
      refine ⟨k3, fun i => ?_, (1 - r) * s, hrs, by nlinarith, ?_, ?_⟩
      · rw [k4 i, i2 i, pow_succ]
        ring
      · rw [k6]
        congr 2
        funext i
        ring
      · rw [hl] at k5
        have hl0 := len_nonneg w
        by_cases hc : 4 / 2 ^ 52 ≤ s * len w
        · rw [k5 hc, mul_assoc, pow_succ, mul_comm _ (1 - share f), mul_assoc]
          have h6 : (1 - share f) * (s * len w) ≤ (1 - share f) * max ((1 - share f) ^ n * len w) (4 / 2 ^ 52) := mul_le_mul_of_nonneg_left i4 (by linarith)
          rw [mul_max_of_nonneg _ _ (by linarith)] at h6
          refine h6.trans (max_le_max le_rfl (mul_le_of_le_one_left (by norm_num) (by linarith)))
        · refine le_trans ?_ (le_max_right _ _)
          rw [mul_assoc]
          exact (mul_le_of_le_one_left (mul_nonneg s0 hl0) (by linarith)).trans (not_le.1 hc).le
  refine ⟨main, fun i => ?_⟩
  have : (fun n => position (z n) i) = fun n => position y i + (1 - share f) ^ n * (position (z 0) i - position y i) := funext fun n => (main n).2.1 i
  rw [this]
  have h := (tendsto_pow_atTop_nhds_zero_of_lt_one (show 0 ≤ 1 - share f by linarith) (by linarith)).mul_const (position (z 0) i - position y i)
  simpa using h.const_add (position y i)

/-! ## A library that meets the specification -/

open Classical in
/-- Rotations kept as matrices, with interpolation on the shortest arc. -/
@[instance_reducible] noncomputable def arcGeo : Geo XR where
  Q := M3
  fromMatrix m := if h : ∃ R, IsRotation R ∧ ¬ IsHalfTurn R ∧ m = arr9 R then h.choose else 1
  quatFromMatrix m := if h : ∃ R, IsRotation R ∧ ¬ IsHalfTurn R ∧ m = arr9 R then h.choose else 1
  toMatrix := arr9
  slerp a b t := if h : ∃ ws : (Fin 3 → ℝ) × ℝ, len ws.1 < Real.pi ∧ b = turn ws.1 * a ∧ t = .fin ws.2 then some (turn (fun i => h.choose.2 * h.choose.1 i) * a) else none
  renormalizedScaledAxis m := if h : ∃ w, len w ≤ Real.pi ∧ m = arr9 (turn w) then Arr.fin h.choose else Arr.fin 0

omit [Geo XR] in
theorem arcGeo_lawful : @RotationLibrary arcGeo ∧ @Interpolates arcGeo := by
  refine ⟨?_, ?_⟩
  · obtain ⟨h1, h2, h3, h4, h5⟩ := matrixGeo_lawful
    exact @RotationLibrary.mk arcGeo h1 h2 h3 h4 h5
  · intro a b R w t hR hw t0 t1 ha hb
    have ha := arr9_inj ha
    have hb := arr9_inj hb
    have h : ∃ ws : (Fin 3 → ℝ) × ℝ, len ws.1 < Real.pi ∧ b = turn ws.1 * a ∧ XR.fin t = .fin ws.2 := ⟨(w, t), hw, by rw [ha]; exact hb, rfl⟩
    have key : ∀ ws : (Fin 3 → ℝ) × ℝ, (len ws.1 < Real.pi ∧ b = turn ws.1 * a ∧ XR.fin t = .fin ws.2) → turn (fun i => ws.2 * ws.1 i) * a = turn (fun i => t * w i) * R := by
      rintro ⟨w', t'⟩ ⟨c1, c2, c3⟩
      dsimp only at c1 c2 c3 ⊢
      have e1 : t' = t := ((XR.fin_inj _ _).1 c3).symm
      have e2 : w' = w := by
        refine turn_inj c1 hw ?_
        have this : (turn w' * R : M3) = turn w * R := by
          rw [← ha]
          exact c2.symm.trans (hb.trans (by rw [ha]))
        have h3 := congrArg (· * R.transpose) this
        simpa only [mul_assoc, hR.orthogonal, mul_one] using h3
      rw [e1, e2, ha]
    exact ⟨turn (fun i => h.choose.2 * h.choose.1 i) * a, t, dif_pos h, congrArg arr9 (key _ h.choose_spec), t0, t1, fun _ => rfl⟩

omit [Geo XR] in
theorem short_turn_not_half {w : Fin 3 → ℝ} (h : len w < Real.pi) : ¬ IsHalfTurn (turn w) := by
  intro e
  have h1 := (turn_trace w).symm.trans e
  have h2 : Real.cos (len w) = Real.cos Real.pi := by rw [Real.cos_pi]; linarith
  exact h.ne (Real.injOn_cos ⟨len_nonneg w, h.le⟩ ⟨Real.pi_pos.le, le_rfl⟩ h2)

/-- Runs as in `C87_converges` exist, with any library: the end effector stands unturned and is asked for another position and for any turn of less than 180
degrees. -/
theorem C87_runs_exist (lib : RotationLibrary) (slerp : Interpolates) {f : ℝ} (hf : 0 < f) (hf1 : f < 1000) {w : Fin 3 → ℝ} (hw : len w < Real.pi) (a b : Fin 3 → ℝ)
    (s0 : RobotState XR) (m : MotionGeneratorCommand XR) :
    ∃ (z : ℕ → Fin 16 → ℝ) (state : ℕ → RobotState XR) (m' : ℕ → MotionGeneratorCommand XR), z 0 = pose a 1 ∧ (∀ n, ¬ IsHalfTurn (rotationPart (z n))) ∧
      (∀ n, (state n).O_T_EE_c = Arr.fin (z n)) ∧ (∀ n, CartesianPose.convert_motion ⟨false, Arr.fin (pose b (turn w)), none⟩ (state n) m (.fin f) false = .ok (m' n)) ∧
      ∀ n, (m' n).O_T_EE_c = Arr.fin (z (n + 1)) := by
  have hl : ∀ {s : ℝ}, 0 ≤ s → s ≤ 1 → len (fun i => s * w i) < Real.pi := fun h0 h1 => by
    rw [len_scaled h0]
    exact lt_of_le_of_lt (mul_le_of_le_one_left (len_nonneg w) h1) hw
  -- a pose of the run: turned by a share of the turn
  have step : ∀ c : (Fin 3 → ℝ) × { s : ℝ // 0 ≤ s ∧ s ≤ 1 }, ∃ (d : (Fin 3 → ℝ) × { s : ℝ // 0 ≤ s ∧ s ≤ 1 }) (m' : MotionGeneratorCommand XR),
      CartesianPose.convert_motion ⟨false, Arr.fin (pose b (turn w)), none⟩ { s0 with O_T_EE_c := Arr.fin (pose c.1 (turn fun i => c.2.1 * w i)) } m (.fin f) false = .ok m' ∧
      m'.O_T_EE_c = Arr.fin (pose d.1 (turn fun i => d.2.1 * w i)) := by
    rintro ⟨x, s, h0, h1⟩
    have hr : len (fun i => (1 - s) * w i) < Real.pi := hl (by linarith) (by linarith)
    have e : turn w = turn (fun i => (1 - s) * w i) * turn (fun i => s * w i) := by
      rw [turn_add (by linarith) h0]
      congr 1
      funext i
      ring
    obtain ⟨m', p, r, k1, k2, k3, -, -, r0, r1, -, k6, -⟩ := C87_pose_filter lib slerp hf hf1 (y := pose b (turn w)) (last := pose x (turn fun i => s * w i))
      (by rw [rotationPart_pose]; exact turn_isRotation _) (by rw [rotationPart_pose]; exact short_turn_not_half (hl h0 h1))
      (by rw [rotationPart_pose]; exact turn_isRotation _) (by rw [rotationPart_pose]; exact short_turn_not_half hw) hr
      (by rw [rotationPart_pose, rotationPart_pose]; exact e) false { s0 with O_T_EE_c := Arr.fin (pose x (turn fun i => s * w i)) } rfl m
    have q0 : 0 ≤ r * (1 - s) + s := by nlinarith
    refine ⟨(position p, ⟨r * (1 - s) + s, q0, by nlinarith⟩), m', k1, k2.trans ?_⟩
    rw [← pose_eq k3, position_pose, k6, rotationPart_pose]
    congr 2
    have : (fun i => r * ((1 - s) * w i)) = fun i => r * (1 - s) * w i := by funext i; ring
    rw [this, turn_add (mul_nonneg r0 (by linarith)) h0]
  choose next m' h1 h2 using step
  let c : ℕ → (Fin 3 → ℝ) × { s : ℝ // 0 ≤ s ∧ s ≤ 1 } := fun n => Nat.rec (a, ⟨0, le_rfl, zero_le_one⟩) (fun _ => next) n
  refine ⟨fun n => pose (c n).1 (turn fun i => (c n).2.1 * w i), fun n => { s0 with O_T_EE_c := Arr.fin (pose (c n).1 (turn fun i => (c n).2.1 * w i)) }, fun n => m' (c n), ?_,
    fun n => ?_, fun _ => rfl, fun n => h1 (c n), fun n => h2 (c n)⟩
  · show pose a (turn fun i => 0 * w i) = _
    rw [turn_zero_mul]
  · rw [rotationPart_pose]
    exact short_turn_not_half (hl (c n).2.2.1 (c n).2.2.2)

/-- Example: the end effector is asked to move by 1 m and to turn by 1 rad about the z axis, with a cutoff frequency of 100 Hz. The first command moves it by
more than 0.38 m, and turns it about the z axis by the same number. -/
example (s0 : RobotState XR) (hs : s0.O_T_EE_c = Arr.fin (pose 0 1)) (m : MotionGeneratorCommand XR) :
    let _ := arcGeo
    ∃ m' p, CartesianPose.convert_motion ⟨false, Arr.fin (pose ![1, 0, 0] (turn ![0, 0, 1])), none⟩ s0 m (.fin 100) false = .ok m' ∧ m'.O_T_EE_c = Arr.fin p ∧
      0.38 < position p 0 ∧ position p 0 < 0.39 ∧ rotationPart p = turn ![0, 0, position p 0] := by
  intro _
  have hl : len ![0, 0, 1] = 1 := by simp [len]
  have hpi := Real.pi_gt_three
  obtain ⟨m', p, s, k1, k2, -, -, k4, -, -, k5, k6, -⟩ := C87_pose_filter arcGeo_lawful.1 arcGeo_lawful.2 (f := 100) (by norm_num) (by norm_num)
    (y := pose ![1, 0, 0] (turn ![0, 0, 1])) (last := pose 0 1) (by rw [rotationPart_pose]; exact isRotation_one) (by rw [rotationPart_pose]; exact one_not_half)
    (by rw [rotationPart_pose]; exact turn_isRotation _) (by rw [rotationPart_pose]; exact short_turn_not_half (by rw [hl]; linarith)) (w := ![0, 0, 1]) (by rw [hl]; linarith)
    (by rw [rotationPart_pose, rotationPart_pose, mul_one]) false s0 hs m
  have hx : position p 0 = share 100 := by
    rw [k4 0, position_pose, position_pose]
    simp
  have h1 := Real.pi_gt_d2
  have h2 := Real.pi_lt_d2
  refine ⟨m', p, k1, k2, ?_, ?_, ?_⟩
  · rw [hx, share, lt_div_iff₀ (by linarith)]
    norm_num at h1 ⊢
    linarith
  · rw [hx, share, div_lt_iff₀ (by linarith)]
    norm_num at h2 ⊢
    linarith
  · rw [k6, k5 (by rw [hl]; norm_num), rotationPart_pose, mul_one, hx]
    congr 1
    funext i
    fin_cases i <;> simp

end Verif
