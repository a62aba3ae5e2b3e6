import Verif.Lemmas.SlowPose
/-!
# The Cartesian pose example: C91

Doubles are real numbers here (`Spec/Real.lean`), with any bit patterns. nalgebra is assumed to compute with rotations as `Spec/Nalgebra.lean` says.
-/
set_option linter.unusedSectionVars false
namespace Verif
open Prog Spec Fl

namespace PoseExample

/-- The angle on the circle. -/
noncomputable def angle (n : ℕ) : ℝ := sampledWave (Real.pi / 4) (Real.pi / 5000) n

/-- The positions that the callback returns. -/
noncomputable def target (x0 : Fin 3 → ℝ) (i : Fin 3) (n : ℕ) : ℝ := x0 i + arc i ((n : ℝ) / 1000)

theorem target_circle (x0 : Fin 3 → ℝ) (i : Fin 3) (n : ℕ) : target x0 i n = x0 i + circle i (angle n) := by
  unfold target arc circle angle sampledWave
  rw [show Real.pi / 5 * ((n : ℝ) / 1000) = Real.pi / 5000 * n by ring]

/-- What the callback has captured. -/
noncomputable def captured (x0 : Fin 3 → ℝ) (R : M3) : ℕ → Examples.PoseState XR
  | 0 => .new
  | n + 1 => ⟨⟨false, Arr.fin (pose x0 R), none⟩, .fin ((n : ℝ) / 1000)⟩

def ends (n : ℕ) : Bool := decide (10000 ≤ n)

/-- The control call. -/
noncomputable def call : ControlCall XR (Examples.PoseState XR) .CartesianPose :=
  { motion := Examples.pose_callback, torque := none, controller := requestedController none, limit_rate := (none : Option Bool).getD true,
    cutoff := (none : Option XR).getD (lit 100) }

theorem isControl : IsControl poseExample call Examples.PoseState.new := .motion _ _ _ _ _ _ _

theorem cutoff_eq : call.cutoff = .fin 100 := by
  show (lit 100 : XR) = _
  rw [XR.lit_fin]
  norm_num

theorem first_time (n : ℕ) : feq (XR.fin ((n : ℝ) / 1000)) (lit 0) = decide (n = 0) := by
  rw [XR.lit_fin]
  cases n with
  | zero => simp [Fl.feq, XR.eqv]
  | succ n =>
    rw [decide_eq_false (Nat.succ_ne_zero n)]
    simp [Fl.feq, XR.eqv]
    exact fun h => absurd h (by positivity)

theorem called (x0 : Fin 3 → ℝ) (R : M3) (n : ℕ) (st : RobotState XR) (h : n = 0 → st.O_T_EE_c = Arr.fin (pose x0 R)) :
    call.motion (captured x0 R n) st (periodOf n) = (captured x0 R (n + 1), poseOut (target x0) R (fun _ => none) ends n) := by
  have htime : (captured x0 R n).time + secs (periodOf n) = .fin ((n : ℝ) / 1000) := by
    cases n with
    | zero =>
      show (lit 0 : XR) + secs 0 = _
      rw [XR.lit_fin, XR.secs_fin, XR.fin_add]
      norm_num
    | succ n =>
      show XR.fin _ + secs 1 = _
      rw [XR.secs_fin, XR.fin_add]
      push_cast
      ring_nf
  have hinit : (if feq (XR.fin ((n : ℝ) / 1000)) (lit 0) then { (captured x0 R n).initial_pose with O_T_EE := st.O_T_EE_c } else (captured x0 R n).initial_pose) =
      (⟨false, Arr.fin (pose x0 R), none⟩ : CartesianPose XR) := by
    rw [first_time]
    cases n with
    | zero => rw [h rfl]; rfl
    | succ n => rfl
  have hend : fle (lit 10 : XR) (.fin ((n : ℝ) / 1000)) = ends n := by
    rw [XR.lit_fin, XR.fle_fin]
    unfold ends
    rw [decide_eq_decide, le_div_iff₀ (by norm_num), show ((10 : ℚ) : ℝ) * 1000 = ((10000 : ℕ) : ℝ) by push_cast; norm_num]
    exact Nat.cast_le
  have hangle : (pi : XR) / lit 4 * (lit 1 - fcos (pi / lit 5 * .fin ((n : ℝ) / 1000))) = .fin (Real.pi / 4 * (1 - Real.cos (Real.pi / 5 * ((n : ℝ) / 1000)))) := by
    simp only [XR.lit_fin, XR.pi_fin]
    rw [XR.fin_div _ _ (by norm_num), XR.fin_div _ _ (by norm_num), XR.fin_mul, show (fcos (XR.fin _) : XR) = .fin (Real.cos _) from rfl, XR.fin_sub, XR.fin_mul]
    norm_num
  obtain ⟨φ, hφ⟩ : ∃ φ, φ = Real.pi / 4 * (1 - Real.cos (Real.pi / 5 * ((n : ℝ) / 1000))) := ⟨_, rfl⟩
  rw [← hφ] at hangle
  have hx : (lit (3 / 10) : XR) * fsin (.fin φ) = .fin (0.3 * Real.sin φ) := by
    rw [XR.lit_fin, show (fsin (XR.fin _) : XR) = .fin (Real.sin _) from rfl, XR.fin_mul]
    norm_num
  have hz : (lit (3 / 10) : XR) * (fcos (.fin φ) - lit 1) = .fin (0.3 * (Real.cos φ - 1)) := by
    rw [XR.lit_fin, XR.lit_fin, show (fcos (XR.fin _) : XR) = .fin (Real.cos _) from rfl, XR.fin_sub, XR.fin_mul]
    norm_num
  have a0 : arc 0 ((n : ℝ) / 1000) = 0.3 * Real.sin φ := by rw [hφ]; rfl
  have a1 : arc 1 ((n : ℝ) / 1000) = 0 := rfl
  have a2 : arc 2 ((n : ℝ) / 1000) = 0.3 * (Real.cos φ - 1) := by rw [hφ]; rfl
  have hq : (fun i : Fin 16 => if i = 12 then (Arr.fin (pose x0 R) : Arr XR 16) i + .fin (0.3 * Real.sin φ) else if i = 14 then
      (Arr.fin (pose x0 R) : Arr XR 16) i + .fin (0.3 * (Real.cos φ - 1)) else (Arr.fin (pose x0 R) : Arr XR 16) i) = Arr.fin (pose (sample (target x0) n) R) := by
    funext i
    by_cases hi : i < 12
    · rw [if_neg (by omega), if_neg (by omega)]
      exact congrArg XR.fin (pose_rotation _ _ R i hi)
    · obtain rfl | rfl | rfl | rfl : i = 12 ∨ i = 13 ∨ i = 14 ∨ i = 15 := by omega
      · rw [if_pos rfl]
        show XR.fin (x0 0) + _ = XR.fin (x0 0 + arc 0 ((n : ℝ) / 1000))
        rw [XR.fin_add, a0]
      · rw [if_neg (by decide), if_neg (by decide)]
        show XR.fin (x0 1) = XR.fin (x0 1 + arc 1 ((n : ℝ) / 1000))
        rw [a1, add_zero]
      · rw [if_neg (by decide), if_pos rfl]
        show XR.fin (x0 2) + _ = XR.fin (x0 2 + arc 2 ((n : ℝ) / 1000))
        rw [XR.fin_add, a2]
      · rw [if_neg (by decide), if_neg (by decide)]
        show XR.fin (1 : ℝ) = XR.fin 1
        rfl
  show Examples.pose_callback (captured x0 R n) st (periodOf n) = _
  unfold Examples.pose_callback
  simp only [htime, hinit, hend, hangle, hx, hz, hq]
  refine Prod.ext rfl ?_
  show (if ends n = true then _ else _) = poseOut (target x0) R (fun _ => none) ends n
  unfold poseOut
  cases he : ends n <;> rfl

/-! ## The motion is slow -/

theorem size : Real.pi / 4 * (Real.pi / 5000) ≤ 0.0005 ∧ Real.pi / 4 * (Real.pi / 5000) ^ 2 ≤ 0.00000032 := by
  have h1 := Real.pi_gt_d2
  have h2 := Real.pi_lt_d2
  have h3 : Real.pi ^ 2 ≤ 3.15 ^ 2 := by gcongr
  have h4 : Real.pi ^ 3 ≤ 3.15 ^ 3 := by gcongr
  constructor <;> nlinarith

theorem angle_zero : angle 0 = 0 := sampledWave_zero

/-- The angle from the start. -/
noncomputable def way : ℕ → ℝ := starting 0 angle

theorem way_step (n : ℕ) : |way (n + 1) - way n| ≤ 0.0005 := by
  cases n with
  | zero =>
    show |angle 0 - 0| ≤ _
    rw [angle_zero, sub_zero, abs_zero]
    norm_num
  | succ n => exact (sampledWave_step (by positivity) (by positivity) n).trans size.1

theorem way_second (n : ℕ) : |(way (n + 2) - way (n + 1)) - (way (n + 1) - way n)| ≤ 0.00000032 := by
  have := size.2
  cases n with
  | zero =>
    show |angle 1 - angle 0 - (angle 0 - 0)| ≤ _
    rw [angle_zero, sub_zero, sub_zero, sub_zero]
    refine (sampledWave_first (by positivity)).trans ?_
    have : 0 ≤ Real.pi / 4 * (Real.pi / 5000) ^ 2 := by positivity
    linarith
  | succ n => exact (sampledWave_second (by positivity) n).trans this

variable (x0 : Fin 3 → ℝ)

/-- The whole motion. -/
theorem whole (i : Fin 3) (n : ℕ) : starting (x0 i) (target x0 i) n = x0 i + circle i (way n) := by
  cases n with
  | zero =>
    show x0 i = x0 i + circle i 0
    unfold circle
    fin_cases i <;> simp
  | succ n => exact target_circle x0 i n

theorem whole_step (n : ℕ) : len (fun i => target x0 i n - starting (x0 i) (target x0 i) n) ≤ 0.00015 := by
  have h := circle_step (way (n + 1)) (way n)
  refine le_trans (le_of_eq (congrArg len (funext fun i => ?_))) (h.trans (by have := way_step n; linarith))
  rw [whole, show target x0 i n = starting (x0 i) (target x0 i) (n + 1) from rfl, whole]
  ring

theorem whole_rate (n : ℕ) : len (fun i => rate (starting (x0 i) (target x0 i)) n) ≤ 0.15 := by
  cases n with
  | zero =>
    simp only [rate, len_zero]
    norm_num
  | succ n =>
    have h := whole_step x0 n
    have e : (fun i => rate (starting (x0 i) (target x0 i)) (n + 1)) = fun i => 1000 * (target x0 i n - starting (x0 i) (target x0 i) n) := by
      funext i
      rw [rate, div_milli]
      rfl
    rw [e, len_scale (by norm_num)]
    linarith

theorem whole_second (n : ℕ) : len (fun i => rate (starting (x0 i) (target x0 i)) (n + 1) - rate (starting (x0 i) (target x0 i)) n) ≤ 0.000172 := by
  cases n with
  | zero =>
    have e : (fun i => rate (starting (x0 i) (target x0 i)) (0 + 1) - rate (starting (x0 i) (target x0 i)) 0) = fun _ => 0 := by
      funext i
      show (target x0 i 0 - x0 i) / 0.001 - 0 = 0
      rw [target_circle, angle_zero]
      unfold circle
      fin_cases i <;> simp
    rw [e, len_zero]
    norm_num
  | succ n =>
    have h := circle_second (way (n + 1)) (way (n + 2) - way (n + 1)) (way (n + 1) - way n)
    have h1 := way_second n
    have sq : ∀ x : ℝ, |x| ≤ 0.0005 → x ^ 2 ≤ 0.00000025 := by
      intro x hx
      rw [← sq_abs]
      nlinarith [abs_nonneg x]
    have h2 := sq _ (way_step n)
    have h3 := sq _ (way_step (n + 1))
    rw [add_sub_cancel, sub_sub_cancel] at h
    have e : (fun i => rate (starting (x0 i) (target x0 i)) (n + 1 + 1) - rate (starting (x0 i) (target x0 i)) (n + 1)) =
        fun i => 1000 * ((circle i (way (n + 2)) - circle i (way (n + 1))) - (circle i (way (n + 1)) - circle i (way n))) := by
      funext i
      rw [rate, rate, div_milli, div_milli, whole, whole, whole]
      ring
    rw [e, len_scale (by norm_num)]
    linarith

theorem allowed (n : ℕ) : CartesianAllowed (below (below translationLimits)) (fun i => rate (starting (x0 i) (target x0 i)) (n + 1))
    (fun i => rate (starting (x0 i) (target x0 i)) n) (fun i => rate (rate (starting (x0 i) (target x0 i))) n) := by
  have key : ∀ m, len (fun i => (rate (starting (x0 i) (target x0 i)) (m + 1) - rate (starting (x0 i) (target x0 i)) m) / 0.001) ≤ 0.5 := by
    intro m
    have e : (fun i => (rate (starting (x0 i) (target x0 i)) (m + 1) - rate (starting (x0 i) (target x0 i)) m) / 0.001) =
        fun i => 1000 * (rate (starting (x0 i) (target x0 i)) (m + 1) - rate (starting (x0 i) (target x0 i)) m) := funext fun i => div_milli _
    rw [e, len_scale (by norm_num)]
    have := whole_second x0 m
    linarith
  refine slow_cartesian ((whole_rate x0 n).trans (by norm_num)) (key n) ?_
  cases n with
  | zero =>
    show len (fun _ => 0) ≤ _
    rw [len_zero]
    norm_num
  | succ n => exact key n

/-- The positions of the commands. -/
noncomputable def reached : Fin 3 → ℕ → ℝ := limitedPosition codeTranslation 100 x0 (target x0)

theorem near (n : ℕ) : len (fun i => reached x0 i (n + 1) - (gain (1 / 1000) 100 * target x0 i n + (1 - gain (1 / 1000) 100) * reached x0 i n)) ≤ slip / 1000 :=
  (limitedPosition_near under_translation (by norm_num) (by norm_num [below, translationLimits]) (allowed x0) n).1

theorem low (N : ℕ) : NearlyLowPassedFor N (1 / 10 ^ 16) 100 (target x0) (reached x0) :=
  limitedPosition_low under_translation (by norm_num) (by norm_num [below, translationLimits]) (allowed x0) N

theorem lag (n : ℕ) : len (fun i => reached x0 i (n + 1) - target x0 i n) ≤ 0.00025 := by
  have := slip_le
  exact noisy_lag (by norm_num) (fun _ => rfl) (whole_step x0) (near x0) (by have := gain_100.2; linarith) n

/-- The last command. -/
theorem back : len (fun i => reached x0 i 10001 - x0 i) ≤ 0.000001 := by
  have hp := Real.pi_gt_three
  have hs := slip_le
  have hg := gain_100.1
  -- the exact low pass
  have h1 := noise_bound (f := 100) (by norm_num) (n := 10001) (u := target x0) (y := reached x0) (e := slip / 1000) (by have := slip_pos; linarith) (fun j _ => near x0 j) 10001 le_rfl
  have h1 : len (fun i => reached x0 i 10001 - lowPass 100 (x0 i) (target x0 i) 10001) ≤ 1 / 10 ^ 20 := by
    have h0 := len_nonneg fun i => reached x0 i 10001 - lowPass 100 (x0 i) (target x0 i) 10001
    have := (mul_le_mul_of_nonneg_right hg h0).trans h1
    linarith
  -- its velocity
  have h2 := noisy_lag (f := 100) (s := 0.000172) (e := 0) (B := 0.000275) (by norm_num) (x0 := fun _ => 0) (u := fun i n => rate (starting (x0 i) (target x0 i)) (n + 1))
    (y := fun i => lowPass 100 0 (fun n => rate (starting (x0 i) (target x0 i)) (n + 1))) (fun _ => rfl) (fun n => by simp only [starting_rate]; exact whole_second x0 n)
    (fun n => by simp only [lowPass, sub_self, len_zero]; exact le_rfl) (by linarith) 10000
  simp only [← rate_lowPass_eq] at h2
  -- the velocity of the callback
  have last : angle 10000 = 0 := by
    unfold angle sampledWave
    rw [show Real.pi / 5000 * ((10000 : ℕ) : ℝ) = 2 * Real.pi by push_cast; ring, Real.cos_two_pi, sub_self, mul_zero]
  have last' : |angle 9999| ≤ 0.00000016 := by
    have e : angle 9999 = sampledWave (Real.pi / 4) (Real.pi / 5000) 1 := by
      unfold angle sampledWave
      rw [show Real.pi / 5000 * ((9999 : ℕ) : ℝ) = 2 * Real.pi - Real.pi / 5000 * ((1 : ℕ) : ℝ) by push_cast; ring, Real.cos_two_pi_sub]
    rw [e]
    refine (sampledWave_first (by positivity)).trans ?_
    have := size.2
    linarith
  have h3 : len (fun i => rate (starting (x0 i) (target x0 i)) 10001) ≤ 0.000048 := by
    have h := circle_step 0 (angle 9999)
    rw [zero_sub, abs_neg] at h
    have e : (fun i => rate (starting (x0 i) (target x0 i)) 10001) = fun i => 1000 * (circle i 0 - circle i (angle 9999)) := by
      funext i
      rw [show rate (starting (x0 i) (target x0 i)) 10001 = (target x0 i 10000 - target x0 i 9999) / 0.001 from rfl, div_milli, target_circle, target_circle, last]
      ring
    rw [e, len_scale (by norm_num)]
    linarith
  have h4 : len (fun i => rate (lowPass 100 (x0 i) (target x0 i)) 10001) ≤ 0.000323 := (len_shift h3 h2).trans (by norm_num)
  have h5 : len (fun i => lowPass 100 (x0 i) (target x0 i) 10001 - x0 i) ≤ 0.0000006 := by
    have e : (fun i => lowPass 100 (x0 i) (target x0 i) 10001 - x0 i) = fun i => -(1 / (2 * Real.pi * 100) * rate (lowPass 100 (x0 i) (target x0 i)) 10001) := by
      funext i
      have := lowPass_is (a := x0 i) (by norm_num : (0 : ℝ) < 100) (target x0 i) 10001 10000 (by norm_num)
      rw [target_circle, last, show circle i 0 = 0 by unfold circle; fin_cases i <;> simp, add_zero] at this
      rw [show rate (lowPass 100 (x0 i) (target x0 i)) 10001 = (lowPass 100 (x0 i) (target x0 i) 10001 - lowPass 100 (x0 i) (target x0 i) 10000) / 0.001 from rfl]
      generalize lowPass 100 (x0 i) (target x0 i) 10001 = a at this ⊢
      generalize lowPass 100 (x0 i) (target x0 i) 10000 = b at this ⊢
      rw [← this]
      ring
    rw [e, len_neg, len_scale (by positivity), div_mul_eq_mul_div, one_mul, div_le_iff₀ (by positivity)]
    refine h4.trans ?_
    linarith
  have := len_sum h1 h5
  refine le_trans (le_of_eq (congrArg len (funext fun i => ?_))) (this.trans (by norm_num))
  ring

theorem plan [Geo XR] (lib : RotationLibrary) (slerp : Interpolates) {R : M3} (hR : IsRotation R) (reads : ReadsRight R) :
    IsPlanOf call Examples.PoseState.new (captured x0 R) (poseOut (target x0) R (fun _ => none) ends) (poseCmd (reached x0) R) (PosesReported (reached x0) R) :=
  planned_poses lib slerp rfl rfl cutoff_eq (by norm_num) (by norm_num) rfl hR reads (allowed x0) (called x0 R)

end PoseExample
open PoseExample

section
variable [Wire XR] [Geo XR] (lib : RotationLibrary) (slerp : Interpolates) {w : World XR} (hw : RobotReachable w) {x0 : Fin 3 → ℝ} {R : M3} (hR : IsRotation R) (reads : ReadsRight R)
  (follows : FollowsPoses x0 R (exchanges (newEvents w (poseExample.run w).2)))
include lib slerp hw hR reads follows

/-- **C91**: with a robot whose end effector rests at `x0` with the rotation `R` and follows the commands, the control call of the Cartesian pose example moves it on an
arc of a circle and back. The commands are those of the callback after the low pass with the default cutoff frequency, but for 10⁻¹⁶ m, and are within 0.25 mm of the
arc; they keep the rotation and say nothing about the elbow. The motion ends after ten seconds. If the call returns Ok, then the last command is the pose at the start,
but for a thousandth of a millimetre. -/
theorem C91_pose_example : ∃ y : Fin 3 → ℕ → ℝ,
    (∀ i, y i 0 = x0 i) ∧ NearlyLowPassedFor (answered w poseExample) (1 / 10 ^ 16) 100 (fun i n => x0 i + arc i ((n : ℝ) / 1000)) y ∧
    (∀ n st x, Exchange w poseExample n st x → x.motion.O_T_EE_c = Arr.fin (pose (sample y (n + 1)) R) ∧
      len (fun i => y i (n + 1) - (x0 i + arc i ((n : ℝ) / 1000))) ≤ 0.00025 ∧ x.motion.valid_elbow = false ∧
      x.motion.motion_generation_finished = decide (n = 10000) ∧ n ≤ 10000) ∧
    ((poseExample.run w).1 = .ok () → answered w poseExample = 10001 ∧ len (fun i => y i (answered w poseExample) - x0 i) ≤ 0.000001) := by
  have hp := plan x0 lib slerp hR reads
  obtain ⟨f1, f2⟩ := FollowsPoses.reported follows (y := reached x0) fun _ => rfl
  have h0 : ∀ st x, Exchange w poseExample 0 st x → PosesReported (reached x0) R 0 st := fun st x hx => f1 _ hx
  have hq : ∀ n, (sentCmd (poseOut (target x0) R (fun _ => none) ends) (poseCmd (reached x0) R) n).O_T_EE_c = Arr.fin (pose (sample (reached x0) (n + 1)) R) ∧
      (sentCmd (poseOut (target x0) R (fun _ => none) ends) (poseCmd (reached x0) R) n).valid_elbow = false := by
    intro n
    unfold sentCmd
    split <;> exact ⟨rfl, rfl⟩
  have hn : ∀ n st x st' x', Exchange w poseExample n st x → Exchange w poseExample (n + 1) st' x' →
      x.motion = sentCmd (poseOut (target x0) R (fun _ => none) ends) (poseCmd (reached x0) R) n →
      PosesReported (reached x0) R n st → PosesReported (reached x0) R (n + 1) st' ∧ st'.time = st.time + 1 := by
    intro n st x st' x' hx hx' hm hR
    exact f2 n _ _ hx hx' (by rw [hm]; exact (hq n).1) hR
  have hfin : ∀ n : ℕ, (poseOut (target x0) R (fun _ => none) ends n).is_finished = ends n := fun _ => rfl
  have hends : ends 10000 = true := decide_eq_true le_rfl
  have hlen : ∀ n st x, Exchange w poseExample n st x → n ≤ 10000 := by
    intro n st x hx
    obtain ⟨-, -, -, -, g5⟩ := hp.goes hw isControl h0 hn n st x hx
    by_contra hlt
    have := g5 10000 (by omega)
    rw [hfin, hends] at this
    cases this
  have hans : answered w poseExample ≤ 10001 := by
    by_contra hlt
    obtain ⟨st, x, hx⟩ := exchange_exists (by omega : 10001 < answered w poseExample)
    have := hlen _ st x hx
    omega
  refine ⟨reached x0, fun _ => rfl, low x0 _, ?_, ?_⟩
  · intro n st x hx
    obtain ⟨-, g2, -, -, g5⟩ := hp.goes hw isControl h0 hn n st x hx
    refine ⟨by rw [g2]; exact (hq n).1, lag x0 n, by rw [g2]; exact (hq n).2, ?_, hlen n st x hx⟩
    have hle := hlen n st x hx
    rw [g2]
    unfold sentCmd
    rw [hfin]
    by_cases h : n = 10000
    · rw [h, hends, if_pos rfl, decide_eq_true rfl]
    · rw [if_neg (by unfold ends; simp; omega), decide_eq_false h]
      rfl
  · intro hok
    obtain ⟨n, g1, g2⟩ := hp.ends hw isControl h0 hn hok
    rw [hfin] at g2
    have hge : 10000 ≤ n := of_decide_eq_true g2
    have heq : answered w poseExample = 10001 := by omega
    refine ⟨heq, ?_⟩
    rw [heq]
    exact back x0

end

/-- Robots that take the poses over. -/
theorem takes_pose {st st' : RobotState XR} {T : Arr XR 16} {y : Fin 3 → ℕ → ℝ} {R : M3} {n : ℕ} (ht : st'.time = st.time + 1) (hT : T = Arr.fin (pose (sample y (n + 1)) R))
    (h : PosesReported y R n st) (h' : PosesReported y R (n + 1) st') : TakesPoseOver st T st' := by
  obtain ⟨r1, r2, r3⟩ := h
  obtain ⟨q1, q2, q3⟩ := h'
  have d : ∀ a b : ℝ, XR.fin ((a - b) / 0.001) = (XR.fin a - XR.fin b) / XR.fin 0.001 := fun a b => by rw [XR.fin_sub, XR.fin_div _ _ (by norm_num)]
  refine ⟨ht, q1.trans hT.symm, fun i => ?_, fun _ i => ?_, fun i => ?_⟩
  · rw [q2, q1, r1]
    fin_cases i
    · exact d _ _
    · exact d _ _
    · exact d _ _
  · rw [q2]
    fin_cases i <;> rfl
  · rw [q3, q2, r2]
    have z : XR.fin 0 = XR.fin (((0 : ℝ) - 0) / 0.001) := by norm_num
    fin_cases i
    · exact d _ _
    · exact d _ _
    · exact d _ _
    · exact z.trans (d _ _)
    · exact z.trans (d _ _)
    · exact z.trans (d _ _)

/-- **C91**, without hypotheses on the robot: from every position and rotation there is a robot that follows, and then the call returns Ok. -/
theorem C91_pose_example_happens [Geo XR] (lib : RotationLibrary) (slerp : Interpolates) (x0 : Fin 3 → ℝ) {R : M3} (hR : IsRotation R) (reads : ReadsRight R) :
    ∃ (_ : Wire XR) (w : World XR), RobotReachable w ∧ (poseExample.run w).1 = .ok () ∧ FollowsPoses x0 R (exchanges (newEvents w (poseExample.run w).2)) := by
  obtain ⟨y, hy⟩ : ∃ y, y = reached x0 := ⟨_, rfl⟩
  obtain ⟨wire, k0, kp⟩ := Following.cartesian_wire (N := 10000) (by norm_num) (fun n => Arr.fin (pose (sample y n) R)) (fun n => Arr.fin (straight fun i => rate (y i) n))
    (fun n => Arr.fin (straight fun i => rate (rate (y i)) n)) (fun _ _ => lit 0) (fun _ _ => lit 0) (fun _ _ => lit 0)
  have hp := plan x0 lib slerp hR reads
  rw [← hy] at hp
  obtain ⟨w, g1, g2, g3⟩ := hp.happens (cartesian_robot_for (N := 10000) (by norm_num) (fun n => Arr.fin (pose (sample y n) R)) (fun n => Arr.fin (straight fun i => rate (y i) n))
    (fun n => Arr.fin (straight fun i => rate (rate (y i)) n)) (fun _ _ => lit 0) (fun _ _ => lit 0) (fun _ _ => lit 0) k0 kp fun n st _ e1 e2 e3 _ _ _ => ⟨e1, e2, e3⟩)
    (fun n hn => decide_eq_false (by omega : ¬ 10000 ≤ n)) (by show decide (10000 ≤ 10000) = true; simp) isControl
  refine ⟨wire, w, g1, g2, ?_⟩
  rw [g3]
  refine ⟨?_, ?_⟩
  · intro p hp
    rw [List.range_succ_eq_map] at hp
    cases hp
    subst hy
    have hz : (straight fun _ => 0) = fun _ => 0 := by funext i; fin_cases i <;> rfl
    exact ⟨rfl, congrArg Arr.fin hz, congrArg Arr.fin hz⟩
  · rw [List.isChain_iff_getElem]
    intro k hk
    simp only [List.length_map, List.length_range] at hk
    simp only [List.getElem_map, List.getElem_range]
    refine takes_pose ?_ ?_ ⟨rfl, rfl, rfl⟩ ⟨rfl, rfl, rfl⟩
    · show (UInt64.ofNat (k + 1 + 3)).toNat = (UInt64.ofNat (k + 3)).toNat + 1
      rw [UInt64.toNat_ofNat', UInt64.toNat_ofNat', Nat.mod_eq_of_lt (by omega), Nat.mod_eq_of_lt (by omega)]
    · unfold sentCmd
      split <;> rfl

/-- The hypotheses of C90 for poses are met by this program. -/
example [Geo XR] (lib : RotationLibrary) (slerp : Interpolates) (x0 : Fin 3 → ℝ) {R : M3} (hR : IsRotation R) (reads : ReadsRight R) :
    ∃ (_ : Wire XR) (w : World XR) (u y : Fin 3 → ℕ → ℝ), RobotReachable w ∧ IsControl poseExample call Examples.PoseState.new ∧
    call.limit_rate = true ∧ call.cutoff = .fin 100 ∧ answered w poseExample = 10001 ∧
    (∀ n out, (motionOutputs .CartesianPose (newEvents w (poseExample.run w).2))[n]? = some out → CartesianPose.O_T_EE out = Arr.fin (pose (sample u n) R)) ∧
    (∀ n st x, Exchange w poseExample n st x → st.O_T_EE_c = Arr.fin (pose (sample y n) R) ∧ st.O_dP_EE_c = Arr.fin (join (fun i => rate (y i) n) fun _ => 0) ∧
      st.O_ddP_EE_c = Arr.fin (join (fun i => rate (rate (y i)) n) fun _ => 0)) ∧
    (∀ n st x, Exchange w poseExample n st x → x.motion.O_T_EE_c 12 = .fin (y 0 (n + 1)) ∧ x.motion.O_T_EE_c 13 = .fin (y 1 (n + 1)) ∧ x.motion.O_T_EE_c 14 = .fin (y 2 (n + 1))) ∧
    CartesianAllowedFor (answered w poseExample) translationLimits fun i => rate (starting (y i 0) (u i)) := by
  obtain ⟨wire, w, hw, hok, follows⟩ := C91_pose_example_happens lib slerp x0 hR reads
  have hp := plan x0 lib slerp hR reads
  obtain ⟨f1, f2⟩ := FollowsPoses.reported follows (y := reached x0) fun _ => rfl
  have goes := hp.goes hw isControl (fun st x hx => f1 _ hx) (fun n st x st' x' hx hx' hm hR => f2 n _ _ hx hx' (by rw [hm]; unfold sentCmd; split <;> rfl) hR)
  obtain ⟨_, -, -, -, h3⟩ := C91_pose_example lib slerp hw hR reads follows
  refine ⟨wire, w, target x0, reached x0, hw, isControl, rfl, cutoff_eq, (h3 hok).1, fun n out h => ?_, fun n st x hx => (goes n st x hx).1, fun n st x hx => ?_, fun n _ => allowed x0 n⟩
  · obtain ⟨hn, -⟩ := List.getElem?_eq_some_iff.1 h
    obtain ⟨st, x, hx⟩ := exchange_exists (hn.trans_eq (outputs_ok hw isControl hok))
    have g4 : out = poseOut (target x0) R (fun _ => none) ends n := Option.some.inj (h.symm.trans (goes n st x hx).2.2.2.1)
    rw [g4]
    rfl
  · rw [(goes n st x hx).2.1]
    unfold sentCmd
    split <;> exact ⟨rfl, rfl, rfl⟩

/-- And there are such rotations, and a library with these properties. -/
example : ∃ _ : Geo XR, RotationLibrary ∧ Interpolates ∧ IsRotation (1 : M3) ∧ ReadsRight (1 : M3) := by
  refine ⟨arcGeo, arcGeo_lawful.1, arcGeo_lawful.2, isRotation_one, ?_⟩
  let _ := arcGeo
  exact arcGeo_lawful.1.from_matrix 1 isRotation_one one_not_half

end Verif
