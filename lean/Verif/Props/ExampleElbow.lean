import Verif.Props.ExamplePose
/-!
# The elbow example: C92

Doubles are real numbers here (`Spec/Real.lean`), with any bit patterns. nalgebra is assumed to compute with rotations as `Spec/Nalgebra.lean` says.
-/
set_option linter.unusedSectionVars false
namespace Verif
open Prog Spec Fl

namespace ElbowExample

/-- The elbow positions that the callback returns. -/
noncomputable def target (e0 : ℝ) (n : ℕ) : ℝ := e0 + elbowWay ((n : ℝ) / 1000)

theorem target_wave (e0 : ℝ) (n : ℕ) : target e0 n = e0 + sampledWave (Real.pi / 10) (Real.pi / 5000) n := by
  unfold target elbowWay sampledWave
  rw [show Real.pi / 5 * ((n : ℝ) / 1000) = Real.pi / 5000 * n by ring]

/-- The position of the end effector that the callback returns. -/
def still (x0 : Fin 3 → ℝ) (i : Fin 3) (_ : ℕ) : ℝ := x0 i

/-- What the callback has captured. -/
noncomputable def captured (x0 : Fin 3 → ℝ) (R : M3) (e0 s : ℝ) : ℕ → Examples.ElbowState XR
  | 0 => .new
  | n + 1 => ⟨Arr.fin (pose x0 R), Arr.fin ![e0, s], .fin ((n : ℝ) / 1000)⟩

def ends (n : ℕ) : Bool := decide (10000 ≤ n)

/-- The control call. -/
noncomputable def call : ControlCall XR (Examples.ElbowState XR) .CartesianPose :=
  { motion := Examples.elbow_callback, torque := none, controller := requestedController none, limit_rate := (none : Option Bool).getD true,
    cutoff := (none : Option XR).getD (lit 100) }

theorem isControl : IsControl elbowExample call Examples.ElbowState.new := .motion _ _ _ _ _ _ _

theorem cutoff_eq : call.cutoff = .fin 100 := by
  show (lit 100 : XR) = _
  rw [XR.lit_fin]
  norm_num

/-- What the callback returns. -/
noncomputable def out (x0 : Fin 3 → ℝ) (R : M3) (e0 s : ℝ) : ℕ → Motion XR .CartesianPose := poseOut (still x0) R (fun n => some (Arr.fin ![target e0 n, s])) ends

theorem called (x0 : Fin 3 → ℝ) (R : M3) (e0 s : ℝ) (n : ℕ) (st : RobotState XR) (h : n = 0 → st.O_T_EE_c = Arr.fin (pose x0 R) ∧ st.elbow_c = Arr.fin ![e0, s]) :
    call.motion (captured x0 R e0 s n) st (periodOf n) = (captured x0 R e0 s (n + 1), out x0 R e0 s n) := by
  have htime : (captured x0 R e0 s n).time + secs (periodOf n) = .fin ((n : ℝ) / 1000) := by
    cases n with
    | zero =>
      show (lit 0 : XR) + secs 0 = _
      rw [XR.lit_fin, XR.secs_fin, XR.fin_add]
      norm_num
    | succ n =>
      show XR.fin _ + secs 1 = _
      rw [XR.secs_fin, XR.fin_add]
      push_cast
      ring_nf
  have hpose : (if feq (XR.fin ((n : ℝ) / 1000)) (lit 0) then st.O_T_EE_c else (captured x0 R e0 s n).initial_pose) = Arr.fin (pose x0 R) := by
    rw [PoseExample.first_time]
    cases n with
    | zero => rw [(h rfl).1]; rfl
    | succ n => rfl
  have helbow : (if feq (XR.fin ((n : ℝ) / 1000)) (lit 0) then st.elbow_c else (captured x0 R e0 s n).initial_elbow) = Arr.fin ![e0, s] := by
    rw [PoseExample.first_time]
    cases n with
    | zero => rw [(h rfl).2]; rfl
    | succ n => rfl
  have hend : fle (lit 10 : XR) (.fin ((n : ℝ) / 1000)) = ends n := by
    rw [XR.lit_fin, XR.fle_fin]
    unfold ends
    rw [decide_eq_decide, le_div_iff₀ (by norm_num), show ((10 : ℚ) : ℝ) * 1000 = ((10000 : ℕ) : ℝ) by push_cast; norm_num]
    exact Nat.cast_le
  have hangle : (pi : XR) / lit 10 * (lit 1 - fcos (pi / lit 5 * .fin ((n : ℝ) / 1000))) = .fin (elbowWay ((n : ℝ) / 1000)) := by
    unfold elbowWay
    simp only [XR.lit_fin, XR.pi_fin]
    rw [XR.fin_div _ _ (by norm_num), XR.fin_div _ _ (by norm_num), XR.fin_mul, show (fcos (XR.fin _) : XR) = .fin (Real.cos _) from rfl, XR.fin_sub, XR.fin_mul]
    norm_num
  have hq : (![(Arr.fin ![e0, s] : Arr XR 2) 0 + .fin (elbowWay ((n : ℝ) / 1000)), (Arr.fin ![e0, s] : Arr XR 2) 1] : Arr XR 2) = Arr.fin ![target e0 n, s] := by
    funext i
    fin_cases i
    · show XR.fin e0 + XR.fin _ = XR.fin _
      rw [XR.fin_add]
      rfl
    · rfl
  show Examples.elbow_callback (captured x0 R e0 s n) st (periodOf n) = _
  unfold Examples.elbow_callback
  simp only [htime, hpose, helbow, hend, hangle, hq]
  refine Prod.ext rfl ?_
  show (if ends n = true then _ else _) = out x0 R e0 s n
  unfold out poseOut
  cases he : ends n <;> rfl

/-! ## The motion is slow -/

theorem size : Real.pi / 10 * (Real.pi / 5000) ≤ 0.0002 ∧ Real.pi / 10 * (Real.pi / 5000) ^ 2 ≤ 0.00000013 ∧ 1000 * (Real.pi / 10 * (Real.pi / 5000)) / (2 * Real.pi * 100) ≤ 0.00032 := by
  have h1 := Real.pi_gt_d2
  have h2 := Real.pi_lt_d2
  have h3 : Real.pi ^ 2 ≤ 3.15 ^ 2 := by gcongr
  have h4 : Real.pi ^ 3 ≤ 3.15 ^ 3 := by gcongr
  refine ⟨by nlinarith, by nlinarith, ?_⟩
  have e : 1000 * (Real.pi / 10 * (Real.pi / 5000)) / (2 * Real.pi * 100) = Real.pi / 10000 := by field_simp; norm_num
  rw [e]
  linarith

variable (e0 : ℝ)

theorem target_zero : target e0 0 = e0 := by rw [target_wave, sampledWave_zero, add_zero]

theorem whole_step (n : ℕ) : |target e0 n - starting e0 (target e0) n| ≤ Real.pi / 10 * (Real.pi / 5000) := by
  cases n with
  | zero =>
    rw [starting, target_zero, sub_self, abs_zero]
    positivity
  | succ n =>
    show |target e0 (n + 1) - target e0 n| ≤ _
    rw [target_wave, target_wave, add_sub_add_left_eq_sub]
    exact sampledWave_step (by positivity) (by positivity) n

theorem whole_second (n : ℕ) : |rate (starting e0 (target e0)) (n + 1) - rate (starting e0 (target e0)) n| ≤ 0.00013 := by
  have hs := size.2.1
  have key : ∀ a b : ℝ, |a - b| ≤ Real.pi / 10 * (Real.pi / 5000) ^ 2 → |a / 0.001 - b / 0.001| ≤ 0.00013 := by
    intro a b h
    rw [← sub_div, abs_div, abs_of_pos (by norm_num : (0 : ℝ) < 0.001), div_le_iff₀ (by norm_num)]
    exact h.trans (by linarith)
  match n with
  | 0 =>
    simp only [rate, starting]
    rw [target_zero]
    norm_num
  | 1 =>
    simp only [rate, starting]
    refine key _ _ ?_
    rw [target_zero, sub_self, sub_zero, target_wave, add_sub_cancel_left]
    refine (sampledWave_first (by positivity)).trans ?_
    have : 0 ≤ Real.pi / 10 * (Real.pi / 5000) ^ 2 := by positivity
    linarith
  | n + 2 =>
    simp only [rate, starting]
    refine key _ _ ?_
    rw [target_wave, target_wave, target_wave, add_sub_add_left_eq_sub, add_sub_add_left_eq_sub]
    exact sampledWave_second (by positivity) n

theorem whole_rate (n : ℕ) : |rate (starting e0 (target e0)) n| ≤ 1 := by
  have hs := size.1
  cases n with
  | zero => rw [rate, abs_zero]; exact zero_le_one
  | succ n =>
    rw [rate, abs_div, abs_of_pos (by norm_num : (0 : ℝ) < 0.001), div_le_iff₀ (by norm_num)]
    exact (whole_step e0 n).trans (by linarith)

theorem allowedE (N : ℕ) : PositionAllowedFor N elbowLimits (starting e0 (target e0)) := by
  intro n _
  have key : ∀ m, |(rate (starting e0 (target e0)) (m + 1) - rate (starting e0 (target e0)) m) / 0.001| ≤ 0.5 := by
    intro m
    rw [abs_div, abs_of_pos (by norm_num : (0 : ℝ) < 0.001), div_le_iff₀ (by norm_num)]
    exact (whole_second e0 m).trans (by norm_num)
  refine slow_elbow (whole_rate e0 n) (key n) ?_
  cases n with
  | zero => rw [rate, abs_zero]; norm_num
  | succ n => exact key n

theorem allowed (x0 : Fin 3 → ℝ) (n : ℕ) : CartesianAllowed (below (below translationLimits)) (fun i => rate (starting (x0 i) (still x0 i)) (n + 1))
    (fun i => rate (starting (x0 i) (still x0 i)) n) (fun i => rate (rate (starting (x0 i) (still x0 i))) n) := by
  have e0 : ∀ i m, starting (x0 i) (still x0 i) m = x0 i := fun i m => by cases m <;> rfl
  have e1 : ∀ i m, rate (starting (x0 i) (still x0 i)) m = 0 := fun i m => by
    cases m with
    | zero => rfl
    | succ m => rw [rate, e0, e0, sub_self, zero_div]
  have e2 : ∀ i m, rate (rate (starting (x0 i) (still x0 i))) m = 0 := fun i m => by
    cases m with
    | zero => rfl
    | succ m => rw [rate, e1, e1, sub_self, zero_div]
  simp only [e1, e2]
  exact cartesian_rest under_translation.ok' (by rw [len_zero]; norm_num [below, translationLimits])

/-- The end effector stays. -/
theorem stays (x0 : Fin 3 → ℝ) (i : Fin 3) (n : ℕ) : limitedPosition codeTranslation 100 x0 (still x0) i n = x0 i := by
  unfold limitedPosition
  rw [show still x0 = fun i _ => x0 i from rfl, limitedWay_still under_translation.ok (by norm_num [codeTranslation])]

theorem stays_eq (x0 : Fin 3 → ℝ) : limitedPosition codeTranslation 100 x0 (still x0) = still x0 := funext fun i => funext fun n => stays x0 i n

theorem back : |lowPass 100 e0 (target e0) 10001 - e0| ≤ 0.000001 := by
  have hp := Real.pi_gt_three
  have h2 := lowPass_lag (f := 100) (a := 0) (b := 0.00013) (by norm_num) (u := fun n => rate (starting e0 (target e0)) (n + 1))
    (fun n => by rw [starting_rate]; exact whole_second e0 n) 10000
  rw [← rate_lowPass_eq] at h2
  have h2 : |rate (lowPass 100 e0 (target e0)) 10001 - rate (starting e0 (target e0)) 10001| ≤ 0.000217 := by
    refine h2.trans ?_
    rw [div_le_iff₀ (by positivity)]
    linarith
  have last : target e0 10000 = e0 := by
    rw [target_wave]
    unfold sampledWave
    rw [show Real.pi / 5000 * ((10000 : ℕ) : ℝ) = 2 * Real.pi by push_cast; ring, Real.cos_two_pi, sub_self, mul_zero, add_zero]
  have last' : |e0 - target e0 9999| ≤ 0.000000065 := by
    have e : target e0 9999 = e0 + sampledWave (Real.pi / 10) (Real.pi / 5000) 1 := by
      rw [target_wave]
      unfold sampledWave
      rw [show Real.pi / 5000 * ((9999 : ℕ) : ℝ) = 2 * Real.pi - Real.pi / 5000 * ((1 : ℕ) : ℝ) by push_cast; ring, Real.cos_two_pi_sub]
    rw [e, sub_add_cancel_left, abs_neg]
    refine (sampledWave_first (by positivity)).trans ?_
    have := size.2.1
    linarith
  have h3 : |rate (starting e0 (target e0)) 10001| ≤ 0.000065 := by
    rw [show rate (starting e0 (target e0)) 10001 = (target e0 10000 - target e0 9999) / 0.001 from rfl, last, abs_div, abs_of_pos (by norm_num : (0 : ℝ) < 0.001), div_le_iff₀ (by norm_num)]
    exact last'.trans (by norm_num)
  have h4 : |rate (lowPass 100 e0 (target e0)) 10001| ≤ 0.000282 := by
    have := abs_add_le (rate (lowPass 100 e0 (target e0)) 10001 - rate (starting e0 (target e0)) 10001) (rate (starting e0 (target e0)) 10001)
    rw [sub_add_cancel] at this
    linarith
  have := lag_eq (lowPass_is (a := e0) (by norm_num : (0 : ℝ) < 100) (target e0) 10001 10000 (by norm_num))
  rw [last] at this
  rw [this, abs_of_pos (by positivity : 0 < 2 * Real.pi * 100), div_le_iff₀ (by positivity)]
  refine h4.trans ?_
  linarith

theorem plan [Geo XR] (lib : RotationLibrary) (slerp : Interpolates) (x0 : Fin 3 → ℝ) {R : M3} (hR : IsRotation R) (reads : ReadsRight R) {s : ℝ} (hs : |s| = 1) :
    IsPlanOf call Examples.ElbowState.new (captured x0 R e0 s) (out x0 R e0 s) (elbowCmd (still x0) R (lowPass 100 e0 (target e0)) s)
      fun n st => PosesReported (still x0) R n st ∧ ElbowReported (lowPass 100 e0 (target e0)) s n st := by
  have := planned_elbow lib slerp (call := call) rfl rfl cutoff_eq (by norm_num) (by norm_num) (c0 := Examples.ElbowState.new) (cs := captured x0 R e0 s) rfl hR reads (allowed x0) hs
    (called x0 R e0 s) (allowedE e0)
  rw [stays_eq] at this
  exact this

/-- What is sent. -/
theorem sent (x0 : Fin 3 → ℝ) (R : M3) (s : ℝ) (n : ℕ) :
    (sentCmd (out x0 R e0 s) (elbowCmd (still x0) R (lowPass 100 e0 (target e0)) s) n).O_T_EE_c = Arr.fin (pose x0 R) ∧
    (sentCmd (out x0 R e0 s) (elbowCmd (still x0) R (lowPass 100 e0 (target e0)) s) n).elbow_c = Arr.fin ![lowPass 100 e0 (target e0) (n + 1), s] ∧
    (sentCmd (out x0 R e0 s) (elbowCmd (still x0) R (lowPass 100 e0 (target e0)) s) n).valid_elbow = true := by
  unfold sentCmd
  split <;> exact ⟨rfl, rfl, rfl⟩

end ElbowExample
open ElbowExample

section
variable [Wire XR] [Geo XR] (lib : RotationLibrary) (slerp : Interpolates) {w : World XR} (hw : RobotReachable w) {x0 : Fin 3 → ℝ} {R : M3} (hR : IsRotation R) (reads : ReadsRight R)
  {e0 s : ℝ} (hs : |s| = 1) (follows : FollowsPoses x0 R (exchanges (newEvents w (elbowExample.run w).2))) (followsE : FollowsElbow e0 s (exchanges (newEvents w (elbowExample.run w).2)))
include lib slerp hw hR reads hs follows followsE

omit lib slerp hw hR reads hs in
theorem ElbowExample.reported : (∀ st x, Exchange w elbowExample 0 st x → PosesReported (still x0) R 0 st ∧ ElbowReported (lowPass 100 e0 (target e0)) s 0 st) ∧
    ∀ n st x st' x', Exchange w elbowExample n st x → Exchange w elbowExample (n + 1) st' x' →
      x.motion = sentCmd (out x0 R e0 s) (elbowCmd (still x0) R (lowPass 100 e0 (target e0)) s) n →
      (PosesReported (still x0) R n st ∧ ElbowReported (lowPass 100 e0 (target e0)) s n st) →
      (PosesReported (still x0) R (n + 1) st' ∧ ElbowReported (lowPass 100 e0 (target e0)) s (n + 1) st') ∧ st'.time = st.time + 1 := by
  obtain ⟨f1, f2⟩ := FollowsPoses.reported follows (y := still x0) fun _ => rfl
  obtain ⟨k1, k2⟩ := FollowsElbow.reported followsE (y := lowPass 100 e0 (target e0)) rfl
  refine ⟨fun st x hx => ⟨f1 _ hx, k1 _ hx⟩, fun n st x st' x' hx hx' hm hre => ?_⟩
  obtain ⟨q1, q2, -⟩ := sent e0 x0 R s n
  rw [← hm] at q1 q2
  obtain ⟨g1, g2⟩ := f2 n _ _ hx hx' q1 hre.1
  exact ⟨⟨g1, k2 n _ _ hx hx' q2 hre.2⟩, g2⟩

/-- **C92**: with a robot whose end effector rests at `x0` with the rotation `R`, whose elbow rests at `e0` with the sign `s` and which follows the commands, the control
call of the elbow example moves the elbow forth and back and nothing else. The poses of all commands are the pose at the start. The elbow positions are those of the
callback after the low pass with the default cutoff frequency, they are within 0.00032 rad of the intended positions, have the sign of the start and are marked as
valid. The motion ends after ten seconds. If the call returns Ok, then the elbow is back, but for 10⁻⁶ rad. -/
theorem C92_elbow_example : ∃ y : ℕ → ℝ,
    y 0 = e0 ∧ LowPassedFor (answered w elbowExample) 100 (fun n => e0 + elbowWay ((n : ℝ) / 1000)) y ∧
    (∀ n st x, Exchange w elbowExample n st x → x.motion.O_T_EE_c = Arr.fin (pose x0 R) ∧ x.motion.valid_elbow = true ∧ x.motion.elbow_c = Arr.fin ![y (n + 1), s] ∧
      |y (n + 1) - (e0 + elbowWay ((n : ℝ) / 1000))| ≤ 0.00032 ∧ x.motion.motion_generation_finished = decide (n = 10000) ∧ n ≤ 10000) ∧
    ((elbowExample.run w).1 = .ok () → answered w elbowExample = 10001 ∧ |y (answered w elbowExample) - e0| ≤ 0.000001) := by
  have hp := plan e0 lib slerp x0 hR reads hs
  obtain ⟨h0, hn⟩ := ElbowExample.reported follows followsE
  have hfin : ∀ n : ℕ, (out x0 R e0 s n).is_finished = ends n := fun _ => rfl
  have hends : ends 10000 = true := decide_eq_true le_rfl
  have hlen : ∀ n st x, Exchange w elbowExample n st x → n ≤ 10000 := by
    intro n st x hx
    obtain ⟨-, -, -, -, g5⟩ := hp.goes hw isControl h0 hn n st x hx
    by_contra hlt
    have := g5 10000 (by omega)
    rw [hfin, hends] at this
    cases this
  have hans : answered w elbowExample ≤ 10001 := by
    by_contra hlt
    obtain ⟨st, x, hx⟩ := exchange_exists (by omega : 10001 < answered w elbowExample)
    have := hlen _ st x hx
    omega
  refine ⟨lowPass 100 e0 (target e0), rfl, lowPass_is (by norm_num) _ _, ?_, ?_⟩
  · intro n st x hx
    obtain ⟨-, g2, -, -, g5⟩ := hp.goes hw isControl h0 hn n st x hx
    have hle := hlen n st x hx
    obtain ⟨q1, q2, q3⟩ := sent e0 x0 R s n
    refine ⟨by rw [g2]; exact q1, by rw [g2]; exact q3, by rw [g2]; exact q2, (lowPass_lag (by norm_num) (whole_step e0) n).trans size.2.2, ?_, hle⟩
    rw [g2]
    unfold sentCmd
    rw [hfin]
    by_cases h : n = 10000
    · rw [h, hends, if_pos rfl, decide_eq_true rfl]
    · rw [if_neg (by unfold ends; simp; omega), decide_eq_false h]
      rfl
  · intro hok
    obtain ⟨n, g1, g2⟩ := hp.ends hw isControl h0 hn hok
    rw [hfin] at g2
    have hge : 10000 ≤ n := of_decide_eq_true g2
    have heq : answered w elbowExample = 10001 := by omega
    refine ⟨heq, ?_⟩
    rw [heq]
    exact back e0

end

/-- **C92**, without hypotheses on the robot: from every pose and elbow position there is a robot that follows, and then the call returns Ok. -/
theorem C92_elbow_example_happens [Geo XR] (lib : RotationLibrary) (slerp : Interpolates) (x0 : Fin 3 → ℝ) {R : M3} (hR : IsRotation R) (reads : ReadsRight R) (e0 : ℝ) {s : ℝ} (hs : |s| = 1) :
    ∃ (_ : Wire XR) (w : World XR), RobotReachable w ∧ (elbowExample.run w).1 = .ok () ∧ FollowsPoses x0 R (exchanges (newEvents w (elbowExample.run w).2)) ∧
      FollowsElbow e0 s (exchanges (newEvents w (elbowExample.run w).2)) := by
  obtain ⟨e, he⟩ : ∃ e, e = lowPass 100 e0 (target e0) := ⟨_, rfl⟩
  obtain ⟨y, hy⟩ : ∃ y, y = still x0 := ⟨_, rfl⟩
  obtain ⟨wire, k0, kp⟩ := Following.cartesian_wire (N := 10000) (by norm_num) (fun n => Arr.fin (pose (sample y n) R)) (fun n => Arr.fin (straight fun i => rate (y i) n))
    (fun n => Arr.fin (straight fun i => rate (rate (y i)) n)) (fun n => Arr.fin ![e n, s]) (fun n => Arr.fin ![rate e n, 0]) (fun n => Arr.fin ![rate (rate e) n, 0])
  have hp := plan e0 lib slerp x0 hR reads hs
  rw [← hy, ← he] at hp
  obtain ⟨w, g1, g2, g3⟩ := hp.happens (cartesian_robot_for (N := 10000) (by norm_num) (fun n => Arr.fin (pose (sample y n) R)) (fun n => Arr.fin (straight fun i => rate (y i) n))
    (fun n => Arr.fin (straight fun i => rate (rate (y i)) n)) (fun n => Arr.fin ![e n, s]) (fun n => Arr.fin ![rate e n, 0]) (fun n => Arr.fin ![rate (rate e) n, 0]) k0 kp
    fun n st _ e1 e2 e3 e4 e5 e6 => ⟨⟨e1, e2, e3⟩, e4, by rw [e5]; rfl, by rw [e6]; rfl⟩)
    (fun n hn => decide_eq_false (by omega : ¬ 10000 ≤ n)) (by show decide (10000 ≤ 10000) = true; simp) isControl
  refine ⟨wire, w, g1, g2, ?_⟩
  rw [g3]
  refine ⟨⟨?_, ?_⟩, ?_, ?_⟩
  · intro p hp
    rw [List.range_succ_eq_map] at hp
    cases hp
    subst hy
    have hz : (straight fun _ => 0) = fun _ => 0 := by funext i; fin_cases i <;> rfl
    exact ⟨rfl, congrArg Arr.fin hz, congrArg Arr.fin hz⟩
  · rw [List.isChain_iff_getElem]
    intro k hk
    simp only [List.length_map, List.length_range] at hk
    simp only [List.getElem_map, List.getElem_range]
    refine takes_pose ?_ ?_ ⟨rfl, rfl, rfl⟩ ⟨rfl, rfl, rfl⟩
    · show (UInt64.ofNat (k + 1 + 3)).toNat = (UInt64.ofNat (k + 3)).toNat + 1
      rw [UInt64.toNat_ofNat', UInt64.toNat_ofNat', Nat.mod_eq_of_lt (by omega), Nat.mod_eq_of_lt (by omega)]
    · unfold sentCmd
      split <;> rfl
  · intro p hp
    rw [List.range_succ_eq_map] at hp
    cases hp
    subst he
    exact ⟨rfl, rfl, rfl⟩
  · rw [List.isChain_iff_getElem]
    intro k hk
    simp only [List.length_map, List.length_range] at hk
    simp only [List.getElem_map, List.getElem_range]
    have d : ∀ a b : ℝ, XR.fin ((a - b) / 0.001) = (XR.fin a - XR.fin b) / XR.fin 0.001 := fun a b => by rw [XR.fin_sub, XR.fin_div _ _ (by norm_num)]
    refine ⟨?_, d _ _, d _ _⟩
    unfold sentCmd
    split <;> rfl

/-- The hypotheses of C90 for the elbow are met by this program. -/
example [Geo XR] (lib : RotationLibrary) (slerp : Interpolates) (x0 : Fin 3 → ℝ) {R : M3} (hR : IsRotation R) (reads : ReadsRight R) (e0 : ℝ) {s : ℝ} (hs : |s| = 1) :
    ∃ (_ : Wire XR) (w : World XR) (u y : ℕ → ℝ), RobotReachable w ∧ IsControl elbowExample call Examples.ElbowState.new ∧
    call.limit_rate = true ∧ call.cutoff = .fin 100 ∧ answered w elbowExample = 10001 ∧
    (∀ n out, (motionOutputs .CartesianPose (newEvents w (elbowExample.run w).2))[n]? = some out → elbowOf out = some (Arr.fin ![u n, s])) ∧
    (∀ n st x, Exchange w elbowExample n st x → st.elbow_c 0 = .fin (y n) ∧ st.delbow_c 0 = .fin (rate y n) ∧ st.ddelbow_c 0 = .fin (rate (rate y) n)) ∧
    (∀ n st x, Exchange w elbowExample n st x → x.motion.elbow_c 0 = .fin (y (n + 1))) ∧
    PositionAllowedFor (answered w elbowExample) elbowLimits (starting (y 0) u) := by
  obtain ⟨wire, w, hw, hok, follows, followsE⟩ := C92_elbow_example_happens lib slerp x0 hR reads e0 hs
  have hp := plan e0 lib slerp x0 hR reads hs
  obtain ⟨h0, hn⟩ := ElbowExample.reported follows followsE
  have goes := hp.goes hw isControl h0 hn
  obtain ⟨_, -, -, -, h3⟩ := C92_elbow_example lib slerp hw hR reads hs follows followsE
  refine ⟨wire, w, target e0, lowPass 100 e0 (target e0), hw, isControl, rfl, cutoff_eq, (h3 hok).1, fun n out h => ?_, fun n st x hx => ?_, fun n st x hx => ?_, allowedE e0 _⟩
  · obtain ⟨hn, -⟩ := List.getElem?_eq_some_iff.1 h
    obtain ⟨st, x, hx⟩ := exchange_exists (hn.trans_eq (outputs_ok hw isControl hok))
    have g4 : out = ElbowExample.out x0 R e0 s n := Option.some.inj (h.symm.trans (goes n st x hx).2.2.2.1)
    rw [g4]
    rfl
  · obtain ⟨r1, r2, r3⟩ := (goes n st x hx).1.2
    exact ⟨by rw [r1]; rfl, r2, r3⟩
  · rw [(goes n st x hx).2.1, (sent e0 x0 R s n).2.1]
    rfl

end Verif
