import Verif.Spec.CartesianExamples
import Verif.Lemmas.PlannedCartesian
import Verif.Props.ExampleVelocity
/-!
# The Cartesian velocity example: C89

Doubles are real numbers here (`Spec/Real.lean`), with any bit patterns.
-/
set_option linter.unusedSectionVars false
namespace Verif
open Prog Spec Fl

/-! ## Motions along a line -/

theorem starting_mul (c : ℝ) (s : ℕ → ℝ) (n : ℕ) : starting 0 (fun n => c * s n) n = c * starting 0 s n := by
  cases n with
  | zero => simp [starting]
  | succ n => rfl

theorem rate_mul (c : ℝ) (s : ℕ → ℝ) (n : ℕ) : rate (fun n => c * s n) n = c * rate s n := by
  cases n with
  | zero => simp [rate]
  | succ n =>
    simp only [rate]
    ring

theorem lowPass_mul (f c : ℝ) (s : ℕ → ℝ) (n : ℕ) : lowPass f 0 (fun n => c * s n) n = c * lowPass f 0 s n := by
  induction n with
  | zero => simp [lowPass]
  | succ n ih =>
    simp only [lowPass]
    rw [ih]
    ring

theorem len_line {d : Fin 3 → ℝ} (hd : len d = 1) (c : ℝ) : len (fun i => d i * c) = |c| := by
  have := len_smul c d
  rw [hd, mul_one] at this
  rw [← this]
  congr 1
  funext i
  ring

/-- A motion along a line is allowed if its speed is. -/
theorem line_allowed {L : Limits} {d : Fin 3 → ℝ} (hd : len d = 1) {p q r : ℝ} (hj : |((p - q) / 0.001 - r) / 0.001| ≤ L.jerk) (ha : |(p - q) / 0.001| ≤ L.acceleration)
    (hm : |q + L.acceleration / L.jerk * ((p - q) / 0.001)| ≤ L.velocity) : CartesianAllowed L (fun i => d i * p) (fun i => d i * q) (fun i => d i * r) := by
  refine ⟨?_, ?_, ?_⟩
  · rw [← len_line hd] at hj
    refine le_of_eq_of_le (congrArg len (funext fun i => ?_)) hj
    ring
  · rw [← len_line hd] at ha
    refine le_of_eq_of_le (congrArg len (funext fun i => ?_)) ha
    ring
  · rw [← len_line hd] at hm
    refine le_of_eq_of_le (congrArg len (funext fun i => ?_)) hm
    ring

namespace CartesianVelocityExample
open VelocityExample (wave)

/-- The direction. -/
noncomputable def dir : Fin 3 → ℝ := ![1 / √2, 0, -(1 / √2)]

theorem dir_len : len dir = 1 := by
  unfold len dir
  have h : (0 : ℝ) < √2 := by positivity
  have e : (![1 / √2, 0, -(1 / √2)] : Fin 3 → ℝ) 0 ^ 2 + (![1 / √2, 0, -(1 / √2)] : Fin 3 → ℝ) 1 ^ 2 + (![1 / √2, 0, -(1 / √2)] : Fin 3 → ℝ) 2 ^ 2 = 1 := by
    simp [Matrix.cons_val]
    norm_num
  rw [e, Real.sqrt_one]

/-- The speed. -/
noncomputable def speed (n : ℕ) : ℝ := wave (1 / 20) 4000 n

/-- The velocities that the callback returns. -/
noncomputable def target (i : Fin 6) (n : ℕ) : ℝ := join dir (fun _ => 0) i * speed n

theorem target_translation : translation target = fun i n => dir i * speed n := by
  funext i n
  fin_cases i <;> rfl
theorem target_rotation : rotation target = fun _ _ => 0 := by
  funext i n
  fin_cases i <;> exact zero_mul _

/-- The time that the callback has captured. -/
noncomputable def captured : ℕ → XR
  | 0 => lit 0
  | n + 1 => .fin ((n : ℝ) / 1000)

def ends (n : ℕ) : Bool := decide (8000 ≤ n)

/-- The control call. -/
noncomputable def call : ControlCall XR XR .CartesianVelocities :=
  { motion := Examples.cartesian_velocity_callback, torque := none, controller := requestedController none, limit_rate := (none : Option Bool).getD true,
    cutoff := (none : Option XR).getD (lit 100) }

theorem isControl : IsControl cartesianVelocityExample call (lit 0) := .motion _ _ _ _ _ _ _

theorem cutoff_eq : call.cutoff = .fin 100 := by
  show (lit 100 : XR) = _
  rw [XR.lit_fin]
  norm_num

theorem called (n : ℕ) (st : RobotState XR) : call.motion (captured n) st (periodOf n) = (captured (n + 1), twistOut target ends n) := by
  have htime : captured n + secs (periodOf n) = .fin ((n : ℝ) / 1000) := by
    cases n with
    | zero =>
      show (lit 0 : XR) + secs 0 = _
      rw [XR.lit_fin, XR.secs_fin, XR.fin_add]
      norm_num
    | succ n =>
      show XR.fin _ + secs 1 = _
      rw [XR.secs_fin, XR.fin_add]
      push_cast
      ring_nf
  have h4 : (lit 4 : XR) = .fin 4 := by rw [XR.lit_fin]; norm_num
  have hdiv : (n : ℝ) / 1000 / 4 = (n : ℝ) / 4000 := by ring
  have hfloor : ⌊(n : ℝ) / 1000 / 4⌋ = ((n / 4000 : ℕ) : ℤ) := by
    rw [hdiv, Int.floor_eq_iff, Int.cast_natCast]
    refine ⟨by exact_mod_cast Nat.cast_div_le (m := n) (n := 4000) (α := ℝ), ?_⟩
    rw [div_lt_iff₀ (by norm_num)]
    have := Nat.lt_div_mul_add (a := n) (b := 4000) (by norm_num)
    have : (n : ℝ) < ((n / 4000 * 4000 + 4000 : ℕ) : ℝ) := by exact_mod_cast this
    push_cast at this
    linarith
  have hmod : FlExtra.fmod (XR.fin ((n : ℝ) / 1000)) (.fin 4) = .fin ((n : ℝ) / 1000 - 4 * (n / 4000 : ℕ)) := by
    show (if (4 : ℝ) = 0 then XR.nan else _) = _
    rw [if_neg (by norm_num), if_pos (by positivity), hfloor]
    rfl
  have hexp : (XR.fin ((n : ℝ) / 1000) - XR.fin ((n : ℝ) / 1000 - 4 * (n / 4000 : ℕ))) / .fin 4 = .fin ((n / 4000 : ℕ) : ℝ) := by
    rw [XR.fin_sub, XR.fin_div _ _ (by norm_num)]
    congr 1
    ring
  have hpow : FlExtra.powf (-lit 1 : XR) (.fin ((n / 4000 : ℕ) : ℝ)) = .fin ((-1) ^ (n / 4000)) := by
    have : (-lit 1 : XR) = .fin (-1) := by rw [XR.lit_fin]; show XR.fin _ = _; norm_num
    rw [this]
    show (if ((-1 : ℝ) < 0 ∧ ((n / 4000 : ℕ) : ℝ) ≠ ⌊((n / 4000 : ℕ) : ℝ)⌋) ∨ _ then _ else XR.fin _) = _
    rw [if_neg (by rintro (⟨-, h⟩ | ⟨h, -⟩); exacts [h (by rw [Int.floor_natCast]; rfl), by norm_num at h]), Real.rpow_natCast]
  have hcycle : FlExtra.ffloor (XR.fin ((-1) ^ (n / 4000))) = .fin ((-1) ^ (n / 4000)) := by
    show XR.fin _ = _
    congr 1
    have : ((-1 : ℝ) ^ (n / 4000)) = (((-1 : ℤ) ^ (n / 4000) : ℤ) : ℝ) := by push_cast; rfl
    rw [this, Int.floor_intCast]
  have hv : (XR.fin ((-1) ^ (n / 4000)) : XR) * lit (1 / 10) / lit 2 * (lit 1 - fcos (lit 2 * pi / .fin 4 * .fin ((n : ℝ) / 1000))) = .fin (speed n) := by
    simp only [XR.lit_fin, XR.pi_fin]
    rw [XR.fin_mul, XR.fin_mul, XR.fin_div _ _ (by norm_num), XR.fin_div _ _ (by norm_num), XR.fin_mul, show (fcos (XR.fin _) : XR) = .fin (Real.cos _) from rfl, XR.fin_sub, XR.fin_mul]
    congr 1
    unfold speed wave sampledWave
    rw [show ((2 : ℚ) : ℝ) * Real.pi / 4 * ((n : ℝ) / 1000) = 2 * Real.pi / (4000 : ℕ) * n by push_cast; ring]
    push_cast
    ring
  have hend : fle (lit 2 * .fin 4 : XR) (.fin ((n : ℝ) / 1000)) = ends n := by
    simp only [XR.lit_fin]
    rw [XR.fin_mul, XR.fle_fin]
    unfold ends
    rw [decide_eq_decide, le_div_iff₀ (by norm_num)]
    rw [show ((2 : ℚ) : ℝ) * 4 * 1000 = ((8000 : ℕ) : ℝ) by push_cast; norm_num]
    exact Nat.cast_le
  have hs : (√2 / 2 : ℝ) = 1 / √2 := by
    have h : (0 : ℝ) < √2 := by positivity
    rw [div_eq_div_iff (by norm_num) h.ne', Real.mul_self_sqrt (by norm_num)]
    norm_num
  have hx : fcos (pi / .fin 4 : XR) * .fin (speed n) = .fin (1 / √2 * speed n) := by
    rw [XR.pi_fin, XR.fin_div _ _ (by norm_num), show (fcos (XR.fin _) : XR) = .fin (Real.cos _) from rfl, XR.fin_mul, Real.cos_pi_div_four, hs]
  have hz : -fsin (pi / .fin 4 : XR) * .fin (speed n) = .fin (-(1 / √2) * speed n) := by
    rw [XR.pi_fin, XR.fin_div _ _ (by norm_num), show (fsin (XR.fin _) : XR) = .fin (Real.sin _) from rfl, XR.fin_neg, XR.fin_mul, Real.sin_pi_div_four, hs]
  show Examples.cartesian_velocity_callback (captured n) st (periodOf n) = _
  unfold Examples.cartesian_velocity_callback
  simp only [h4, htime, hmod, hexp, hpow, hcycle, hv, hend, hx, hz]
  refine Prod.ext rfl ?_
  have hq : (![.fin (1 / √2 * speed n), lit 0, .fin (-(1 / √2) * speed n), lit 0, lit 0, lit 0] : Arr XR 6) = Arr.fin (sample target n) := by
    have h0 : (lit 0 : XR) = .fin (0 * speed n) := by rw [XR.lit_fin]; norm_num
    funext i
    rw [h0]
    fin_cases i <;> rfl
  show (if ends n = true then _ else _) = twistOut target ends n
  unfold twistOut
  rw [hq]
  cases he : ends n <;> rfl

/-! ## The motion is slow -/

theorem size : (1 / 20 : ℝ) * (2 * Real.pi / (4000 : ℕ)) ≤ 0.00008 ∧ (1 / 20 : ℝ) * (2 * Real.pi / (4000 : ℕ)) ^ 2 ≤ 0.00000013 := by
  have h1 := Real.pi_gt_d2
  have h2 := Real.pi_lt_d2
  have h3 : Real.pi ^ 2 ≤ 3.15 ^ 2 := by gcongr
  push_cast
  constructor <;> nlinarith

theorem speed_zero : speed 0 = 0 := VelocityExample.wave_zero

theorem speed_step (n : ℕ) : |speed n - starting 0 speed n| ≤ 0.00008 := by
  cases n with
  | zero => rw [starting, speed_zero, sub_zero, abs_zero]; norm_num
  | succ n => exact (VelocityExample.wave_step (by norm_num) (by norm_num) n).trans size.1

theorem speed_abs (n : ℕ) : |starting 0 speed n| ≤ 0.1 := by
  cases n with
  | zero => rw [starting, abs_zero]; norm_num
  | succ n => exact (VelocityExample.wave_abs (by norm_num) n).trans (by norm_num)

theorem speed_second (n : ℕ) : |rate (starting 0 speed) (n + 1) - rate (starting 0 speed) n| ≤ 0.00013 := by
  have key : ∀ a b : ℝ, |a - b| ≤ 0.00000013 → |a / 0.001 - b / 0.001| ≤ 0.00013 := by
    intro a b h
    rw [← sub_div, abs_div, abs_of_pos (by norm_num : (0 : ℝ) < 0.001), div_le_iff₀ (by norm_num)]
    exact h.trans (by norm_num)
  match n with
  | 0 =>
    simp only [rate, starting]
    rw [speed_zero]
    norm_num
  | 1 =>
    simp only [rate, starting]
    refine key _ _ ?_
    rw [speed_zero, sub_self, sub_zero, sub_zero]
    unfold speed
    rw [VelocityExample.wave_half (m := 0) (by norm_num) (by omega) (by omega), VelocityExample.sign_abs]
    have := size.2
    refine (sampledWave_first (by norm_num)).trans ?_
    linarith
  | n + 2 =>
    simp only [rate, starting]
    exact key _ _ ((VelocityExample.wave_second (by norm_num) (by norm_num) n).trans size.2)

theorem allowedT (n : ℕ) : CartesianAllowed (below (below translationLimits)) (sample (fun i => starting 0 (translation target i)) (n + 1))
    (sample (fun i => starting 0 (translation target i)) n) (fun i => rate (starting 0 (translation target i)) n) := by
  have h1 := speed_step n
  have h2 := speed_second n
  have h3 := speed_abs n
  have ha : |(starting 0 speed (n + 1) - starting 0 speed n) / 0.001| ≤ 0.08 := by
    rw [abs_div, abs_of_pos (by norm_num : (0 : ℝ) < 0.001), div_le_iff₀ (by norm_num)]
    exact h1.trans (by norm_num)
  have e1 : ∀ m, sample (fun i => starting 0 (translation target i)) m = fun i => dir i * starting 0 speed m := by
    intro m
    funext i
    rw [target_translation]
    exact starting_mul _ _ _
  have e2 : (fun i => rate (starting 0 (translation target i)) n) = fun i => dir i * rate (starting 0 speed) n := by
    funext i
    rw [target_translation]
    rw [show starting 0 (fun n => dir i * speed n) = fun n => dir i * starting 0 speed n from funext fun m => starting_mul _ _ _]
    exact rate_mul _ _ _
  rw [e1, e1, e2]
  refine line_allowed dir_len ?_ (ha.trans (by norm_num [below, translationLimits])) ?_
  · rw [abs_div, abs_of_pos (by norm_num : (0 : ℝ) < 0.001), div_le_iff₀ (by norm_num)]
    exact h2.trans (by norm_num [below, translationLimits])
  · have hq : (below (below translationLimits)).acceleration / (below (below translationLimits)).jerk ≤ 1 ∧
        0 ≤ (below (below translationLimits)).acceleration / (below (below translationLimits)).jerk := by norm_num [below, translationLimits]
    refine (abs_add_le _ _).trans ?_
    rw [abs_mul, abs_of_nonneg hq.2]
    have := mul_le_mul hq.1 ha (abs_nonneg _) zero_le_one
    have : (0.18 : ℝ) ≤ (below (below translationLimits)).velocity := by norm_num [below, translationLimits]
    linarith

theorem allowedR (n : ℕ) : CartesianAllowed (below (below rotationLimits)) (sample (fun i => starting 0 (rotation target i)) (n + 1))
    (sample (fun i => starting 0 (rotation target i)) n) (fun i => rate (starting 0 (rotation target i)) n) := by
  have e1 : ∀ m, starting 0 (fun _ => (0 : ℝ)) m = 0 := fun m => by cases m <;> rfl
  have e2 : ∀ m, rate (starting 0 (fun _ => (0 : ℝ))) m = 0 := fun m => by
    cases m with
    | zero => rfl
    | succ m => rw [rate, e1, e1]; simp
  have := cartesian_rest under_rotation.ok' (v := fun _ => 0) (by rw [len_zero]; norm_num [below, rotationLimits])
  rw [target_rotation]
  refine Eq.mp ?_ this
  have a1 : (fun _ : Fin 3 => (0 : ℝ)) = sample (fun _ => starting 0 (fun _ => (0 : ℝ))) (n + 1) := funext fun _ => (e1 (n + 1)).symm
  have a2 : (fun _ : Fin 3 => (0 : ℝ)) = sample (fun _ => starting 0 (fun _ => (0 : ℝ))) n := funext fun _ => (e1 _).symm
  have a3 : (fun _ : Fin 3 => (0 : ℝ)) = fun _ => rate (starting 0 (fun _ => (0 : ℝ))) n := funext fun _ => (e2 _).symm
  exact congr (congr (congrArg _ a1) a2) a3

theorem plan [Geo XR] : IsPlanOf call (lit 0) captured (twistOut target ends) (twistCmd (limitedTwist 100 target)) (TwistsReported (limitedTwist 100 target)) :=
  planned_twists rfl rfl cutoff_eq (by norm_num) (by norm_num) rfl called allowedT allowedR

/-- What the callback returns until it ends the motion. -/
theorem target_eq (i : Fin 6) {n : ℕ} (hn : n ≤ 8000) : target i n = downAndBack i ((n : ℝ) / 1000) := by
  have hs : speed n = (if (n : ℝ) / 1000 < 4 then 1 else -1) * (0.05 * (1 - Real.cos (2 * Real.pi * ((n : ℝ) / 1000) / 4))) := by
    have e : 2 * Real.pi * ((n : ℝ) / 1000) / 4 = 2 * Real.pi / (4000 : ℕ) * n := by push_cast; ring
    have hlt : ((n : ℝ) / 1000 < 4) ↔ n < 4000 := by
      rw [div_lt_iff₀ (by norm_num), show (4 : ℝ) * 1000 = ((4000 : ℕ) : ℝ) by norm_num]
      exact Nat.cast_lt
    rw [e]
    unfold speed
    by_cases h : n < 4000
    · rw [if_pos (hlt.2 h), VelocityExample.wave_half (K := 4000) (m := 0) (by norm_num) (by rw [Nat.zero_mul]; exact Nat.zero_le n) (by omega), pow_zero]
      unfold sampledWave
      norm_num
    · rw [if_neg (fun h' => h (hlt.1 h')), VelocityExample.wave_half (K := 4000) (m := 1) (by norm_num) (by omega) (by omega), pow_one]
      unfold sampledWave
      norm_num
  unfold target downAndBack
  simp only [← hs]
  fin_cases i
  · show 1 / √2 * speed n = speed n / √2
    ring
  · exact zero_mul _
  · show -(1 / √2) * speed n = -speed n / √2
    ring
  all_goals exact zero_mul _

/-- The velocity is near the low passed speed. -/
theorem near (n : ℕ) : len (fun i => translation (limitedTwist 100 target) i n - dir i * lowPass 100 0 speed n) ≤ 1 / 10 ^ 13 := by
  have h := noise_bound (f := 100) (by norm_num) (n := n) (u := translation target) (y := limitedVelocity codeTranslation 100 (translation target)) slip_pos.le
    (fun j _ => (limited_near under_translation (by norm_num) (by norm_num [below, translationLimits]) allowedT j).1) n le_rfl
  have hg := gain_big (f := 100) (by norm_num)
  have e : (fun i => limitedVelocity codeTranslation 100 (translation target) i n - lowPass 100 (limitedVelocity codeTranslation 100 (translation target) i 0) (translation target i) n) =
      fun i => translation (limitedTwist 100 target) i n - dir i * lowPass 100 0 speed n := by
    funext i
    rw [limitedTwist_translation, ← lowPass_mul, show limitedVelocity codeTranslation 100 (translation target) i 0 = 0 from rfl]
    rw [show (fun n => dir i * speed n) = translation target i by rw [target_translation]]
  rw [e] at h
  have h2 := len_nonneg fun i => translation (limitedTwist 100 target) i n - dir i * lowPass 100 0 speed n
  have := (mul_le_mul_of_nonneg_right hg h2).trans (h.trans slip_le)
  linarith

theorem lag (n : ℕ) : |lowPass 100 0 speed (n + 1) - speed n| ≤ 0.00012735 := by
  refine (lowPass_lag (by norm_num) speed_step n).trans ?_
  have h1 := Real.pi_gt_d4
  rw [div_le_iff₀ (by positivity)]
  nlinarith

theorem near_target (n : ℕ) : len (fun i => translation (limitedTwist 100 target) i (n + 1) - translation target i n) ≤ 0.00013 := by
  have h1 : len (fun i => dir i * (lowPass 100 0 speed (n + 1) - speed n)) ≤ 0.00012735 := by
    rw [len_line dir_len]
    exact lag n
  have := len_sum (near (n + 1)) h1
  refine le_trans (le_of_eq (congrArg len (funext fun i => ?_))) (this.trans (by norm_num))
  rw [target_translation]
  ring

/-- The way back. -/
theorem back : len (fun i => ∑ n ∈ Finset.range 8001, translation (limitedTwist 100 target) i (n + 1) * 0.001) ≤ 0.000001 := by
  have hl := lowPass_is (a := 0) (by norm_num : (0 : ℝ) < 100) speed 8001
  have hlow := VelocityExample.low_sum (by norm_num) hl
  have hsum : ∑ n ∈ Finset.range 8001, speed n = 0 := VelocityExample.wave_sum (K := 4000) (by norm_num)
  have hlast : speed 8000 = 0 := by
    unfold speed
    rw [wave, show (8000 : ℕ) = 2 * 4000 from rfl, VelocityExample.base_zero (by norm_num), mul_zero]
  have h1 := lag 8000
  rw [hlast, sub_zero] at h1
  have hz : |∑ n ∈ Finset.range 8001, lowPass 100 0 speed (n + 1) * 0.001| ≤ 0.0000005 := by
    rw [hlow, hsum, zero_mul, zero_sub, abs_neg, show lowPass 100 0 speed 0 = 0 from rfl, sub_zero, abs_div]
    have hp3 := Real.pi_gt_three
    rw [abs_of_pos (by positivity : 0 < 2 * Real.pi * 100), div_le_iff₀ (by positivity)]
    refine h1.trans ?_
    nlinarith
  have hn : ∀ N : ℕ, len (fun i => ∑ n ∈ Finset.range N, (translation (limitedTwist 100 target) i (n + 1) - dir i * lowPass 100 0 speed (n + 1)) * 0.001) ≤ N * (1 / 10 ^ 16) := by
    intro N
    induction N with
    | zero => simp [len]
    | succ N ih =>
      simp only [Finset.sum_range_succ]
      have h2 : len (fun i => (translation (limitedTwist 100 target) i (N + 1) - dir i * lowPass 100 0 speed (N + 1)) * 0.001) ≤ 1 / 10 ^ 16 := by
        have := len_scale (by norm_num : (0 : ℝ) ≤ 0.001) fun i => translation (limitedTwist 100 target) i (N + 1) - dir i * lowPass 100 0 speed (N + 1)
        simp only [mul_comm (0.001 : ℝ)] at this
        rw [this]
        have := near (N + 1)
        linarith
      have := len_sum ih h2
      push_cast
      linarith
  have hd : len (fun i => dir i * ∑ n ∈ Finset.range 8001, lowPass 100 0 speed (n + 1) * 0.001) ≤ 0.0000005 := by
    rw [len_line dir_len]
    exact hz
  have := len_sum (hn 8001) hd
  refine le_trans (le_of_eq (congrArg len (funext fun i => ?_))) (this.trans (by norm_num))
  rw [Finset.mul_sum, ← Finset.sum_add_distrib]
  refine Finset.sum_congr rfl fun n _ => ?_
  ring

/-- The robot reports what was commanded. -/
theorem reported {l : List (RobotState XR × RobotCommand XR)} (h : FollowsTwists l) {y : Fin 6 → ℕ → ℝ} (hy : ∀ i, y i 0 = 0) :
    (∀ p, l[0]? = some p → TwistsReported y 0 p.1) ∧
      ∀ n p p', l[n]? = some p → l[n + 1]? = some p' → p.2.motion.O_dP_EE_c = Arr.fin (sample y (n + 1)) → TwistsReported y n p.1 →
        TwistsReported y (n + 1) p'.1 ∧ p'.1.time = p.1.time + 1 := by
  refine ⟨fun p hp => ?_, fun n p p' hp hp' hc hR => ?_⟩
  · obtain ⟨e1, e2⟩ := h.first p (by rw [List.head?_eq_getElem?]; exact hp)
    refine ⟨?_, e2⟩
    rw [e1]
    exact congrArg Arr.fin (funext fun i => (hy i).symm)
  · obtain ⟨hl', e'⟩ := List.getElem?_eq_some_iff.1 hp'
    obtain ⟨hl, e⟩ := List.getElem?_eq_some_iff.1 hp
    have := (List.isChain_iff_getElem.1 h.next) n hl'
    rw [e, e'] at this
    obtain ⟨t1, t2, t3⟩ := this
    obtain ⟨r1, r2⟩ := hR
    rw [hc] at t2
    refine ⟨⟨t2, ?_⟩, t1⟩
    funext i
    rw [t3 i, t2, r1]
    show (XR.fin _ - XR.fin _) / _ = _
    rw [XR.fin_sub, XR.fin_div _ _ (by norm_num)]
    rfl

theorem y_zero (i : Fin 6) : limitedTwist 100 target i 0 = 0 := by fin_cases i <;> rfl

theorem no_turn : rotation (limitedTwist 100 target) = fun _ _ => 0 := by
  rw [limitedTwist_rotation, target_rotation]
  funext i n
  unfold limitedVelocity
  rw [limited_zero codeRotation_ok (by norm_num [codeRotation])]

end CartesianVelocityExample
open CartesianVelocityExample

section
variable [Wire XR] [Geo XR] {w : World XR} (hw : RobotReachable w)
  (follows : FollowsTwists (exchanges (newEvents w (cartesianVelocityExample.run w).2)))
include hw follows

/-- **C89**: with a robot that rests and follows the commands, the control call of the Cartesian velocity example moves the end effector forth and back. The commands
are those of the callback after the low pass with the default cutoff frequency, but for 10⁻¹³ m/s, and are within 0.00013 m/s of the intended velocities; they do not
turn the end effector and say nothing about the elbow. The motion ends after eight seconds. If the call returns Ok, then the end effector is back where it started, but
for a thousandth of a millimetre. -/
theorem C89_cartesian_velocity_example : ∃ y : Fin 6 → ℕ → ℝ,
    (∀ i, y i 0 = 0) ∧ NearlyLowPassedFor (answered w cartesianVelocityExample) (1 / 10 ^ 13) 100 (translation fun i n => downAndBack i ((n : ℝ) / 1000)) (translation y) ∧
    (∀ n st x, Exchange w cartesianVelocityExample n st x → x.motion.O_dP_EE_c = Arr.fin (sample y (n + 1)) ∧
      len (fun i => translation y i (n + 1) - translation (fun i n => downAndBack i ((n : ℝ) / 1000)) i n) ≤ 0.00013 ∧ (∀ i, rotation y i (n + 1) = 0) ∧
      x.motion.valid_elbow = false ∧ x.motion.motion_generation_finished = decide (n = 8000) ∧ n ≤ 8000) ∧
    ((cartesianVelocityExample.run w).1 = .ok () → answered w cartesianVelocityExample = 8001 ∧
      len (fun i => ∑ n ∈ Finset.range (answered w cartesianVelocityExample), translation y i (n + 1) * 0.001) ≤ 0.000001) := by
  have hp := plan
  obtain ⟨f1, f2⟩ := reported follows (y := limitedTwist 100 target) y_zero
  have h0 : ∀ st x, Exchange w cartesianVelocityExample 0 st x → TwistsReported (limitedTwist 100 target) 0 st := fun st x hx => f1 _ hx
  have hq : ∀ n, (sentCmd (twistOut target ends) (twistCmd (limitedTwist 100 target)) n).O_dP_EE_c = Arr.fin (sample (limitedTwist 100 target) (n + 1)) ∧
      (sentCmd (twistOut target ends) (twistCmd (limitedTwist 100 target)) n).valid_elbow = false := by
    intro n
    unfold sentCmd
    split <;> exact ⟨rfl, rfl⟩
  have hn : ∀ n st x st' x', Exchange w cartesianVelocityExample n st x → Exchange w cartesianVelocityExample (n + 1) st' x' →
      x.motion = sentCmd (twistOut target ends) (twistCmd (limitedTwist 100 target)) n →
      TwistsReported (limitedTwist 100 target) n st → TwistsReported (limitedTwist 100 target) (n + 1) st' ∧ st'.time = st.time + 1 := by
    intro n st x st' x' hx hx' hm hR
    exact f2 n _ _ hx hx' (by rw [hm]; exact (hq n).1) hR
  have hfin : ∀ n : ℕ, (twistOut target ends n).is_finished = ends n := fun _ => rfl
  have hends : ends 8000 = true := decide_eq_true le_rfl
  have hlen : ∀ n st x, Exchange w cartesianVelocityExample n st x → n ≤ 8000 := by
    intro n st x hx
    obtain ⟨-, -, -, -, g5⟩ := hp.goes hw isControl h0 hn n st x hx
    by_contra hlt
    have := g5 8000 (by omega)
    rw [hfin, hends] at this
    cases this
  have hans : answered w cartesianVelocityExample ≤ 8001 := by
    by_contra hlt
    obtain ⟨st, x, hx⟩ := exchange_exists (by omega : 8001 < answered w cartesianVelocityExample)
    have := hlen _ st x hx
    omega
  have htr : ∀ i n, n ≤ 8000 → translation target i n = translation (fun i n => downAndBack i ((n : ℝ) / 1000)) i n := by
    intro i n hn
    have : sample target n = sample (fun i n => downAndBack i ((n : ℝ) / 1000)) n := funext fun i => target_eq i hn
    show linear _ i = linear _ i
    rw [this]
  refine ⟨limitedTwist 100 target, y_zero, ?_, ?_, ?_⟩
  · intro n hn
    have := limited_low under_translation (by norm_num) (by norm_num [below, translationLimits]) allowedT (f := 100) (n + 1) n (by omega)
    rw [← limitedTwist_translation] at this
    simp only [htr _ n (by omega)] at this
    exact this
  · intro n st x hx
    obtain ⟨-, g2, -, -, g5⟩ := hp.goes hw isControl h0 hn n st x hx
    have hle := hlen n st x hx
    refine ⟨by rw [g2]; exact (hq n).1, ?_, fun i => ?_, by rw [g2]; exact (hq n).2, ?_, hle⟩
    · have := near_target n
      simp only [htr _ n hle] at this
      exact this
    · rw [no_turn]
    · rw [g2]
      unfold sentCmd
      rw [hfin]
      by_cases h : n = 8000
      · rw [h, hends, if_pos rfl, decide_eq_true rfl]
      · rw [if_neg (by unfold ends; simp; omega), decide_eq_false h]
        rfl
  · intro hok
    obtain ⟨n, g1, g2⟩ := hp.ends hw isControl h0 hn hok
    rw [hfin] at g2
    have hge : 8000 ≤ n := of_decide_eq_true g2
    have heq : answered w cartesianVelocityExample = 8001 := by omega
    refine ⟨heq, ?_⟩
    rw [heq]
    exact back

end

/-- **C89**, without hypotheses on the robot: there is a robot that follows, and then the call returns Ok. -/
theorem C89_cartesian_velocity_example_happens [Geo XR] : ∃ (_ : Wire XR) (w : World XR), RobotReachable w ∧ (cartesianVelocityExample.run w).1 = .ok () ∧
    FollowsTwists (exchanges (newEvents w (cartesianVelocityExample.run w).2)) := by
  obtain ⟨y, hy⟩ : ∃ y, y = limitedTwist 100 target := ⟨_, rfl⟩
  obtain ⟨wire, k0, kp⟩ := Following.cartesian_wire (N := 8000) (by norm_num) (fun _ _ => lit 0) (fun n => Arr.fin (sample y n)) (fun n => Arr.fin fun i => rate (y i) n)
    (fun _ _ => lit 0) (fun _ _ => lit 0) (fun _ _ => lit 0)
  have hp := plan
  rw [← hy] at hp
  obtain ⟨w, g1, g2, g3⟩ := hp.happens (cartesian_robot_for (N := 8000) (by norm_num) (fun _ _ => lit 0) (fun n => Arr.fin (sample y n)) (fun n => Arr.fin fun i => rate (y i) n)
    (fun _ _ => lit 0) (fun _ _ => lit 0) (fun _ _ => lit 0) k0 kp fun n st _ _ e2 e3 _ _ _ => ⟨e2, e3⟩)
    (fun n hn => decide_eq_false (by omega : ¬ 8000 ≤ n)) (by show decide (8000 ≤ 8000) = true; simp) isControl
  refine ⟨wire, w, g1, g2, ?_⟩
  rw [g3]
  refine ⟨?_, ?_⟩
  · intro p hp
    rw [List.range_succ_eq_map] at hp
    cases hp
    refine ⟨?_, rfl⟩
    subst hy
    exact congrArg Arr.fin (funext fun i => y_zero i)
  · rw [List.isChain_iff_getElem]
    intro k hk
    simp only [List.length_map, List.length_range] at hk
    simp only [List.getElem_map, List.getElem_range]
    refine ⟨?_, ?_, ?_⟩
    · show (UInt64.ofNat (k + 1 + 3)).toNat = (UInt64.ofNat (k + 3)).toNat + 1
      rw [UInt64.toNat_ofNat', UInt64.toNat_ofNat', Nat.mod_eq_of_lt (by omega), Nat.mod_eq_of_lt (by omega)]
    · show (Arr.fin (sample y (k + 1))) = (sentCmd _ _ k).O_dP_EE_c
      unfold sentCmd
      split <;> rfl
    · intro i
      show XR.fin (rate (y i) (k + 1)) = (XR.fin _ - XR.fin _) / _
      rw [XR.fin_sub, XR.fin_div _ _ (by norm_num)]
      rfl

/-- The hypotheses of C88 are met by this program. -/
example [Geo XR] : ∃ (_ : Wire XR) (w : World XR) (u y : Fin 6 → ℕ → ℝ), RobotReachable w ∧ IsControl cartesianVelocityExample call (lit 0) ∧
    call.limit_rate = true ∧ call.cutoff = .fin 100 ∧ answered w cartesianVelocityExample = 8001 ∧
    (∀ n out, (motionOutputs .CartesianVelocities (newEvents w (cartesianVelocityExample.run w).2))[n]? = some out → CartesianVelocities.O_dP_EE out = Arr.fin (sample u n)) ∧
    (∀ n st x, Exchange w cartesianVelocityExample n st x → st.O_dP_EE_c = Arr.fin (sample y n) ∧ st.O_ddP_EE_c = Arr.fin fun i => rate (y i) n) ∧
    (∀ n st x, Exchange w cartesianVelocityExample n st x → x.motion.O_dP_EE_c = Arr.fin (sample y (n + 1))) ∧
    (len (linear (sample y 0)) ≤ (below (below translationLimits)).velocity ∧ len (angular (sample y 0)) ≤ (below (below rotationLimits)).velocity) ∧
    (CartesianAllowedFor (answered w cartesianVelocityExample) translationLimits (translation fun i => starting (y i 0) (u i)) ∧
      CartesianAllowedFor (answered w cartesianVelocityExample) rotationLimits (rotation fun i => starting (y i 0) (u i))) := by
  obtain ⟨wire, w, hw, hok, follows⟩ := C89_cartesian_velocity_example_happens
  have hp := plan
  obtain ⟨f1, f2⟩ := reported follows (y := limitedTwist 100 target) y_zero
  have goes := hp.goes hw isControl (fun st x hx => f1 _ hx) (fun n st x st' x' hx hx' hm hR => f2 n _ _ hx hx' (by rw [hm]; unfold sentCmd; split <;> rfl) hR)
  obtain ⟨_, -, -, -, h3⟩ := C89_cartesian_velocity_example hw follows
  have hz : sample (limitedTwist 100 target) 0 = fun _ => 0 := funext y_zero
  have hl0 : linear (fun _ : Fin 6 => (0 : ℝ)) = fun _ => 0 := by funext i; fin_cases i <;> rfl
  have ha0 : angular (fun _ : Fin 6 => (0 : ℝ)) = fun _ => 0 := by funext i; fin_cases i <;> rfl
  refine ⟨wire, w, target, limitedTwist 100 target, hw, isControl, rfl, cutoff_eq, (h3 hok).1, fun n out h => ?_, fun n st x hx => (goes n st x hx).1, fun n st x hx => ?_,
    ⟨?_, ?_⟩, ?_, ?_⟩
  · obtain ⟨hn, -⟩ := List.getElem?_eq_some_iff.1 h
    obtain ⟨st, x, hx⟩ := exchange_exists (hn.trans_eq (outputs_ok hw isControl hok))
    have g4 : out = twistOut target ends n := Option.some.inj (h.symm.trans (goes n st x hx).2.2.2.1)
    rw [g4]
    rfl
  · rw [(goes n st x hx).2.1]
    unfold sentCmd
    split <;> rfl
  · rw [hz, hl0, len_zero]
    norm_num [below, translationLimits]
  · rw [hz, ha0, len_zero]
    norm_num [below, rotationLimits]
  · intro n _
    have e : (translation fun i => starting (limitedTwist 100 target i 0) (target i)) = fun i => starting 0 (translation target i) := by
      funext i n
      simp only [y_zero]
      cases n <;> fin_cases i <;> rfl
    rw [e]
    exact allowedT n
  · intro n _
    have e : (rotation fun i => starting (limitedTwist 100 target i 0) (target i)) = fun i => starting 0 (rotation target i) := by
      funext i n
      simp only [y_zero]
      cases n <;> fin_cases i <;> rfl
    rw [e]
    exact allowedR n

end Verif
