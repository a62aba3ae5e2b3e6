import Verif.Spec.Examples
import Verif.Lemmas.PlannedJoints
import Verif.Lemmas.Waves
/-!
# The joint velocity example: C82

Doubles are real numbers here (`Spec/Real.lean`), with any bit patterns.
-/
set_option linter.unusedSectionVars false
namespace Verif
open Prog Spec Fl

namespace VelocityExample

/-- The wave, back and forth. -/
noncomputable def wave (A : ℝ) (K n : ℕ) : ℝ := (-1) ^ (n / K) * sampledWave A (2 * Real.pi / K) n

section
variable {A : ℝ} {K : ℕ}

theorem base_zero (hK : 0 < K) (m : ℕ) : sampledWave A (2 * Real.pi / K) (m * K) = 0 := by
  have := sampledWave_symm (A := A) (θ := 2 * Real.pi / K) (m := m * K) (j := m) (by push_cast; field_simp) 0
  rw [add_zero] at this
  rw [this, sampledWave_zero]

theorem base_back (hK : 0 < K) (m : ℕ) : sampledWave A (2 * Real.pi / K) (m * K + (K - 1)) = sampledWave A (2 * Real.pi / K) (m * K + K + 1) := by
  have h1 := sampledWave_symm (A := A) (θ := 2 * Real.pi / K) (m := m * K) (j := m) (by push_cast; field_simp) (K - 1)
  have h2 := sampledWave_symm (A := A) (θ := 2 * Real.pi / K) (m := (m + 1) * K) (j := m + 1) (by push_cast; field_simp) 1
  rw [h1, show m * K + K + 1 = (m + 1) * K + 1 by ring, h2]
  unfold sampledWave
  have hK' : (0 : ℝ) < K := by exact_mod_cast hK
  rw [show 2 * Real.pi / (K : ℝ) * ((K - 1 : ℕ) : ℝ) = 2 * Real.pi - 2 * Real.pi / K * ((1 : ℕ) : ℝ) by rw [Nat.cast_sub hK]; push_cast; field_simp, Real.cos_two_pi_sub]

/-- The wave within a half. -/
theorem wave_half (hK : 0 < K) {m n : ℕ} (h1 : m * K ≤ n) (h2 : n ≤ (m + 1) * K) : wave A K n = (-1) ^ m * sampledWave A (2 * Real.pi / K) n := by
  rcases h2.eq_or_lt with rfl | h2
  · rw [wave, base_zero hK, mul_zero, mul_zero]
  · rw [wave, Nat.div_eq_of_lt_le h1 h2]

theorem sign_abs (m : ℕ) (x : ℝ) : |(-1) ^ m * x| = |x| := by
  rw [abs_mul, abs_pow, abs_neg, abs_one, one_pow, one_mul]

theorem wave_abs (hA : 0 ≤ A) (n : ℕ) : |wave A K n| ≤ 2 * A := by
  rw [wave, sign_abs]
  exact sampledWave_abs hA n

theorem wave_zero : wave A K 0 = 0 := by rw [wave, sampledWave_zero, mul_zero]

theorem wave_step (hA : 0 ≤ A) (hK : 0 < K) (n : ℕ) : |wave A K (n + 1) - wave A K n| ≤ A * (2 * Real.pi / K) := by
  have hp := Real.pi_pos
  have h1 : n / K * K ≤ n := Nat.div_mul_le_self n K
  have h2 : n < (n / K + 1) * K := by rw [add_mul, one_mul]; exact Nat.lt_div_mul_add hK
  rw [wave_half hK (m := n / K) (by omega) h2, wave_half hK h1 h2.le, ← mul_sub, sign_abs]
  exact sampledWave_step hA (by positivity) n

theorem wave_second (hA : 0 ≤ A) (hK : 0 < K) (n : ℕ) : |wave A K (n + 2) - wave A K (n + 1) - (wave A K (n + 1) - wave A K n)| ≤ A * (2 * Real.pi / K) ^ 2 := by
  have hp := Real.pi_pos
  have h1 : n / K * K ≤ n := Nat.div_mul_le_self n K
  have h2 : n < (n / K + 1) * K := by rw [add_mul, one_mul]; exact Nat.lt_div_mul_add hK
  rcases Nat.lt_or_ge (n + 1) ((n / K + 1) * K) with h3 | h3
  · rw [wave_half hK (m := n / K) (by omega) h3, wave_half hK (m := n / K) (by omega) h2, wave_half hK h1 h2.le, ← mul_sub, ← mul_sub, ← mul_sub, sign_abs]
    exact sampledWave_second hA n
  · have e : n + 1 = (n / K + 1) * K := by omega
    have e0 : n = n / K * K + (K - 1) := by rw [add_mul, one_mul] at e; omega
    have w1 : wave A K (n + 1) = 0 := by rw [e, wave, base_zero hK, mul_zero]
    have w0 : wave A K n = (-1) ^ (n / K) * sampledWave A (2 * Real.pi / K) (n / K * K + (K - 1)) := by rw [wave, ← e0]
    have w2 : wave A K (n + 2) = (-1) ^ (n / K + 1) * sampledWave A (2 * Real.pi / K) (n / K * K + K + 1) := by
      rw [wave_half hK (m := n / K + 1) (by omega) (by rw [add_mul (n / K + 1), one_mul]; omega)]
      congr 2
      rw [add_mul, one_mul] at e
      omega
    rw [w1, w0, w2, base_back hK, pow_succ]
    rw [show ∀ s x : ℝ, s * -1 * x - 0 - (0 - s * x) = 0 by intro s x; ring, abs_zero]
    positivity

theorem wave_sum (hK : 0 < K) : ∑ n ∈ Finset.range (2 * K + 1), wave A K n = 0 := by
  have e1 : wave A K (2 * K) = 0 := by rw [wave, base_zero hK, mul_zero]
  rw [Finset.sum_range_succ, e1, add_zero, two_mul, Finset.sum_range_add, ← Finset.sum_add_distrib]
  refine Finset.sum_eq_zero fun n hn => ?_
  have hn := Finset.mem_range.1 hn
  rw [wave_half hK (m := 0) (by omega) (by omega), wave_half hK (m := 1) (by omega) (by omega),
    sampledWave_symm (m := K) (j := 1) (by push_cast; field_simp) n]
  ring

end

/-! ## The callback -/

section
variable (ω T : ℚ) (K : ℕ)

/-- The velocities that the callback returns. -/
noncomputable def target (ω : ℚ) (K : ℕ) (i : Fin 7) (n : ℕ) : ℝ := if 3 ≤ i then wave (ω / 2) K n else 0

/-- The time that the callback has captured. -/
noncomputable def captured : ℕ → XR
  | 0 => lit 0
  | n + 1 => .fin ((n : ℝ) / 1000)

def ends (K n : ℕ) : Bool := decide (2 * K ≤ n)

/-- The control call. -/
noncomputable def call : ControlCall XR XR .JointVelocities :=
  { motion := Examples.velocity_callback (lit ω) (lit T), torque := none, controller := requestedController none, limit_rate := (none : Option Bool).getD true,
    cutoff := (none : Option XR).getD (lit 100) }

theorem isControl : IsControl (velocityExample ω T) (call ω T) (lit 0) := .motion _ _ _ _ _ _ _

theorem cutoff_eq : (call ω T).cutoff = .fin 100 := by
  show (lit 100 : XR) = _
  rw [XR.lit_fin]
  norm_num

variable {T K}

theorem called (hK : 0 < K) (hT : (T : ℝ) = K / 1000) (n : ℕ) (st : RobotState XR) :
    (call ω T).motion (captured n) st (periodOf n) = (captured (n + 1), velocityOut (target ω K) (ends K) n) := by
  have hK' : (0 : ℝ) < K := by exact_mod_cast hK
  have hT0 : (T : ℝ) ≠ 0 := by rw [hT]; positivity
  have htime : captured n + secs (periodOf n) = .fin ((n : ℝ) / 1000) := by
    cases n with
    | zero =>
      show (lit 0 : XR) + secs 0 = _
      rw [XR.lit_fin, XR.secs_fin, XR.fin_add]
      norm_num
    | succ n =>
      show XR.fin _ + secs 1 = _
      rw [XR.secs_fin, XR.fin_add]
      push_cast
      ring_nf
  have hdiv : (n : ℝ) / 1000 / T = (n : ℝ) / K := by rw [hT]; field_simp
  have hfloor : ⌊(n : ℝ) / 1000 / T⌋ = ((n / K : ℕ) : ℤ) := by
    rw [hdiv]
    rw [Int.floor_eq_iff, Int.cast_natCast]
    refine ⟨Nat.cast_div_le, ?_⟩
    rw [div_lt_iff₀ hK']
    have := Nat.lt_div_mul_add (a := n) hK
    have : (n : ℝ) < ((n / K * K + K : ℕ) : ℝ) := by exact_mod_cast this
    push_cast at this
    linarith
  have hmod : FlExtra.fmod (XR.fin ((n : ℝ) / 1000)) (lit T) = .fin ((n : ℝ) / 1000 - T * (n / K : ℕ)) := by
    show (if (T : ℝ) = 0 then XR.nan else _) = _
    rw [if_neg hT0, if_pos (by rw [hdiv]; positivity), hfloor]
    rfl
  have hexp : (XR.fin ((n : ℝ) / 1000) - XR.fin ((n : ℝ) / 1000 - T * (n / K : ℕ))) / lit T = .fin ((n / K : ℕ) : ℝ) := by
    rw [XR.fin_sub, XR.lit_fin, XR.fin_div _ _ hT0]
    congr 1
    field_simp
    ring
  have hpow : FlExtra.powf (-lit 1 : XR) (.fin ((n / K : ℕ) : ℝ)) = .fin ((-1) ^ (n / K)) := by
    have : (-lit 1 : XR) = .fin (-1) := by rw [XR.lit_fin]; show XR.fin _ = _; norm_num
    rw [this]
    show (if ((-1 : ℝ) < 0 ∧ ((n / K : ℕ) : ℝ) ≠ ⌊((n / K : ℕ) : ℝ)⌋) ∨ _ then _ else XR.fin _) = _
    rw [if_neg (by rintro (⟨-, h⟩ | ⟨h, -⟩); exacts [h (by rw [Int.floor_natCast]; rfl), by norm_num at h]), Real.rpow_natCast]
  have hcycle : FlExtra.ffloor (XR.fin ((-1) ^ (n / K))) = .fin ((-1) ^ (n / K)) := by
    show XR.fin _ = _
    congr 1
    have : ((-1 : ℝ) ^ (n / K)) = (((-1 : ℤ) ^ (n / K) : ℤ) : ℝ) := by push_cast; rfl
    rw [this, Int.floor_intCast]
  have homega : (XR.fin ((-1) ^ (n / K)) : XR) * lit ω / lit 2 * (lit 1 - fcos (lit 2 * pi / lit T * .fin ((n : ℝ) / 1000))) = .fin (wave (ω / 2) K n) := by
    simp only [XR.lit_fin, XR.pi_fin]
    rw [XR.fin_mul, XR.fin_mul, XR.fin_div _ _ (by norm_num), XR.fin_div _ _ hT0, XR.fin_mul, show (fcos (XR.fin _) : XR) = .fin (Real.cos _) from rfl, XR.fin_sub, XR.fin_mul]
    congr 1
    unfold wave sampledWave
    rw [hT]
    rw [show ((2 : ℚ) : ℝ) * Real.pi / ((K : ℝ) / 1000) * ((n : ℝ) / 1000) = 2 * Real.pi / K * n by push_cast; field_simp]
    push_cast
    ring
  have hend : fle (lit 2 * lit T : XR) (.fin ((n : ℝ) / 1000)) = ends K n := by
    simp only [XR.lit_fin]
    rw [XR.fin_mul, XR.fle_fin]
    unfold ends
    rw [decide_eq_decide, hT, le_div_iff₀ (by norm_num)]
    rw [show ((2 : ℚ) : ℝ) * ((K : ℝ) / 1000) * 1000 = ((2 * K : ℕ) : ℝ) by push_cast; ring]
    exact Nat.cast_le
  show Examples.velocity_callback (lit ω) (lit T) (captured n) st (periodOf n) = _
  unfold Examples.velocity_callback
  simp only [htime, hmod, hexp, hpow, hcycle, homega, hend]
  refine Prod.ext rfl ?_
  have hq : (![lit 0, lit 0, lit 0, .fin (wave (ω / 2) K n), .fin (wave (ω / 2) K n), .fin (wave (ω / 2) K n), .fin (wave (ω / 2) K n)] : Arr XR 7) = Arr.fin fun i => target ω K i n := by
    have h0 : (lit 0 : XR) = .fin 0 := by rw [XR.lit_fin]; norm_num
    funext i
    unfold target
    rw [h0]
    fin_cases i <;> rfl
  show (if ends K n = true then _ else _) = velocityOut (target ω K) (ends K) n
  unfold velocityOut
  rw [hq]
  cases he : ends K n <;> rfl

/-! ## The motion is slow -/

variable {ω} (h0 : 0 ≤ ω) (h1 : ω ≤ 1) (hK : 1000 ≤ K)
include h0

theorem half_nonneg : (0 : ℝ) ≤ ω / 2 := by
  have : (0 : ℝ) ≤ ω := by exact_mod_cast h0
  linarith

include hK

theorem target_step (i : Fin 7) (n : ℕ) : |target ω K i (n + 1) - target ω K i n| ≤ ω / 2 * (2 * Real.pi / K) := by
  have hp := Real.pi_pos
  have hh := half_nonneg h0
  unfold target
  split
  · exact wave_step hh (by omega) n
  · rw [sub_self, abs_zero]
    positivity

theorem whole_step (i : Fin 7) (n : ℕ) : |target ω K i n - starting 0 (target ω K i) n| ≤ ω / 2 * (2 * Real.pi / K) := by
  cases n with
  | zero =>
    have hp := Real.pi_pos
    have hh := half_nonneg h0
    rw [starting, show target ω K i 0 = 0 by unfold target; rw [wave_zero, ite_self], sub_zero, abs_zero]
    positivity
  | succ n => exact target_step h0 hK i n

include h1

theorem size : (ω : ℝ) / 2 * (2 * Real.pi / K) ≤ 0.004 ∧ (ω : ℝ) / 2 * (2 * Real.pi / K) ^ 2 ≤ 0.0001 := by
  have hp := Real.pi_pos
  have hp' := Real.pi_lt_d2
  have hh := half_nonneg h0
  have hh' : (ω : ℝ) / 2 ≤ 1 / 2 := by
    have : (ω : ℝ) ≤ 1 := by exact_mod_cast h1
    linarith
  have hK' : (1000 : ℝ) ≤ K := by exact_mod_cast hK
  have hθ : 2 * Real.pi / K ≤ 0.00632 := by
    rw [div_le_iff₀ (by linarith)]
    linarith
  have hθ0 : 0 ≤ 2 * Real.pi / K := by positivity
  have hθ2 : (2 * Real.pi / K) ^ 2 ≤ 0.00632 ^ 2 := by gcongr
  constructor
  · exact (mul_le_mul hh' hθ hθ0 (by norm_num)).trans (by norm_num)
  · exact (mul_le_mul hh' hθ2 (by positivity) (by norm_num)).trans (by norm_num)

theorem whole_second (i : Fin 7) (n : ℕ) : |rate (starting 0 (target ω K i)) (n + 1) - rate (starting 0 (target ω K i)) n| ≤ 3.7 := by
  have hh := half_nonneg h0
  have hs := (size h0 h1 hK).2
  have hz : target ω K i 0 = 0 := by unfold target; rw [wave_zero, ite_self]
  have key : ∀ a b : ℝ, |a - b| ≤ 0.0001 → |a / 0.001 - b / 0.001| ≤ 3.7 := by
    intro a b h
    rw [← sub_div, abs_div, abs_of_pos (by norm_num : (0 : ℝ) < 0.001), div_le_iff₀ (by norm_num)]
    exact h.trans (by norm_num)
  match n with
  | 0 =>
    simp only [rate, starting]
    rw [hz]
    norm_num
  | 1 =>
    simp only [rate, starting]
    refine key _ _ ?_
    rw [hz, sub_self, sub_zero, sub_zero]
    unfold target
    split
    · rw [wave_half (m := 0) (by omega) (by omega) (by omega), sign_abs]
      refine (sampledWave_first hh).trans ?_
      linarith
    · norm_num
  | n + 2 =>
    simp only [rate, starting]
    refine key _ _ ?_
    unfold target
    split
    · exact (wave_second hh (by omega) n).trans hs
    · norm_num

theorem allowed (i : Fin 7) (N : ℕ) : VelocityAllowedFor N (jointLimits i) (starting 0 (target ω K i)) := by
  intro n _
  have hh := half_nonneg h0
  have hh' : (ω : ℝ) ≤ 1 := by exact_mod_cast h1
  have hv : |starting 0 (target ω K i) n| ≤ 1 := by
    cases n with
    | zero => rw [starting, abs_zero]; exact zero_le_one
    | succ n =>
      rw [starting]
      unfold target
      split
      · exact (wave_abs hh n).trans (by linarith)
      · rw [abs_zero]; exact zero_le_one
  have h2 := whole_second h0 h1 hK i n
  have ha : |rate (starting 0 (target ω K i)) (n + 1)| ≤ 4 := by
    rw [rate, abs_div, abs_of_pos (by norm_num : (0 : ℝ) < 0.001), div_le_iff₀ (by norm_num)]
    exact (whole_step h0 hK i n).trans ((size h0 h1 hK).1.trans (by norm_num))
  refine slow_allowed i hv ha ?_
  rw [abs_div, abs_of_pos (by norm_num : (0 : ℝ) < 0.001), div_le_iff₀ (by norm_num)]
  exact h2.trans (by norm_num)

theorem plan [Geo XR] (hT : (T : ℝ) = K / 1000) : IsPlanOf (call ω T) (lit 0) captured (velocityOut (target ω K) (ends K))
    (velocityCmd fun i => lowPass 100 0 (target ω K i)) (VelocitiesReported fun i => lowPass 100 0 (target ω K i)) :=
  planned_velocities rfl rfl (cutoff_eq ω T) (by norm_num) (by norm_num) rfl (called ω (by omega) hT) (allowed h0 h1 hK)

omit h0 h1 in
/-- What the callback returns until it ends the motion. -/
theorem target_eq (hT : (T : ℝ) = K / 1000) (i : Fin 7) {n : ℕ} (hn : n ≤ 2 * K) : target ω K i n = forthAndBack ω T i ((n : ℝ) / 1000) := by
  have hK' : (0 : ℝ) < K := by exact_mod_cast (by omega : 0 < K)
  unfold target forthAndBack
  split
  · have e : 2 * Real.pi * ((n : ℝ) / 1000) / T = 2 * Real.pi / K * n := by rw [hT]; field_simp
    have hlt : ((n : ℝ) / 1000 < T) ↔ n < K := by
      rw [hT, div_lt_div_iff_of_pos_right (by norm_num)]
      exact Nat.cast_lt
    rw [e]
    by_cases h : n < K
    · rw [if_pos (hlt.2 h), wave_half (m := 0) (by omega) (by omega) (by omega), pow_zero]
      rfl
    · rw [if_neg (fun h' => h (hlt.1 h')), wave_half (m := 1) (by omega) (by omega) (by omega), pow_one]
      rfl
  · rfl

end

/-- The sum of a low passed signal. -/
theorem low_sum {f : ℝ} (hf : 0 < f) {u y : ℕ → ℝ} {N : ℕ} (h : LowPassedFor N f u y) :
    ∑ n ∈ Finset.range N, y (n + 1) * 0.001 = (∑ n ∈ Finset.range N, u n) * 0.001 - (y N - y 0) / (2 * Real.pi * f) := by
  have hp : 2 * Real.pi * f ≠ 0 := by have := Real.pi_pos; positivity
  induction N with
  | zero => simp
  | succ N ih =>
    rw [Finset.sum_range_succ, ih fun n hn => h n (by omega), Finset.sum_range_succ, ← h N (by omega)]
    field_simp
    ring

end VelocityExample
open VelocityExample

section
variable [Wire XR] [Geo XR] {ω T : ℚ} {K : ℕ} (hω : 0 ≤ ω ∧ ω ≤ 1) (hK : 1000 ≤ K) (hT : T = K / 1000) {w : World XR} (hw : RobotReachable w)
  (follows : FollowsVelocities (exchanges (newEvents w ((velocityExample ω T).run w).2)))
include hω hK hT hw follows

/-- **C82**: with a robot that rests and follows the commands, the control call of the joint velocity example turns the joints forth and back. The commands are those
of the callback after the low pass with the default cutoff frequency, and are within `0.005 ω / T` of the intended velocities. The motion ends after twice the time `T`.
If the call returns Ok, then the robot is back where it started, but for 0.00001 rad. -/
theorem C82_velocity_example : ∃ y : Fin 7 → ℕ → ℝ,
    (∀ i, y i 0 = 0 ∧ LowPassedFor (answered w (velocityExample ω T)) 100 (fun n => forthAndBack ω T i ((n : ℝ) / 1000)) (y i)) ∧
    (∀ n st x, Exchange w (velocityExample ω T) n st x → x.motion.dq_c = Arr.fin (fun i => y i (n + 1)) ∧
      (∀ i, |y i (n + 1) - forthAndBack ω T i ((n : ℝ) / 1000)| ≤ 0.005 * ω / T) ∧ x.motion.motion_generation_finished = decide (n = 2 * K) ∧ n ≤ 2 * K) ∧
    (((velocityExample ω T).run w).1 = .ok () → answered w (velocityExample ω T) = 2 * K + 1 ∧
      ∀ i, |∑ n ∈ Finset.range (answered w (velocityExample ω T)), y i (n + 1) * 0.001| ≤ 0.00001) := by
  have hT' : (T : ℝ) = K / 1000 := by rw [hT]; push_cast; rfl
  have hK' : (1000 : ℝ) ≤ K := by exact_mod_cast hK
  have hp := plan hω.1 hω.2 hK hT'
  obtain ⟨f1, f2⟩ := FollowsVelocities.reported follows (y := fun i => lowPass 100 0 (target ω K i)) fun _ => rfl
  have h0 : ∀ st x, Exchange w (velocityExample ω T) 0 st x → VelocitiesReported (fun i => lowPass 100 0 (target ω K i)) 0 st := fun st x hx => f1 _ hx
  have hq : ∀ n, (sentCmd (velocityOut (target ω K) (ends K)) (velocityCmd fun i => lowPass 100 0 (target ω K i)) n).dq_c =
      Arr.fin fun i => lowPass 100 0 (target ω K i) (n + 1) := by
    intro n
    unfold sentCmd
    split <;> rfl
  have hn : ∀ n st x st' x', Exchange w (velocityExample ω T) n st x → Exchange w (velocityExample ω T) (n + 1) st' x' →
      x.motion = sentCmd (velocityOut (target ω K) (ends K)) (velocityCmd fun i => lowPass 100 0 (target ω K i)) n →
      VelocitiesReported (fun i => lowPass 100 0 (target ω K i)) n st →
      VelocitiesReported (fun i => lowPass 100 0 (target ω K i)) (n + 1) st' ∧ st'.time = st.time + 1 := by
    intro n st x st' x' hx hx' hm hR
    exact f2 n _ _ hx hx' (by rw [hm]; exact hq n) hR
  have hfin : ∀ n : ℕ, (velocityOut (target ω K) (ends K) n).is_finished = ends K n := fun _ => rfl
  have hends : ends K (2 * K) = true := decide_eq_true le_rfl
  have hlen : ∀ n st x, Exchange w (velocityExample ω T) n st x → n ≤ 2 * K := by
    intro n st x hx
    obtain ⟨-, -, -, -, g5⟩ := hp.goes hw (isControl ω T) h0 hn n st x hx
    by_contra hlt
    have := g5 (2 * K) (by omega)
    rw [hfin, hends] at this
    cases this
  have hans : answered w (velocityExample ω T) ≤ 2 * K + 1 := by
    by_contra hlt
    obtain ⟨st, x, hx⟩ := exchange_exists (by omega : 2 * K + 1 < answered w (velocityExample ω T))
    have := hlen _ st x hx
    omega
  have hlag : ∀ i n, |lowPass 100 0 (target ω K i) (n + 1) - target ω K i n| ≤ 0.005 * ω / T := by
    intro i n
    refine (lowPass_lag (by norm_num) (whole_step hω.1 hK i) n).trans (le_of_eq ?_)
    have := Real.pi_pos
    rw [hT']
    field_simp
    norm_num
    ring
  have hlow : ∀ i, LowPassedFor (answered w (velocityExample ω T)) 100 (fun n => forthAndBack ω T i ((n : ℝ) / 1000)) (lowPass 100 0 (target ω K i)) := by
    intro i n hn
    have := lowPass_is (a := 0) (by norm_num : (0 : ℝ) < 100) (target ω K i) _ n hn
    rw [target_eq hK hT' i (by omega)] at this
    exact this
  refine ⟨fun i => lowPass 100 0 (target ω K i), fun i => ⟨rfl, hlow i⟩, ?_, ?_⟩
  · intro n st x hx
    obtain ⟨-, g2, -, -, g5⟩ := hp.goes hw (isControl ω T) h0 hn n st x hx
    have hle := hlen n st x hx
    refine ⟨by rw [g2]; exact hq n, fun i => ?_, ?_, hle⟩
    · rw [← target_eq hK hT' i hle]
      exact hlag i n
    · rw [g2]
      unfold sentCmd
      rw [hfin]
      by_cases h : n = 2 * K
      · rw [h, hends, if_pos rfl, decide_eq_true rfl]
      · rw [if_neg (by unfold ends; simp; omega), decide_eq_false h]
        rfl
  · intro hok
    obtain ⟨n, g1, g2⟩ := hp.ends hw (isControl ω T) h0 hn hok
    rw [hfin] at g2
    have hge : 2 * K ≤ n := of_decide_eq_true g2
    have heq : answered w (velocityExample ω T) = 2 * K + 1 := by omega
    refine ⟨heq, fun i => ?_⟩
    rw [heq]
    have hl := lowPass_is (a := 0) (by norm_num : (0 : ℝ) < 100) (target ω K i) (2 * K + 1)
    rw [low_sum (by norm_num) hl]
    have hsum : ∑ n ∈ Finset.range (2 * K + 1), target ω K i n = 0 := by
      unfold target
      split
      · exact wave_sum (by omega)
      · exact Finset.sum_const_zero
    have hlast : target ω K i (2 * K) = 0 := by
      unfold target
      split
      · rw [wave, base_zero (by omega), mul_zero]
      · rfl
    have h1 := hlag i (2 * K)
    rw [hlast, sub_zero] at h1
    rw [hsum, zero_mul, zero_sub, abs_neg, show lowPass 100 0 (target ω K i) 0 = 0 from rfl, sub_zero, abs_div]
    have hp3 := Real.pi_gt_three
    rw [abs_of_pos (by positivity : 0 < 2 * Real.pi * 100), div_le_iff₀ (by positivity)]
    refine h1.trans ?_
    have hω1 : (ω : ℝ) ≤ 1 := by exact_mod_cast hω.2
    have hT1 : (1 : ℝ) ≤ T := by rw [hT', le_div_iff₀ (by norm_num)]; linarith
    rw [div_le_iff₀ (by linarith)]
    nlinarith

end

/-- **C82**, without hypotheses on the robot: there is a robot that follows, and then the call returns Ok. -/
theorem C82_velocity_example_happens [Geo XR] {ω T : ℚ} {K : ℕ} (hω : 0 ≤ ω ∧ ω ≤ 1) (hK : 1000 ≤ K) (hT : T = K / 1000) (hsmall : K ≤ 1000000) :
    ∃ (_ : Wire XR) (w : World XR), RobotReachable w ∧ ((velocityExample ω T).run w).1 = .ok () ∧
      FollowsVelocities (exchanges (newEvents w ((velocityExample ω T).run w).2)) := by
  have hT' : (T : ℝ) = K / 1000 := by rw [hT]; push_cast; rfl
  obtain ⟨y, hy⟩ : ∃ y, y = fun i => lowPass 100 0 (target ω K i) := ⟨_, rfl⟩
  obtain ⟨wire, k0, kp⟩ := Following.wire_for (N := 2 * K) (fun n => Arr.fin fun i => y i n) (fun n => Arr.fin fun i => rate (y i) n) (fun n => Arr.fin fun i => rate (y i) n) (by omega)
  have hp := plan hω.1 hω.2 hK hT'
  rw [← hy] at hp
  obtain ⟨w, g1, g2, g3⟩ := hp.happens (robot_for (by omega) (fun n => Arr.fin fun i => y i n) (fun n => Arr.fin fun i => y i n) (fun n => Arr.fin fun i => rate (y i) n) k0
    (fun n hn => ⟨(kp n hn).1, (kp n hn).1, (kp n hn).2.1⟩) fun n st _ e1 e2 e3 => ⟨e2, e3⟩)
    (fun n hn => decide_eq_false (by omega : ¬ 2 * K ≤ n)) (by show decide (2 * K ≤ 2 * K) = true; simp) (isControl ω T)
  refine ⟨wire, w, g1, g2, ?_⟩
  rw [g3]
  refine ⟨?_, ?_⟩
  · intro p hp
    rw [List.range_succ_eq_map] at hp
    cases hp
    refine ⟨?_, rfl⟩
    subst hy
    rfl
  · rw [List.isChain_iff_getElem]
    intro k hk
    simp only [List.length_map, List.length_range] at hk
    simp only [List.getElem_map, List.getElem_range]
    refine ⟨?_, ?_, ?_⟩
    · show (UInt64.ofNat (k + 1 + 3)).toNat = (UInt64.ofNat (k + 3)).toNat + 1
      rw [UInt64.toNat_ofNat', UInt64.toNat_ofNat', Nat.mod_eq_of_lt (by omega), Nat.mod_eq_of_lt (by omega)]
    · show (Arr.fin fun i => y i (k + 1)) = (sentCmd _ _ k).dq_c
      unfold sentCmd
      split <;> rfl
    · intro i
      show XR.fin (rate (y i) (k + 1)) = (XR.fin _ - XR.fin _) / _
      rw [XR.fin_sub, XR.fin_div _ _ (by norm_num)]
      rfl

/-- The two programs. -/
example : (0 : ℚ) ≤ 1 ∧ (1 : ℚ) ≤ 1 ∧ (1 : ℚ) = (1000 : ℕ) / 1000 := by norm_num
example : (0 : ℚ) ≤ 1 / 5 ∧ (1 / 5 : ℚ) ≤ 1 ∧ (4 : ℚ) = (4000 : ℕ) / 1000 := by norm_num

/-- The hypotheses of C80 for joint velocities are met by these programs. -/
example [Geo XR] {ω T : ℚ} {K : ℕ} (hω : 0 ≤ ω ∧ ω ≤ 1) (hK : 1000 ≤ K) (hT : T = K / 1000) (hsmall : K ≤ 1000000) :
    ∃ (_ : Wire XR) (w : World XR) (u y : Fin 7 → ℕ → ℝ), RobotReachable w ∧ IsControl (velocityExample ω T) (call ω T) (lit 0) ∧
    (call ω T).limit_rate = true ∧ (call ω T).cutoff = .fin 100 ∧ answered w (velocityExample ω T) = 2 * K + 1 ∧
    (∀ n out, (motionOutputs .JointVelocities (newEvents w ((velocityExample ω T).run w).2))[n]? = some out → JointVelocities.dq out = Arr.fin fun i => u i n) ∧
    (∀ n st x, Exchange w (velocityExample ω T) n st x → st.dq_d = Arr.fin (fun i => y i n) ∧ st.ddq_d = Arr.fin (fun i => rate (y i) n)) ∧
    (∀ n st x, Exchange w (velocityExample ω T) n st x → x.motion.dq_c = Arr.fin fun i => y i (n + 1)) ∧
    (∀ i, |y i 0| ≤ (below (jointLimits i)).velocity) ∧
    ∀ i, VelocityAllowedFor (answered w (velocityExample ω T)) (jointLimits i) (starting (y i 0) (u i)) := by
  obtain ⟨wire, w, hw, hok, follows⟩ := C82_velocity_example_happens hω hK hT hsmall
  have hT' : (T : ℝ) = K / 1000 := by rw [hT]; push_cast; rfl
  have hp := plan hω.1 hω.2 hK hT'
  obtain ⟨f1, f2⟩ := FollowsVelocities.reported follows (y := fun i => lowPass 100 0 (target ω K i)) fun _ => rfl
  have goes := hp.goes hw (isControl ω T) (fun st x hx => f1 _ hx) (fun n st x st' x' hx hx' hm hR => f2 n _ _ hx hx' (by rw [hm]; unfold sentCmd; split <;> rfl) hR)
  obtain ⟨_, -, -, h3⟩ := C82_velocity_example hω hK hT hw follows
  refine ⟨wire, w, target ω K, fun i => lowPass 100 0 (target ω K i), hw, isControl ω T, rfl, cutoff_eq ω T, (h3 hok).1, fun n out h => ?_,
    fun n st x hx => (goes n st x hx).1, fun n st x hx => ?_, fun i => ?_, fun i => allowed hω.1 hω.2 hK i _⟩
  · obtain ⟨hn, -⟩ := List.getElem?_eq_some_iff.1 h
    obtain ⟨st, x, hx⟩ := exchange_exists (hn.trans_eq (outputs_ok hw (isControl ω T) hok))
    have g4 : out = velocityOut (target ω K) (ends K) n := Option.some.inj (h.symm.trans (goes n st x hx).2.2.2.1)
    rw [g4]
    rfl
  · rw [(goes n st x hx).2.1]
    unfold sentCmd
    split <;> rfl
  · show |(0 : ℝ)| ≤ _
    rw [abs_zero, below_joint]
    exact (codeLimits_ok i).velocity

end Verif
