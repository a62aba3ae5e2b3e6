import Verif.Lemmas.NearCartesian
/-!
# The low pass filter of a control call with Cartesian velocities: C88

As in Props/Smooth.lean: doubles are real numbers, `w` is a world in which a `Robot` exists, `c` a control method with its arguments, with rate limiting and with a
cutoff frequency `f` below 1000 Hz. The robot is assumed to follow.
-/
set_option linter.unusedSectionVars false
namespace Verif
open Prog Spec

theorem filtered6 {f : ℝ} (h0 : 0 < f) (u x : Fin 6 → ℝ) : (Arr.tabulateP fun i => low_pass_filter DELTA_T ((Arr.fin u : Arr XR 6) i) ((Arr.fin x : Arr XR 6) i) (.fin f)) =
    .ok (Arr.fin fun i => gain (1 / 1000) f * u i + (1 - gain (1 / 1000) f) * x i) := by
  refine Arr.tabulateP_ok fun i => ?_
  rw [DELTA_T_fin, Arr.fin_apply, Arr.fin_apply, low_pass_filter_fin (by norm_num) h0.le]
  rfl

theorem linear_mix (g : ℝ) (u x : Fin 6 → ℝ) : linear (fun i => g * u i + (1 - g) * x i) = fun i => g * linear u i + (1 - g) * linear x i := by
  funext i; fin_cases i <;> rfl
theorem angular_mix (g : ℝ) (u x : Fin 6 → ℝ) : angular (fun i => g * u i + (1 - g) * x i) = fun i => g * angular u i + (1 - g) * angular x i := by
  funext i; fin_cases i <;> rfl

/-- A conversion with the filter. -/
theorem convert_filtered_twist {out : CartesianVelocities XR} {state : RobotState XR} {m m' : MotionGeneratorCommand XR} {f : ℝ} (h0 : 0 < f) (hf : f < 1000) {u v a : Fin 6 → ℝ}
    (hu : out.O_dP_EE = Arr.fin u) (hv : state.O_dP_EE_c = Arr.fin v) (ha : state.O_ddP_EE_c = Arr.fin a) (h : out.convert_motion state m (.fin f) true = .ok m')
    (h1 : len (linear v) ≤ codeTranslation.velocity) (h2 : len (angular v) ≤ codeRotation.velocity) :
    m'.O_dP_EE_c = Arr.fin (join (cOut codeTranslation (fun i => gain (1 / 1000) f * linear u i + (1 - gain (1 / 1000) f) * linear v i) (linear v) (linear a))
      (cOut codeRotation (fun i => gain (1 / 1000) f * angular u i + (1 - gain (1 / 1000) f) * angular v i) (angular v) (angular a))) := by
  have h : ((if Fl.flt (XR.fin f) MAX_CUTOFF_FREQUENCY then Arr.tabulateP fun i => low_pass_filter DELTA_T (out.O_dP_EE i) (state.O_dP_EE_c i) (.fin f) else pure out.O_dP_EE) >>= fun x =>
      limit_rate_cartesian_velocity MAX_TRANSLATIONAL_VELOCITY MAX_TRANSLATIONAL_ACCELERATION MAX_TRANSLATIONAL_JERK
        MAX_ROTATIONAL_VELOCITY MAX_ROTATIONAL_ACCELERATION MAX_ROTATIONAL_JERK x state.O_dP_EE_c state.O_ddP_EE_c >>= fun y =>
      assertFinite y >>= fun _ => convert_elbow out.elbow state { m with O_dP_EE_c := y } (.fin f) true) = .ok m' := by
    rw [← h]
    unfold CartesianVelocities.convert_motion
    split <;> rfl
  obtain ⟨t1, t2, t3⟩ := MAX_TRANSLATIONAL_fin
  obtain ⟨r1, r2, r3⟩ := MAX_ROTATIONAL_fin
  rw [with_filter hf, if_pos rfl, hu, hv, filtered6 h0, P_bind_ok_eq, t1, t2, t3, r1, r2, r3, ha, cartesian_fin codeTranslation_ok codeRotation_ok h1 h2, P_bind_ok_eq,
    linear_mix, angular_mix] at h
  obtain ⟨_, -, h6⟩ := P_bind_inv h
  rw [(convert_elbow_keeps h6).1]

section
variable [Wire XR] [Geo XR] {w : World XR} (hw : RobotReachable w) {c : RobotCall XR} {σ : Type} {c0 : σ} {f : ℝ} (h0 : 0.001 ≤ f) (h1 : f < 1000)
include hw h0 h1

/-- **C88**: `u · n` is the velocity of the end effector which the motion callback returned in its `n`-th call, `y · n` the one that the robot reports in the `n`-th
state and `y · (n + 1)` the one in the command for it. If the velocities that the callback returns respect the limits, then the commands are those velocities after
a low pass with the cutoff frequency `f`, but for 10⁻¹³ m/s or rad/s. A command lags behind the callback by at most the greatest acceleration divided by `2 π f`. -/
theorem C88_cartesian_velocities {call : ControlCall XR σ .CartesianVelocities} (hc : IsControl c call c0) (hl : call.limit_rate = true) (hf : call.cutoff = .fin f)
    (u y : Fin 6 → ℕ → ℝ)
    (returned : ∀ n out, (motionOutputs .CartesianVelocities (newEvents w (c.run w).2))[n]? = some out → CartesianVelocities.O_dP_EE out = Arr.fin (sample u n))
    (reported : ∀ n st x, Exchange w c n st x → st.O_dP_EE_c = Arr.fin (sample y n) ∧ st.O_ddP_EE_c = Arr.fin fun i => rate (y i) n)
    (commanded : ∀ n st x, Exchange w c n st x → x.motion.O_dP_EE_c = Arr.fin (sample y (n + 1)))
    (slow : len (linear (sample y 0)) ≤ (below (below translationLimits)).velocity ∧ len (angular (sample y 0)) ≤ (below (below rotationLimits)).velocity)
    (allowed : CartesianAllowedFor (answered w c) translationLimits (translation fun i => starting (y i 0) (u i)) ∧
      CartesianAllowedFor (answered w c) rotationLimits (rotation fun i => starting (y i 0) (u i))) :
    (NearlyLowPassedFor (answered w c) (1 / 10 ^ 13) f (translation u) (translation y) ∧ NearlyLowPassedFor (answered w c) (1 / 10 ^ 13) f (rotation u) (rotation y)) ∧
      ∀ n < answered w c, len (fun i => translation y i (n + 1) - translation u i n) ≤ translationLimits.acceleration / (2 * Real.pi * f) + 1 / 10 ^ 13 ∧
        len (fun i => rotation y i (n + 1) - rotation u i n) ≤ rotationLimits.acceleration / (2 * Real.pi * f) + 1 / 10 ^ 13 := by
  have hf0 : 0 < f := by linarith
  have eT : ∀ i, starting (translation y i 0) (translation u i) = translation (fun i => starting (y i 0) (u i)) i := by
    intro i
    funext n
    cases n <;> fin_cases i <;> rfl
  have eR : ∀ i, starting (rotation y i 0) (rotation u i) = rotation (fun i => starting (y i 0) (u i)) i := by
    intro i
    funext n
    cases n <;> fin_cases i <;> rfl
  have rT : ∀ n i, linear (fun i => rate (y i) n) i = rate (translation y i) n := by
    intro n i
    cases n <;> fin_cases i <;> rfl
  have rR : ∀ n i, angular (fun i => rate (y i) n) i = rate (rotation y i) n := by
    intro n i
    cases n <;> fin_cases i <;> rfl
  have nT := fun n hn => noisy_next under_translation h0 (N := answered w c) (n := n) hn (u := translation u) (y := translation y) slow.1 (by simp only [eT]; exact allowed.1)
  have nR := fun n hn => noisy_next under_rotation h0 (N := answered w c) (n := n) hn (u := rotation u) (y := rotation y) slow.2 (by simp only [eR]; exact allowed.2)
  have key : ∀ n, n < answered w c →
      len (fun i => translation y i (n + 1) - (gain (1 / 1000) f * translation u i n + (1 - gain (1 / 1000) f) * translation y i n)) ≤ slip ∧
      len (fun i => rotation y i (n + 1) - (gain (1 / 1000) f * rotation u i n + (1 - gain (1 / 1000) f) * rotation y i n)) ≤ slip := by
    intro n
    induction n using Nat.strong_induction_on with
    | _ n ih =>
      intro hn
      obtain ⟨t1, t2, -⟩ := nT n hn fun j hj => (ih j hj (by omega)).1
      obtain ⟨q1, q2, -⟩ := nR n hn fun j hj => (ih j hj (by omega)).2
      obtain ⟨st, x, hx⟩ := exchange_exists hn
      obtain ⟨pre, t, k1, k2, k3, -, k5⟩ := turn_at hw hc hx
      obtain ⟨r1, r2⟩ := reported n st x hx
      have hu := returned n _ k5
      have hconv := k1.moved.conv
      rw [hf, hl, k2] at hconv
      have hm := convert_filtered_twist hf0 h1 hu r1 r2 hconv t2 q2
      have hq : x.motion.O_dP_EE_c = t.m.O_dP_EE_c := by
        rw [← k3]
        unfold Turn.cmd
        split <;> rfl
      rw [← hq, commanded n st x hx] at hm
      have hm : sample y (n + 1) = _ := funext fun i => (XR.fin_inj _ _).1 (congrFun hm i)
      have hlin := congrArg linear hm
      have hang := congrArg angular hm
      rw [linear_join, show linear (fun i => rate (y i) n) = fun i => rate (translation y i) n from funext (rT n)] at hlin
      rw [angular_join, show angular (fun i => rate (y i) n) = fun i => rate (rotation y i) n from funext (rR n)] at hang
      constructor
      · have := cOut_near under_translation.ok t2 t1
        refine le_of_eq_of_le (congrArg len (funext fun i => ?_)) this
        congr 1
        exact congrFun hlin i
      · have := cOut_near under_rotation.ok q2 q1
        refine le_of_eq_of_le (congrArg len (funext fun i => ?_)) this
        congr 1
        exact congrFun hang i
  have hT : NearlyLowPassedFor (answered w c) (1 / 10 ^ 13) f (translation u) (translation y) := fun n hn => near_low h0 (key n hn).1
  have hR : NearlyLowPassedFor (answered w c) (1 / 10 ^ 13) f (rotation u) (rotation y) := fun n hn => near_low h0 (key n hn).2
  refine ⟨⟨hT, hR⟩, fun n hn => ⟨?_, ?_⟩⟩
  · exact near_lag h0 (by norm_num [below, translationLimits]) (hT n hn) (nT n hn fun j hj => (key j (by omega)).1).2.2 (key n hn).1
  · exact near_lag h0 (by norm_num [below, rotationLimits]) (hR n hn) (nR n hn fun j hj => (key j (by omega)).2).2.2 (key n hn).2

end
end Verif
