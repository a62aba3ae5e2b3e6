import Verif.Lemmas.NearPose
import Verif.Props.SmoothCartesian
/-!
# The low pass filter of a control call with poses that do not turn, and for the elbow: C90

As in Props/Smooth.lean: doubles are real numbers, `w` is a world in which a `Robot` exists, `c` a control method with its arguments, with rate limiting and with a
cutoff frequency `f` below 1000 Hz. The robot is assumed to follow, and nalgebra to compute with rotations as `Spec/Nalgebra.lean` says.
-/
set_option linter.unusedSectionVars false
namespace Verif
open Prog Spec

/-- The error of a step of a position is an error of the low pass. -/
theorem near_low_position {f : ℝ} (hf : 0.001 ≤ f) {u y z : Fin 3 → ℝ} (h : len (fun i => y i - (gain (1 / 1000) f * u i + (1 - gain (1 / 1000) f) * z i)) ≤ slip / 1000) :
    len (fun i => y i + (y i - z i) / 0.001 / (2 * Real.pi * f) - u i) ≤ 1 / 10 ^ 16 := by
  have := near_low hf (u := fun i => 1000 * u i) (y := fun i => 1000 * y i) (z := fun i => 1000 * z i) (by
    have e : (fun i => 1000 * y i - (gain (1 / 1000) f * (1000 * u i) + (1 - gain (1 / 1000) f) * (1000 * z i))) =
        fun i => 1000 * (y i - (gain (1 / 1000) f * u i + (1 - gain (1 / 1000) f) * z i)) := by
      funext i
      ring
    rw [e, len_scale (by norm_num)]
    linarith)
  have e : (fun i => 1000 * y i + (1000 * y i - 1000 * z i) / 0.001 / (2 * Real.pi * f) - 1000 * u i) = fun i => 1000 * (y i + (y i - z i) / 0.001 / (2 * Real.pi * f) - u i) := by
    funext i
    ring
  rw [e, len_scale (by norm_num)] at this
  linarith

theorem exchange_lt {F : Type} [Fl F] [Wire F] [Geo F] {w : World F} {c : RobotCall F} {n : ℕ} {st : RobotState F} {x : RobotCommand F} (h : Exchange w c n st x) :
    n < answered w c := (List.getElem?_eq_some_iff.1 h).1

/-- Conversions end with the elbow of the callback. -/
theorem convert_elbowOf {F : Type} [Fl F] [Geo F] {k : MotionKind} (hk : k = .CartesianPose ∨ k = .CartesianVelocities) {out : Motion F k} {state : RobotState F}
    {m m' : MotionGeneratorCommand F} {cutoff : F} {b : Bool} (h : out.convert_motion state m cutoff b = .ok m') :
    ∃ m1, convert_elbow (elbowOf out) state m1 cutoff b = .ok m' := by
  rcases hk with rfl | rfl
  · change CartesianPose.convert_motion out state m cutoff b = .ok m' at h
    unfold CartesianPose.convert_motion at h
    dsimp only at h
    split at h <;> split at h
    all_goals
      repeat (obtain ⟨_, -, h⟩ := P_bind_inv h)
      exact ⟨_, h⟩
  · change CartesianVelocities.convert_motion out state m cutoff b = .ok m' at h
    unfold CartesianVelocities.convert_motion at h
    dsimp only at h
    split at h <;> split at h
    all_goals
      repeat (obtain ⟨_, -, h⟩ := P_bind_inv h)
      exact ⟨_, h⟩

section
variable [Wire XR] [Geo XR] {w : World XR} (hw : RobotReachable w) {c : RobotCall XR} {σ : Type} {c0 : σ} {f : ℝ}

/-- **C90**: `u · n` is the position of the end effector in the pose which the motion callback returned in its `n`-th call, `y · n` the one that the robot reports in the
`n`-th state and `y · (n + 1)` the one in the command for it. The end effector is not turned, its rotation is `R`. If the positions that the callback returns respect
the limits, then the commands are those positions after a low pass with the cutoff frequency `f`, but for 10⁻¹⁶ m, and with the rotation `R`. A command lags behind the
callback by at most the greatest velocity divided by `2 π f`. -/
theorem C90_poses (hw : RobotReachable w) (lib : RotationLibrary) (slerp : Interpolates) (h0 : 0.001 ≤ f) (h1 : f < 1000) {call : ControlCall XR σ .CartesianPose}
    (hc : IsControl c call c0) (hl : call.limit_rate = true) (hf : call.cutoff = .fin f) {R : M3} (hR : IsRotation R) (reads : ReadsRight R)
    (u y : Fin 3 → ℕ → ℝ)
    (returned : ∀ n out, (motionOutputs .CartesianPose (newEvents w (c.run w).2))[n]? = some out → CartesianPose.O_T_EE out = Arr.fin (pose (sample u n) R))
    (reported : ∀ n st x, Exchange w c n st x → st.O_T_EE_c = Arr.fin (pose (sample y n) R) ∧ st.O_dP_EE_c = Arr.fin (join (fun i => rate (y i) n) fun _ => 0) ∧
      st.O_ddP_EE_c = Arr.fin (join (fun i => rate (rate (y i)) n) fun _ => 0))
    (commanded : ∀ n st x, Exchange w c n st x → x.motion.O_T_EE_c 12 = .fin (y 0 (n + 1)) ∧ x.motion.O_T_EE_c 13 = .fin (y 1 (n + 1)) ∧ x.motion.O_T_EE_c 14 = .fin (y 2 (n + 1)))
    (allowed : CartesianAllowedFor (answered w c) translationLimits fun i => rate (starting (y i 0) (u i))) :
    (∀ n st x, Exchange w c n st x → x.motion.O_T_EE_c = Arr.fin (pose (sample y (n + 1)) R)) ∧ NearlyLowPassedFor (answered w c) (1 / 10 ^ 16) f u y ∧
      ∀ n < answered w c, len (fun i => y i (n + 1) - u i n) ≤ translationLimits.velocity / (2 * Real.pi * f) + 1 / 10 ^ 16 := by
  have hf0 : 0 < f := by linarith
  have nT := fun n hn => noisy_next_position under_translation hf0 (N := answered w c) (n := n) hn (u := u) (y := y) (by norm_num [below, translationLimits]) allowed
  have hV : (below (below translationLimits)).velocity + 1 / 10 ^ 12 ≤ codeTranslation.velocity := by norm_num [below, translationLimits, codeTranslation]
  have hV' : (below (below translationLimits)).velocity + 1 / 10 ^ 11 ≤ translationLimits.velocity := by norm_num [below, translationLimits]
  have hs := slip_le
  have key : ∀ n, n < answered w c → len (fun i => y i (n + 1) - (gain (1 / 1000) f * u i n + (1 - gain (1 / 1000) f) * y i n)) ≤ slip / 1000 ∧
      ∀ st x, Exchange w c n st x → x.motion.O_T_EE_c = Arr.fin (pose (sample y (n + 1)) R) := by
    intro n
    induction n using Nat.strong_induction_on with
    | _ n ih =>
      intro hn
      obtain ⟨t1, t2, -⟩ := nT n hn fun j hj => (ih j hj (by omega)).1
      have t2 := t2.trans hV
      have step : ∀ st x, Exchange w c n st x → x.motion.O_T_EE_c = Arr.fin (pose (fun i => y i n + cOut codeTranslation
          (fun i => (gain (1 / 1000) f * u i n + (1 - gain (1 / 1000) f) * y i n - y i n) / 0.001) (fun i => rate (y i) n) (fun i => rate (rate (y i)) n) i * 0.001) R) := by
        intro st x hx
        obtain ⟨pre, t, k1, k2, k3, -, k5⟩ := turn_at hw hc hx
        obtain ⟨r1, r2, r3⟩ := reported n st x hx
        have hu := returned n _ k5
        have hconv := k1.moved.conv
        rw [hf, hl, k2] at hconv
        have hto : t.out = (⟨CartesianPose.motion_finished t.out, Arr.fin (pose (sample u n) R), CartesianPose.elbow t.out⟩ : CartesianPose XR) := by rw [← hu]; rfl
        rw [hto] at hconv
        change CartesianPose.convert_motion ⟨_, Arr.fin (pose (sample u n) R), _⟩ st (mBefore pre) (.fin f) true = .ok t.m at hconv
        rw [pose_step lib slerp hf0 h1 hR reads r1 r2 r3 t2] at hconv
        have hm := (convert_elbow_keeps hconv).2
        have hq : x.motion.O_T_EE_c = t.m.O_T_EE_c := by
          rw [← k3]
          unfold Turn.cmd
          split <;> rfl
        rw [hq, hm]
        rfl
      have same : ∀ st x, Exchange w c n st x → sample y (n + 1) = fun i => y i n + cOut codeTranslation
          (fun i => (gain (1 / 1000) f * u i n + (1 - gain (1 / 1000) f) * y i n - y i n) / 0.001) (fun i => rate (y i) n) (fun i => rate (rate (y i)) n) i * 0.001 := by
        intro st x hx
        obtain ⟨c1, c2, c3⟩ := commanded n st x hx
        rw [step st x hx] at c1 c2 c3
        funext i
        fin_cases i
        · exact ((XR.fin_inj _ _).1 c1).symm
        · exact ((XR.fin_inj _ _).1 c2).symm
        · exact ((XR.fin_inj _ _).1 c3).symm
      refine ⟨?_, fun st x hx => by rw [step st x hx, same st x hx]⟩
      obtain ⟨st, x, hx⟩ := exchange_exists hn
      have hy := same st x hx
      have := cOut_near under_translation.ok t2 t1
      have e : (fun i => y i (n + 1) - (gain (1 / 1000) f * u i n + (1 - gain (1 / 1000) f) * y i n)) = fun i => 0.001 * (cOut codeTranslation
          (fun i => (gain (1 / 1000) f * u i n + (1 - gain (1 / 1000) f) * y i n - y i n) / 0.001) (fun i => rate (y i) n) (fun i => rate (rate (y i)) n) i -
            (gain (1 / 1000) f * u i n + (1 - gain (1 / 1000) f) * y i n - y i n) / 0.001) := by
        funext i
        have := congrFun hy i
        simp only [sample] at this
        rw [this]
        ring
      rw [e, len_scale (by norm_num)]
      unfold slip
      linarith
  have hlow : NearlyLowPassedFor (answered w c) (1 / 10 ^ 16) f u y := fun n hn => near_low_position h0 (key n hn).1
  refine ⟨fun n st x hx => (key n (exchange_lt hx)).2 st x hx, hlow, fun n hn => ?_⟩
  have hp : 0 < 2 * Real.pi * f := by have := Real.pi_pos; positivity
  have hr : len (fun i => (y i (n + 1) - y i n) / 0.001) ≤ translationLimits.velocity := by
    have h2 := (nT n hn fun j hj => (key j (by omega)).1).2.2
    have h3 := (key n hn).1
    have := len_shift (w := fun i => (y i (n + 1) - y i n) / 0.001) h2 (b := slip) (by
      have e : (fun i => (y i (n + 1) - y i n) / 0.001 - (gain (1 / 1000) f * u i n + (1 - gain (1 / 1000) f) * y i n - y i n) / 0.001) =
          fun i => 1000 * (y i (n + 1) - (gain (1 / 1000) f * u i n + (1 - gain (1 / 1000) f) * y i n)) := by
        funext i
        rw [div_milli, div_milli]
        ring
      rw [e, len_scale (by norm_num)]
      linarith)
    linarith
  have e : (fun i => y i (n + 1) - u i n) = fun i => (y i (n + 1) + (y i (n + 1) - y i n) / 0.001 / (2 * Real.pi * f) - u i n) - 1 / (2 * Real.pi * f) * ((y i (n + 1) - y i n) / 0.001) := by
    funext i
    ring
  rw [e]
  have h2 : len (fun i => 1 / (2 * Real.pi * f) * ((y i (n + 1) - y i n) / 0.001)) ≤ translationLimits.velocity / (2 * Real.pi * f) := by
    rw [len_scale (by positivity), div_mul_eq_mul_div, one_mul]
    exact div_le_div_of_nonneg_right hr hp.le
  have := len_diff (hlow n hn) h2
  linarith

/-- **C90**, the elbow, for poses and for Cartesian velocities: `u n` is the position of the elbow which the motion callback returned in its `n`-th call, `y n` the one
that the robot reports in the `n`-th state and `y (n + 1)` the one in the command for it; `s n` is the sign which the callback returned. If the positions respect the
limits, then the commands are those positions after a low pass with the cutoff frequency `f`, with the signs of the callback, and are marked as valid. -/
theorem C90_elbow (hw : RobotReachable w) (h0 : 0 < f) (h1 : f < 1000) {k : MotionKind} (hk : k = .CartesianPose ∨ k = .CartesianVelocities) {call : ControlCall XR σ k}
    (hc : IsControl c call c0) (hl : call.limit_rate = true) (hf : call.cutoff = .fin f) (u y s : ℕ → ℝ) (signs : ∀ n, |s n| = 1)
    (returned : ∀ n out, (motionOutputs k (newEvents w (c.run w).2))[n]? = some out → elbowOf out = some (Arr.fin ![u n, s n]))
    (reported : ∀ n st x, Exchange w c n st x → st.elbow_c 0 = .fin (y n) ∧ st.delbow_c 0 = .fin (rate y n) ∧ st.ddelbow_c 0 = .fin (rate (rate y) n))
    (commanded : ∀ n st x, Exchange w c n st x → x.motion.elbow_c 0 = .fin (y (n + 1)))
    (allowed : PositionAllowedFor (answered w c) elbowLimits (starting (y 0) u)) :
    (∀ n st x, Exchange w c n st x → x.motion.valid_elbow = true ∧ x.motion.elbow_c = Arr.fin ![y (n + 1), s n]) ∧ LowPassedFor (answered w c) f u y ∧
      ∀ n < answered w c, |y (n + 1) - u n| ≤ elbowLimits.velocity / (2 * Real.pi * f) := by
  obtain ⟨g0, g1⟩ := gain_range h0
  unfold PositionAllowedFor VelocityAllowedFor at allowed
  simp only [below_elbow] at allowed
  have key : ∀ n, n < answered w c → y (n + 1) = gain (1 / 1000) f * u n + (1 - gain (1 / 1000) f) * y n ∧
      ∀ st x, Exchange w c n st x → x.motion.valid_elbow = true ∧ x.motion.elbow_c = Arr.fin ![y (n + 1), s n] := by
    intro n
    induction n using Nat.strong_induction_on with
    | _ n ih =>
      intro hn
      have step : ∀ st x, Exchange w c n st x → x.motion.valid_elbow = true ∧ x.motion.elbow_c = Arr.fin ![gain (1 / 1000) f * u n + (1 - gain (1 / 1000) f) * y n, s n] := by
        intro st x hx
        obtain ⟨pre, t, k1, k2, k3, -, k5⟩ := turn_at hw hc hx
        obtain ⟨r1, r2, r3⟩ := reported n st x hx
        have hconv := k1.moved.conv
        rw [hf, hl, k2] at hconv
        obtain ⟨m1, hconv⟩ := convert_elbowOf hk hconv
        rw [returned n _ k5, elbow_step h0 h1 (signs n) r1 r2 r3 (lowpass_next_position codeElbow_ok g0 g1 allowed n hn fun j hj => (ih j hj (by omega)).1)] at hconv
        injection hconv with hconv
        rw [← k3]
        unfold Turn.cmd
        split <;> rw [← hconv] <;> exact ⟨rfl, rfl⟩
      have same : ∀ st x, Exchange w c n st x → y (n + 1) = gain (1 / 1000) f * u n + (1 - gain (1 / 1000) f) * y n := by
        intro st x hx
        have := commanded n st x hx
        rw [(step st x hx).2] at this
        exact ((XR.fin_inj _ _).1 this).symm
      refine ⟨?_, fun st x hx => ⟨(step st x hx).1, by rw [(step st x hx).2, ← same st x hx]⟩⟩
      obtain ⟨st, x, hx⟩ := exchange_exists hn
      exact same st x hx
  have hlow : LowPassedFor (answered w c) f u y := fun n hn => (gain_eq h0).2 (key n hn).1
  refine ⟨fun n st x hx => (key n (exchange_lt hx)).2 st x hx, hlow, fun n hn => ?_⟩
  have hp : 0 < 2 * Real.pi * f := by have := Real.pi_pos; positivity
  rw [lag_eq (hlow n hn), abs_of_pos hp]
  refine div_le_div_of_nonneg_right ?_ hp.le
  refine le_trans ?_ (by norm_num [codeElbow, elbowLimits] : codeElbow.velocity ≤ elbowLimits.velocity)
  refine allowed_velocity codeElbow_ok (w := rate y) (N := n + 1) (by rw [rate, abs_zero]; exact codeElbow_ok.velocity) (fun m hm => ?_) (n + 1) le_rfl
  have := lowpass_next_position codeElbow_ok g0 g1 allowed m (by omega) fun j hj => (key j (by omega)).1
  rwa [← (key m (by omega)).1] at this

end
end Verif
