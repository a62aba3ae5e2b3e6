import Verif.Lemmas.RoundedCartesianFollow
import Verif.Props.RoundedCartesian
import Verif.Props.RoundedTransparent
/-!
# Cartesian velocities within the limits are followed in spite of rounding: C105

The counterpart of C104 for Cartesian velocities: lengths, directions and roots are computed with doubles that are rounded and may overflow (`Spec/Rounding.lean`).
-/
set_option linter.unusedSectionVars false
namespace Verif
open Prog Spec
variable {A : Rounding}

theorem inner_translation : Inner (mostOf translationLimits) codeTranslation := by
  refine ⟨⟨?_, ?_, ?_⟩, ?_, ?_, ?_, ?_, ?_, ?_, ?_, ?_⟩ <;> norm_num [mostOf, translationLimits, codeTranslation, abs_le]

theorem inner_rotation : Inner (mostOf rotationLimits) codeRotation := by
  refine ⟨⟨?_, ?_, ?_⟩, ?_, ?_, ?_, ?_, ?_, ?_, ?_, ?_⟩ <;> norm_num [mostOf, rotationLimits, codeRotation, abs_le]

theorem singles_of_limiter {u v a z : Fin 6 → ℝ}
    (h : limit_rate_cartesian_velocity MAX_TRANSLATIONAL_VELOCITY MAX_TRANSLATIONAL_ACCELERATION MAX_TRANSLATIONAL_JERK MAX_ROTATIONAL_VELOCITY MAX_ROTATIONAL_ACCELERATION
      MAX_ROTATIONAL_JERK (Arr.rd u) (Arr.rd v) (Arr.rd a) = (.ok (Arr.rd z) : P (Arr (Rd A) 6))) :
    limit_rate_single_cartesian_velocity MAX_TRANSLATIONAL_VELOCITY MAX_TRANSLATIONAL_ACCELERATION MAX_TRANSLATIONAL_JERK (Arr.rd (linear u)) (Arr.rd (linear v))
        (Arr.rd (linear a)) = (Arr.rd (linear z) : Arr (Rd A) 3) ∧
      limit_rate_single_cartesian_velocity MAX_ROTATIONAL_VELOCITY MAX_ROTATIONAL_ACCELERATION MAX_ROTATIONAL_JERK (Arr.rd (angular u)) (Arr.rd (angular v))
        (Arr.rd (angular a)) = (Arr.rd (angular z) : Arr (Rd A) 3) := by
  unfold limit_rate_cartesian_velocity at h
  rw [rd_assertFinite, P_bind_ok_eq, head3_rd, head3_rd, head3_rd, tail3_rd, tail3_rd, tail3_rd] at h
  injection h with h
  constructor
  · funext i
    fin_cases i
    · exact congrFun h 0
    · exact congrFun h 1
    · exact congrFun h 2
  · funext i
    fin_cases i
    · exact congrFun h 3
    · exact congrFun h 4
    · exact congrFun h 5

/-- What the limiter makes of a command that keeps a distance to the limits. -/
theorem limiter_keeps {u v a z : Fin 6 → ℝ}
    (h : limit_rate_cartesian_velocity MAX_TRANSLATIONAL_VELOCITY MAX_TRANSLATIONAL_ACCELERATION MAX_TRANSLATIONAL_JERK MAX_ROTATIONAL_VELOCITY MAX_ROTATIONAL_ACCELERATION
      MAX_ROTATIONAL_JERK (Arr.rd u) (Arr.rd v) (Arr.rd a) = (.ok (Arr.rd z) : P (Arr (Rd A) 6))) :
    (Clear codeTranslation (linear u) (linear v) (linear a) → ∀ i, |linear z i - linear u i| ≤ 1 / 10 ^ 15) ∧
      (Clear codeRotation (angular u) (angular v) (angular a) → ∀ i, |angular z i - angular u i| ≤ 1 / 10 ^ 15) := by
  obtain ⟨t1, t2, t3⟩ := near_translation (A := A)
  obtain ⟨r1, r2, r3⟩ := near_rotation (A := A)
  obtain ⟨h1, h2⟩ := singles_of_limiter h
  constructor
  · intro hc
    obtain ⟨r, e1, e2⟩ := rd_single_near t1 t2 t3 roomy_translation hc
    rw [h1] at e1
    intro i
    rw [Rd.fin_inj (congrFun e1 i)]
    exact e2 i
  · intro hc
    obtain ⟨r, e1, e2⟩ := rd_single_near r1 r2 r3 roomy_rotation hc
    rw [h2] at e1
    intro i
    rw [Rd.fin_inj (congrFun e1 i)]
    exact e2 i

/-- **C105**, the limiter: a command whose velocity, acceleration and jerk respect 99.9 % of the limits is accepted, and the limiter returns it, up to 10⁻¹⁵ m/s and rad/s per
component. -/
theorem C105_limiter (u v a : Fin 6 → ℝ) (h1 : len (linear v) ≤ (mostOf translationLimits).velocity) (h2 : len (angular v) ≤ (mostOf rotationLimits).velocity)
    (ha : ∀ i, |a i| ≤ 25) (h3 : CartesianAllowed (mostOf translationLimits) (linear u) (linear v) (linear a))
    (h4 : CartesianAllowed (mostOf rotationLimits) (angular u) (angular v) (angular a)) :
    ∃ x, limit_rate_cartesian_velocity MAX_TRANSLATIONAL_VELOCITY MAX_TRANSLATIONAL_ACCELERATION MAX_TRANSLATIONAL_JERK MAX_ROTATIONAL_VELOCITY MAX_ROTATIONAL_ACCELERATION
        MAX_ROTATIONAL_JERK (Arr.rd u) (Arr.rd v) (Arr.rd a) = (.ok (Arr.rd x) : P (Arr (Rd A) 6)) ∧ ∀ i, |x i - u i| ≤ 1 / 10 ^ 15 := by
  have z : ∀ x : ℝ, ∀ {e : ℝ}, 0 ≤ e → |x - x| ≤ e := fun x e he => by rwa [sub_self, abs_zero]
  obtain ⟨x, hx, -⟩ := C101_limiter (A := A) u (v := v) (a := a) (h1.trans (by norm_num [mostOf, translationLimits])) (h2.trans (by norm_num [mostOf, rotationLimits]))
    fun i => (ha i).trans (by norm_num)
  obtain ⟨e1, e2⟩ := limiter_keeps hx
  have e1 := e1 (clear_of_near inner_translation h3 h1 (fun i => by fin_cases i <;> exact ha _) (fun i => z _ (by norm_num)) (fun i => z _ (by norm_num)) fun i => z _ (by norm_num))
  have e2 := e2 (clear_of_near inner_rotation h4 h2 (fun i => by fin_cases i <;> exact ha _) (fun i => z _ (by norm_num)) (fun i => z _ (by norm_num)) fun i => z _ (by norm_num))
  refine ⟨x, hx, fun i => ?_⟩
  fin_cases i
  · exact e1 0
  · exact e1 1
  · exact e1 2
  · exact e2 0
  · exact e2 1
  · exact e2 2

/-- The conversion of a command, in its two steps. -/
theorem rd_cartesian_limited {out : CartesianVelocities (Rd A)} {u v a z : Fin 6 → ℝ} {st : RobotState (Rd A)} {m m' : MotionGeneratorCommand (Rd A)} {cutoff : Rd A}
    (hu : out.O_dP_EE = Arr.rd u) (hv : st.O_dP_EE_c = Arr.rd v) (ha : st.O_ddP_EE_c = Arr.rd a) (h : out.convert_motion st m cutoff true = .ok m') (hz : m'.O_dP_EE_c = Arr.rd z) :
    ∃ r : Fin 6 → ℝ, (if Fl.flt cutoff MAX_CUTOFF_FREQUENCY then
        (Arr.tabulateP fun i => low_pass_filter DELTA_T ((Arr.rd u : Arr (Rd A) 6) i) ((Arr.rd v : Arr (Rd A) 6) i) cutoff) else pure (Arr.rd u)) = .ok (Arr.rd r) ∧
      limit_rate_cartesian_velocity MAX_TRANSLATIONAL_VELOCITY MAX_TRANSLATIONAL_ACCELERATION MAX_TRANSLATIONAL_JERK MAX_ROTATIONAL_VELOCITY MAX_ROTATIONAL_ACCELERATION
        MAX_ROTATIONAL_JERK (Arr.rd r) (Arr.rd v) (Arr.rd a) = (.ok (Arr.rd z) : P (Arr (Rd A) 6)) := by
  have h : ((if Fl.flt cutoff MAX_CUTOFF_FREQUENCY then Arr.tabulateP fun i => low_pass_filter DELTA_T (out.O_dP_EE i) (st.O_dP_EE_c i) cutoff else pure out.O_dP_EE) >>= fun x =>
      limit_rate_cartesian_velocity MAX_TRANSLATIONAL_VELOCITY MAX_TRANSLATIONAL_ACCELERATION MAX_TRANSLATIONAL_JERK
        MAX_ROTATIONAL_VELOCITY MAX_ROTATIONAL_ACCELERATION MAX_ROTATIONAL_JERK x st.O_dP_EE_c st.O_ddP_EE_c >>= fun y =>
      assertFinite y >>= fun _ => convert_elbow out.elbow st { m with O_dP_EE_c := y } cutoff true) = .ok m' := by
    rw [← h]
    unfold CartesianVelocities.convert_motion
    split <;> rfl
  rw [hu, hv, ha] at h
  obtain ⟨x, h1, h⟩ := P_bind_inv h
  obtain ⟨y, h2, h⟩ := P_bind_inv h
  obtain ⟨_, -, h⟩ := P_bind_inv h
  have h9 := rd_elbow_keeps h
  rw [hz] at h9
  have hx : ∃ u, x = Arr.rd u := by
    unfold limit_rate_cartesian_velocity at h2
    obtain ⟨_, h4, -⟩ := P_bind_inv h2
    exact rd_assertFinite_inv h4
  obtain ⟨r, rfl⟩ := hx
  refine ⟨r, h1, ?_⟩
  rw [h2]
  exact congrArg Except.ok h9.symm

/-! ## Control calls -/

section
variable [Wire (Rd A)] [Geo (Rd A)] {w : World (Rd A)} (hw : RobotReachable w) {c : RobotCall (Rd A)} {σ : Type} {c0 : σ}
include hw

theorem rd_cartesian_follow {f g : ℝ} {call : ControlCall (Rd A) σ .CartesianVelocities} (hc : IsControl c call c0) (hl : call.limit_rate = true) (hf : GoesBy call.cutoff f g)
    (u v a x : Fin 6 → ℕ → ℝ)
    (returned : ∀ n < answered w c, ∀ out, (motionOutputs .CartesianVelocities (newEvents w (c.run w).2))[n]? = some out → CartesianVelocities.O_dP_EE out = Arr.rd (sample u n))
    (reported : ∀ n st x, Exchange w c n st x → st.O_dP_EE_c = Arr.rd (sample v n) ∧ st.O_ddP_EE_c = Arr.rd (sample a n))
    (close : ∀ i n, n < answered w c → |a i n - rate (v i) n| ≤ 1 / 10 ^ 7)
    (commanded : ∀ n st x, Exchange w c n st x → x.motion.O_dP_EE_c = Arr.rd (sample v (n + 1)))
    (inside1 : CartesianInside (answered w c) translationLimits (translation fun i => starting (v i 0) (u i)))
    (inside2 : CartesianInside (answered w c) rotationLimits (rotation fun i => starting (v i 0) (u i)))
    (exact : ∀ i, x i 0 = v i 0 ∧ ∀ n < answered w c, x i (n + 1) = g * u i n + (1 - g) * x i n) :
    ∀ n ≤ answered w c, ∀ i, |v i n - x i n| ≤ (16 / 10 ^ 15 + 1 / 10 ^ 15) / g := by
  obtain ⟨g1, g2⟩ := hf.bounds
  have g0 : 0 < g := lt_of_lt_of_le (by norm_num) g1
  have hsmall : (16 / 10 ^ 15 + 1 / 10 ^ 15) / g ≤ 1 / 10 ^ 7 := by
    rw [div_le_iff₀ g0]
    linarith
  have step : ∀ n < answered w c, ∃ r : Fin 6 → ℝ, (∀ i, |u i n| ≤ 4 → |v i n| ≤ 4 → |r i - (g * u i n + (1 - g) * v i n)| ≤ 16 / 10 ^ 15) ∧
      (Clear codeTranslation (linear r) (linear (sample v n)) (linear (sample a n)) → ∀ i, |linear (sample v (n + 1)) i - linear r i| ≤ 1 / 10 ^ 15) ∧
      (Clear codeRotation (angular r) (angular (sample v n)) (angular (sample a n)) → ∀ i, |angular (sample v (n + 1)) i - angular r i| ≤ 1 / 10 ^ 15) := by
    intro n hn
    obtain ⟨st, y, hx⟩ := exchange_exists hn
    obtain ⟨pre, t, k1, k2, k3, -, k5⟩ := turn_at hw hc hx
    obtain ⟨r1, r2⟩ := reported n st y hx
    have hconv := k1.moved.conv
    rw [hl, k2] at hconv
    have hq : y.motion.O_dP_EE_c = t.m.O_dP_EE_c := by
      rw [← k3]
      unfold Turn.cmd
      split <;> rfl
    obtain ⟨r, h1, h2⟩ := rd_cartesian_limited (returned n hn _ k5) r1 r2 hconv (hq.symm.trans (commanded n st y hx))
    obtain ⟨e1, e2⟩ := limiter_keeps h2
    exact ⟨r, fun i hu hv => (reaches_limiter (B := 4) (by norm_num) (by norm_num) hf h1 i hu hv).trans (by norm_num), e1, e2⟩
  -- what the callback asks for
  have hu1 : ∀ n < answered w c, ∀ i, |translation u i n| ≤ 4 := fun n hn i => by
    have h := (len_comp _ i).trans (cartesian_within inner_translation.ok inside1.1 inside1.2 (n + 1) hn)
    have e : translation u i n = sample (translation fun i => starting (v i 0) (u i)) (n + 1) i := by fin_cases i <;> rfl
    rw [e]
    exact h.trans (by norm_num [mostOf, translationLimits])
  have hu2 : ∀ n < answered w c, ∀ i, |rotation u i n| ≤ 4 := fun n hn i => by
    have h := (len_comp _ i).trans (cartesian_within inner_rotation.ok inside2.1 inside2.2 (n + 1) hn)
    have e : rotation u i n = sample (rotation fun i => starting (v i 0) (u i)) (n + 1) i := by fin_cases i <;> rfl
    rw [e]
    exact h.trans (by norm_num [mostOf, rotationLimits])
  have p1 := cartesian_follows inner_translation (u := translation u) (x := translation x) (y := translation v) (a := translation a) g0 g2 (by norm_num) (by norm_num) hsmall
    (fun i => by fin_cases i <;> exact (exact _).1) (fun i n hn => by fin_cases i <;> exact (exact _).2 n hn)
    (by
      have h := inside1.1
      rwa [show sample (translation fun i => starting (v i 0) (u i)) 0 = sample (translation v) 0 by funext i; fin_cases i <;> rfl] at h)
    (by
      have h := inside1.2
      rwa [show (translation fun i => starting (v i 0) (u i)) = fun i => starting (translation v i 0) (translation u i) by
        funext i n; cases n <;> fin_cases i <;> rfl] at h)
    (fun i n hn => by fin_cases i <;> exact close _ n hn)
    (fun n hn hv => by
      obtain ⟨r, h1, h2, -⟩ := step n hn
      refine ⟨linear r, fun i => ?_, h2⟩
      have h3 := hu1 n hn i
      have h4 := (hv i).trans (by norm_num : (3 : ℝ) ≤ 4)
      fin_cases i <;> exact h1 _ h3 h4)
  have p2 := cartesian_follows inner_rotation (u := rotation u) (x := rotation x) (y := rotation v) (a := rotation a) g0 g2 (by norm_num) (by norm_num) hsmall
    (fun i => by fin_cases i <;> exact (exact _).1) (fun i n hn => by fin_cases i <;> exact (exact _).2 n hn)
    (by
      have h := inside2.1
      rwa [show sample (rotation fun i => starting (v i 0) (u i)) 0 = sample (rotation v) 0 by funext i; fin_cases i <;> rfl] at h)
    (by
      have h := inside2.2
      rwa [show (rotation fun i => starting (v i 0) (u i)) = fun i => starting (rotation v i 0) (rotation u i) by
        funext i n; cases n <;> fin_cases i <;> rfl] at h)
    (fun i n hn => by fin_cases i <;> exact close _ n hn)
    (fun n hn hv => by
      obtain ⟨r, h1, -, h2⟩ := step n hn
      refine ⟨angular r, fun i => ?_, h2⟩
      have h3 := hu2 n hn i
      have h4 := (hv i).trans (by norm_num : (3 : ℝ) ≤ 4)
      fin_cases i <;> exact h1 _ h3 h4)
  intro n hn i
  fin_cases i
  · exact p1 n hn 0
  · exact p1 n hn 1
  · exact p1 n hn 2
  · exact p2 n hn 0
  · exact p2 n hn 1
  · exact p2 n hn 2

/-- **C105**, with rate limiting and without the low-pass filter: `u i n` is the component `i` of the velocity which the motion callback returned in its `n`-th call, `v i n` the
one that the robot reports in the `n`-th state and `v i (n + 1)` the one in the command for it. The robot reports the acceleration with an error of at most 10⁻⁷. If the
velocities of the callback stay within 99.9 % of the limits, then every command has the velocities of the callback, up to 2·10⁻¹⁴ m/s and rad/s. The elbow is any. -/
theorem C105_velocities {call : ControlCall (Rd A) σ .CartesianVelocities} (hc : IsControl c call c0) (hl : call.limit_rate = true)
    (hf : Fl.flt call.cutoff (Fl.lit 1000) = false) (u v a : Fin 6 → ℕ → ℝ)
    (returned : ∀ n out, (motionOutputs .CartesianVelocities (newEvents w (c.run w).2))[n]? = some out → CartesianVelocities.O_dP_EE out = Arr.rd (sample u n))
    (reported : ∀ n st x, Exchange w c n st x → st.O_dP_EE_c = Arr.rd (sample v n) ∧ st.O_ddP_EE_c = Arr.rd (sample a n))
    (close : ∀ i n, n < answered w c → |a i n - rate (v i) n| ≤ 1 / 10 ^ 7)
    (commanded : ∀ n st x, Exchange w c n st x → x.motion.O_dP_EE_c = Arr.rd (sample v (n + 1)))
    (inside1 : CartesianInside (answered w c) translationLimits (translation fun i => starting (v i 0) (u i)))
    (inside2 : CartesianInside (answered w c) rotationLimits (rotation fun i => starting (v i 0) (u i))) :
    ∀ n < answered w c, ∀ i, |v i (n + 1) - u i n| ≤ 2 / 10 ^ 14 := fun n hn i =>
  (rd_cartesian_follow hw hc hl (f := 0) (.inl ⟨hf, rfl⟩) u v a (fun i => starting (v i 0) (u i)) (fun n _ => returned n) reported close commanded inside1 inside2
    (fun i => ⟨rfl, fun n _ => by simp [starting]⟩) (n + 1) hn i).trans (by norm_num)

/-- **C105**, with rate limiting and with the low-pass filter: as above, and `x i` are the velocities `u i` of the callback after an exact low pass with the cutoff frequency
`f`. The commands are these velocities, up to 10⁻¹⁰ m/s and rad/s, for as long as the motion lasts. -/
theorem C105_filtered_velocities {f : ℝ} (h0 : 0.1 ≤ f) (h1 : f ≤ 999) {call : ControlCall (Rd A) σ .CartesianVelocities} (hc : IsControl c call c0)
    (hl : call.limit_rate = true) (hf : call.cutoff = Rd.fin f) (u v a x : Fin 6 → ℕ → ℝ)
    (returned : ∀ n out, (motionOutputs .CartesianVelocities (newEvents w (c.run w).2))[n]? = some out → CartesianVelocities.O_dP_EE out = Arr.rd (sample u n))
    (reported : ∀ n st x, Exchange w c n st x → st.O_dP_EE_c = Arr.rd (sample v n) ∧ st.O_ddP_EE_c = Arr.rd (sample a n))
    (close : ∀ i n, n < answered w c → |a i n - rate (v i) n| ≤ 1 / 10 ^ 7)
    (commanded : ∀ n st x, Exchange w c n st x → x.motion.O_dP_EE_c = Arr.rd (sample v (n + 1)))
    (inside1 : CartesianInside (answered w c) translationLimits (translation fun i => starting (v i 0) (u i)))
    (inside2 : CartesianInside (answered w c) rotationLimits (rotation fun i => starting (v i 0) (u i)))
    (exact : ∀ i, x i 0 = v i 0 ∧ LowPassedFor (answered w c) f (u i) (x i)) :
    ∀ n ≤ answered w c, ∀ i, |v i n - x i n| ≤ 1 / 10 ^ 10 := fun n hn i =>
  (rd_cartesian_follow hw hc hl (.inr ⟨hf, h0, h1, rfl⟩) u v a x (fun n _ => returned n) reported close commanded inside1 inside2
    (fun i => ⟨(exact i).1, followed_exact rfl (lt_of_lt_of_le (by norm_num) h0) (exact i).2⟩) n hn i).trans (share_bound hw h0 h1 (by norm_num) (by norm_num))

end
end Verif
