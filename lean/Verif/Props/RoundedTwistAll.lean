import Verif.Props.RoundedTwistHappens
/-!
# The filtered Cartesian velocities of C105 happen

For every sequence of velocities inside the limits there is a robot that follows it. This shows that the hypotheses of `C105_filtered_velocities` are met.
-/
set_option linter.unusedSectionVars false
namespace Verif
open Prog Spec Fl

variable {A : Rounding}

namespace TwistAll

/-- A callback that counts its calls, returns the `n`-th velocities in its `n`-th call and says in call `N` that it has finished. -/
noncomputable def program (A : Rounding) (u : Fin 6 → ℕ → ℝ) (N : ℕ) (n : ℕ) (_ : RobotState (Rd A)) (_ : ℕ) : ℕ × CartesianVelocities (Rd A) :=
  (n + 1, ⟨decide (N ≤ n), Arr.rd (sample u n), none⟩)

/-- `control_cartesian_velocities` with this callback, with rate limiting and this cutoff frequency. -/
noncomputable def twistProgram (A : Rounding) (u : Fin 6 → ℕ → ℝ) (N : ℕ) (f : ℝ) : RobotCall (Rd A) :=
  .control_motion _ .CartesianVelocities (program A u N) none none (some (Rd.fin f)) 0

noncomputable def callOf (A : Rounding) (u : Fin 6 → ℕ → ℝ) (N : ℕ) (f : ℝ) : ControlCall (Rd A) ℕ .CartesianVelocities :=
  { motion := program A u N, torque := none, controller := requestedController none, limit_rate := (none : Option Bool).getD true,
    cutoff := (some (Rd.fin f : Rd A)).getD (lit 100) }

theorem isControlOf (u : Fin 6 → ℕ → ℝ) (N : ℕ) (f : ℝ) : IsControl (twistProgram A u N f) (callOf A u N f) 0 := .motion _ _ _ _ _ _ _

open Classical in
/-- The velocities in the `n`-th state and in the one before. -/
noncomputable def paces (A : Rounding) (f : ℝ) (u : Fin 6 → ℕ → ℝ) : ℕ → (Fin 6 → ℝ) × (Fin 6 → ℝ)
  | 0 => (fun _ => 0, fun _ => 0)
  | n + 1 => (if h : ∃ z, smoothedTwistOf A f (sample u n) (paces A f u n).1 (fun i => ((paces A f u n).1 i - (paces A f u n).2 i) / 0.001) = .ok (Arr.rd z) then h.choose else 0,
      (paces A f u n).1)

/-- The velocity in the `n`-th state. -/
noncomputable def velocity (A : Rounding) (f : ℝ) (u : Fin 6 → ℕ → ℝ) (i : Fin 6) (n : ℕ) : ℝ := (paces A f u n).1 i

theorem velocity_next {f : ℝ} {u : Fin 6 → ℕ → ℝ} (n : ℕ) :
    smoothedTwistOf A f (sample u n) (sample (velocity A f u) n) (fun i => rate (velocity A f u i) n) = .ok (Arr.rd (sample (velocity A f u) (n + 1))) ∨
      ∀ z, smoothedTwistOf A f (sample u n) (sample (velocity A f u) n) (fun i => rate (velocity A f u i) n) ≠ .ok (Arr.rd z) := by
  have e : (fun i => rate (velocity A f u i) n) = fun i => ((paces A f u n).1 i - (paces A f u n).2 i) / 0.001 := by
    funext i
    cases n with
    | zero => show (0 : ℝ) = ((0 : ℝ) - 0) / 0.001; norm_num
    | succ n => rfl
  rw [e]
  by_cases h : ∃ z, smoothedTwistOf A f (sample u n) (paces A f u n).1 (fun i => ((paces A f u n).1 i - (paces A f u n).2 i) / 0.001) = .ok (Arr.rd z)
  · refine .inl ?_
    have e2 : sample (velocity A f u) (n + 1) = h.choose := by
      show (paces A f u (n + 1)).1 = _
      rw [paces]
      exact dif_pos h
    rw [e2]
    exact h.choose_spec
  · exact .inr fun z hz => h ⟨z, hz⟩

end TwistAll
open TwistAll

/-- **C105**, with the low-pass filter: whatever velocities inside the limits a callback returns, there is a robot that follows, and with it the hypotheses of
`C105_filtered_velocities` are met. So the commands are the velocities of the callback after an exact low pass, up to 10⁻¹⁰ m/s and rad/s. -/
theorem C105_filtered_velocities_happen [Geo (Rd A)] {f : ℝ} (h0 : 0.1 ≤ f) (h1 : f ≤ 999) {u : Fin 6 → ℕ → ℝ} {N : ℕ} (hN : N ≤ 1000000000) (hu : ∀ n ≤ N, ∀ i, |u i n| ≤ 1)
    (inside1 : CartesianInside (N + 1) translationLimits (translation fun i => starting 0 (u i)))
    (inside2 : CartesianInside (N + 1) rotationLimits (rotation fun i => starting 0 (u i))) :
    ∃ (_ : Wire (Rd A)) (w : World (Rd A)) (v x : Fin 6 → ℕ → ℝ), RobotReachable w ∧ ((twistProgram A u N f).run w).1 = .ok () ∧ answered w (twistProgram A u N f) = N + 1 ∧
      FollowsTwistsRounded v (exchanges (newEvents w ((twistProgram A u N f).run w).2)) ∧
      (∀ n out, (motionOutputs .CartesianVelocities (newEvents w ((twistProgram A u N f).run w).2))[n]? = some out → CartesianVelocities.O_dP_EE out = Arr.rd (sample u n)) ∧
      (∀ n st c, Exchange w (twistProgram A u N f) n st c → c.motion.O_dP_EE_c = Arr.rd (sample v (n + 1))) ∧
      (∀ i, x i 0 = 0 ∧ LowPassedFor (N + 1) f (u i) (x i)) ∧ ∀ n ≤ N + 1, ∀ i, |v i n - x i n| ≤ 1 / 10 ^ 10 := by
  obtain ⟨v, hv⟩ : ∃ v, v = velocity A f u := ⟨_, rfl⟩
  have hv0 : ∀ i, v i 0 = 0 := fun i => by rw [hv]; rfl
  have hgoes : ∀ n < N + 1, smoothedTwistOf A f (sample u n) (sample v n) (fun i => rate (v i) n) = .ok (Arr.rd (sample v (n + 1))) :=
    smoothed_twist_goes h0 h1 hv0 (fun n hn => hu n (by omega)) inside1 inside2 fun n _ => by rw [hv]; exact velocity_next n
  have hplan : IsPlanOf (callOf A u N f) 0 id (fun n => (⟨decide (N ≤ n), Arr.rd (sample u n), none⟩ : CartesianVelocities (Rd A))) (twistCommands v)
      (fun n st => n ≤ N ∧ TwistReported v n st) := by
    refine ⟨rfl, rfl, fun n st _ => rfl, fun n st hst => ?_⟩
    obtain ⟨hn, r⟩ := hst
    show CartesianVelocities.convert_motion ⟨decide (N ≤ n), Arr.rd (sample u n), none⟩ st _ (Rd.fin f) true = _
    exact smoothed_twist_converts (z := sample v (n + 1)) rfl h1 rfl rfl r (hgoes n (by omega)) (by cases n <;> rfl)
  obtain ⟨s, hs⟩ : ∃ s : ℕ → RobotStateIntern (Rd A), s = reportTwist 1 v := ⟨_, rfl⟩
  obtain ⟨wire, k0, kp⟩ := wire_for_twists (A := A) (fun n => (s n).O_dP_EE_c) (fun n => (s n).O_ddP_EE_c) hN
  have kz : ∀ m, Kept (fun _ => lit 0 : Arr (Rd A) m) := fun _ _ => k0
  have hrobot : RobotFor (callOf A u N f) (fun n st => n ≤ N ∧ TwistReported v n st) N
      (plainState (F := Rd A) 2 (fun _ => lit 0) (fun _ => lit 0) (fun _ => lit 0) .CartesianVelocity .JointImpedance .Move) s
      (plainState (F := Rd A) (UInt64.ofNat (N + 4)) (fun _ => lit 0) (fun _ => lit 0) (fun _ => lit 0) .Idle .Other .Idle) := by
    refine ⟨by omega, rfl, ⟨rfl, rfl⟩, fun n _ => ?_, fun n _ => by rw [hs]; exact ⟨rfl, rfl, rfl⟩, fun n hn => ⟨hn, by rw [hs]; exact ⟨rfl, rfl⟩⟩, rfl, ?_,
      plainState_holds k0 (kz 7) (kz 7) (kz 7), fun n hn => ?_, plainState_holds k0 (kz 7) (kz 7) (kz 7)⟩
    · rw [hs]
      show UInt64.ofNat (1 + 2 + n) = _
      rw [Nat.add_comm]
    · rintro (h | h) <;> first | exact h rfl | cases h
    · obtain ⟨h1, h2⟩ := kp n hn
      rw [hs] at h1 h2 ⊢
      exact cartesianState_holds k0 (kz 16) h1 h2 (kz 2) (kz 2) (kz 2)
  obtain ⟨w, g1, g2, g3⟩ := hplan.happens hrobot (fun n hn => decide_eq_false (by omega)) (decide_eq_true le_rfl) (isControlOf (A := A) u N f)
  have ha : answered w (twistProgram A u N f) = N + 1 := by
    unfold answered
    rw [g3]
    simp
  have hf : FollowsTwistsRounded v (exchanges (newEvents w ((twistProgram A u N f).run w).2)) := by
    rw [g3]
    exact twist_reports_follow hv0 (by omega) hs
  have hx : ∀ n st c, Exchange w (twistProgram A u N f) n st c → (n ≤ N ∧ TwistReported v n st) ∧ c.motion.O_dP_EE_c = Arr.rd (sample v (n + 1)) := by
    intro n st c h
    unfold Exchange at h
    rw [g3, List.getElem?_map] at h
    obtain ⟨j, hj, e⟩ := Option.map_eq_some_iff.1 h
    obtain ⟨hn, hj⟩ := List.getElem?_eq_some_iff.1 hj
    rw [List.getElem_range] at hj
    rw [List.length_range] at hn
    subst hj
    simp only [Prod.mk.injEq] at e
    rw [← e.1, ← e.2, hs]
    refine ⟨⟨by omega, rfl, rfl⟩, ?_⟩
    show (sentCmd _ (twistCommands v) n).O_dP_EE_c = _
    unfold sentCmd
    split <;> rfl
  have hr : ∀ n out, (motionOutputs .CartesianVelocities (newEvents w ((twistProgram A u N f).run w).2))[n]? = some out →
      CartesianVelocities.O_dP_EE out = Arr.rd (sample u n) := by
    intro n out h
    obtain ⟨hn, -⟩ := List.getElem?_eq_some_iff.1 h
    obtain ⟨st, c, hc⟩ := exchange_exists (hn.trans_eq (outputs_ok g1 (isControlOf u N f) g2))
    have := (hplan.goes g1 (isControlOf u N f) (fun st c h => (hx 0 st c h).1) (fun n st c st' c' h h' _ _ => ⟨(hx _ _ _ h').1, (hf.next n st c st' c' h h').2⟩) n st c hc).2.2.2.1
    rw [Option.some.inj (h.symm.trans this)]
  have hs0 : ∀ i, Spec.starting (v i 0) (u i) = Spec.starting 0 (u i) := fun i => by rw [hv0]
  refine ⟨wire, w, v, fun i => lowPass f 0 (u i), g1, g2, ha, hf, hr, fun n st c h => (hx n st c h).2, fun i => ⟨rfl, lowPass_is (lt_of_lt_of_le (by norm_num) h0) _ _⟩, ?_⟩
  have := C105_filtered_velocities g1 h0 h1 (isControlOf u N f) rfl rfl u v (fun i => rate (v i)) (fun i => lowPass f 0 (u i)) hr
    (fun n st c h => ⟨(hx n st c h).1.2.1, (hx n st c h).1.2.2⟩) (fun i n _ => by rw [sub_self, abs_zero]; norm_num) (fun n st c h => (hx n st c h).2)
    (by simp only [hs0]; rw [ha]; exact inside1) (by simp only [hs0]; rw [ha]; exact inside2)
    (fun i => ⟨(hv0 i).symm, lowPass_is (lt_of_lt_of_le (by norm_num) h0) _ _⟩)
  rwa [ha] at this

/-- For example the velocities that the Cartesian velocity example is meant to have, for one second and with the rounding of `f64`. -/
example [Geo (Rd binary64)] : ∃ (_ : Wire (Rd binary64)) (w : World (Rd binary64)) (v : Fin 6 → ℕ → ℝ), RobotReachable w ∧
    ((twistProgram binary64 CartesianVelocityExample.target 1000 100).run w).1 = .ok () ∧
    FollowsTwistsRounded v (exchanges (newEvents w ((twistProgram binary64 CartesianVelocityExample.target 1000 100).run w).2)) := by
  have hin := RoundedTwist.inside (N := 1001) (u := fun n i => CartesianVelocityExample.target i n) fun n _ i => by rw [sub_self, abs_zero]; norm_num
  obtain ⟨wire, w, v, x, g1, g2, -, g3, -⟩ := C105_filtered_velocities_happen (A := binary64) (f := 100) (by norm_num) (by norm_num) (u := CartesianVelocityExample.target) (N := 1000)
    (by norm_num) (fun n _ i => (RoundedTwist.target_abs i n).trans (by norm_num)) hin.1 hin.2
  exact ⟨wire, w, v, g1, g2, g3⟩

end Verif
