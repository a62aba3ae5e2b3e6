import Verif.Props.RoundedVelocityHappens
/-!
# The filtered joint velocities of C104 happen

For every sequence of velocities inside the limits there is a robot that follows it. This shows that the hypotheses of `C104_filtered_joint_velocities` are met.
-/
set_option linter.unusedSectionVars false
namespace Verif
open Prog Spec Fl

variable {A : Rounding}

namespace VelocityAll

/-- A callback that counts its calls, returns the `n`-th velocities in its `n`-th call and says in call `N` that it has finished. -/
noncomputable def program (A : Rounding) (u : Fin 7 → ℕ → ℝ) (N : ℕ) (n : ℕ) (_ : RobotState (Rd A)) (_ : ℕ) : ℕ × JointVelocities (Rd A) :=
  (n + 1, ⟨decide (N ≤ n), Arr.rd fun i => u i n⟩)

/-- `control_joint_velocities` with this callback, with rate limiting and this cutoff frequency. -/
noncomputable def velocityProgram (A : Rounding) (u : Fin 7 → ℕ → ℝ) (N : ℕ) (f : ℝ) : RobotCall (Rd A) :=
  .control_motion _ .JointVelocities (program A u N) none none (some (Rd.fin f)) 0

noncomputable def callOf (A : Rounding) (u : Fin 7 → ℕ → ℝ) (N : ℕ) (f : ℝ) : ControlCall (Rd A) ℕ .JointVelocities :=
  { motion := program A u N, torque := none, controller := requestedController none, limit_rate := (none : Option Bool).getD true,
    cutoff := (some (Rd.fin f : Rd A)).getD (lit 100) }

theorem isControlOf (u : Fin 7 → ℕ → ℝ) (N : ℕ) (f : ℝ) : IsControl (velocityProgram A u N f) (callOf A u N f) 0 := .motion _ _ _ _ _ _ _

open Classical in
/-- The velocity of a joint in the `n`-th state and in the one before. -/
noncomputable def paces (A : Rounding) (f : ℝ) (u : Fin 7 → ℕ → ℝ) (i : Fin 7) : ℕ → ℝ × ℝ
  | 0 => (0, 0)
  | n + 1 => (if h : ∃ z, smoothedVelocityOf A f i (u i n) (paces A f u i n).1 (((paces A f u i n).1 - (paces A f u i n).2) / 0.001) = .ok (Rd.fin z) then h.choose else 1000,
      (paces A f u i n).1)

/-- The velocity in the `n`-th state. -/
noncomputable def velocity (A : Rounding) (f : ℝ) (u : Fin 7 → ℕ → ℝ) (i : Fin 7) (n : ℕ) : ℝ := (paces A f u i n).1

theorem velocity_next {f : ℝ} {u : Fin 7 → ℕ → ℝ} (i : Fin 7) (n : ℕ) :
    smoothedVelocityOf A f i (u i n) (velocity A f u i n) (rate (velocity A f u i) n) = .ok (Rd.fin (velocity A f u i (n + 1))) ∨
      (∀ z, smoothedVelocityOf A f i (u i n) (velocity A f u i n) (rate (velocity A f u i) n) ≠ .ok (Rd.fin z)) ∧ velocity A f u i (n + 1) = 1000 := by
  have e : rate (velocity A f u i) n = ((paces A f u i n).1 - (paces A f u i n).2) / 0.001 := by
    cases n with
    | zero => show (0 : ℝ) = ((0 : ℝ) - 0) / 0.001; norm_num
    | succ n => rfl
  rw [e]
  by_cases h : ∃ z, smoothedVelocityOf A f i (u i n) (paces A f u i n).1 (((paces A f u i n).1 - (paces A f u i n).2) / 0.001) = .ok (Rd.fin z)
  · refine .inl ?_
    have e2 : velocity A f u i (n + 1) = h.choose := by
      show (paces A f u i (n + 1)).1 = _
      rw [paces]
      exact dif_pos h
    rw [e2]
    exact h.choose_spec
  · refine .inr ⟨fun z hz => h ⟨z, hz⟩, ?_⟩
    show (paces A f u i (n + 1)).1 = _
    rw [paces]
    exact dif_neg h

end VelocityAll
open VelocityAll

/-- **C104**, joint velocities with the low-pass filter: whatever velocities inside the limits a callback returns, there is a robot that follows, and with it the hypotheses
of `C104_filtered_joint_velocities` are met. So the commands are the velocities of the callback after an exact low pass, up to 10⁻⁸ rad/s. -/
theorem C104_filtered_joint_velocities_happen [Geo (Rd A)] {f : ℝ} (h0 : 0.1 ≤ f) (h1 : f ≤ 999) {u : Fin 7 → ℕ → ℝ} {N : ℕ} (hN : N ≤ 1000000000) (hu : ∀ n ≤ N, ∀ i, |u i n| ≤ 4)
    (inside : ∀ i, VelocityInside (N + 1) (jointLimits i) (starting 0 (u i))) :
    ∃ (_ : Wire (Rd A)) (w : World (Rd A)) (v x : Fin 7 → ℕ → ℝ), RobotReachable w ∧ ((velocityProgram A u N f).run w).1 = .ok () ∧ answered w (velocityProgram A u N f) = N + 1 ∧
      FollowsVelocitiesRounded v (exchanges (newEvents w ((velocityProgram A u N f).run w).2)) ∧
      (∀ n out, (motionOutputs .JointVelocities (newEvents w ((velocityProgram A u N f).run w).2))[n]? = some out → JointVelocities.dq out = Arr.rd fun i => u i n) ∧
      (∀ n st c, Exchange w (velocityProgram A u N f) n st c → c.motion.dq_c = Arr.rd fun i => v i (n + 1)) ∧
      ∀ i, (x i 0 = 0 ∧ LowPassedFor (N + 1) f (u i) (x i)) ∧ ∀ n ≤ N + 1, |v i n - x i n| ≤ 1 / 10 ^ 8 := by
  obtain ⟨v, hv⟩ : ∃ v, v = velocity A f u := ⟨_, rfl⟩
  have hv0 : ∀ i, v i 0 = 0 := fun i => by rw [hv]; rfl
  have hgoes : ∀ i, ∀ n < N + 1, smoothedVelocityOf A f i (u i n) (v i n) (rate (v i) n) = .ok (Rd.fin (v i (n + 1))) := fun i =>
    smoothed_velocity_goes i h0 h1 (by rw [hv0, abs_zero]; norm_num) (fun n hn => hu n (by omega) i) (by rw [hv0]; exact inside i) fun n _ => by rw [hv]; exact velocity_next i n
  have hplan : IsPlanOf (callOf A u N f) 0 id (fun n => (⟨decide (N ≤ n), Arr.rd fun i => u i n⟩ : JointVelocities (Rd A))) (velocityCommands v)
      (fun n st => n ≤ N ∧ VelocityReported v n st) := by
    refine ⟨rfl, rfl, fun n st _ => rfl, fun n st hst => ?_⟩
    obtain ⟨hn, r⟩ := hst
    show JointVelocities.convert_motion ⟨decide (N ≤ n), Arr.rd fun i => u i n⟩ st _ (Rd.fin f) true = _
    exact smoothed_velocity_converts (z := fun i => v i (n + 1)) rfl h1 rfl r (fun i => hgoes i n (by omega)) (by cases n <;> rfl)
  obtain ⟨s, hs⟩ : ∃ s : ℕ → RobotStateIntern (Rd A), s = reportVelocity 1 v := ⟨_, rfl⟩
  obtain ⟨wire, k0, kp⟩ := wire_for_arrays (F := Rd A) (fun n => ![(s n).q_d, (s n).dq_d, (s n).ddq_d]) hN
  have kz : Kept (fun _ => lit 0 : Arr (Rd A) 7) := fun _ => k0
  have hrobot : RobotFor (callOf A u N f) (fun n st => n ≤ N ∧ VelocityReported v n st) N
      (plainState (F := Rd A) 2 (fun _ => lit 0) (fun _ => lit 0) (fun _ => lit 0) .JointVelocity .JointImpedance .Move) s
      (plainState (F := Rd A) (UInt64.ofNat (N + 4)) (fun _ => lit 0) (fun _ => lit 0) (fun _ => lit 0) .Idle .Other .Idle) := by
    refine ⟨by omega, rfl, ⟨rfl, rfl⟩, fun n _ => ?_, fun n _ => by rw [hs]; exact ⟨rfl, rfl, rfl⟩, fun n hn => ⟨hn, by rw [hs]; exact ⟨rfl, rfl⟩⟩, rfl, ?_,
      plainState_holds k0 kz kz kz, fun n hn => ?_, plainState_holds k0 kz kz kz⟩
    · rw [hs]
      show UInt64.ofNat (1 + 2 + n) = _
      rw [Nat.add_comm]
    · rintro (h | h) <;> first | exact h rfl | cases h
    · have h1 := kp n hn 0
      have h2 := kp n hn 1
      have h3 := kp n hn 2
      rw [hs] at h1 h2 h3 ⊢
      exact plainState_holds k0 h1 h2 h3
  obtain ⟨w, g1, g2, g3⟩ := hplan.happens hrobot (fun n hn => decide_eq_false (by omega)) (decide_eq_true le_rfl) (isControlOf (A := A) u N f)
  have ha : answered w (velocityProgram A u N f) = N + 1 := by
    unfold answered
    rw [g3]
    simp
  have hf : FollowsVelocitiesRounded v (exchanges (newEvents w ((velocityProgram A u N f).run w).2)) := by
    rw [g3]
    exact velocity_reports_follow hv0 (by omega) hs
  have hx : ∀ n st c, Exchange w (velocityProgram A u N f) n st c → (n ≤ N ∧ VelocityReported v n st) ∧ c.motion.dq_c = Arr.rd fun i => v i (n + 1) := by
    intro n st c h
    unfold Exchange at h
    rw [g3, List.getElem?_map] at h
    obtain ⟨j, hj, e⟩ := Option.map_eq_some_iff.1 h
    obtain ⟨hn, hj⟩ := List.getElem?_eq_some_iff.1 hj
    rw [List.getElem_range] at hj
    rw [List.length_range] at hn
    subst hj
    simp only [Prod.mk.injEq] at e
    rw [← e.1, ← e.2, hs]
    refine ⟨⟨by omega, rfl, rfl⟩, ?_⟩
    show (sentCmd _ (velocityCommands v) n).dq_c = _
    unfold sentCmd
    split <;> rfl
  have hr : ∀ n out, (motionOutputs .JointVelocities (newEvents w ((velocityProgram A u N f).run w).2))[n]? = some out → JointVelocities.dq out = Arr.rd fun i => u i n := by
    intro n out h
    obtain ⟨hn, -⟩ := List.getElem?_eq_some_iff.1 h
    obtain ⟨st, c, hc⟩ := exchange_exists (hn.trans_eq (outputs_ok g1 (isControlOf u N f) g2))
    have := (hplan.goes g1 (isControlOf u N f) (fun st c h => (hx 0 st c h).1) (fun n st c st' c' h h' _ _ => ⟨(hx _ _ _ h').1, (hf.next n st c st' c' h h').2⟩) n st c hc).2.2.2.1
    rw [Option.some.inj (h.symm.trans this)]
  refine ⟨wire, w, v, fun i => lowPass f 0 (u i), g1, g2, ha, hf, hr, fun n st c h => (hx n st c h).2, fun i => ⟨⟨rfl, lowPass_is (lt_of_lt_of_le (by norm_num) h0) _ _⟩, ?_⟩⟩
  have := C104_filtered_joint_velocities g1 h0 h1 (isControlOf u N f) rfl rfl u v (fun i => rate (v i)) (fun i => lowPass f 0 (u i)) hr
    (fun n st c h => ⟨(hx n st c h).1.2.1, (hx n st c h).1.2.2⟩) (fun i n _ => by rw [sub_self, abs_zero]; norm_num) (fun n st c h => (hx n st c h).2)
    (fun i => by rw [hv0, ha]; exact inside i) (fun i => ⟨(hv0 i).symm, lowPass_is (lt_of_lt_of_le (by norm_num) h0) _ _⟩) i
  rwa [ha] at this

/-- For example the velocities that the joint velocity example is meant to have, for one second and with the rounding of `f64`. -/
example [Geo (Rd binary64)] : ∃ (_ : Wire (Rd binary64)) (w : World (Rd binary64)) (v : Fin 7 → ℕ → ℝ), RobotReachable w ∧
    ((velocityProgram binary64 (VelocityExample.target 1 1000) 1000 100).run w).1 = .ok () ∧
    FollowsVelocitiesRounded v (exchanges (newEvents w ((velocityProgram binary64 (VelocityExample.target 1 1000) 1000 100).run w).2)) := by
  obtain ⟨wire, w, v, x, g1, g2, -, g3, -⟩ := C104_filtered_joint_velocities_happen (A := binary64) (f := 100) (by norm_num) (by norm_num) (u := VelocityExample.target 1 1000) (N := 1000)
    (by norm_num) (fun n _ i => (RoundedVelocity.target_abs (by norm_num) (by norm_num) 1000 i n).trans (by norm_num))
    fun i => RoundedVelocity.wave_inside (ω := 1) (by norm_num) (by norm_num) le_rfl i fun n _ => by rw [sub_self, abs_zero]; norm_num
  exact ⟨wire, w, v, g1, g2, g3⟩

end Verif
