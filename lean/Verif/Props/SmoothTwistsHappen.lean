import Verif.Props.ExampleCartesianVelocity
/-!
# C88 happens

For every sequence of Cartesian velocities within the limits there is a robot with which C88 can be applied.
-/
set_option linter.unusedSectionVars false
namespace Verif
open Prog Spec Fl

namespace TwistCallback

/-- A callback that counts its calls, returns the `n`-th velocities in its `n`-th call and says in call `N` that it has finished. -/
noncomputable def twists (u : Fin 6 → ℕ → ℝ) (N : ℕ) (n : ℕ) (_ : RobotState XR) (_ : ℕ) : ℕ × Motion XR .CartesianVelocities :=
  (n + 1, (⟨decide (N ≤ n), Arr.fin (sample u n), none⟩ : CartesianVelocities XR))

/-- `control_cartesian_velocities` with this callback, with rate limiting and this cutoff frequency. -/
noncomputable def twistProgram (u : Fin 6 → ℕ → ℝ) (N : ℕ) (f : ℝ) : RobotCall XR := .control_motion _ .CartesianVelocities (twists u N) none none (some (.fin f)) 0

noncomputable def callOf (u : Fin 6 → ℕ → ℝ) (N : ℕ) (f : ℝ) : ControlCall XR ℕ .CartesianVelocities :=
  { motion := twists u N, torque := none, controller := requestedController none, limit_rate := (none : Option Bool).getD true, cutoff := (some (XR.fin f)).getD (lit 100) }

theorem twist_control (u : Fin 6 → ℕ → ℝ) (N : ℕ) (f : ℝ) : IsControl (twistProgram u N f) (callOf u N f) 0 := .motion _ _ _ _ _ _ _

end TwistCallback
open TwistCallback

/-- **C88**: whatever velocities within the limits a callback returns, there is a robot which follows from rest, and with it the hypotheses of
`C88_cartesian_velocities` are met. So the commands are the velocities of the callback after the low pass, but for 10⁻¹³ m/s or rad/s. -/
theorem C88_cartesian_velocities_happen [Geo XR] {f : ℝ} (h0 : 0.001 ≤ f) (h1 : f < 1000) {u : Fin 6 → ℕ → ℝ} {N : ℕ} (hN : N ≤ 1000000000)
    (allowed : ∀ K, CartesianAllowedFor K translationLimits (translation fun i => starting 0 (u i)) ∧ CartesianAllowedFor K rotationLimits (rotation fun i => starting 0 (u i))) :
    ∃ (_ : Wire XR) (w : World XR) (y : Fin 6 → ℕ → ℝ), RobotReachable w ∧ ((twistProgram u N f).run w).1 = .ok () ∧ answered w (twistProgram u N f) = N + 1 ∧
      (∀ n out, (motionOutputs .CartesianVelocities (newEvents w ((twistProgram u N f).run w).2))[n]? = some out → CartesianVelocities.O_dP_EE out = Arr.fin (sample u n)) ∧
      (∀ n st x, Exchange w (twistProgram u N f) n st x → (st.O_dP_EE_c = Arr.fin (sample y n) ∧ st.O_ddP_EE_c = Arr.fin fun i => rate (y i) n) ∧
        x.motion.O_dP_EE_c = Arr.fin (sample y (n + 1))) ∧
      (∀ i, y i 0 = 0) ∧
      (NearlyLowPassedFor (N + 1) (1 / 10 ^ 13) f (translation u) (translation y) ∧ NearlyLowPassedFor (N + 1) (1 / 10 ^ 13) f (rotation u) (rotation y)) ∧
      ∀ n ≤ N, len (fun i => translation y i (n + 1) - translation u i n) ≤ translationLimits.acceleration / (2 * Real.pi * f) + 1 / 10 ^ 13 ∧
        len (fun i => rotation y i (n + 1) - rotation u i n) ≤ rotationLimits.acceleration / (2 * Real.pi * f) + 1 / 10 ^ 13 := by
  obtain ⟨y, hy⟩ : ∃ y, y = limitedTwist f u := ⟨_, rfl⟩
  obtain ⟨wire, k0, kq⟩ := Following.wire_for (N := N) (fun n i => if h : i.val < 6 then (Arr.fin (sample y n) : Arr XR 6) ⟨i, h⟩ else lit 0)
    (fun n i => if h : i.val < 6 then (Arr.fin (fun i => rate (y i) n) : Arr XR 6) ⟨i, h⟩ else lit 0) (fun _ _ => lit 0) hN
  have kp : ∀ n ≤ N, Kept (fun _ => lit 0 : Arr XR 16) ∧ Kept (Arr.fin (sample y n) : Arr XR 6) ∧ Kept (Arr.fin (fun i => rate (y i) n) : Arr XR 6) ∧
      Kept (fun _ => lit 0 : Arr XR 2) ∧ Kept (fun _ => lit 0 : Arr XR 2) ∧ Kept (fun _ => lit 0 : Arr XR 2) := by
    intro n hn
    refine ⟨fun _ => k0, fun i => ?_, fun i => ?_, fun _ => k0, fun _ => k0, fun _ => k0⟩
    · have := (kq n hn).1 ⟨i, by omega⟩
      simpa using this
    · have := (kq n hn).2.1 ⟨i, by omega⟩
      simpa using this
  have eT : (translation fun i => starting 0 (u i)) = fun i => starting 0 (translation u i) := by
    funext i n
    cases n <;> fin_cases i <;> rfl
  have eR : (rotation fun i => starting 0 (u i)) = fun i => starting 0 (rotation u i) := by
    funext i n
    cases n <;> fin_cases i <;> rfl
  have hp := planned_twists (call := callOf u N f) (u := u) (ends := fun n => decide (N ≤ n)) (cs := id) (c0 := 0) rfl rfl rfl h0 h1 rfl (fun n st => rfl)
    (fun n => by have := (allowed (n + 1)).1 n (by omega); rwa [eT] at this) (fun n => by have := (allowed (n + 1)).2 n (by omega); rwa [eR] at this)
  rw [← hy] at hp
  obtain ⟨w, g1, g2, g3⟩ := hp.happens (cartesian_robot_for (N := N) (by omega) (fun _ _ => lit 0) (fun n => Arr.fin (sample y n)) (fun n => Arr.fin fun i => rate (y i) n)
    (fun _ _ => lit 0) (fun _ _ => lit 0) (fun _ _ => lit 0) k0 kp fun n st _ _ e2 e3 _ _ _ => ⟨e2, e3⟩)
    (fun n hn => decide_eq_false (by omega : ¬ N ≤ n)) (by show decide (N ≤ N) = true; simp) (twist_control u N f)
  have ha : answered w (twistProgram u N f) = N + 1 := by
    unfold answered
    rw [g3]
    simp
  have hx : ∀ n st x, Exchange w (twistProgram u N f) n st x → (st.O_dP_EE_c = Arr.fin (sample y n) ∧ st.O_ddP_EE_c = Arr.fin fun i => rate (y i) n) ∧
      x.motion.O_dP_EE_c = Arr.fin (sample y (n + 1)) ∧ st.time = n + 3 := by
    intro n st x h
    unfold Exchange at h
    rw [g3, List.getElem?_map] at h
    obtain ⟨j, hj, e⟩ := Option.map_eq_some_iff.1 h
    obtain ⟨hn, hj⟩ := List.getElem?_eq_some_iff.1 hj
    rw [List.getElem_range] at hj
    rw [List.length_range] at hn
    subst hj
    simp only [Prod.mk.injEq] at e
    rw [← e.1, ← e.2]
    refine ⟨⟨rfl, rfl⟩, ?_, ?_⟩
    · show (sentCmd _ (twistCmd y) n).O_dP_EE_c = _
      unfold sentCmd
      split <;> rfl
    · show (UInt64.ofNat (n + 3)).toNat = n + 3
      rw [UInt64.toNat_ofNat', Nat.mod_eq_of_lt (by omega)]
  have hr : ∀ n out, (motionOutputs .CartesianVelocities (newEvents w ((twistProgram u N f).run w).2))[n]? = some out → CartesianVelocities.O_dP_EE out = Arr.fin (sample u n) := by
    intro n out h
    obtain ⟨hn, -⟩ := List.getElem?_eq_some_iff.1 h
    obtain ⟨st, x, hc⟩ := exchange_exists (hn.trans_eq (outputs_ok g1 (twist_control u N f) g2))
    have := (hp.goes g1 (twist_control u N f) (fun st x h => (hx 0 st x h).1)
      (fun n st x st' x' h h' _ _ => ⟨(hx _ _ _ h').1, by rw [(hx _ _ _ h').2.2, (hx _ _ _ h).2.2]⟩) n st x hc).2.2.2.1
    have e : out = twistOut u (fun n => decide (N ≤ n)) n := Option.some.inj (h.symm.trans this)
    rw [e]
    rfl
  have hy0 : ∀ i, y i 0 = 0 := fun i => by rw [hy]; fin_cases i <;> rfl
  have hz : sample y 0 = fun _ => 0 := funext hy0
  have hl0 : linear (fun _ : Fin 6 => (0 : ℝ)) = fun _ => 0 := by funext i; fin_cases i <;> rfl
  have ha0 : angular (fun _ : Fin 6 => (0 : ℝ)) = fun _ => 0 := by funext i; fin_cases i <;> rfl
  obtain ⟨l1, l2⟩ := C88_cartesian_velocities g1 h0 h1 (twist_control u N f) rfl rfl u y hr (fun n st x h => (hx n st x h).1) (fun n st x h => (hx n st x h).2.1)
    ⟨by rw [hz, hl0, len_zero]; norm_num [below, translationLimits], by rw [hz, ha0, len_zero]; norm_num [below, rotationLimits]⟩ (by simp only [hy0]; exact allowed _)
  rw [ha] at l1 l2
  exact ⟨wire, w, y, g1, g2, ha, hr, fun n st x h => ⟨(hx n st x h).1, (hx n st x h).2.1⟩, hy0, l1, fun n hn => l2 n (by omega)⟩

/-- For example the velocities of the Cartesian velocity example with a cutoff frequency of 10 Hz, for one second. -/
example [Geo XR] : ∃ (_ : Wire XR) (w : World XR), RobotReachable w ∧ ((twistProgram CartesianVelocityExample.target 1000 10).run w).1 = .ok () := by
  have eT : (translation fun i => starting 0 (CartesianVelocityExample.target i)) = fun i => starting 0 (translation CartesianVelocityExample.target i) := by
    funext i n
    cases n <;> fin_cases i <;> rfl
  have eR : (rotation fun i => starting 0 (CartesianVelocityExample.target i)) = fun i => starting 0 (rotation CartesianVelocityExample.target i) := by
    funext i n
    cases n <;> fin_cases i <;> rfl
  obtain ⟨wire, w, y, g1, g2, -⟩ := C88_cartesian_velocities_happen (f := 10) (by norm_num) (by norm_num) (u := CartesianVelocityExample.target) (N := 1000) (by norm_num)
    fun K => ⟨fun n _ => by rw [eT]; exact CartesianVelocityExample.allowedT n, fun n _ => by rw [eR]; exact CartesianVelocityExample.allowedR n⟩
  exact ⟨wire, w, g1, g2⟩

end Verif
