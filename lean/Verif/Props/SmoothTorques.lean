import Verif.Lemmas.PlannedTorques
import Verif.Lemmas.PlannedJoints
import Verif.Props.Smooth
import Verif.Props.ExampleCommunication
/-!
# C80 for torques happens

For every sequence of torques within the limits there is a robot with which C80 can be applied.
-/
set_option linter.unusedSectionVars false
namespace Verif
open Prog Spec Fl

namespace TorqueProgram

/-- A torque callback that counts its calls, returns the `n`-th torques in its `n`-th call and says in call `N` that it has finished. -/
noncomputable def program (u : Fin 7 → ℕ → ℝ) (N : ℕ) (n : ℕ) (_ : RobotState XR) (_ : ℕ) : ℕ × Torques XR := (n + 1, ⟨decide (N ≤ n), Arr.fin fun i => u i n⟩)

/-- `control_torques` with this callback, with rate limiting and this cutoff frequency. -/
noncomputable def torqueProgram (u : Fin 7 → ℕ → ℝ) (N : ℕ) (f : ℝ) : RobotCall XR := .control_torques _ (program u N) none (some (.fin f)) 0

noncomputable def call (u : Fin 7 → ℕ → ℝ) (N : ℕ) (f : ℝ) : ControlCall XR ℕ .JointVelocities :=
  { motion := fun c _ _ => (c, ({ dq := fun _ => Fl.lit 0, motion_finished := false } : JointVelocities XR)), torque := some (program u N),
    controller := .ExternalController, limit_rate := (none : Option Bool).getD true, cutoff := (some (XR.fin f)).getD (lit 100) }

theorem isControl (u : Fin 7 → ℕ → ℝ) (N : ℕ) (f : ℝ) : IsControl (torqueProgram u N f) (call u N f) 0 := .torques _ _ _ _ _

/-- The robot applies the torques of the last command, and its joints stand still. -/
def TorquesReported (y : Fin 7 → ℕ → ℝ) (n : ℕ) (st : RobotState XR) : Prop :=
  st.tau_J_d = Arr.fin (fun i => y i n) ∧ st.dq_d = (fun _ => Fl.lit 0) ∧ st.ddq_d = fun _ => Fl.lit 0

theorem rest_allowed (i : Fin 7) : Allowed (codeLimits i) 0 0 0 := by
  obtain ⟨h1, h2, h3⟩ := codeLimits_ok i
  constructor <;> norm_num <;> positivity

variable {u : Fin 7 → ℕ → ℝ} {N : ℕ} {f : ℝ}

theorem plan [Geo XR] (h0 : 0 < f) (h1 : f < 1000) (allowed : ∀ i, ∀ n ≤ N, |u i n - starting 0 (u i) n| ≤ 0.999) :
    IsTorquePlanOf (call u N f) (program u N) 0 id (fun n => (⟨decide (N ≤ n), Arr.fin fun i => u i n⟩ : Torques XR)) noMotion
      (fun n => Arr.fin fun i => lowPass f 0 (u i) (n + 1)) (fun n st => n ≤ N ∧ TorquesReported (fun i => lowPass f 0 (u i)) n st) where
  torque := rfl
  still _ _ _ := rfl
  start := rfl
  called n st h := rfl
  stays n st h := by
    obtain ⟨-, -, r1, r2⟩ := h
    rw [Communication.zero_eq] at r1 r2
    show JointVelocities.convert_motion ⟨false, fun _ => lit 0⟩ st _ (.fin f) true = _
    rw [Communication.zero_eq, convert_filtered_velocities h0 h1 r1]
    simp only [mul_zero, add_zero]
    rw [C44_convert_joint_velocities le_rfl r1 r2 rest_allowed, ← Communication.zero_eq]
    cases n <;> rfl
  converted n st h := by
    obtain ⟨hn, r, -⟩ := h
    obtain ⟨g0, g1⟩ := gain_range h0
    show ControlLoop.convert_torques true (.fin f) st (Arr.fin fun i => u i n) = _
    rw [convert_filtered_torques h0 h1 r]
    obtain ⟨t, e1, e2⟩ := C41_torques_without_filter le_rfl (u := fun i => gain (1 / 1000) f * u i n + (1 - gain (1 / 1000) f) * lowPass f 0 (u i) n) r
    rw [e1]
    refine congrArg (fun t => (.ok (Arr.fin t) : Except _ _)) (funext fun i => (e2 i).2.2 ?_)
    exact lowpass_next_step (y := lowPass f 0 (u i)) g0 g1 (N := n + 1) (fun m hm => allowed i m (by omega)) n (by omega) fun _ _ => rfl

end TorqueProgram

open TorqueProgram

/-- **C80**, torques: whatever torques within the limits a callback returns, there is a robot which follows, and with it the hypotheses of `C80_torques` are met. So
the commands are the torques of the callback after the low pass. -/
theorem C80_torques_happen [Geo XR] {f : ℝ} (h0 : 0 < f) (h1 : f < 1000) {u : Fin 7 → ℕ → ℝ} {N : ℕ} (hN : N ≤ 1000000000)
    (allowed : ∀ i, ∀ n ≤ N, |u i n - starting 0 (u i) n| ≤ 0.999) :
    ∃ (_ : Wire XR) (w : World XR) (y : Fin 7 → ℕ → ℝ), RobotReachable w ∧ ((torqueProgram u N f).run w).1 = .ok () ∧ answered w (torqueProgram u N f) = N + 1 ∧
      (∀ n < N + 1, ∃ out, (torqueOutputs (newEvents w ((torqueProgram u N f).run w).2))[n]? = some out ∧ out.tau_J = Arr.fin fun i => u i n) ∧
      (∀ n st x, Exchange w (torqueProgram u N f) n st x → st.tau_J_d = (Arr.fin fun i => y i n) ∧ x.control.tau_J_d = Arr.fin fun i => y i (n + 1)) ∧
      ∀ i, y i 0 = 0 ∧ LowPassedFor (N + 1) f (u i) (y i) ∧ ∀ n ≤ N, |y i (n + 1) - u i n| ≤ 1000 / (2 * Real.pi * f) := by
  obtain ⟨wire, k0, kp⟩ := Following.wire_for (N := N) (fun n => Arr.fin fun i => lowPass f 0 (u i) n) (fun _ => Arr.fin fun _ => 0) (fun _ => Arr.fin fun _ => 0) hN
  obtain ⟨w, g1, g2, g3, g4⟩ := (plan h0 h1 allowed).happens (torque_robot_for (by omega : N ≤ 2 ^ 40) (fun n => Arr.fin fun i => lowPass f 0 (u i) n) (fun _ => lit 0) k0
    (fun n hn => (kp n hn).1) (fun _ _ => k0) fun n st hn e1 _ e2 e3 => ⟨hn, e1, e2, e3⟩)
    (fun n hn => decide_eq_false (by omega)) (decide_eq_true le_rfl) (isControl u N f)
  have ha : answered w (torqueProgram u N f) = N + 1 := by
    unfold answered
    rw [g4]
    simp
  have hr : ∀ n < N + 1, ∃ out, (torqueOutputs (newEvents w ((torqueProgram u N f).run w).2))[n]? = some out ∧ out.tau_J = Arr.fin fun i => u i n := by
    intro n hn
    have hl : (torqueRecords (newEvents w ((torqueProgram u N f).run w).2)).map (·.2) = torqueOutputs (newEvents w ((torqueProgram u N f).run w).2) := by
      unfold torqueRecords torqueOutputs
      rw [List.map_filterMap]
      congr 1
      funext e
      cases e <;> rfl
    rw [← hl, g3, List.map_map, List.getElem?_map, List.getElem?_range hn]
    exact ⟨_, rfl, rfl⟩
  have hx : ∀ n st x, Exchange w (torqueProgram u N f) n st x → st.tau_J_d = (Arr.fin fun i => lowPass f 0 (u i) n) ∧
      x.control.tau_J_d = Arr.fin fun i => lowPass f 0 (u i) (n + 1) := by
    intro n st x h
    unfold Exchange at h
    rw [g4] at h
    rcases Nat.lt_or_ge n N with hn | hn
    · rw [List.getElem?_append_left (by simpa using hn), List.getElem?_map, List.getElem?_range hn] at h
      cases h
      exact ⟨rfl, rfl⟩
    · have : n = N := by
        have := (List.getElem?_eq_some_iff.1 h).1
        simp at this
        omega
      subst this
      rw [List.getElem?_append_right (by simp)] at h
      simp only [List.length_map, List.length_range, Nat.sub_self, List.getElem?_cons_zero, Option.some.injEq, Prod.mk.injEq] at h
      obtain ⟨rfl, rfl⟩ := h
      exact ⟨rfl, rfl⟩
  refine ⟨wire, w, fun i => lowPass f 0 (u i), g1, g2, ha, hr, hx, fun i => ⟨rfl, ?_⟩⟩
  obtain ⟨l1, l2⟩ := C80_torques g1 h0 h1 (isControl u N f) (by simp [call]) rfl rfl u (fun i => lowPass f 0 (u i)) ha.ge hr (fun n st x h => (hx n st x h).1)
    (fun n st x h => (hx n st x h).2) (fun i n hn => allowed i n (by omega)) i
  exact ⟨l1, fun n hn => l2 n (by omega)⟩

/-- For example torques that rise by 0.5 Nm in each of the first ten cycles, with the default cutoff frequency. -/
example [Geo XR] : ∃ (_ : Wire XR) (w : World XR) (y : Fin 7 → ℕ → ℝ), RobotReachable w ∧ ((torqueProgram (fun _ n => (n : ℝ) / 2) 10 100).run w).1 = .ok () ∧
    (∀ n st x, Exchange w (torqueProgram (fun _ n => (n : ℝ) / 2) 10 100) n st x → x.control.tau_J_d = Arr.fin fun i => y i (n + 1)) ∧ ∀ i, 3 ≤ y i 11 := by
  obtain ⟨wire, w, y, g1, g2, -, -, g3, g4⟩ := C80_torques_happen (f := 100) (by norm_num) (by norm_num) (u := fun _ n => (n : ℝ) / 2) (N := 10) (by norm_num) (by
    intro i n _
    cases n with
    | zero => simp [starting]; norm_num
    | succ n =>
      rw [starting]
      push_cast
      rw [show ((n : ℝ) + 1) / 2 - n / 2 = 1 / 2 by ring]
      norm_num)
  refine ⟨wire, w, y, g1, g2, fun n st x h => (g3 n st x h).2, fun i => ?_⟩
  have h := (abs_le.1 ((g4 i).2.2 10 le_rfl)).1
  have : 1000 / (2 * Real.pi * 100) ≤ (2 : ℝ) := by
    rw [div_le_iff₀ (by positivity)]
    linarith [Real.pi_gt_three]
  push_cast at h
  linarith

end Verif
