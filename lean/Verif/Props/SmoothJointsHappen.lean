import Verif.Lemmas.PlannedJoints
import Verif.Props.Smooth
import Verif.Props.ExamplePosition
import Verif.Props.ExampleVelocity
/-!
# C80 for joint positions and joint velocities happens

For every sequence of positions or velocities within the limits there is a robot with which C80 can be applied.
-/
set_option linter.unusedSectionVars false
namespace Verif
open Prog Spec Fl

namespace JointProgram

/-- A callback that counts its calls, returns the `n`-th positions in its `n`-th call and says in call `N` that it has finished. -/
noncomputable def positions (u : Fin 7 → ℕ → ℝ) (N : ℕ) (n : ℕ) (_ : RobotState XR) (_ : ℕ) : ℕ × Motion XR .JointPositions :=
  (n + 1, (⟨decide (N ≤ n), Arr.fin fun i => u i n⟩ : JointPositions XR))

/-- The same with velocities. -/
noncomputable def velocities (u : Fin 7 → ℕ → ℝ) (N : ℕ) (n : ℕ) (_ : RobotState XR) (_ : ℕ) : ℕ × Motion XR .JointVelocities :=
  (n + 1, (⟨decide (N ≤ n), Arr.fin fun i => u i n⟩ : JointVelocities XR))

/-- `control_joint_positions` with this callback, with rate limiting and this cutoff frequency. -/
noncomputable def positionProgram (u : Fin 7 → ℕ → ℝ) (N : ℕ) (f : ℝ) : RobotCall XR := .control_motion _ .JointPositions (positions u N) none none (some (.fin f)) 0

/-- `control_joint_velocities` with this callback, with rate limiting and this cutoff frequency. -/
noncomputable def velocityProgram (u : Fin 7 → ℕ → ℝ) (N : ℕ) (f : ℝ) : RobotCall XR := .control_motion _ .JointVelocities (velocities u N) none none (some (.fin f)) 0

noncomputable def callOf {k : MotionKind} (cb : ℕ → RobotState XR → ℕ → ℕ × Motion XR k) (f : ℝ) : ControlCall XR ℕ k :=
  { motion := cb, torque := none, controller := requestedController none, limit_rate := (none : Option Bool).getD true, cutoff := (some (XR.fin f)).getD (lit 100) }

theorem position_control (u : Fin 7 → ℕ → ℝ) (N : ℕ) (f : ℝ) : IsControl (positionProgram u N f) (callOf (positions u N) f) 0 := .motion _ _ _ _ _ _ _
theorem velocity_control (u : Fin 7 → ℕ → ℝ) (N : ℕ) (f : ℝ) : IsControl (velocityProgram u N f) (callOf (velocities u N) f) 0 := .motion _ _ _ _ _ _ _

end JointProgram
open JointProgram

/-- **C80**, joint positions: whatever positions within the limits a callback returns, there is a robot which follows from rest, and with it the
hypotheses of `C80_joint_positions` are met. So the commands are the positions of the callback after the low pass. -/
theorem C80_joint_positions_happen [Geo XR] {f : ℝ} (h0 : 0 < f) (h1 : f < 1000) {start : Fin 7 → ℝ} {u : Fin 7 → ℕ → ℝ} {N : ℕ} (hN : N ≤ 1000000000)
    (allowed : ∀ i K, PositionAllowedFor K (jointLimits i) (starting (start i) (u i))) :
    ∃ (_ : Wire XR) (w : World XR) (y : Fin 7 → ℕ → ℝ), RobotReachable w ∧ ((positionProgram u N f).run w).1 = .ok () ∧ answered w (positionProgram u N f) = N + 1 ∧
      (∀ n out, (motionOutputs .JointPositions (newEvents w ((positionProgram u N f).run w).2))[n]? = some out → JointPositions.q out = Arr.fin fun i => u i n) ∧
      (∀ n st x, Exchange w (positionProgram u N f) n st x → (st.q_d = Arr.fin (fun i => y i n) ∧ st.dq_d = Arr.fin (fun i => rate (y i) n) ∧
        st.ddq_d = Arr.fin fun i => rate (rate (y i)) n) ∧ x.motion.q_c = Arr.fin fun i => y i (n + 1)) ∧
      ∀ i, y i 0 = start i ∧ LowPassedFor (N + 1) f (u i) (y i) ∧ ∀ n ≤ N, |y i (n + 1) - u i n| ≤ (jointLimits i).velocity / (2 * Real.pi * f) := by
  obtain ⟨y, hy⟩ : ∃ y, y = fun i => lowPass f (start i) (u i) := ⟨_, rfl⟩
  obtain ⟨wire, k0, kp⟩ := Following.wire_for (N := N) (fun n => Arr.fin fun i => y i n) (fun n => Arr.fin fun i => rate (y i) n) (fun n => Arr.fin fun i => rate (rate (y i)) n) hN
  have hp := planned_positions (call := callOf (positions u N) f) (u := u) (ends := fun n => decide (N ≤ n)) (cs := id) (c0 := 0) (start := start) rfl rfl rfl h0 h1 rfl
    (fun n st _ => rfl) allowed
  rw [← hy] at hp
  obtain ⟨w, g1, g2, g3⟩ := hp.happens (robot_for (by omega) _ _ _ k0 kp fun n st _ e1 e2 e3 => ⟨e1, e2, e3⟩)
    (fun n hn => decide_eq_false (by omega : ¬ N ≤ n)) (by show decide (N ≤ N) = true; simp) (position_control u N f)
  have ha : answered w (positionProgram u N f) = N + 1 := by
    unfold answered
    rw [g3]
    simp
  have hx : ∀ n st x, Exchange w (positionProgram u N f) n st x → (st.q_d = Arr.fin (fun i => y i n) ∧ st.dq_d = Arr.fin (fun i => rate (y i) n) ∧
      st.ddq_d = Arr.fin fun i => rate (rate (y i)) n) ∧ x.motion.q_c = Arr.fin (fun i => y i (n + 1)) ∧ st.time = n + 3 := by
    intro n st x h
    unfold Exchange at h
    rw [g3, List.getElem?_map] at h
    obtain ⟨j, hj, e⟩ := Option.map_eq_some_iff.1 h
    obtain ⟨hn, hj⟩ := List.getElem?_eq_some_iff.1 hj
    rw [List.getElem_range] at hj
    rw [List.length_range] at hn
    subst hj
    simp only [Prod.mk.injEq] at e
    rw [← e.1, ← e.2]
    refine ⟨⟨rfl, rfl, rfl⟩, ?_, ?_⟩
    · show (sentCmd _ (positionCmd y) n).q_c = _
      unfold sentCmd
      split <;> rfl
    · show (UInt64.ofNat (n + 3)).toNat = n + 3
      rw [UInt64.toNat_ofNat', Nat.mod_eq_of_lt (by omega)]
  have hr : ∀ n out, (motionOutputs .JointPositions (newEvents w ((positionProgram u N f).run w).2))[n]? = some out → JointPositions.q out = Arr.fin fun i => u i n := by
    intro n out h
    obtain ⟨hn, -⟩ := List.getElem?_eq_some_iff.1 h
    obtain ⟨st, x, hc⟩ := exchange_exists (hn.trans_eq (outputs_ok g1 (position_control u N f) g2))
    have := (hp.goes g1 (position_control u N f) (fun st x h => (hx 0 st x h).1)
      (fun n st x st' x' h h' _ _ => ⟨(hx _ _ _ h').1, by rw [(hx _ _ _ h').2.2, (hx _ _ _ h).2.2]⟩) n st x hc).2.2.2.1
    have e : out = positionOut u (fun n => decide (N ≤ n)) n := Option.some.inj (h.symm.trans this)
    rw [e]
    rfl
  have hy0 : ∀ i, y i 0 = start i := fun i => by rw [hy]; rfl
  refine ⟨wire, w, y, g1, g2, ha, hr, fun n st x h => ⟨(hx n st x h).1, (hx n st x h).2.1⟩, fun i => ⟨hy0 i, ?_⟩⟩
  obtain ⟨l1, l2⟩ := C80_joint_positions g1 h0 h1 (position_control u N f) rfl rfl u y hr (fun n st x h => (hx n st x h).1) (fun n st x h => (hx n st x h).2.1)
    (fun i => by rw [hy0]; exact allowed i _) i
  rw [ha] at l1 l2
  exact ⟨l1, fun n hn => l2 n (by omega)⟩

/-- **C80**, joint velocities: the same for velocities, from rest. -/
theorem C80_joint_velocities_happen [Geo XR] {f : ℝ} (h0 : 0 < f) (h1 : f < 1000) {u : Fin 7 → ℕ → ℝ} {N : ℕ} (hN : N ≤ 1000000000)
    (allowed : ∀ i K, VelocityAllowedFor K (jointLimits i) (starting 0 (u i))) :
    ∃ (_ : Wire XR) (w : World XR) (y : Fin 7 → ℕ → ℝ), RobotReachable w ∧ ((velocityProgram u N f).run w).1 = .ok () ∧ answered w (velocityProgram u N f) = N + 1 ∧
      (∀ n out, (motionOutputs .JointVelocities (newEvents w ((velocityProgram u N f).run w).2))[n]? = some out → JointVelocities.dq out = Arr.fin fun i => u i n) ∧
      (∀ n st x, Exchange w (velocityProgram u N f) n st x → (st.dq_d = Arr.fin (fun i => y i n) ∧ st.ddq_d = Arr.fin (fun i => rate (y i) n)) ∧
        x.motion.dq_c = Arr.fin fun i => y i (n + 1)) ∧
      ∀ i, y i 0 = 0 ∧ LowPassedFor (N + 1) f (u i) (y i) ∧ ∀ n ≤ N, |y i (n + 1) - u i n| ≤ (jointLimits i).acceleration / (2 * Real.pi * f) := by
  obtain ⟨y, hy⟩ : ∃ y, y = fun i => lowPass f 0 (u i) := ⟨_, rfl⟩
  obtain ⟨wire, k0, kp⟩ := Following.wire_for (N := N) (fun n => Arr.fin fun i => y i n) (fun n => Arr.fin fun i => rate (y i) n) (fun n => Arr.fin fun i => rate (y i) n) hN
  have hp := planned_velocities (call := callOf (velocities u N) f) (u := u) (ends := fun n => decide (N ≤ n)) (cs := id) (c0 := 0) rfl rfl rfl h0 h1 rfl
    (fun n st => rfl) allowed
  rw [← hy] at hp
  obtain ⟨w, g1, g2, g3⟩ := hp.happens (robot_for (by omega) (fun n => Arr.fin fun i => y i n) (fun n => Arr.fin fun i => y i n) (fun n => Arr.fin fun i => rate (y i) n) k0
    (fun n hn => ⟨(kp n hn).1, (kp n hn).1, (kp n hn).2.1⟩) fun n st _ e1 e2 e3 => ⟨e2, e3⟩)
    (fun n hn => decide_eq_false (by omega : ¬ N ≤ n)) (by show decide (N ≤ N) = true; simp) (velocity_control u N f)
  have ha : answered w (velocityProgram u N f) = N + 1 := by
    unfold answered
    rw [g3]
    simp
  have hx : ∀ n st x, Exchange w (velocityProgram u N f) n st x → (st.dq_d = Arr.fin (fun i => y i n) ∧ st.ddq_d = Arr.fin (fun i => rate (y i) n)) ∧
      x.motion.dq_c = Arr.fin (fun i => y i (n + 1)) ∧ st.time = n + 3 := by
    intro n st x h
    unfold Exchange at h
    rw [g3, List.getElem?_map] at h
    obtain ⟨j, hj, e⟩ := Option.map_eq_some_iff.1 h
    obtain ⟨hn, hj⟩ := List.getElem?_eq_some_iff.1 hj
    rw [List.getElem_range] at hj
    rw [List.length_range] at hn
    subst hj
    simp only [Prod.mk.injEq] at e
    rw [← e.1, ← e.2]
    refine ⟨⟨rfl, rfl⟩, ?_, ?_⟩
    · show (sentCmd _ (velocityCmd y) n).dq_c = _
      unfold sentCmd
      split <;> rfl
    · show (UInt64.ofNat (n + 3)).toNat = n + 3
      rw [UInt64.toNat_ofNat', Nat.mod_eq_of_lt (by omega)]
  have hr : ∀ n out, (motionOutputs .JointVelocities (newEvents w ((velocityProgram u N f).run w).2))[n]? = some out → JointVelocities.dq out = Arr.fin fun i => u i n := by
    intro n out h
    obtain ⟨hn, -⟩ := List.getElem?_eq_some_iff.1 h
    obtain ⟨st, x, hc⟩ := exchange_exists (hn.trans_eq (outputs_ok g1 (velocity_control u N f) g2))
    have := (hp.goes g1 (velocity_control u N f) (fun st x h => (hx 0 st x h).1)
      (fun n st x st' x' h h' _ _ => ⟨(hx _ _ _ h').1, by rw [(hx _ _ _ h').2.2, (hx _ _ _ h).2.2]⟩) n st x hc).2.2.2.1
    have e : out = velocityOut u (fun n => decide (N ≤ n)) n := Option.some.inj (h.symm.trans this)
    rw [e]
    rfl
  have hy0 : ∀ i, y i 0 = 0 := fun i => by rw [hy]; rfl
  refine ⟨wire, w, y, g1, g2, ha, hr, fun n st x h => ⟨(hx n st x h).1, (hx n st x h).2.1⟩, fun i => ⟨hy0 i, ?_⟩⟩
  obtain ⟨l1, l2⟩ := C80_joint_velocities g1 h0 h1 (velocity_control u N f) rfl rfl u y hr (fun n st x h => (hx n st x h).1) (fun n st x h => (hx n st x h).2.1)
    (fun i => by rw [hy0, abs_zero, below_joint]; exact (codeLimits_ok i).velocity) (fun i => by rw [hy0]; exact allowed i _) i
  rw [ha] at l1 l2
  exact ⟨l1, fun n hn => l2 n (by omega)⟩

/-- For example the swing of the joint position example from any start with a cutoff frequency of 10 Hz, for one second. -/
example [Geo XR] (start : Fin 7 → ℝ) : ∃ (_ : Wire XR) (w : World XR), RobotReachable w ∧ ((positionProgram (PositionExample.target start) 1000 10).run w).1 = .ok () := by
  obtain ⟨wire, w, y, g1, g2, -⟩ := C80_joint_positions_happen (f := 10) (by norm_num) (by norm_num) (start := start) (u := PositionExample.target start) (N := 1000) (by norm_num)
    (PositionExample.allowed start)
  exact ⟨wire, w, g1, g2⟩

/-- For example the velocities of the joint velocity example with a cutoff frequency of 10 Hz, for one second. -/
example [Geo XR] : ∃ (_ : Wire XR) (w : World XR), RobotReachable w ∧ ((velocityProgram (VelocityExample.target 1 1000) 1000 10).run w).1 = .ok () := by
  obtain ⟨wire, w, y, g1, g2, -⟩ := C80_joint_velocities_happen (f := 10) (by norm_num) (by norm_num) (u := VelocityExample.target 1 1000) (N := 1000) (by norm_num)
    (VelocityExample.allowed (by norm_num) (by norm_num) (by norm_num))
  exact ⟨wire, w, g1, g2⟩

end Verif
