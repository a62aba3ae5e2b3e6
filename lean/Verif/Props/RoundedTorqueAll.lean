import Verif.Props.RoundedVelocityAll
import Verif.Lemmas.PlannedTorques
import Verif.Lemmas.RoundedFirst
/-!
# The filtered torques of C104 happen

For every sequence of torques inside the limits there is a robot that follows it. This shows that the hypotheses of `C104_filtered_torques` are met.
-/
set_option linter.unusedSectionVars false
namespace Verif
open Prog Spec Fl

variable {A : Rounding}

/-- The limiter of a torque. -/
noncomputable def torqueLimiterOf (A : Rounding) (r l : ℝ) : Rd A :=
  Rd.fin l + Fl.fmax (Fl.fmin ((Rd.fin r - Rd.fin l) / DELTA_T) (Fl.lit 1000 - LIMIT_EPS)) (-(Fl.lit 1000 - LIMIT_EPS)) * DELTA_T

/-- One step of a torque: `z` is what the low pass and the limiter make of the new value `u` and the last one `l`, and `r` is between them. -/
def SmoothedTorque (A : Rounding) (f u l r z : ℝ) : Prop :=
  low_pass_filter DELTA_T (Rd.fin u) (Rd.fin l) (Rd.fin f) = (.ok (Rd.fin r) : P (Rd A)) ∧ torqueLimiterOf A r l = Rd.fin z

theorem torque_step_exists {f u l : ℝ} (f0 : 0.1 ≤ f) (f1 : f ≤ 999) (hu : |u| ≤ 900) (hl : |l| ≤ 950) : ∃ r z, SmoothedTorque A f u l r z := by
  have fp : 0 < f := lt_of_lt_of_le (by norm_num) f0
  have hb : 6 / 10 ^ 4 ≤ share f ∧ share f ≤ 1 := ⟨share_at_least f0, (share_lt_one fp).le⟩
  obtain ⟨r, r1, r2⟩ := C100_step (A := A) (f := f) (y := u) (l := l) (B := 950) (by norm_num at f0 ⊢; linarith) (by linarith) (by norm_num) (by norm_num) (hu.trans (by norm_num)) hl
  have hm : |l + share f * (u - l)| ≤ 950 := by
    obtain ⟨a1, a2⟩ := abs_le.1 hu
    obtain ⟨b1, b2⟩ := abs_le.1 hl
    rw [abs_le]
    constructor <;> nlinarith [hb.1, hb.2]
  obtain ⟨z, z1, -⟩ := rd_limit_torque_near (near_torque_rate (A := A)) (by norm_num) (by norm_num) (u := r) (l := l)
    (by have := abs_le_of_close r2 hm; norm_num at this ⊢; linarith) (hl.trans (by norm_num))
  exact ⟨r, z, r1, z1⟩

theorem torque_step_near {f u l r z : ℝ} (f0 : 0.1 ≤ f) (f1 : f ≤ 999) (hu : |u| ≤ 900) (hl : |l| ≤ 950) (h : SmoothedTorque A f u l r z) :
    |r - (share f * u + (1 - share f) * l)| ≤ 4 / 10 ^ 12 ∧ (|r - l| ≤ 0.999 → |z - r| ≤ 2 / 10 ^ 12) := by
  obtain ⟨r', r1, r2⟩ := C100_step (A := A) (f := f) (y := u) (l := l) (B := 950) (by norm_num at f0 ⊢; linarith) (by linarith) (by norm_num) (by norm_num) (hu.trans (by norm_num)) hl
  obtain ⟨h1, h2⟩ := h
  have e : r = r' := Rd.fin_inj (Except.ok.inj (h1.symm.trans r1))
  subst e
  refine ⟨?_, fun h3 => ?_⟩
  · rw [show share f * u + (1 - share f) * l = l + share f * (u - l) by ring]
    exact r2.trans (by norm_num)
  · obtain ⟨z', e1, e2⟩ := rd_limit_torque_near (near_torque_rate (A := A)) (by norm_num) (by norm_num) (u := r) (l := l)
      (by
        have := abs_le_of_close h3 hl
        norm_num at this ⊢
        linarith) (hl.trans (by norm_num))
    unfold torqueLimiterOf at h2
    rw [h2] at e1
    rw [Rd.fin_inj e1]
    obtain ⟨h4, h5⟩ := abs_le.1 h3
    rw [min_eq_left (by norm_num at h5 ⊢; linarith), max_eq_left (by norm_num at h4 ⊢; linarith), show l + 1000 * (r - l) / 1000 = r by ring] at e2
    exact e2

/-- If the torques of the callback stay inside the limits, then there is always a next one. -/
theorem torque_goes {f : ℝ} (f0 : 0.1 ≤ f) (f1 : f ≤ 999) {N : ℕ} {u y : ℕ → ℝ} (h0 : y 0 = 0) (hu : ∀ n < N, |u n| ≤ 900) (inside : ∀ n < N, |u n - starting 0 u n| ≤ 0.99)
    (next : ∀ n < N, (∃ r, SmoothedTorque A f (u n) (y n) r (y (n + 1))) ∨ ∀ r z, ¬ SmoothedTorque A f (u n) (y n) r z) :
    ∀ n < N, ∃ r, SmoothedTorque A f (u n) (y n) r (y (n + 1)) := by
  have fp : 0 < f := lt_of_lt_of_le (by norm_num) f0
  have hb : 6 / 10 ^ 4 ≤ share f ∧ share f ≤ 1 := ⟨share_at_least f0, (share_lt_one fp).le⟩
  have g0 : 0 < share f := lt_of_lt_of_le (by norm_num) hb.1
  intro n
  induction n using Nat.strong_induction_on with
  | _ n ih =>
    intro hn
    have hmean : ∀ k < n, lowPass f (y 0) u (k + 1) = share f * u k + (1 - share f) * lowPass f (y 0) u k := fun k _ => by rw [share_gain f fp]; rfl
    have hxb : ∀ k ≤ n, |lowPass f (y 0) u k| ≤ 900 := mean_bounded g0 hb.2 hmean (by show |y 0| ≤ 900; rw [h0, abs_zero]; norm_num) fun k hk => hu k (by omega)
    have hsmall : (4 / 10 ^ 12 + 2 / 10 ^ 12) / share f ≤ 1 / 1000 := by
      rw [div_le_iff₀ g0]
      linarith [hb.1]
    have := torque_follows (g := share f) (e := 4 / 10 ^ 12) (δ := 2 / 10 ^ 12) g0 hb.2 (by norm_num) (by norm_num) hsmall (N := n) (u := u) (x := lowPass f (y 0) u) (y := y) rfl hmean
      (fun k hk => by rw [h0]; exact inside k (by omega))
      (fun k hk hd => by
        obtain ⟨r, hr⟩ := ih k hk (by omega)
        exact ⟨r, torque_step_near f0 f1 (hu k (by omega)) (by linarith [abs_le_of_close hd (hxb k (by omega))]) hr⟩) n le_rfl
    have hy : |y n| ≤ 950 := by linarith [abs_le_of_close this (hxb n le_rfl)]
    rcases next n hn with h | h
    · exact h
    · obtain ⟨r, z, hz⟩ := torque_step_exists (A := A) f0 f1 (hu n hn) hy
      exact absurd hz (h r z)

/-- Such torques are converted. -/
theorem torque_steps_convert {f : ℝ} (f1 : f ≤ 999) {u l z : Fin 7 → ℝ} {st : RobotState (Rd A)} (hst : st.tau_J_d = Arr.rd l) (h : ∀ i, ∃ r, SmoothedTorque A f (u i) (l i) r (z i)) :
    ControlLoop.convert_torques true (Rd.fin f) st (Arr.rd u) = (.ok (Arr.rd z) : P (Arr (Rd A) 7)) := by
  choose r h1 h2 using h
  have e : flt (Rd.fin f : Rd A) MAX_CUTOFF_FREQUENCY = true := rd_with_filter f1
  have e1 : (Arr.tabulateP fun i => low_pass_filter DELTA_T ((Arr.rd u : Arr (Rd A) 7) i) ((Arr.rd l : Arr (Rd A) 7) i) (Rd.fin f)) = (.ok (Arr.rd r) : P (Arr (Rd A) 7)) := Arr.tabulateP_ok h1
  have e2 : limit_rate_torques MAX_TORQUE_RATE (Arr.rd r) (Arr.rd l) = (.ok (Arr.rd z) : P (Arr (Rd A) 7)) := by
    unfold limit_rate_torques
    rw [rd_assertFinite, P_bind_ok_eq]
    exact congrArg Except.ok (funext h2)
  unfold ControlLoop.convert_torques
  simp only [e, if_true]
  rw [hst]
  show ((Arr.tabulateP fun i => low_pass_filter DELTA_T ((Arr.rd u : Arr (Rd A) 7) i) ((Arr.rd l : Arr (Rd A) 7) i) (Rd.fin f)) >>= fun x => limit_rate_torques MAX_TORQUE_RATE x _ >>= fun y =>
    assertFinite y >>= fun _ => (pure y : P (Arr (Rd A) 7))) = _
  rw [e1, P_bind_ok_eq, e2, P_bind_ok_eq, rd_assertFinite, P_bind_ok_eq]
  rfl

/-- At rest the command of the motion is some velocity, always the same. -/
theorem rest_command (A : Rounding) {f : ℝ} (f0 : 0.1 ≤ f) (f1 : f ≤ 999) : ∃ z : Fin 7 → ℝ, ∀ i, smoothedVelocityOf A f i 0 0 0 = .ok (Rd.fin (z i)) := by
  have inside : ∀ i, VelocityInside 1 (jointLimits i) (starting 0 fun _ => 0) := fun i => by
    refine RoundedVelocity.wave_inside (ω := 0) le_rfl zero_le_one (le_refl 1000) i fun n _ => ?_
    rw [zero_sub, abs_neg]
    have : VelocityExample.target 0 1000 i n = 0 := by
      unfold VelocityExample.target VelocityExample.wave sampledWave
      simp
    rw [this, abs_zero]
    norm_num
  refine ⟨fun i => VelocityAll.velocity A f (fun _ _ => 0) i 1, fun i => ?_⟩
  exact smoothed_velocity_goes (y := VelocityAll.velocity A f (fun _ _ => 0) i) i f0 f1 (by show |(0 : ℝ)| ≤ 4; norm_num) (u := fun _ => 0) (fun _ _ => by norm_num) (inside i)
    (fun n _ => VelocityAll.velocity_next i n) 0 zero_lt_one

namespace TorqueAll

/-- A torque callback that counts its calls, returns the `n`-th torques in its `n`-th call and says in call `N` that it has finished. -/
noncomputable def program (A : Rounding) (u : Fin 7 → ℕ → ℝ) (N : ℕ) (n : ℕ) (_ : RobotState (Rd A)) (_ : ℕ) : ℕ × Torques (Rd A) :=
  (n + 1, ⟨decide (N ≤ n), Arr.rd fun i => u i n⟩)

/-- `control_torques` with this callback, with rate limiting and this cutoff frequency. -/
noncomputable def torqueProgram (A : Rounding) (u : Fin 7 → ℕ → ℝ) (N : ℕ) (f : ℝ) : RobotCall (Rd A) := .control_torques _ (program A u N) none (some (Rd.fin f)) 0

noncomputable def callOf (A : Rounding) (u : Fin 7 → ℕ → ℝ) (N : ℕ) (f : ℝ) : ControlCall (Rd A) ℕ .JointVelocities :=
  { motion := fun c _ _ => (c, ({ dq := fun _ => Fl.lit 0, motion_finished := false } : JointVelocities (Rd A))), torque := some (program A u N),
    controller := .ExternalController, limit_rate := (none : Option Bool).getD true, cutoff := (some (Rd.fin f : Rd A)).getD (lit 100) }

theorem isControlOf (u : Fin 7 → ℕ → ℝ) (N : ℕ) (f : ℝ) : IsControl (torqueProgram A u N f) (callOf A u N f) 0 := .torques _ _ _ _ _

open Classical in
/-- The torque of a joint in the `n`-th state. -/
noncomputable def torque (A : Rounding) (f : ℝ) (u : Fin 7 → ℕ → ℝ) (i : Fin 7) : ℕ → ℝ
  | 0 => 0
  | n + 1 => if h : ∃ z r, SmoothedTorque A f (u i n) (torque A f u i n) r z then h.choose else 0

theorem torque_next {f : ℝ} {u : Fin 7 → ℕ → ℝ} (i : Fin 7) (n : ℕ) :
    (∃ r, SmoothedTorque A f (u i n) (torque A f u i n) r (torque A f u i (n + 1))) ∨ ∀ r z, ¬ SmoothedTorque A f (u i n) (torque A f u i n) r z := by
  by_cases h : ∃ z r, SmoothedTorque A f (u i n) (torque A f u i n) r z
  · refine .inl ?_
    have e : torque A f u i (n + 1) = h.choose := by
      rw [torque]
      exact dif_pos h
    rw [e]
    exact h.choose_spec
  · exact .inr fun r z hz => h ⟨z, r, hz⟩

end TorqueAll
open TorqueAll

/-- **C104**, torques with the low-pass filter: whatever torques inside the limits a callback returns, there is a robot that follows, and with it the hypotheses of
`C104_filtered_torques` are met. So the commands are the torques of the callback after an exact low pass, up to 10⁻⁸ Nm. -/
theorem C104_filtered_torques_happen [Geo (Rd A)] (hz : A.rnd 0 = 0) {f : ℝ} (h0 : 0.1 ≤ f) (h1 : f ≤ 999) {u : Fin 7 → ℕ → ℝ} {N : ℕ} (hN : N ≤ 1000000000)
    (hu : ∀ n ≤ N, ∀ i, |u i n| ≤ 900) (inside : ∀ i, ∀ n ≤ N, |u i n - starting 0 (u i) n| ≤ 0.99) :
    ∃ (_ : Wire (Rd A)) (w : World (Rd A)) (τ x : Fin 7 → ℕ → ℝ), RobotReachable w ∧ ((torqueProgram A u N f).run w).1 = .ok () ∧ answered w (torqueProgram A u N f) = N + 1 ∧
      (∀ n < N + 1, ∃ out, (torqueOutputs (newEvents w ((torqueProgram A u N f).run w).2))[n]? = some out ∧ out.tau_J = Arr.rd fun i => u i n) ∧
      (∀ n st c, Exchange w (torqueProgram A u N f) n st c → st.tau_J_d = (Arr.rd fun i => τ i n) ∧ c.control.tau_J_d = Arr.rd fun i => τ i (n + 1)) ∧
      ∀ i, (x i 0 = 0 ∧ LowPassedFor (N + 1) f (u i) (x i)) ∧ ∀ n ≤ N + 1, |τ i n - x i n| ≤ 1 / 10 ^ 8 := by
  obtain ⟨τ, hτ⟩ : ∃ τ, τ = torque A f u := ⟨_, rfl⟩
  have hτ0 : ∀ i, τ i 0 = 0 := fun i => by rw [hτ]; rfl
  obtain ⟨v, hv⟩ := rest_command A h0 h1
  have hgoes : ∀ i, ∀ n < N + 1, ∃ r, SmoothedTorque A f (u i n) (τ i n) r (τ i (n + 1)) := fun i =>
    torque_goes h0 h1 (hτ0 i) (fun n hn => hu n (by omega) i) (fun n hn => inside i n (by omega)) fun n _ => by rw [hτ]; exact torque_next i n
  have hzero : (fun _ => lit 0 : Arr (Rd A) 7) = Arr.rd fun _ => 0 := funext fun _ => Rd.lit_zero hz
  have hplan : IsTorquePlanOf (callOf A u N f) (program A u N) 0 id (fun n => (⟨decide (N ≤ n), Arr.rd fun i => u i n⟩ : Torques (Rd A))) { noMotion with dq_c := Arr.rd v }
      (fun n => Arr.rd fun i => τ i (n + 1))
      (fun n st => n ≤ N ∧ st.tau_J_d = (Arr.rd fun i => τ i n) ∧ st.dq_d = (fun _ => lit 0) ∧ st.ddq_d = fun _ => lit 0) := by
    refine ⟨rfl, fun _ _ _ => rfl, rfl, fun n st _ => rfl, fun n st h => ?_, fun n st h => ?_⟩
    · obtain ⟨-, -, r1, r2⟩ := h
      rw [hzero] at r1 r2
      show JointVelocities.convert_motion ⟨false, fun _ => lit 0⟩ st _ (Rd.fin f) true = _
      exact smoothed_velocity_converts (u := fun _ => 0) (z := v) rfl h1 hzero ⟨r1, r2⟩ hv (by cases n <;> rfl)
    · obtain ⟨hn, r, -⟩ := h
      exact torque_steps_convert h1 r fun i => hgoes i n (by omega)
  obtain ⟨wire, k0, kp⟩ := wire_for_arrays (F := Rd A) (fun n => ![Arr.rd fun i => τ i n, fun _ => lit 0, fun _ => lit 0]) hN
  obtain ⟨w, g1, g2, g3, g4⟩ := hplan.happens (torque_robot_for (by omega : N ≤ 2 ^ 40) (fun n => Arr.rd fun i => τ i n) (fun _ => lit 0) k0
    (fun n hn => kp n hn 0) (fun _ _ => k0) fun n st hn e1 _ e2 e3 => ⟨hn, e1, e2, e3⟩)
    (fun n hn => decide_eq_false (by omega)) (decide_eq_true le_rfl) (isControlOf u N f)
  have ha : answered w (torqueProgram A u N f) = N + 1 := by
    unfold answered
    rw [g4]
    simp
  have hr : ∀ n < N + 1, ∃ out, (torqueOutputs (newEvents w ((torqueProgram A u N f).run w).2))[n]? = some out ∧ out.tau_J = Arr.rd fun i => u i n := by
    intro n hn
    have hl : (torqueRecords (newEvents w ((torqueProgram A u N f).run w).2)).map (·.2) = torqueOutputs (newEvents w ((torqueProgram A u N f).run w).2) := by
      unfold torqueRecords torqueOutputs
      rw [List.map_filterMap]
      congr 1
      funext e
      cases e <;> rfl
    rw [← hl, g3, List.map_map, List.getElem?_map, List.getElem?_range hn]
    exact ⟨_, rfl, rfl⟩
  have hx : ∀ n st c, Exchange w (torqueProgram A u N f) n st c → st.tau_J_d = (Arr.rd fun i => τ i n) ∧ c.control.tau_J_d = Arr.rd fun i => τ i (n + 1) := by
    intro n st c h
    unfold Exchange at h
    rw [g4] at h
    rcases Nat.lt_or_ge n N with hn | hn
    · rw [List.getElem?_append_left (by simpa using hn), List.getElem?_map, List.getElem?_range hn] at h
      cases h
      exact ⟨rfl, rfl⟩
    · have : n = N := by
        have := (List.getElem?_eq_some_iff.1 h).1
        simp at this
        omega
      subst this
      rw [List.getElem?_append_right (by simp)] at h
      simp only [List.length_map, List.length_range, Nat.sub_self, List.getElem?_cons_zero, Option.some.injEq, Prod.mk.injEq] at h
      obtain ⟨rfl, rfl⟩ := h
      exact ⟨rfl, rfl⟩
  have hlow : ∀ i, LowPassedFor (N + 1) f (u i) (lowPass f 0 (u i)) := fun i => lowPass_is (lt_of_lt_of_le (by norm_num) h0) _ _
  refine ⟨wire, w, τ, fun i => lowPass f 0 (u i), g1, g2, ha, hr, hx, fun i => ⟨⟨rfl, hlow i⟩, ?_⟩⟩
  exact C104_filtered_torques g1 h0 h1 (isControlOf u N f) (by simp [callOf]) rfl rfl u τ (fun i => lowPass f 0 (u i)) ha.ge
    (fun i => ⟨by rw [hτ0, abs_zero]; norm_num, fun n hn => hu n (by omega) i⟩) hr (fun n st c h => (hx n st c h).1) (fun n st c h => (hx n st c h).2)
    (fun i n hn => by rw [hτ0]; exact inside i n (by omega)) (fun i => ⟨(hτ0 i).symm, hlow i⟩) i

/-- For example torques that rise by 0.5 Nm in each of the first ten cycles, with the rounding of `f64`. -/
example [Geo (Rd binary64)] : ∃ (_ : Wire (Rd binary64)) (w : World (Rd binary64)), RobotReachable w ∧ ((torqueProgram binary64 (fun _ n => (n : ℝ) / 2) 10 100).run w).1 = .ok () := by
  obtain ⟨wire, w, τ, x, g1, g2, -⟩ := C104_filtered_torques_happen (A := binary64) binary64_zero (f := 100) (by norm_num) (by norm_num) (u := fun _ n => (n : ℝ) / 2) (N := 10)
    (by norm_num) (by
      intro n hn _
      have : (n : ℝ) ≤ 10 := by exact_mod_cast hn
      rw [abs_of_nonneg (by positivity)]
      linarith) (by
      intro i n _
      cases n with
      | zero => simp [starting]; norm_num
      | succ n =>
        rw [starting]
        push_cast
        rw [show ((n : ℝ) + 1) / 2 - n / 2 = 1 / 2 by ring]
        norm_num)
  exact ⟨wire, w, g1, g2⟩

end Verif
