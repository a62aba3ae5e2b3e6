import Verif.Props.RoundedExampleHappens
/-!
# The filtered joint positions of C104 happen

For every sequence of positions inside the limits there is a robot that follows it. This shows that the hypotheses of `C104_filtered_joint_positions` are met.
-/
set_option linter.unusedSectionVars false
namespace Verif
open Prog Spec Fl

variable {A : Rounding}

namespace PositionAll

/-- A callback that counts its calls, returns the `n`-th positions in its `n`-th call and says in call `N` that it has finished. -/
noncomputable def program (A : Rounding) (u : Fin 7 → ℕ → ℝ) (N : ℕ) (n : ℕ) (_ : RobotState (Rd A)) (_ : ℕ) : ℕ × JointPositions (Rd A) :=
  (n + 1, ⟨decide (N ≤ n), Arr.rd fun i => u i n⟩)

/-- `control_joint_positions` with this callback, with rate limiting and this cutoff frequency. -/
noncomputable def positionProgram (A : Rounding) (u : Fin 7 → ℕ → ℝ) (N : ℕ) (f : ℝ) : RobotCall (Rd A) :=
  .control_motion _ .JointPositions (program A u N) none none (some (Rd.fin f)) 0

noncomputable def callOf (A : Rounding) (u : Fin 7 → ℕ → ℝ) (N : ℕ) (f : ℝ) : ControlCall (Rd A) ℕ .JointPositions :=
  { motion := program A u N, torque := none, controller := requestedController none, limit_rate := (none : Option Bool).getD true,
    cutoff := (some (Rd.fin f : Rd A)).getD (lit 100) }

theorem isControlOf (u : Fin 7 → ℕ → ℝ) (N : ℕ) (f : ℝ) : IsControl (positionProgram A u N f) (callOf A u N f) 0 := .motion _ _ _ _ _ _ _

open Classical in
/-- The position of a joint in the `n`-th state and in the two before. -/
noncomputable def places (A : Rounding) (f : ℝ) (start : Fin 7 → ℝ) (u : Fin 7 → ℕ → ℝ) (i : Fin 7) : ℕ → ℝ × ℝ × ℝ
  | 0 => (start i, start i, start i)
  | n + 1 => (if h : ∃ z, smoothedOf A f i (u i n) (places A f start u i n).1 (((places A f start u i n).1 - (places A f start u i n).2.1) / 0.001)
        (((places A f start u i n).1 - 2 * (places A f start u i n).2.1 + (places A f start u i n).2.2) / 0.001 / 0.001) = .ok (Rd.fin z) then h.choose else 1000,
      (places A f start u i n).1, (places A f start u i n).2.1)

/-- The position in the `n`-th state. -/
noncomputable def position (A : Rounding) (f : ℝ) (start : Fin 7 → ℝ) (u : Fin 7 → ℕ → ℝ) (i : Fin 7) (n : ℕ) : ℝ := (places A f start u i n).1

variable {start : Fin 7 → ℝ}

theorem before_eq {f : ℝ} {u : Fin 7 → ℕ → ℝ} (i : Fin 7) (n : ℕ) : (places A f start u i n).2.1 = position A f start u i (n - 1) := by cases n <;> rfl

theorem earlier_eq {f : ℝ} {u : Fin 7 → ℕ → ℝ} (i : Fin 7) (n : ℕ) : (places A f start u i n).2.2 = position A f start u i (n - 2) := by
  match n with
  | 0 => rfl
  | 1 => rfl
  | n + 2 => rfl

theorem position_next {f : ℝ} {u : Fin 7 → ℕ → ℝ} (i : Fin 7) (n : ℕ) :
    smoothedOf A f i (u i n) (position A f start u i n) (rate (position A f start u i) n) (rate (rate (position A f start u i)) n) = .ok (Rd.fin (position A f start u i (n + 1))) ∨
      (∀ z, smoothedOf A f i (u i n) (position A f start u i n) (rate (position A f start u i) n) (rate (rate (position A f start u i)) n) ≠ .ok (Rd.fin z)) ∧
        position A f start u i (n + 1) = 1000 := by
  have e1 : rate (position A f start u i) n = ((places A f start u i n).1 - (places A f start u i n).2.1) / 0.001 := by
    rw [(rates_before _ n).1, before_eq, show n + 3 - 3 = n by omega, show n + 2 - 3 = n - 1 by omega]
    rfl
  have e2 : rate (rate (position A f start u i)) n = ((places A f start u i n).1 - 2 * (places A f start u i n).2.1 + (places A f start u i n).2.2) / 0.001 / 0.001 := by
    rw [(rates_before _ n).2, before_eq, earlier_eq, show n + 3 - 3 = n by omega, show n + 2 - 3 = n - 1 by omega, show n + 1 - 3 = n - 2 by omega]
    rfl
  rw [e1, e2]
  by_cases h : ∃ z, smoothedOf A f i (u i n) (places A f start u i n).1 (((places A f start u i n).1 - (places A f start u i n).2.1) / 0.001)
        (((places A f start u i n).1 - 2 * (places A f start u i n).2.1 + (places A f start u i n).2.2) / 0.001 / 0.001) = .ok (Rd.fin z)
  · refine .inl ?_
    have e3 : position A f start u i (n + 1) = h.choose := by
      show (places A f start u i (n + 1)).1 = _
      rw [places]
      exact dif_pos h
    rw [e3]
    exact h.choose_spec
  · refine .inr ⟨fun z hz => h ⟨z, hz⟩, ?_⟩
    show (places A f start u i (n + 1)).1 = _
    rw [places]
    exact dif_neg h

end PositionAll
open PositionAll

/-- **C104**, joint positions with the low-pass filter: whatever positions inside the limits a callback returns, there is a robot that follows, and with it the hypotheses
of `C104_filtered_joint_positions` are met. So the commands are the positions of the callback after an exact low pass, up to 10⁻¹⁰ rad. -/
theorem C104_filtered_joint_positions_happen [Geo (Rd A)] {f : ℝ} (h0 : 0.1 ≤ f) (h1 : f ≤ 999) {start : Fin 7 → ℝ} {u : Fin 7 → ℕ → ℝ} {N : ℕ} (hN : N ≤ 1000000000)
    (hs : ∀ i, |start i| ≤ 9) (hu : ∀ n ≤ N, ∀ i, |u i n| ≤ 9) (inside : ∀ i, PositionInside (N + 1) (jointLimits i) (starting (start i) (u i))) :
    ∃ (_ : Wire (Rd A)) (w : World (Rd A)) (q x : Fin 7 → ℕ → ℝ), RobotReachable w ∧ ((positionProgram A u N f).run w).1 = .ok () ∧ answered w (positionProgram A u N f) = N + 1 ∧
      FollowsRounded start q (exchanges (newEvents w ((positionProgram A u N f).run w).2)) ∧
      (∀ n out, (motionOutputs .JointPositions (newEvents w ((positionProgram A u N f).run w).2))[n]? = some out → JointPositions.q out = Arr.rd fun i => u i n) ∧
      (∀ n st c, Exchange w (positionProgram A u N f) n st c → c.motion.q_c = Arr.rd fun i => q i (n + 1)) ∧
      ∀ i, (x i 0 = start i ∧ LowPassedFor (N + 1) f (u i) (x i)) ∧ ∀ n ≤ N + 1, |q i n - x i n| ≤ 1 / 10 ^ 10 := by
  obtain ⟨q, hq⟩ : ∃ q, q = position A f start u := ⟨_, rfl⟩
  have hq0 : ∀ i, q i 0 = start i := fun i => by rw [hq]; rfl
  have hgoes : ∀ i, ∀ n < N + 1, smoothedOf A f i (u i n) (q i n) (rate (q i) n) (rate (rate (q i)) n) = .ok (Rd.fin (q i (n + 1))) := fun i =>
    smoothed_goes i h0 h1 (by rw [hq0]; exact hs i) (fun n hn => hu n (by omega) i) (by rw [hq0]; exact inside i) fun n _ => by rw [hq]; exact position_next i n
  have hplan : IsPlanOf (callOf A u N f) 0 id (fun n => (⟨decide (N ≤ n), Arr.rd fun i => u i n⟩ : JointPositions (Rd A))) (positionCommands q)
      (fun n st => n ≤ N ∧ ReportedRounded q n st) := by
    refine ⟨rfl, rfl, fun n st _ => rfl, fun n st hst => ?_⟩
    obtain ⟨hn, r⟩ := hst
    show JointPositions.convert_motion ⟨decide (N ≤ n), Arr.rd fun i => u i n⟩ st _ (Rd.fin f) true = _
    exact smoothed_converts (z := fun i => q i (n + 1)) rfl h1 rfl r (fun i => hgoes i n (by omega)) (by cases n <;> rfl)
  obtain ⟨s, hsr⟩ : ∃ s : ℕ → RobotStateIntern (Rd A), s = reportRounded 1 q := ⟨_, rfl⟩
  obtain ⟨wire, k0, kp⟩ := wire_for_arrays (F := Rd A) (fun n => ![(s n).q_d, (s n).dq_d, (s n).ddq_d]) (show N ≤ 1000000000 by omega)
  have kz : Kept (fun _ => lit 0 : Arr (Rd A) 7) := fun _ => k0
  have hrobot : RobotFor (callOf A u N f) (fun n st => n ≤ N ∧ ReportedRounded q n st) N
      (plainState (F := Rd A) 2 (fun _ => lit 0) (fun _ => lit 0) (fun _ => lit 0) .JointPosition .JointImpedance .Move) s
      (plainState (F := Rd A) (UInt64.ofNat (N + 4)) (fun _ => lit 0) (fun _ => lit 0) (fun _ => lit 0) .Idle .Other .Idle) := by
    refine ⟨by omega, rfl, ⟨rfl, rfl⟩, fun n _ => ?_, fun n _ => by rw [hsr]; exact ⟨rfl, rfl, rfl⟩, fun n hn => ⟨hn, by rw [hsr]; exact ⟨rfl, rfl, rfl⟩⟩, rfl, ?_,
      plainState_holds k0 kz kz kz, fun n hn => ?_, plainState_holds k0 kz kz kz⟩
    · rw [hsr]
      show UInt64.ofNat (1 + 2 + n) = _
      rw [Nat.add_comm]
    · rintro (h | h) <;> first | exact h rfl | cases h
    · have h1 := kp n hn 0
      have h2 := kp n hn 1
      have h3 := kp n hn 2
      rw [hsr] at h1 h2 h3 ⊢
      exact plainState_holds k0 h1 h2 h3
  obtain ⟨w, g1, g2, g3⟩ := hplan.happens hrobot (fun n hn => decide_eq_false (by omega)) (decide_eq_true le_rfl) (isControlOf (A := A) u N f)
  have ha : answered w (positionProgram A u N f) = N + 1 := by
    unfold answered
    rw [g3]
    simp
  have hf : FollowsRounded start q (exchanges (newEvents w ((positionProgram A u N f).run w).2)) := by
    rw [g3]
    exact reports_follow hq0 (by omega) hsr
  have hx : ∀ n st c, Exchange w (positionProgram A u N f) n st c → (n ≤ N ∧ ReportedRounded q n st) ∧ c.motion.q_c = Arr.rd fun i => q i (n + 1) := by
    intro n st c h
    unfold Exchange at h
    rw [g3] at h
    obtain ⟨e1, e2, e3⟩ := reports_get hsr h
    exact ⟨⟨e1, by rw [e2]; exact ⟨rfl, rfl, rfl⟩⟩, e3⟩
  have hr : ∀ n out, (motionOutputs .JointPositions (newEvents w ((positionProgram A u N f).run w).2))[n]? = some out → JointPositions.q out = Arr.rd fun i => u i n := by
    intro n out h
    obtain ⟨hn, -⟩ := List.getElem?_eq_some_iff.1 h
    obtain ⟨st, c, hc⟩ := exchange_exists (hn.trans_eq (outputs_ok g1 (isControlOf u N f) g2))
    have := (hplan.goes g1 (isControlOf u N f) (fun st c h => (hx 0 st c h).1) (fun n st c st' c' h h' _ _ => ⟨(hx _ _ _ h').1, (hf.next n st c st' c' h h').2⟩) n st c hc).2.2.2.1
    rw [Option.some.inj (h.symm.trans this)]
  refine ⟨wire, w, q, fun i => lowPass f (start i) (u i), g1, g2, ha, hf, hr, fun n st c h => (hx n st c h).2,
    fun i => ⟨⟨rfl, lowPass_is (lt_of_lt_of_le (by norm_num) h0) _ _⟩, ?_⟩⟩
  have := C104_filtered_joint_positions g1 h0 h1 (isControlOf u N f) rfl rfl u q (fun i => rate (q i)) (fun i => rate (rate (q i))) (fun i => lowPass f (start i) (u i))
    (fun i => ⟨by rw [hq0]; exact hs i, fun n hn => hu n (by omega) i⟩) hr
    (fun n st c h => ⟨(hx n st c h).1.2.1, (hx n st c h).1.2.2.1, (hx n st c h).1.2.2.2⟩) (fun i n _ => by rw [sub_self, abs_zero]; norm_num)
    (fun i n _ => by rw [sub_self, abs_zero]; norm_num) (fun n st c h => (hx n st c h).2)
    (fun i => by rw [hq0, ha]; exact inside i) (fun i => ⟨(hq0 i).symm, lowPass_is (lt_of_lt_of_le (by norm_num) h0) _ _⟩) i
  rwa [ha] at this

/-- For example the positions that the joint position example is meant to have, for one second and with the rounding of `f64`. -/
example [Geo (Rd binary64)] (start : Fin 7 → ℝ) (hs : ∀ i, |start i| ≤ 8) : ∃ (_ : Wire (Rd binary64)) (w : World (Rd binary64)) (q : Fin 7 → ℕ → ℝ), RobotReachable w ∧
    ((positionProgram binary64 (PositionExample.target start) 1000 100).run w).1 = .ok () ∧
    FollowsRounded start q (exchanges (newEvents w ((positionProgram binary64 (PositionExample.target start) 1000 100).run w).2)) := by
  obtain ⟨wire, w, q, x, g1, g2, -, g3, -⟩ := C104_filtered_joint_positions_happen (A := binary64) (f := 100) (by norm_num) (by norm_num) (start := start)
    (u := PositionExample.target start) (N := 1000) (by norm_num) (fun i => (hs i).trans (by norm_num)) (fun n _ i => (RoundedExample.target_bounded hs i n).trans (by norm_num))
    fun i => RoundedExample.swing_inside (start := start) i fun n _ => by rw [sub_self, abs_zero]; norm_num
  exact ⟨wire, w, q, g1, g2, g3⟩

end Verif
