import Verif.Spec.Examples
import Verif.Lemmas.PlannedJoints
import Verif.Lemmas.Waves
/-!
# The joint position example: C81

Doubles are real numbers here (`Spec/Real.lean`), with any bit patterns.
-/
set_option linter.unusedSectionVars false
namespace Verif
open Prog Spec Fl

namespace PositionExample
variable (start : Fin 7 → ℝ)

/-- The positions that the callback returns. -/
noncomputable def target (start : Fin 7 → ℝ) (i : Fin 7) (n : ℕ) : ℝ := start i + swing i ((n : ℝ) / 1000)

/-- What the callback has captured. -/
noncomputable def captured (start : Fin 7 → ℝ) : ℕ → Examples.PositionState XR
  | 0 => .new
  | n + 1 => ⟨Arr.fin start, .fin ((n : ℝ) / 1000)⟩

def ends (n : ℕ) : Bool := decide (5000 ≤ n)

/-- The control call. -/
noncomputable def call : ControlCall XR (Examples.PositionState XR) .JointPositions :=
  { motion := Examples.position_callback, torque := none, controller := requestedController none, limit_rate := (none : Option Bool).getD true,
    cutoff := (none : Option XR).getD (lit 100) }

theorem isControl : IsControl positionExample call Examples.PositionState.new := .motion _ _ _ _ _ _ _

theorem cutoff_eq : call.cutoff = .fin 100 := by
  show (lit 100 : XR) = _
  rw [XR.lit_fin]
  norm_num

theorem called (n : ℕ) (st : RobotState XR) (h : n = 0 → st.q_d = Arr.fin start) :
    call.motion (captured start n) st (periodOf n) = (captured start (n + 1), positionOut (target start) ends n) := by
  have htime : (captured start n).time + secs (periodOf n) = .fin ((n : ℝ) / 1000) := by
    cases n with
    | zero =>
      show (lit 0 : XR) + secs 0 = _
      rw [XR.lit_fin, XR.secs_fin, XR.fin_add]
      norm_num
    | succ n =>
      show XR.fin _ + secs 1 = _
      rw [XR.secs_fin, XR.fin_add]
      push_cast
      ring_nf
  have hinit : (if feq (XR.fin ((n : ℝ) / 1000)) (lit 0) then st.q_d else (captured start n).initial_position) = Arr.fin start := by
    cases n with
    | zero =>
      rw [h rfl]
      have : feq (XR.fin (((0 : ℕ) : ℝ) / 1000)) (lit 0) = true := by
        rw [XR.lit_fin]
        simp [Fl.feq, XR.eqv]
      rw [this]
      rfl
    | succ n =>
      have : feq (XR.fin (((n + 1 : ℕ) : ℝ) / 1000)) (lit 0) = false := by
        rw [XR.lit_fin]
        have : ((n : ℝ) + 1) / 1000 ≠ 0 := by positivity
        simp [Fl.feq, XR.eqv]
        exact fun h => absurd h (by positivity)
      rw [this]
      rfl
  have hend : fle (lit 5 : XR) (.fin ((n : ℝ) / 1000)) = ends n := by
    rw [XR.lit_fin, XR.fle_fin]
    unfold ends
    rw [decide_eq_decide]
    rw [le_div_iff₀ (by norm_num)]
    norm_num
  have hdelta : (pi : XR) / lit 8 * (lit 1 - fcos (pi / lit (5 / 2) * .fin ((n : ℝ) / 1000))) = .fin (Real.pi / 8 * (1 - Real.cos (2 * Real.pi * ((n : ℝ) / 1000) / 5))) := by
    simp only [XR.lit_fin, XR.pi_fin]
    rw [XR.fin_div _ _ (by norm_num), XR.fin_div _ _ (by norm_num), XR.fin_mul, show (fcos (XR.fin _) : XR) = .fin (Real.cos _) from rfl, XR.fin_sub, XR.fin_mul]
    congr 2
    norm_num
    congr 1
    ring
  show Examples.position_callback (captured start n) st (periodOf n) = _
  unfold Examples.position_callback
  simp only [htime, hinit, hend, hdelta]
  refine Prod.ext rfl ?_
  have hq : (fun i : Fin 7 => if i = 3 ∨ i = 4 ∨ i = 6 then (Arr.fin start : Arr XR 7) i + .fin (Real.pi / 8 * (1 - Real.cos (2 * Real.pi * ((n : ℝ) / 1000) / 5))) else (Arr.fin start : Arr XR 7) i) =
      Arr.fin fun i => target start i n := by
    funext i
    unfold target swing
    simp only [Arr.fin_apply]
    split
    · rw [XR.fin_add]
    · rw [add_zero]
  show (if ends n = true then _ else _) = positionOut (target start) ends n
  unfold positionOut
  rw [hq]
  cases he : ends n <;> rfl

/-! ## The motion is slow -/

theorem swing_wave {i : Fin 7} (hi : i = 3 ∨ i = 4 ∨ i = 6) (n : ℕ) : swing i ((n : ℝ) / 1000) = sampledWave (Real.pi / 8) (2 * Real.pi / 5000) n := by
  unfold swing sampledWave
  rw [if_pos hi]
  congr 3
  ring

theorem size : Real.pi / 8 * (2 * Real.pi / 5000) ≤ 0.0005 ∧ Real.pi / 8 * (2 * Real.pi / 5000) ^ 2 ≤ 0.0000018 ∧ 1000 * (Real.pi / 8 * (2 * Real.pi / 5000)) / (2 * Real.pi * 100) ≤ 0.0008 := by
  have h1 := Real.pi_gt_d2
  have h2 := Real.pi_lt_d2
  have h3 : Real.pi ^ 2 ≤ 3.15 ^ 2 := by gcongr
  have h4 : Real.pi ^ 3 ≤ 3.15 ^ 3 := by gcongr
  refine ⟨?_, ?_, ?_⟩
  · nlinarith
  · nlinarith
  · have e : 1000 * (Real.pi / 8 * (2 * Real.pi / 5000)) / (2 * Real.pi * 100) = Real.pi / 4000 := by field_simp; norm_num
    rw [e]
    linarith

theorem target_step (i : Fin 7) (n : ℕ) : |target start i (n + 1) - target start i n| ≤ Real.pi / 8 * (2 * Real.pi / 5000) := by
  have hp := Real.pi_pos
  unfold target
  by_cases hi : i = 3 ∨ i = 4 ∨ i = 6
  · rw [swing_wave hi, swing_wave hi, add_sub_add_left_eq_sub]
    exact sampledWave_step (by positivity) (by positivity) n
  · unfold swing
    rw [if_neg hi, if_neg hi, sub_self, abs_zero]
    positivity

theorem target_second (i : Fin 7) (n : ℕ) :
    |target start i (n + 2) - target start i (n + 1) - (target start i (n + 1) - target start i n)| ≤ Real.pi / 8 * (2 * Real.pi / 5000) ^ 2 := by
  have hp := Real.pi_pos
  unfold target
  by_cases hi : i = 3 ∨ i = 4 ∨ i = 6
  · rw [swing_wave hi, swing_wave hi, swing_wave hi, add_sub_add_left_eq_sub, add_sub_add_left_eq_sub]
    exact sampledWave_second (by positivity) n
  · unfold swing
    rw [if_neg hi, if_neg hi, if_neg hi]
    simp only [sub_self, abs_zero]
    positivity

theorem target_zero (i : Fin 7) : target start i 0 = start i := by
  unfold target swing
  split <;> simp

theorem target_first (i : Fin 7) : |target start i 1 - start i| ≤ Real.pi / 8 * (2 * Real.pi / 5000) ^ 2 := by
  have hp := Real.pi_pos
  unfold target
  rw [add_sub_cancel_left]
  by_cases hi : i = 3 ∨ i = 4 ∨ i = 6
  · rw [swing_wave hi]
    refine (sampledWave_first (by positivity)).trans ?_
    have : 0 ≤ Real.pi / 8 * (2 * Real.pi / 5000) ^ 2 := by positivity
    linarith
  · unfold swing
    rw [if_neg hi, abs_zero]
    positivity

/-- The steps of the whole signal. -/
theorem whole_step (i : Fin 7) (n : ℕ) : |target start i n - starting (start i) (target start i) n| ≤ Real.pi / 8 * (2 * Real.pi / 5000) := by
  cases n with
  | zero =>
    have := Real.pi_pos
    rw [starting, target_zero, sub_self, abs_zero]
    positivity
  | succ n => exact target_step start i n

theorem whole_second (i : Fin 7) (n : ℕ) : |rate (starting (start i) (target start i)) (n + 1) - rate (starting (start i) (target start i)) n| ≤ 0.0018 := by
  obtain ⟨-, hs, -⟩ := size
  have key : ∀ a b : ℝ, |a - b| ≤ Real.pi / 8 * (2 * Real.pi / 5000) ^ 2 → |a / 0.001 - b / 0.001| ≤ 0.0018 := by
    intro a b h
    rw [← sub_div, abs_div, abs_of_pos (by norm_num : (0 : ℝ) < 0.001), div_le_iff₀ (by norm_num)]
    exact h.trans (by linarith)
  match n with
  | 0 =>
    simp only [rate, starting]
    rw [target_zero]
    norm_num
  | 1 =>
    simp only [rate, starting]
    refine key _ _ ?_
    rw [target_zero, sub_self, sub_zero]
    exact target_first start i
  | n + 2 =>
    simp only [rate, starting]
    exact key _ _ (target_second start i n)

theorem whole_rate (i : Fin 7) (n : ℕ) : |rate (starting (start i) (target start i)) n| ≤ 1 := by
  obtain ⟨hs, -, -⟩ := size
  cases n with
  | zero => rw [rate, abs_zero]; exact zero_le_one
  | succ n =>
    rw [rate, abs_div, abs_of_pos (by norm_num : (0 : ℝ) < 0.001), div_le_iff₀ (by norm_num)]
    exact (whole_step start i n).trans (by linarith)

theorem allowed (i : Fin 7) (N : ℕ) : PositionAllowedFor N (jointLimits i) (starting (start i) (target start i)) := by
  intro n _
  have h1 := whole_second start i n
  have h2 : |(rate (starting (start i) (target start i)) (n + 1) - rate (starting (start i) (target start i)) n) / 0.001| ≤ 1.8 := by
    rw [abs_div, abs_of_pos (by norm_num : (0 : ℝ) < 0.001), div_le_iff₀ (by norm_num)]
    exact h1.trans (by norm_num)
  have h3 : |rate (rate (starting (start i) (target start i))) n| ≤ 1.8 := by
    cases n with
    | zero => rw [rate, abs_zero]; norm_num
    | succ n =>
      rw [rate, abs_div, abs_of_pos (by norm_num : (0 : ℝ) < 0.001), div_le_iff₀ (by norm_num)]
      exact (whole_second start i n).trans (by norm_num)
  refine slow_allowed i (whole_rate start i n) (h2.trans (by norm_num)) ?_
  rw [abs_div, abs_of_pos (by norm_num : (0 : ℝ) < 0.001), div_le_iff₀ (by norm_num)]
  exact (abs_sub _ _).trans (by linarith)

theorem plan [Geo XR] : IsPlanOf call Examples.PositionState.new (captured start) (positionOut (target start) ends)
    (positionCmd fun i => lowPass 100 (start i) (target start i)) (PositionsReported fun i => lowPass 100 (start i) (target start i)) :=
  planned_positions rfl rfl cutoff_eq (by norm_num) (by norm_num) rfl (called start) (allowed start)

end PositionExample
open PositionExample

section
variable [Wire XR] [Geo XR] {w : World XR} (hw : RobotReachable w) {start : Fin 7 → ℝ}
  (follows : FollowsJoints start (exchanges (newEvents w (positionExample.run w).2)))
include hw follows

/-- **C81**: with a robot that rests at `start` and follows the commands, the control call of the joint position example swings the joints as intended. The commands
are those of the callback after the low pass with the default cutoff frequency, they are within 0.0008 rad of the intended positions, and the 5001st command ends the
motion. If the call returns Ok, then there were that many. -/
theorem C81_position_example : ∃ y : Fin 7 → ℕ → ℝ,
    (∀ i, y i 0 = start i ∧ LowPassedFor (answered w positionExample) 100 (fun n => start i + swing i ((n : ℝ) / 1000)) (y i)) ∧
    (∀ n st x, Exchange w positionExample n st x → x.motion.q_c = Arr.fin (fun i => y i (n + 1)) ∧
      (∀ i, |y i (n + 1) - (start i + swing i ((n : ℝ) / 1000))| ≤ 0.0008) ∧ x.motion.motion_generation_finished = decide (n = 5000) ∧ n ≤ 5000) ∧
    ((positionExample.run w).1 = .ok () → answered w positionExample = 5001) := by
  have hp := plan start
  obtain ⟨f1, f2⟩ := FollowsJoints.reported follows (y := fun i => lowPass 100 (start i) (target start i)) fun _ => rfl
  have h0 : ∀ st x, Exchange w positionExample 0 st x → PositionsReported (fun i => lowPass 100 (start i) (target start i)) 0 st := fun st x hx => f1 _ hx
  have hq : ∀ n, (sentCmd (positionOut (target start) ends) (positionCmd fun i => lowPass 100 (start i) (target start i)) n).q_c =
      Arr.fin fun i => lowPass 100 (start i) (target start i) (n + 1) := by
    intro n
    unfold sentCmd
    split <;> rfl
  have hn : ∀ n st x st' x', Exchange w positionExample n st x → Exchange w positionExample (n + 1) st' x' →
      x.motion = sentCmd (positionOut (target start) ends) (positionCmd fun i => lowPass 100 (start i) (target start i)) n →
      PositionsReported (fun i => lowPass 100 (start i) (target start i)) n st →
      PositionsReported (fun i => lowPass 100 (start i) (target start i)) (n + 1) st' ∧ st'.time = st.time + 1 := by
    intro n st x st' x' hx hx' hm hR
    exact f2 n _ _ hx hx' (by rw [hm]; exact hq n) hR
  have hfin : ∀ n : ℕ, (positionOut (target start) ends n).is_finished = ends n := fun _ => rfl
  refine ⟨fun i => lowPass 100 (start i) (target start i), fun i => ⟨rfl, lowPass_is (by norm_num) _ _⟩, ?_, ?_⟩
  · intro n st x hx
    obtain ⟨-, g2, -, -, g5⟩ := hp.goes hw isControl h0 hn n st x hx
    have hle : n ≤ 5000 := by
      by_contra hlt
      have := g5 5000 (by omega)
      rw [hfin] at this
      exact absurd this (by decide)
    refine ⟨by rw [g2]; exact hq n, fun i => ?_, ?_, hle⟩
    · exact (lowPass_lag (by norm_num) (whole_step start i) n).trans size.2.2
    · rw [g2]
      unfold sentCmd
      rw [hfin]
      unfold ends
      by_cases h : n = 5000
      · subst h
        rfl
      · rw [if_neg (by simp; omega), decide_eq_false h]
        rfl
  · intro hok
    obtain ⟨n, h1, h2⟩ := hp.ends hw isControl h0 hn hok
    rw [hfin] at h2
    have hge : 5000 ≤ n := of_decide_eq_true h2
    obtain ⟨st, x, hx⟩ := exchange_exists (by omega : n < answered w positionExample)
    obtain ⟨-, -, -, -, g5⟩ := hp.goes hw isControl h0 hn n st x hx
    have hle : n ≤ 5000 := by
      by_contra hlt
      have := g5 5000 (by omega)
      rw [hfin] at this
      exact absurd this (by decide)
    omega

/-- What the motion callback returned. -/
theorem PositionExample.returned (hok : (positionExample.run w).1 = .ok ()) (n : ℕ) (out : Motion XR .JointPositions)
    (h : (motionOutputs .JointPositions (newEvents w (positionExample.run w).2))[n]? = some out) :
    JointPositions.q out = Arr.fin fun i => start i + swing i ((n : ℝ) / 1000) := by
  have hp := plan start
  obtain ⟨f1, f2⟩ := FollowsJoints.reported follows (y := fun i => lowPass 100 (start i) (target start i)) fun _ => rfl
  obtain ⟨hn, -⟩ := List.getElem?_eq_some_iff.1 h
  rw [outputs_ok hw isControl hok] at hn
  obtain ⟨st, x, hx⟩ := exchange_exists hn
  obtain ⟨-, -, -, g4, -⟩ := hp.goes hw isControl (fun st x hx => f1 _ hx)
    (fun n st x st' x' hx hx' hm hR => f2 n _ _ hx hx' (by rw [hm]; unfold sentCmd; split <;> rfl) hR) n st x hx
  rw [h] at g4
  injection g4 with g4
  rw [g4]
  rfl

end

/-- **C81**, without hypotheses on the robot: from every position there is a robot that follows, and then the call returns Ok. -/
theorem C81_position_example_happens [Geo XR] (start : Fin 7 → ℝ) : ∃ (_ : Wire XR) (w : World XR), RobotReachable w ∧ (positionExample.run w).1 = .ok () ∧
    FollowsJoints start (exchanges (newEvents w (positionExample.run w).2)) := by
  obtain ⟨y, hy⟩ : ∃ y, y = fun i => lowPass 100 (start i) (target start i) := ⟨_, rfl⟩
  obtain ⟨wire, k0, kp⟩ := Following.wire_for (N := 5000) (fun n => Arr.fin fun i => y i n) (fun n => Arr.fin fun i => rate (y i) n) (fun n => Arr.fin fun i => rate (rate (y i)) n) (by norm_num)
  have hp := plan start
  rw [← hy] at hp
  obtain ⟨w, g1, g2, g3⟩ := hp.happens (robot_for (by norm_num) _ _ _ k0 kp fun n st _ e1 e2 e3 => ⟨e1, e2, e3⟩)
    (fun n hn => decide_eq_false (by omega : ¬ 5000 ≤ n)) (by show decide (5000 ≤ 5000) = true; rfl) isControl
  refine ⟨wire, w, g1, g2, ?_⟩
  rw [g3]
  refine ⟨?_, ?_⟩
  · intro p hp
    rw [List.range_succ_eq_map] at hp
    cases hp
    refine ⟨?_, rfl, rfl⟩
    subst hy
    rfl
  · rw [List.isChain_iff_getElem]
    intro k hk
    simp only [List.length_map, List.length_range] at hk
    simp only [List.getElem_map, List.getElem_range]
    refine ⟨?_, ?_, ?_, ?_⟩
    · show (UInt64.ofNat (k + 1 + 3)).toNat = (UInt64.ofNat (k + 3)).toNat + 1
      rw [UInt64.toNat_ofNat', UInt64.toNat_ofNat', Nat.mod_eq_of_lt (by omega), Nat.mod_eq_of_lt (by omega)]
    · show (Arr.fin fun i => y i (k + 1)) = (sentCmd _ _ k).q_c
      unfold sentCmd
      split <;> rfl
    · intro i
      show XR.fin (rate (y i) (k + 1)) = (XR.fin _ - XR.fin _) / _
      rw [XR.fin_sub, XR.fin_div _ _ (by norm_num)]
      rfl
    · intro i
      show XR.fin (rate (rate (y i)) (k + 1)) = (XR.fin _ - XR.fin _) / _
      rw [XR.fin_sub, XR.fin_div _ _ (by norm_num)]
      rfl

/-- The hypotheses of C80 for joint positions are met by this program. -/
example [Geo XR] (start : Fin 7 → ℝ) : ∃ (_ : Wire XR) (w : World XR) (u y : Fin 7 → ℕ → ℝ), RobotReachable w ∧ IsControl positionExample call Examples.PositionState.new ∧
    call.limit_rate = true ∧ call.cutoff = .fin 100 ∧ answered w positionExample = 5001 ∧
    (∀ n out, (motionOutputs .JointPositions (newEvents w (positionExample.run w).2))[n]? = some out → JointPositions.q out = Arr.fin fun i => u i n) ∧
    (∀ n st x, Exchange w positionExample n st x → st.q_d = Arr.fin (fun i => y i n) ∧ st.dq_d = Arr.fin (fun i => rate (y i) n) ∧
      st.ddq_d = Arr.fin fun i => rate (rate (y i)) n) ∧
    (∀ n st x, Exchange w positionExample n st x → x.motion.q_c = Arr.fin fun i => y i (n + 1)) ∧
    ∀ i, PositionAllowedFor (answered w positionExample) (jointLimits i) (starting (y i 0) (u i)) := by
  obtain ⟨wire, w, hw, hok, follows⟩ := C81_position_example_happens start
  obtain ⟨y, h1, h2, h3⟩ := C81_position_example hw follows
  refine ⟨wire, w, target start, y, hw, isControl, rfl, cutoff_eq, h3 hok, returned hw follows hok, fun n => ?_, fun n st x hx => (h2 n st x hx).1, fun i => ?_⟩
  · obtain ⟨f1, f2⟩ := FollowsJoints.reported follows fun i => (h1 i).1
    induction n with
    | zero => exact fun st x hx => f1 _ hx
    | succ n ih =>
      intro st' x' hx'
      have hlt : n + 1 < answered w positionExample := (List.getElem?_eq_some_iff.1 hx').1
      obtain ⟨st, x, hx⟩ := exchange_exists (by omega : n < answered w positionExample)
      exact (f2 n _ _ hx hx' (h2 n st x hx).1 (ih st x hx)).1
  · rw [(h1 i).1]
    exact allowed start i _

end Verif
