import Verif.Lemmas.Smooth
import Verif.Lemmas.Turns
import Verif.Props.Transparent
/-!
# The low pass filter of a control call: C80

Doubles are real numbers here (`Spec/Real.lean`), with any bit patterns. `w` is a world in which a `Robot` exists (after `Robot::new` and any calls), `c` a
control method with its arguments, with rate limiting and with a cutoff frequency `f` below 1000 Hz. `exchanges` (Spec/Exchange.lean) are the states that were
passed to the motion callback in this call, with the commands that were sent for them. The robot is assumed to follow: in every state it reports the values of
the last command as the desired ones, and their rates of change.
-/
set_option linter.unusedSectionVars false
namespace Verif
open Prog Spec

/-! ## Turns of a call -/

section any
variable {F : Type} [Fl F] [Wire F] [Geo F] {w : World F} (hw : RobotReachable w) {c : RobotCall F} {σ : Type} {k : MotionKind} {call : ControlCall F σ k} {c0 : σ}
  (hc : IsControl c call c0)
include hw hc

theorem call_turns : ∃ l pend, SeenTurns call c0 (newEvents w (c.run w).2) l pend := by
  obtain ⟨s0, ph, -, -, hr, -⟩ := control_events hw hc
  exact (run_turns hr).end

/-- If the call returns Ok, a callback ended the motion in the last turn. -/
theorem call_turns_ok (hok : (c.run w).1 = .ok ()) : ∃ l x, SeenTurns call c0 (newEvents w (c.run w).2) (l ++ [x]) [] ∧ x.ended = true := by
  obtain ⟨s0, ph, -, -, hr, -, hres⟩ := control_events hw hc
  rw [hok] at hres
  obtain ⟨-, s, m, t, rfl, hfin⟩ := hres
  rcases run_turns hr with ⟨-, h, -⟩ | ⟨-, h⟩
  · exact absurd h hfin.still
  · exact h

omit hw hc in
theorem SeenTurns.at {tr : List (Ev F)} {l pend : List (Turn F σ k)} (h : SeenTurns call c0 tr l pend) {n : ℕ} {st : RobotState F} {x : RobotCommand F}
    (hx : (exchanges tr)[n]? = some (st, x)) :
    ∃ t, l[n]? = some t ∧ GoodTurn call c0 (l.take n) t ∧ t.st = st ∧ t.cmd = x.motion ∧ t.t = x.control ∧ (motionOutputs k tr)[n]? = some t.out := by
  have hp := congrArg (·[n]?) h.pairs
  simp only [List.getElem?_map, hx, Option.map_some] at hp
  obtain ⟨t, ht, e⟩ := Option.map_eq_some_iff.1 hp.symm
  injection e with e1 e
  injection e with e2 e3
  obtain ⟨hn, ht'⟩ := List.getElem?_eq_some_iff.1 ht
  refine ⟨t, ht, h.good _ _ (l.drop (n + 1)) ?_, e1, e2, e3, ?_⟩
  · rw [← ht', ← List.drop_eq_getElem_cons hn, List.take_append_drop]
  · rw [h.motions]
    unfold motionOuts
    rw [List.map_append, List.getElem?_append_left (by rw [List.length_map]; exact hn), List.getElem?_map, ht]
    rfl

theorem turn_at {n : ℕ} {st : RobotState F} {x : RobotCommand F} (hx : Exchange w c n st x) :
    ∃ pre t, GoodTurn call c0 pre t ∧ t.st = st ∧ t.cmd = x.motion ∧ t.t = x.control ∧ (motionOutputs k (newEvents w (c.run w).2))[n]? = some t.out := by
  obtain ⟨l, pend, h⟩ := call_turns hw hc
  obtain ⟨t, -, h1⟩ := h.at hx
  exact ⟨_, t, h1⟩

/-- The torque callback was called in every turn before the last one. -/
theorem torque_turn_at (ht : call.torque ≠ none) {n : ℕ} {st : RobotState F} {x : RobotCommand F} (hx : Exchange w c n st x)
    {out : Torques F} (ho : (torqueOutputs (newEvents w (c.run w).2))[n]? = some out) :
    ControlLoop.convert_torques call.limit_rate call.cutoff st out.tau_J = .ok x.control.tau_J_d := by
  obtain ⟨l, pend, h⟩ := call_turns hw hc
  obtain ⟨t, h1, h2, h3, -, h5, -⟩ := h.at hx
  obtain ⟨hn, hnt⟩ := List.getElem?_eq_some_iff.1 h1
  -- the outputs before the turn
  have hpre : ∀ m ≤ n, (torqueOuts (l.take m)).length = m := by
    intro m
    induction m with
    | zero => intro _; rfl
    | succ m ih =>
      intro hm
      have hml : m < l.length := by omega
      have hg := h.good (l.take m) l[m] (l.drop (m + 1)) (by rw [← List.drop_eq_getElem_cons hml, List.take_append_drop])
      have hme : l[m].ended = false := h2.moved.earlier _ (List.mem_take_iff_getElem.2 ⟨m, by omega, rfl⟩)
      obtain ⟨o, ho⟩ : ∃ o, l[m].tq = some o := by
        rcases hg.torque with g | g
        · rcases g.why with g | g
          · exact absurd g ht
          · unfold Turn.ended at hme
            rw [g] at hme
            cases hme
        · obtain ⟨f, -, g⟩ := g.out
          exact ⟨_, g⟩
      rw [List.take_add_one, List.getElem?_eq_getElem hml, Option.toList_some]
      unfold torqueOuts at ih ⊢
      rw [List.filterMap_append, List.length_append, ih (by omega)]
      simp [ho]
  have hsplit : torqueOutputs (newEvents w (c.run w).2) = torqueOuts (l.take n) ++ (t.tq.toList ++ torqueOuts (l.drop (n + 1) ++ pend)) := by
    rw [h.torques]
    unfold torqueOuts
    conv_lhs => rw [← List.take_append_drop n l, List.drop_eq_getElem_cons hn, hnt]
    rw [List.append_assoc, List.filterMap_append, List.cons_append, List.filterMap_cons]
    cases t.tq <;> rfl
  rw [hsplit, List.getElem?_append_right (by rw [hpre n le_rfl]), hpre n le_rfl, Nat.sub_self] at ho
  rcases h2.torque with g | g
  · -- no callback in this turn: then it ended the motion and there are no later ones
    exfalso
    rcases g.why with g' | g'
    · exact ht g'
    · have hend : t.ended = true := by unfold Turn.ended; rw [g']; rfl
      rw [g.tq] at ho
      have hlast : l.drop (n + 1) = [] := by
        by_contra hne
        obtain ⟨z, zs, hz⟩ := List.exists_cons_of_ne_nil hne
        have hg := h.good (l.take (n + 1)) z zs (by rw [← hz, List.take_append_drop])
        have := hg.moved.earlier t (by rw [List.mem_take_iff_getElem]; exact ⟨n, by omega, hnt⟩)
        rw [hend] at this
        cases this
      rw [h.last t (List.mem_of_getElem? h1) hend, hlast] at ho
      cases ho
  · obtain ⟨o, τ, g1, g2, g3⟩ := g.conv
    rw [g1] at ho
    cases ho
    rw [← h5, g3, ← h3]
    exact g2

end any

/-! ## Conversions -/

theorem with_filter {f : ℝ} (h1 : f < 1000) : Fl.flt (XR.fin f) MAX_CUTOFF_FREQUENCY = true := by
  rw [MAX_CUTOFF_FREQUENCY, XR.lit_fin, XR.flt_fin]
  simpa using by linarith

theorem filtered_by {f : ℝ} (h0 : 0 < f) (u x : Fin 7 → ℝ) : (Arr.tabulateP fun i => low_pass_filter DELTA_T ((Arr.fin u : Arr XR 7) i) ((Arr.fin x : Arr XR 7) i) (.fin f)) =
    .ok (Arr.fin fun i => gain (1 / 1000) f * u i + (1 - gain (1 / 1000) f) * x i) := by
  refine Arr.tabulateP_ok fun i => ?_
  rw [DELTA_T_fin, Arr.fin_apply, Arr.fin_apply, low_pass_filter_fin (by norm_num) h0.le]
  rfl

theorem convert_filtered_positions {u x : Fin 7 → ℝ} {b : Bool} {state : RobotState XR} {m : MotionGeneratorCommand XR} {f : ℝ} (h0 : 0 < f) (h1 : f < 1000)
    (hx : state.q_d = Arr.fin x) : JointPositions.convert_motion ⟨b, Arr.fin u⟩ state m (.fin f) true =
      JointPositions.convert_motion ⟨b, Arr.fin fun i => gain (1 / 1000) f * u i + (1 - gain (1 / 1000) f) * x i⟩ state m (.fin 1000) true := by
  unfold JointPositions.convert_motion
  rw [with_filter h1, no_filter le_rfl]
  simp only [hx, filtered_by h0, if_true, Bool.false_eq_true, if_false]
  rfl

theorem convert_filtered_velocities {u x : Fin 7 → ℝ} {b : Bool} {state : RobotState XR} {m : MotionGeneratorCommand XR} {f : ℝ} (h0 : 0 < f) (h1 : f < 1000)
    (hx : state.dq_d = Arr.fin x) : JointVelocities.convert_motion ⟨b, Arr.fin u⟩ state m (.fin f) true =
      JointVelocities.convert_motion ⟨b, Arr.fin fun i => gain (1 / 1000) f * u i + (1 - gain (1 / 1000) f) * x i⟩ state m (.fin 1000) true := by
  unfold JointVelocities.convert_motion
  rw [with_filter h1, no_filter le_rfl]
  simp only [hx, filtered_by h0, if_true, Bool.false_eq_true, if_false]
  rfl

theorem convert_filtered_torques {u x : Fin 7 → ℝ} {state : RobotState XR} {f : ℝ} (h0 : 0 < f) (h1 : f < 1000)
    (hx : state.tau_J_d = Arr.fin x) : ControlLoop.convert_torques true (.fin f) state (Arr.fin u) =
      ControlLoop.convert_torques true (.fin 1000) state (Arr.fin fun i => gain (1 / 1000) f * u i + (1 - gain (1 / 1000) f) * x i) := by
  unfold ControlLoop.convert_torques
  rw [with_filter h1, no_filter le_rfl]
  simp only [hx, filtered_by h0, if_true, Bool.false_eq_true, if_false]
  rfl

/-! ## Control calls -/

theorem lag_eq {f u y z : ℝ} (h : y + (y - z) / 0.001 / (2 * Real.pi * f) = u) : |y - u| = |(y - z) / 0.001| / |2 * Real.pi * f| := by
  rw [← h, ← abs_div]
  rw [show y - (y + (y - z) / 0.001 / (2 * Real.pi * f)) = -((y - z) / 0.001 / (2 * Real.pi * f)) by ring, abs_neg]

section
variable [Wire XR] [Geo XR] {w : World XR} (hw : RobotReachable w) {c : RobotCall XR} {σ : Type} {c0 : σ} {f : ℝ} (h0 : 0 < f) (h1 : f < 1000)
include hw h0 h1

/-- **C80**, joint positions: `u i n` is the position of joint `i` which the motion callback returned in its `n`-th call, `y i n` the one that the robot reports in
the `n`-th state and `y i (n + 1)` the one in the command for it. If the positions that the callback returns respect the limits, then the commands are those
positions after a low pass with the cutoff frequency `f`, and nothing else: the rate limiting does not change them. A command lags behind the callback by at
most the greatest velocity divided by `2 π f`. -/
theorem C80_joint_positions {call : ControlCall XR σ .JointPositions} (hc : IsControl c call c0) (hl : call.limit_rate = true) (hf : call.cutoff = .fin f)
    (u y : Fin 7 → ℕ → ℝ)
    (returned : ∀ n out, (motionOutputs .JointPositions (newEvents w (c.run w).2))[n]? = some out → JointPositions.q out = Arr.fin fun i => u i n)
    (reported : ∀ n st x, Exchange w c n st x → st.q_d = Arr.fin (fun i => y i n) ∧ st.dq_d = Arr.fin (fun i => rate (y i) n) ∧
      st.ddq_d = Arr.fin fun i => rate (rate (y i)) n)
    (commanded : ∀ n st x, Exchange w c n st x → x.motion.q_c = Arr.fin fun i => y i (n + 1))
    (allowed : ∀ i, PositionAllowedFor (answered w c) (jointLimits i) (starting (y i 0) (u i))) (i : Fin 7) :
    LowPassedFor (answered w c) f (u i) (y i) ∧ ∀ n < answered w c, |y i (n + 1) - u i n| ≤ (jointLimits i).velocity / (2 * Real.pi * f) := by
  have g0 := gain_nonneg (dt := 1 / 1000) (by norm_num) h0.le
  have g1 := (gain_lt_one (dt := 1 / 1000) (by norm_num) h0.le).le
  obtain ⟨g, hg⟩ : ∃ g, g = gain (1 / 1000) f := ⟨_, rfl⟩
  rw [← hg] at g0 g1
  unfold PositionAllowedFor VelocityAllowedFor at allowed
  simp only [below_joint] at allowed
  have key : ∀ n, n < answered w c → ∀ i, y i (n + 1) = g * u i n + (1 - g) * y i n := by
    intro n
    induction n using Nat.strong_induction_on with
    | _ n ih =>
      intro hn
      obtain ⟨st, x, hx⟩ := exchange_exists hn
      obtain ⟨pre, t, k1, k2, k3, -, k5⟩ := turn_at hw hc hx
      obtain ⟨r1, r2, r3⟩ := reported n st x hx
      have hu := returned n _ k5
      have hconv := k1.moved.conv
      rw [hf, hl, k2] at hconv
      have hto : t.out = (⟨JointPositions.motion_finished t.out, Arr.fin fun i => u i n⟩ : JointPositions XR) := by rw [← hu]; rfl
      rw [hto] at hconv
      change JointPositions.convert_motion ⟨_, Arr.fin fun i => u i n⟩ st (mBefore pre) (.fin f) true = .ok t.m at hconv
      have hz := fun i => lowpass_next_position (codeLimits_ok i) g0 g1 (allowed i) n hn fun j hj => ih j hj (by omega) i
      rw [convert_filtered_positions h0 h1 r1, ← hg, C44_convert_joint_positions le_rfl r1 r2 r3 hz] at hconv
      injection hconv with hconv
      have hq : x.motion.q_c = t.m.q_c := by
        rw [← k3]
        unfold Turn.cmd
        split <;> rfl
      have := (commanded n st x hx).symm.trans (hq.trans (congrArg MotionGeneratorCommand.q_c hconv).symm)
      exact fun i => (XR.fin_inj _ _).1 (congrFun this i)
  have hlow : LowPassedFor (answered w c) f (u i) (y i) := fun n hn => (gain_eq h0).2 (by rw [← hg]; exact key n hn i)
  refine ⟨hlow, fun n hn => ?_⟩
  have hp : 0 < 2 * Real.pi * f := by have := Real.pi_pos; positivity
  rw [lag_eq (hlow n hn), abs_of_pos hp]
  refine div_le_div_of_nonneg_right ?_ hp.le
  refine le_trans ?_ (codeLimits_le i).1
  refine allowed_velocity (codeLimits_ok i) (w := rate (y i)) (N := n + 1) (by rw [rate, abs_zero]; exact (codeLimits_ok i).velocity) (fun m hm => ?_) (n + 1) le_rfl
  have := lowpass_next_position (codeLimits_ok i) g0 g1 (allowed i) m (by omega) fun j hj => key j (by omega) i
  rwa [← key m (by omega) i] at this

/-- **C80**, joint velocities: the same for velocities, from any allowed velocity. The lag is at most the greatest acceleration divided by `2 π f`. -/
theorem C80_joint_velocities {call : ControlCall XR σ .JointVelocities} (hc : IsControl c call c0) (hl : call.limit_rate = true) (hf : call.cutoff = .fin f)
    (u y : Fin 7 → ℕ → ℝ)
    (returned : ∀ n out, (motionOutputs .JointVelocities (newEvents w (c.run w).2))[n]? = some out → JointVelocities.dq out = Arr.fin fun i => u i n)
    (reported : ∀ n st x, Exchange w c n st x → st.dq_d = Arr.fin (fun i => y i n) ∧ st.ddq_d = Arr.fin (fun i => rate (y i) n))
    (commanded : ∀ n st x, Exchange w c n st x → x.motion.dq_c = Arr.fin fun i => y i (n + 1))
    (slow : ∀ i, |y i 0| ≤ (below (jointLimits i)).velocity)
    (allowed : ∀ i, VelocityAllowedFor (answered w c) (jointLimits i) (starting (y i 0) (u i))) (i : Fin 7) :
    LowPassedFor (answered w c) f (u i) (y i) ∧ ∀ n < answered w c, |y i (n + 1) - u i n| ≤ (jointLimits i).acceleration / (2 * Real.pi * f) := by
  have g0 := gain_nonneg (dt := 1 / 1000) (by norm_num) h0.le
  have g1 := (gain_lt_one (dt := 1 / 1000) (by norm_num) h0.le).le
  obtain ⟨g, hg⟩ : ∃ g, g = gain (1 / 1000) f := ⟨_, rfl⟩
  rw [← hg] at g0 g1
  unfold VelocityAllowedFor at allowed
  simp only [below_joint] at allowed
  have hv0 : ∀ i, |y i 0| ≤ (codeLimits i).velocity := fun i => by
    have := slow i
    rwa [below_joint] at this
  have key : ∀ n, n < answered w c → ∀ i, y i (n + 1) = g * u i n + (1 - g) * y i n := by
    intro n
    induction n using Nat.strong_induction_on with
    | _ n ih =>
      intro hn
      obtain ⟨st, x, hx⟩ := exchange_exists hn
      obtain ⟨pre, t, k1, k2, k3, -, k5⟩ := turn_at hw hc hx
      obtain ⟨r1, r2⟩ := reported n st x hx
      have hu := returned n _ k5
      have hconv := k1.moved.conv
      rw [hf, hl, k2] at hconv
      have hto : t.out = (⟨JointVelocities.motion_finished t.out, Arr.fin fun i => u i n⟩ : JointVelocities XR) := by rw [← hu]; rfl
      rw [hto] at hconv
      change JointVelocities.convert_motion ⟨_, Arr.fin fun i => u i n⟩ st (mBefore pre) (.fin f) true = .ok t.m at hconv
      have hz : ∀ i, Allowed (codeLimits i) (g * u i n + (1 - g) * y i n) (y i n) (rate (y i) n) := fun i => lowpass_next (v := starting (y i 0) (u i)) (w := y i) (codeLimits_ok i) g0 g1 (hv0 i) rfl (allowed i) n hn fun j hj => ih j hj (by omega) i
      rw [convert_filtered_velocities h0 h1 r1, ← hg, C44_convert_joint_velocities le_rfl r1 r2 hz] at hconv
      injection hconv with hconv
      have hq : x.motion.dq_c = t.m.dq_c := by
        rw [← k3]
        unfold Turn.cmd
        split <;> rfl
      have := (commanded n st x hx).symm.trans (hq.trans (congrArg MotionGeneratorCommand.dq_c hconv).symm)
      exact fun i => (XR.fin_inj _ _).1 (congrFun this i)
  have hlow : LowPassedFor (answered w c) f (u i) (y i) := fun n hn => (gain_eq h0).2 (by rw [← hg]; exact key n hn i)
  refine ⟨hlow, fun n hn => ?_⟩
  have hp : 0 < 2 * Real.pi * f := by have := Real.pi_pos; positivity
  rw [lag_eq (hlow n hn), abs_of_pos hp]
  refine div_le_div_of_nonneg_right ?_ hp.le
  refine le_trans ?_ (codeLimits_le i).2.1
  have := lowpass_next (v := starting (y i 0) (u i)) (w := y i) (codeLimits_ok i) g0 g1 (hv0 i) rfl (allowed i) n hn fun j hj => key j (by omega) i
  have := this.acceleration
  rw [show starting (y i 0) (u i) (n + 1) = u i n from rfl] at this
  rwa [← key n hn i] at this

/-- **C80**, torques: if the torque callback changes each torque by less than 1 Nm per cycle, then the commands are its torques after the low pass. They lag behind
by at most 1 Nm per millisecond divided by `2 π f`. -/
theorem C80_torques {k : MotionKind} {call : ControlCall XR σ k} (hc : IsControl c call c0) (ht : call.torque ≠ none) (hl : call.limit_rate = true)
    (hf : call.cutoff = .fin f) (u y : Fin 7 → ℕ → ℝ) {N : ℕ} (hN : N ≤ answered w c)
    (returned : ∀ n < N, ∃ out, (torqueOutputs (newEvents w (c.run w).2))[n]? = some out ∧ out.tau_J = Arr.fin fun i => u i n)
    (reported : ∀ n st x, Exchange w c n st x → st.tau_J_d = Arr.fin (fun i => y i n))
    (commanded : ∀ n st x, Exchange w c n st x → x.control.tau_J_d = Arr.fin fun i => y i (n + 1))
    (allowed : ∀ i, ∀ n < N, |u i n - starting (y i 0) (u i) n| ≤ 0.999) (i : Fin 7) :
    LowPassedFor N f (u i) (y i) ∧ ∀ n < N, |y i (n + 1) - u i n| ≤ 1000 / (2 * Real.pi * f) := by
  have g0 := gain_nonneg (dt := 1 / 1000) (by norm_num) h0.le
  have g1 := (gain_lt_one (dt := 1 / 1000) (by norm_num) h0.le).le
  obtain ⟨g, hg⟩ : ∃ g, g = gain (1 / 1000) f := ⟨_, rfl⟩
  rw [← hg] at g0 g1
  have key : ∀ n, n < N → ∀ i, y i (n + 1) = g * u i n + (1 - g) * y i n := by
    intro n
    induction n using Nat.strong_induction_on with
    | _ n ih =>
      intro hn
      obtain ⟨st, x, hx⟩ := exchange_exists (by omega : n < answered w c)
      obtain ⟨out, k1, k2⟩ := returned n hn
      have hconv := torque_turn_at hw hc ht hx k1
      rw [hf, hl, k2, convert_filtered_torques h0 h1 (reported n st x hx), ← hg] at hconv
      have hz := fun i => lowpass_next_step g0 g1 (allowed i) n hn fun j hj => ih j hj (by omega) i
      have := admissible_torques ⟨_, _, rfl, reported n st x hx, hz⟩ le_rfl hconv
      rw [commanded n st x hx] at this
      exact fun i => (XR.fin_inj _ _).1 (congrFun this i)
  have hlow : LowPassedFor N f (u i) (y i) := fun n hn => (gain_eq h0).2 (by rw [← hg]; exact key n hn i)
  refine ⟨hlow, fun n hn => ?_⟩
  have hp : 0 < 2 * Real.pi * f := by have := Real.pi_pos; positivity
  rw [lag_eq (hlow n hn), abs_of_pos hp]
  refine div_le_div_of_nonneg_right ?_ hp.le
  have := lowpass_next_step g0 g1 (allowed i) n hn fun j hj => key j (by omega) i
  rw [← key n hn i] at this
  rw [abs_div, abs_of_pos (by norm_num : (0 : ℝ) < 0.001)]
  rw [div_le_iff₀ (by norm_num)]
  linarith

end
end Verif
