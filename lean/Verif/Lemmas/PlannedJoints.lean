import Verif.Lemmas.Planned
import Verif.Lemmas.Hold
import Verif.Props.FollowHappens
/-!
Lemmas: planned joint motions (see Lemmas/Planned.lean) that pass the low pass filter and the rate limiting, over real numbers.
-/
set_option linter.unusedSectionVars false
namespace Verif
open Prog Spec Fl

/-- The low passed signal. -/
noncomputable def lowPass (f a : ℝ) (u : ℕ → ℝ) : ℕ → ℝ
  | 0 => a
  | n + 1 => gain (1 / 1000) f * u n + (1 - gain (1 / 1000) f) * lowPass f a u n

theorem lowPass_is {f a : ℝ} (hf : 0 < f) (u : ℕ → ℝ) (N : ℕ) : LowPassedFor N f u (lowPass f a u) := fun _ _ => (gain_eq hf).2 rfl

theorem gain_range {f : ℝ} (hf : 0 < f) : 0 ≤ gain (1 / 1000) f ∧ gain (1 / 1000) f ≤ 1 :=
  ⟨gain_nonneg (by norm_num) hf.le, (gain_lt_one (by norm_num) hf.le).le⟩

/-- The lag of a signal with bounded steps. -/
theorem lowPass_lag {f a b : ℝ} (hf : 0 < f) {u : ℕ → ℝ} (h : ∀ n, |u n - starting a u n| ≤ b) (n : ℕ) : |lowPass f a u (n + 1) - u n| ≤ 1000 * b / (2 * Real.pi * f) := by
  have hp : 0 < 2 * Real.pi * f := by have := Real.pi_pos; positivity
  obtain ⟨g0, g1⟩ := gain_range hf
  have h1 := lowpass_next_step (y := lowPass f a u) g0 g1 (N := n + 1) (fun m _ => h m) n (by omega) fun _ _ => rfl
  rw [lag_eq (lowPass_is hf u (n + 1) n (by omega)), abs_of_pos hp]
  refine div_le_div_of_nonneg_right ?_ hp.le
  rw [abs_div, abs_of_pos (by norm_num : (0 : ℝ) < 0.001), div_le_iff₀ (by norm_num)]
  refine h1.trans ?_
  linarith

/-- A slow motion. -/
theorem slow_allowed (i : Fin 7) {u v a : ℝ} (hv : |v| ≤ 1) (ha : |(u - v) / 0.001| ≤ 4) (hj : |((u - v) / 0.001 - a) / 0.001| ≤ 3700) : Allowed (below (jointLimits i)) u v a := by
  have hr : 4 ≤ (below (jointLimits i)).jerk / (below (jointLimits i)).acceleration * ((below (jointLimits i)).velocity - 1) := by
    unfold below jointLimits
    fin_cases i <;> norm_num
  have hr0 : 0 ≤ (below (jointLimits i)).jerk / (below (jointLimits i)).acceleration := by
    unfold below jointLimits
    fin_cases i <;> norm_num
  have hA : 4 ≤ (below (jointLimits i)).acceleration := by
    unfold below jointLimits
    fin_cases i <;> norm_num
  have hJ : 3700 ≤ (below (jointLimits i)).jerk := by
    unfold below jointLimits
    fin_cases i <;> norm_num
  obtain ⟨v1, v2⟩ := abs_le.1 hv
  obtain ⟨a1, a2⟩ := abs_le.1 ha
  refine ⟨ha.trans hA, hj.trans hJ, ?_, ?_⟩
  · refine a2.trans (hr.trans (mul_le_mul_of_nonneg_left (by linarith) hr0))
  · have := mul_le_mul_of_nonneg_left (by linarith : (below (jointLimits i)).velocity - 1 ≤ (below (jointLimits i)).velocity + v) hr0
    linarith

section
variable {σ : Type} {c0 : σ} {f : ℝ} {u : Fin 7 → ℕ → ℝ} {ends : ℕ → Bool} {cs : ℕ → σ}

/-! ## Joint positions -/

/-- What the robot reports in the `n`-th state. -/
def PositionsReported (y : Fin 7 → ℕ → ℝ) (n : ℕ) (st : RobotState XR) : Prop :=
  st.q_d = Arr.fin (fun i => y i n) ∧ st.dq_d = Arr.fin (fun i => rate (y i) n) ∧ st.ddq_d = Arr.fin fun i => rate (rate (y i)) n

/-- The outputs and the commands. -/
noncomputable def positionOut (u : Fin 7 → ℕ → ℝ) (ends : ℕ → Bool) (n : ℕ) : Motion XR .JointPositions := (⟨ends n, Arr.fin fun i => u i n⟩ : JointPositions XR)
noncomputable def positionCmd (y : Fin 7 → ℕ → ℝ) (n : ℕ) : MotionGeneratorCommand XR := { noMotion with q_c := Arr.fin fun i => y i (n + 1) }

theorem planned_positions [Geo XR] {call : ControlCall XR σ .JointPositions} {start : Fin 7 → ℝ} (ht : call.torque = none) (hl : call.limit_rate = true)
    (hf : call.cutoff = .fin f) (h0 : 0 < f) (h1 : f < 1000) (hs : cs 0 = c0)
    (called : ∀ n st, (n = 0 → st.q_d = Arr.fin start) → call.motion (cs n) st (periodOf n) = (cs (n + 1), positionOut u ends n))
    (allowed : ∀ i N, PositionAllowedFor N (jointLimits i) (starting (start i) (u i))) :
    IsPlanOf call c0 cs (positionOut u ends) (positionCmd fun i => lowPass f (start i) (u i)) (PositionsReported fun i => lowPass f (start i) (u i)) := by
  obtain ⟨g0, g1⟩ := gain_range h0
  refine ⟨ht, hs, fun n st hR => called n st fun h => ?_, fun n st hR => ?_⟩
  · subst h
    exact hR.1
  · obtain ⟨r1, r2, r3⟩ := hR
    rw [hf, hl]
    show JointPositions.convert_motion ⟨ends n, Arr.fin fun i => u i n⟩ st _ (.fin f) true = _
    have hz : ∀ i, Allowed (codeLimits i) _ _ _ := fun i => lowpass_next_position (y := lowPass f (start i) (u i)) (codeLimits_ok i) g0 g1
      (by
        have := allowed i (n + 1)
        unfold PositionAllowedFor VelocityAllowedFor at this
        simp only [below_joint] at this
        exact this) n (Nat.lt_succ_self n) fun _ _ => rfl
    rw [convert_filtered_positions h0 h1 r1, C44_convert_joint_positions le_rfl r1 r2 r3 hz]
    cases n <;> rfl

theorem FollowsJoints.reported {start : Fin 7 → ℝ} {l : List (RobotState XR × RobotCommand XR)} (h : FollowsJoints start l) {y : Fin 7 → ℕ → ℝ} (hy : ∀ i, y i 0 = start i) :
    (∀ p, l[0]? = some p → PositionsReported y 0 p.1) ∧
      ∀ n p p', l[n]? = some p → l[n + 1]? = some p' → p.2.motion.q_c = Arr.fin (fun i => y i (n + 1)) → PositionsReported y n p.1 →
        PositionsReported y (n + 1) p'.1 ∧ p'.1.time = p.1.time + 1 := by
  refine ⟨fun p hp => ?_, fun n p p' hp hp' hc hR => ?_⟩
  · obtain ⟨e1, e2, e3⟩ := h.first p (by rw [List.head?_eq_getElem?]; exact hp)
    refine ⟨?_, e2, e3⟩
    rw [e1]
    exact congrArg Arr.fin (funext fun i => (hy i).symm)
  · obtain ⟨hl', e'⟩ := List.getElem?_eq_some_iff.1 hp'
    obtain ⟨hl, e⟩ := List.getElem?_eq_some_iff.1 hp
    have := (List.isChain_iff_getElem.1 h.next) n hl'
    rw [e, e'] at this
    obtain ⟨t1, t2, t3, t4⟩ := this
    obtain ⟨r1, r2, r3⟩ := hR
    rw [hc] at t2
    have q2 : p'.1.dq_d = Arr.fin fun i => rate (y i) (n + 1) := by
      funext i
      rw [t3 i, t2, r1]
      show (XR.fin _ - XR.fin _) / _ = _
      rw [XR.fin_sub, XR.fin_div _ _ (by norm_num)]
      rfl
    refine ⟨⟨t2, q2, ?_⟩, t1⟩
    funext i
    rw [t4 i, q2, r2]
    show (XR.fin _ - XR.fin _) / _ = _
    rw [XR.fin_sub, XR.fin_div _ _ (by norm_num)]
    rfl

/-! ## Joint velocities -/

/-- What the robot reports in the `n`-th state. -/
def VelocitiesReported (y : Fin 7 → ℕ → ℝ) (n : ℕ) (st : RobotState XR) : Prop :=
  st.dq_d = Arr.fin (fun i => y i n) ∧ st.ddq_d = Arr.fin (fun i => rate (y i) n)

noncomputable def velocityOut (u : Fin 7 → ℕ → ℝ) (ends : ℕ → Bool) (n : ℕ) : Motion XR .JointVelocities := (⟨ends n, Arr.fin fun i => u i n⟩ : JointVelocities XR)
noncomputable def velocityCmd (y : Fin 7 → ℕ → ℝ) (n : ℕ) : MotionGeneratorCommand XR := { noMotion with dq_c := Arr.fin fun i => y i (n + 1) }

theorem planned_velocities [Geo XR] {call : ControlCall XR σ .JointVelocities} (ht : call.torque = none) (hl : call.limit_rate = true)
    (hf : call.cutoff = .fin f) (h0 : 0 < f) (h1 : f < 1000) (hs : cs 0 = c0)
    (called : ∀ n st, call.motion (cs n) st (periodOf n) = (cs (n + 1), velocityOut u ends n))
    (allowed : ∀ i N, VelocityAllowedFor N (jointLimits i) (starting 0 (u i))) :
    IsPlanOf call c0 cs (velocityOut u ends) (velocityCmd fun i => lowPass f 0 (u i)) (VelocitiesReported fun i => lowPass f 0 (u i)) := by
  obtain ⟨g0, g1⟩ := gain_range h0
  refine ⟨ht, hs, fun n st hR => called n st, fun n st hR => ?_⟩
  obtain ⟨r1, r2⟩ := hR
  rw [hf, hl]
  show JointVelocities.convert_motion ⟨ends n, Arr.fin fun i => u i n⟩ st _ (.fin f) true = _
  have hz : ∀ i, Allowed (codeLimits i) (gain (1 / 1000) f * u i n + (1 - gain (1 / 1000) f) * lowPass f 0 (u i) n) (lowPass f 0 (u i) n) (rate (lowPass f 0 (u i)) n) :=
    fun i => lowpass_next (v := starting 0 (u i)) (w := lowPass f 0 (u i)) (codeLimits_ok i) g0 g1 (by rw [starting, abs_zero]; exact (codeLimits_ok i).velocity) rfl
      (by
        have := allowed i (n + 1)
        unfold VelocityAllowedFor at this
        simp only [below_joint] at this
        exact this) n (Nat.lt_succ_self n) fun _ _ => rfl
  rw [convert_filtered_velocities h0 h1 r1, C44_convert_joint_velocities le_rfl r1 r2 hz]
  cases n <;> rfl

theorem FollowsVelocities.reported {l : List (RobotState XR × RobotCommand XR)} (h : FollowsVelocities l) {y : Fin 7 → ℕ → ℝ} (hy : ∀ i, y i 0 = 0) :
    (∀ p, l[0]? = some p → VelocitiesReported y 0 p.1) ∧
      ∀ n p p', l[n]? = some p → l[n + 1]? = some p' → p.2.motion.dq_c = Arr.fin (fun i => y i (n + 1)) → VelocitiesReported y n p.1 →
        VelocitiesReported y (n + 1) p'.1 ∧ p'.1.time = p.1.time + 1 := by
  refine ⟨fun p hp => ?_, fun n p p' hp hp' hc hR => ?_⟩
  · obtain ⟨e1, e2⟩ := h.first p (by rw [List.head?_eq_getElem?]; exact hp)
    refine ⟨?_, e2⟩
    rw [e1]
    exact congrArg Arr.fin (funext fun i => (hy i).symm)
  · obtain ⟨hl', e'⟩ := List.getElem?_eq_some_iff.1 hp'
    obtain ⟨hl, e⟩ := List.getElem?_eq_some_iff.1 hp
    have := (List.isChain_iff_getElem.1 h.next) n hl'
    rw [e, e'] at this
    obtain ⟨t1, t2, t3⟩ := this
    obtain ⟨r1, r2⟩ := hR
    rw [hc] at t2
    refine ⟨⟨t2, ?_⟩, t1⟩
    funext i
    rw [t3 i, t2, r1]
    show (XR.fin _ - XR.fin _) / _ = _
    rw [XR.fin_sub, XR.fin_div _ _ (by norm_num)]
    rfl

/-! ## Robots for such plans -/

/-- The states of a robot that reports these desired values. -/
theorem robot_for [Wire XR] {k : MotionKind} {call : ControlCall XR σ k} {R : ℕ → RobotState XR → Prop} {N : ℕ} (hN : N ≤ 2 ^ 40)
    (q dq ddq : ℕ → Arr XR 7)
    (k0 : Wire.ofBits (Wire.toBits (lit 0 : XR)) = (lit 0 : XR)) (kp : ∀ n ≤ N, Kept (q n) ∧ Kept (dq n) ∧ Kept (ddq n))
    (hR : ∀ n st, n ≤ N → st.q_d = q n → st.dq_d = dq n → st.ddq_d = ddq n → R n st) :
    RobotFor call R N (plainState 2 Following.zeros Following.zeros Following.zeros (generatorOf k) (controllerOf call.controller) .Move)
      (fun n => plainState (UInt64.ofNat (n + 3)) (q n) (dq n) (ddq n) (generatorOf k) (controllerOf call.controller) .Move)
      (plainState (UInt64.ofNat (N + 4)) Following.zeros Following.zeros Following.zeros .Idle .Other .Idle) where
  small := hN
  id2 := rfl
  modes2 := ⟨rfl, rfl⟩
  ids _ _ := rfl
  healthy _ _ := ⟨rfl, rfl, rfl⟩
  planned n hn := hR n _ hn rfl rfl rfl
  idE := rfl
  still := by rintro (h | h) <;> first | exact h rfl | cases h
  data2 := plainState_holds k0 (fun _ => k0) (fun _ => k0) (fun _ => k0)
  data n hn := plainState_holds k0 (kp n hn).1 (kp n hn).2.1 (kp n hn).2.2
  dataE := plainState_holds k0 (fun _ => k0) (fun _ => k0) (fun _ => k0)

end
end Verif
