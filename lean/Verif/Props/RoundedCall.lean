import Verif.Props.Exchange
import Verif.Props.Rounding
import Verif.Lemmas.RoundedCall
/-!
# The commands of a whole control call respect the limits in spite of rounding: C78

Like C69 (`Props/Exchange.lean`), but with doubles that are rounded and may overflow (`Spec/Rounding.lean`), with any bit patterns, and with a robot that reports
the last velocities and accelerations with small errors.
-/
set_option linter.unusedSectionVars false
namespace Verif
open Prog Spec
variable {A : Rounding}

/-- The velocities of a conversion with rate limiting. -/
theorem rd_convert_joint_velocities {out : JointVelocities (Rd A)} {state : RobotState (Rd A)} {m m' : MotionGeneratorCommand (Rd A)} {cutoff : Rd A} {v a w : Fin 7 → ℝ}
    (hv : state.dq_d = Arr.rd v) (ha : state.ddq_d = Arr.rd a) (h : out.convert_motion state m cutoff true = .ok m') (hw : m'.dq_c = Arr.rd w) (i : Fin 7)
    (b1 : |v i| ≤ (codeLimits i).velocity + 1 / 1000) (b2 : |a i| ≤ 100) :
    ∃ t, |w i - (v i + t / 1000)| ≤ 1 / 10 ^ 14 ∧ Target (codeLimits i) (v i) (a i) t := by
  have h : ((if Fl.flt cutoff MAX_CUTOFF_FREQUENCY then Arr.tabulateP fun i => low_pass_filter DELTA_T (out.dq i) (state.dq_d i) cutoff else pure out.dq) >>= fun x =>
      limit_rate_joint_velocities MAX_JOINT_VELOCITY MAX_JOINT_ACCELERATION MAX_JOINT_JERK x state.dq_d state.ddq_d >>= fun y =>
      assertFinite y >>= fun _ => (pure { m with dq_c := y } : P (MotionGeneratorCommand (Rd A)))) = .ok m' := by
    rw [← h]
    unfold JointVelocities.convert_motion
    split <;> rfl
  obtain ⟨x, -, h⟩ := P_bind_inv h
  obtain ⟨y, h2, h⟩ := P_bind_inv h
  obtain ⟨_, -, h⟩ := P_bind_inv h
  have h9 : { m with dq_c := y } = m' := by injection h
  unfold limit_rate_joint_velocities at h2
  obtain ⟨_, h4, h2⟩ := P_bind_inv h2
  obtain ⟨x, rfl⟩ := rd_assertFinite_inv h4
  have h5 := Arr.tabulateP_inv h2 i
  rw [hv, ha] at h5
  obtain ⟨v', t, e1, e2, e3, -⟩ := rd_limit_rate_velocity (near_velocity i) (near_acceleration i) (near_jerk (A := A) i) (code_moderate i) (x i) b1 b2
  have h6 : Except.ok (y i) = (.ok (Rd.fin v') : P (Rd A)) := h5.symm.trans e1
  injection h6 with h6
  have h7 : y i = Rd.fin (w i) := by
    rw [← h9] at hw
    exact congrFun hw i
  obtain rfl : w i = v' := Rd.fin_inj (h7.symm.trans h6)
  exact ⟨t, e2, e3⟩

/-- The positions of a conversion with rate limiting. -/
theorem rd_convert_joint_positions {out : JointPositions (Rd A)} {state : RobotState (Rd A)} {m m' : MotionGeneratorCommand (Rd A)} {cutoff : Rd A} {x v a w : Fin 7 → ℝ}
    (hx : state.q_d = Arr.rd x) (hv : state.dq_d = Arr.rd v) (ha : state.ddq_d = Arr.rd a) (h : out.convert_motion state m cutoff true = .ok m')
    (hw : m'.q_c = Arr.rd w) (i : Fin 7) (b0 : |x i| ≤ 10) (b1 : |v i| ≤ (codeLimits i).velocity + 1 / 1000) (b2 : |a i| ≤ 100) :
    ∃ v' t, |v' - (v i + t / 1000)| ≤ 1 / 10 ^ 14 ∧ Target (codeLimits i) (v i) (a i) t ∧ |(w i - x i) / 0.001 - v'| ≤ 1 / 10 ^ 11 := by
  have h : ((if Fl.flt cutoff MAX_CUTOFF_FREQUENCY then Arr.tabulateP fun i => low_pass_filter DELTA_T (out.q i) (state.q_d i) cutoff else pure out.q) >>= fun x =>
      limit_rate_joint_positions MAX_JOINT_VELOCITY MAX_JOINT_ACCELERATION MAX_JOINT_JERK x state.q_d state.dq_d state.ddq_d >>= fun y =>
      assertFinite y >>= fun _ => (pure { m with q_c := y } : P (MotionGeneratorCommand (Rd A)))) = .ok m' := by
    rw [← h]
    unfold JointPositions.convert_motion
    split <;> rfl
  obtain ⟨_, -, h⟩ := P_bind_inv h
  obtain ⟨y, h2, h⟩ := P_bind_inv h
  obtain ⟨_, -, h⟩ := P_bind_inv h
  have h9 : { m with q_c := y } = m' := by injection h
  unfold limit_rate_joint_positions at h2
  obtain ⟨_, -, h2⟩ := P_bind_inv h2
  have h5 := Arr.tabulateP_inv h2 i
  have h7 : y i = Rd.fin (w i) := by
    rw [← h9] at hw
    exact congrFun hw i
  rw [hx, hv, ha, h7] at h5
  exact rd_limit_rate_position (near_velocity i) (near_acceleration i) (near_jerk i) (code_moderate i) b1 b2 b0 h5

theorem near_elbow : Near (MAX_ELBOW_VELOCITY : Rd A) codeElbow.velocity (1 / 10 ^ 14) ∧ Near (MAX_ELBOW_ACCELERATION : Rd A) codeElbow.acceleration (1 / 10 ^ 14) ∧
    Near (MAX_ELBOW_JERK : Rd A) codeElbow.jerk (1 / 10 ^ 11) := by
  have ha : Near (MAX_ELBOW_ACCELERATION : Rd A) codeElbow.acceleration (1 / 10 ^ 14) :=
    (near_limit (q := 10) (B := 11) (by norm_num) (by norm_num)).weaken (by norm_num [codeElbow])
  refine ⟨?_, ha, (near_limit (q := 5000) (B := 5001) (by norm_num) (by norm_num)).weaken (by norm_num [codeElbow])⟩
  exact (near_velocity_limit (q := 2175 / 1000) (by norm_num [abs_le]) ha (abs_le.2 ⟨by linarith [elbow_moderate.a1], elbow_moderate.a2⟩)).weaken
      (by norm_num [codeElbow])

/-- The elbow of a conversion with rate limiting. -/
theorem rd_convert_elbow {e : Option (Arr (Rd A) 2)} {state : RobotState (Rd A)} {m m' : MotionGeneratorCommand (Rd A)} {cutoff : Rd A}
    (h : convert_elbow e state m cutoff true = .ok m') (hv : m'.valid_elbow = true) :
    ∃ y, limit_rate_position MAX_ELBOW_VELOCITY MAX_ELBOW_ACCELERATION MAX_ELBOW_JERK y (state.elbow_c 0) (state.delbow_c 0) (state.ddelbow_c 0) =
      .ok (m'.elbow_c 0) := by
  cases e with
  | none => cases h; cases hv
  | some y =>
    unfold convert_elbow at h
    dsimp only at h
    simp only [↓reduceIte] at h
    split at h
    · obtain ⟨z0, -, h⟩ := P_bind_inv h
      obtain ⟨y1, -, h⟩ := P_bind_inv h
      obtain ⟨z, h2, h⟩ := P_bind_inv h
      obtain ⟨y2, h3, h⟩ := P_bind_inv h
      obtain ⟨_, -, h⟩ := P_bind_inv h
      cases h3
      cases h
      exact ⟨_, h2⟩
    · obtain ⟨y1, -, h⟩ := P_bind_inv h
      obtain ⟨z, h2, h⟩ := P_bind_inv h
      obtain ⟨y2, h3, h⟩ := P_bind_inv h
      obtain ⟨_, -, h⟩ := P_bind_inv h
      cases h3
      cases h
      exact ⟨_, h2⟩

section
variable [Wire (Rd A)] [Geo (Rd A)] {w : World (Rd A)} (hw : RobotReachable w) {c : RobotCall (Rd A)} {σ : Type} {c0 : σ}
include hw

/-- **C78**, joint velocities: `v i n` is the velocity of joint `i` that the robot reports in the `n`-th state and `v i (n + 1)` the one in the command for
it. The robot starts from rest, and reports the acceleration with an error of at most 1e-7 rad/s². Then all commands of the call respect the documented limits
for velocity, acceleration and jerk, whatever the callback returns. -/
theorem C78_joint_velocities {call : ControlCall (Rd A) σ .JointVelocities} (hc : IsControl c call c0) (hl : call.limit_rate = true) (v a : Fin 7 → ℕ → ℝ)
    (rest : ∀ i, v i 0 = 0)
    (reported : ∀ n st x, Exchange w c n st x → st.dq_d = Arr.rd (fun i => v i n) ∧ st.ddq_d = Arr.rd fun i => a i n)
    (close : ∀ i n, n < answered w c → |a i n - rate (v i) n| ≤ 1 / 10 ^ 7)
    (commanded : ∀ n st x, Exchange w c n st x → x.motion.dq_c = Arr.rd fun i => v i (n + 1)) :
    ∀ i, VelocityRespectsFor (answered w c) (jointLimits i) (v i) := by
  intro i
  obtain ⟨s1, s2, s3⟩ := code_slack i
  refine VelocityRespectsFor.weaken (rounded_run_for (code_moderate i) (v := v i) (rest i) (fun n _ => by simp) (close i) fun n hn b1 b2 => ?_) s1 s2 s3
  obtain ⟨st, x, hx⟩ := exchange_exists hn
  obtain ⟨g1, g2⟩ := reported n st x hx
  obtain ⟨out, m0, m', g3, g4⟩ := call_exchange hw hc hx
  rw [hl] at g3
  have g5 : x.motion.dq_c = m'.dq_c := by rcases g4 with g | g <;> rw [show x.motion = _ from g]
  obtain ⟨t, e1, e2⟩ := rd_convert_joint_velocities g1 g2 g3 (g5.symm.trans (commanded n st x hx)) i b1 b2
  exact ⟨_, t, e1, e2, by simp⟩

/-- **C78**, joint positions: the same for a motion that is commanded by positions, with joint angles between -10 and 10 rad. The robot reports the velocity with
an error of at most 1e-10 rad/s and the acceleration with one of 1e-7 rad/s². -/
theorem C78_joint_positions {call : ControlCall (Rd A) σ .JointPositions} (hc : IsControl c call c0) (hl : call.limit_rate = true) (q v a : Fin 7 → ℕ → ℝ)
    (range : ∀ i n, n < answered w c → |q i n| ≤ 10)
    (reported : ∀ n st x, Exchange w c n st x → st.q_d = Arr.rd (fun i => q i n) ∧ st.dq_d = Arr.rd (fun i => v i n) ∧ st.ddq_d = Arr.rd fun i => a i n)
    (close1 : ∀ i n, n < answered w c → |v i n - rate (q i) n| ≤ 1 / 10 ^ 10) (close2 : ∀ i n, n < answered w c → |a i n - rate (rate (q i)) n| ≤ 1 / 10 ^ 7)
    (commanded : ∀ n st x, Exchange w c n st x → x.motion.q_c = Arr.rd fun i => q i (n + 1)) :
    ∀ i, PositionRespectsFor (answered w c) (jointLimits i) (q i) := by
  intro i
  obtain ⟨s1, s2, s3⟩ := code_slack i
  refine VelocityRespectsFor.weaken (rounded_run_for (code_moderate i) rfl (close1 i) (close2 i) fun n hn b1 b2 => ?_) s1 s2 s3
  obtain ⟨st, x, hx⟩ := exchange_exists hn
  obtain ⟨g0, g1, g2⟩ := reported n st x hx
  obtain ⟨out, m0, m', g3, g4⟩ := call_exchange hw hc hx
  rw [hl] at g3
  have g5 : x.motion.q_c = m'.q_c := by rcases g4 with g | g <;> rw [show x.motion = _ from g]
  exact rd_convert_joint_positions g0 g1 g2 g3 (g5.symm.trans (commanded n st x hx)) i (range i n hn) b1 b2

/-- **C78**, the elbow in Cartesian motions with the elbow. -/
theorem C78_elbow {k : MotionKind} {call : ControlCall (Rd A) σ k} (hk : k = .CartesianPose ∨ k = .CartesianVelocities) (hc : IsControl c call c0)
    (hl : call.limit_rate = true) (e v a : ℕ → ℝ) (valid : ∀ n st x, Exchange w c n st x → x.motion.valid_elbow = true) (range : ∀ n < answered w c, |e n| ≤ 10)
    (reported : ∀ n st x, Exchange w c n st x → st.elbow_c 0 = Rd.fin (e n) ∧ st.delbow_c 0 = Rd.fin (v n) ∧ st.ddelbow_c 0 = Rd.fin (a n))
    (close1 : ∀ n < answered w c, |v n - rate e n| ≤ 1 / 10 ^ 10) (close2 : ∀ n < answered w c, |a n - rate (rate e) n| ≤ 1 / 10 ^ 7)
    (commanded : ∀ n st x, Exchange w c n st x → x.motion.elbow_c 0 = Rd.fin (e (n + 1))) :
    PositionRespectsFor (answered w c) elbowLimits e := by
  refine VelocityRespectsFor.weaken (rounded_run_for elbow_moderate rfl close1 close2 fun n hn b1 b2 => ?_) ?_ ?_ ?_
  · obtain ⟨st, x, hx⟩ := exchange_exists hn
    obtain ⟨g0, g1, g2⟩ := reported n st x hx
    obtain ⟨out, m0, m', g3, g4⟩ := call_exchange hw hc hx
    rw [hl] at g3
    obtain ⟨o, m1, g6⟩ := convert_motion_elbow hk g3
    have g5 : x.motion.elbow_c = m'.elbow_c ∧ x.motion.valid_elbow = m'.valid_elbow := by
      rcases g4 with g | g <;> rw [show x.motion = _ from g] <;> exact ⟨rfl, rfl⟩
    obtain ⟨y, hy⟩ := rd_convert_elbow g6 (by rw [← g5.2]; exact valid n st x hx)
    rw [g0, g1, g2, ← g5.1, commanded n st x hx] at hy
    obtain ⟨hv, ha, hj⟩ := near_elbow (A := A)
    exact rd_limit_rate_position hv ha hj elbow_moderate b1 b2 (range n hn) hy
  · norm_num [codeElbow, elbowLimits]
  · norm_num [codeElbow, elbowLimits]
  · norm_num [codeElbow, elbowLimits]

/-- **C78**, torques: `τ n` are the torques that the robot reports in the `n`-th state, at most a million Nm, and `τ (n + 1)` the ones in the command for it. They
change by at most 1 Nm from command to command, except for the first one if the motion callback ended the motion at once. -/
theorem C78_torques {k : MotionKind} {call : ControlCall (Rd A) σ k} (hc : IsControl c call c0) (hl : call.limit_rate = true) (ht : call.torque ≠ none)
    (τ : ℕ → Fin 7 → ℝ) (range : ∀ n < answered w c, ∀ i, |τ n i| ≤ 10 ^ 6) (reported : ∀ n st x, Exchange w c n st x → st.tau_J_d = Arr.rd (τ n))
    (commanded : ∀ n st x, Exchange w c n st x → x.control.tau_J_d = Arr.rd (τ (n + 1))) (n : ℕ) (st : RobotState (Rd A)) (x : RobotCommand (Rd A))
    (hx : Exchange w c n st x) (hn : n ≠ 0 ∨ x.motion.motion_generation_finished = false) : ∀ i, |τ (n + 1) i - τ n i| ≤ 1 := by
  have hfin : ∀ {a b : Fin 7 → ℝ}, (Arr.rd a : Arr (Rd A) 7) = Arr.rd b → a = b := fun {a b} h => funext fun i => Rd.fin_inj (congrFun h i)
  have hlen : n < answered w c := (List.getElem?_eq_some_iff.1 hx).1
  rcases (call_torques hw hc hx).2 with ⟨-, tau, h⟩ | ⟨h, h'⟩
  · rw [hl] at h
    obtain ⟨t, h2, h3⟩ := C62_torques_of_a_callback (reported n st x hx) (range n hlen) h
    have := hfin ((commanded n st x hx).symm.trans h2)
    subst this
    exact h3
  · rcases h' with h' | h'
    · exact absurd h' ht
    · rcases hn with hn | hn
      · obtain ⟨j, rfl⟩ := Nat.exists_eq_succ_of_ne_zero hn
        obtain ⟨st', x', hx'⟩ := exchange_exists (w := w) (c := c) (n := j) (by omega)
        have e : lastTorques ((exchanges (newEvents w (c.run w).2)).take (j + 1)) = x'.control := by
          rw [List.take_add_one, hx', Option.toList_some, lastTorques_snoc]
        rw [e] at h
        have h := congrArg ControllerCommand.tau_J_d h
        have := hfin ((commanded _ st x hx).symm.trans (h.trans (commanded j st' x' hx')))
        intro i
        rw [this, sub_self, abs_zero]
        exact zero_le_one
      · rw [show x.motion.motion_generation_finished = true from h'] at hn; cases hn

end
end Verif
