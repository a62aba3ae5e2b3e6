import Verif.Lemmas.RoundedFilter
import Verif.Props.Smooth
import Verif.Props.RoundedCall
/-!
# The low-pass filter in spite of rounding: C100

Doubles are rounded and may overflow (`Spec/Rounding.lean`). The exact low pass is `LowPassedFor` of `Spec/Smooth.lean`.
-/
set_option linter.unusedSectionVars false
namespace Verif
open Prog Spec
variable {A : Rounding}

/-! ## The filter -/

/-- **C100**, one step: for all values up to `B` the filter returns a finite value, and it is the one that lies between the last and the new value at the share
`share f` of the way, up to a few units in the last place of `B`. -/
theorem C100_step {f y l B : ℝ} (h0 : 0.01 ≤ f) (h1 : f ≤ 1000) (b0 : 1 / 10 ^ 50 ≤ B) (b1 : B ≤ 10 ^ 40) (hy : |y| ≤ B) (hl : |l| ≤ B) :
    ∃ r, low_pass_filter DELTA_T (Rd.fin y) (Rd.fin l) (Rd.fin f) = (.ok (Rd.fin r) : P (Rd A)) ∧ |r - (l + share f * (y - l))| ≤ 4 / 10 ^ 15 * B :=
  rd_filter (by norm_num at h0 ⊢; linarith) h1 b0 b1 hy hl

/-- One step of a run that is a bit outside of the bound. -/
theorem run_step {f y l B : ℝ} (h0 : 0.01 ≤ f) (h1 : f ≤ 1000) (b0 : 1 / 10 ^ 50 ≤ B) (b1 : B ≤ 10 ^ 39) (hy : |y| ≤ B) (hl : |l| ≤ 1001 / 1000 * B) :
    ∃ r, low_pass_filter DELTA_T (Rd.fin y) (Rd.fin l) (Rd.fin f) = (.ok (Rd.fin r) : P (Rd A)) ∧ |r - (l + share f * (y - l))| ≤ 5 / 10 ^ 15 * B := by
  have hB : 0 < B := lt_of_lt_of_le (by norm_num) b0
  obtain ⟨r, h2, h3⟩ := C100_step (A := A) h0 h1 (B := 1001 / 1000 * B) (by linarith) (by norm_num at b1 ⊢; linarith) (hy.trans (by linarith)) hl
  exact ⟨r, h2, h3.trans (by nlinarith)⟩

theorem run_bound {f y l r B : ℝ} (h0 : 0.01 ≤ f) (h1 : f ≤ 1000) (b0 : 1 / 10 ^ 50 ≤ B) (b1 : B ≤ 10 ^ 39) (hy : |y| ≤ B) (hl : |l| ≤ 1001 / 1000 * B)
    (h : low_pass_filter DELTA_T (Rd.fin y) (Rd.fin l) (Rd.fin f) = (.ok (Rd.fin r) : P (Rd A))) : |r - (l + share f * (y - l))| ≤ 5 / 10 ^ 15 * B := by
  obtain ⟨r', h2, h3⟩ := run_step (A := A) h0 h1 b0 b1 hy hl
  rw [h] at h2
  injection h2 with h2
  rwa [Rd.fin_inj h2]

/-- **C100**: filtering again and again, for as long as one likes. `u` are the new values, `z` is what the filter makes of them, and `x` what a filter without
rounding would make of them. They never differ by more than a few units in the last place, divided by the share of a step. -/
theorem C100_follows_the_exact_filter {f B : ℝ} (h0 : 0.01 ≤ f) (h1 : f ≤ 1000) (b0 : 1 / 10 ^ 50 ≤ B) (b1 : B ≤ 10 ^ 39) {N : ℕ} {u x z : ℕ → ℝ} (hu : ∀ n < N, |u n| ≤ B)
    (hx : LowPassedFor N f u x) (start : |x 0| ≤ B) (same : z 0 = x 0)
    (hz : ∀ n < N, low_pass_filter DELTA_T (Rd.fin (u n)) (Rd.fin (z n)) (Rd.fin f) = (.ok (Rd.fin (z (n + 1))) : P (Rd A))) :
    ∀ n ≤ N, |z n - x n| ≤ 5 / 10 ^ 15 * B / share f := fun n hn =>
  (filter_error (by norm_num at h0 ⊢; linarith) (lt_of_lt_of_le (by norm_num) b0) hx hu start same
    (fun n hn hb => run_bound h0 h1 b0 b1 (hu n hn) hb (hz n hn)) n hn).1

/-- The filter without rounding. -/
noncomputable def exactFilter (f a : ℝ) (u : ℕ → ℝ) : ℕ → ℝ
  | 0 => a
  | n + 1 => exactFilter f a u n + share f * (u n - exactFilter f a u n)

theorem exactFilter_low {f : ℝ} (hf : 0 < f) (a : ℝ) (u : ℕ → ℝ) (N : ℕ) : LowPassedFor N f u (exactFilter f a u) := fun n _ =>
  (gain_eq hf).2 (by rw [← share_gain f hf]; simp only [exactFilter]; ring)

/-- **C100**: the filter never panics and never overflows: there are such runs for all bounded new values and every start. -/
theorem C100_runs_exist {f B : ℝ} (h0 : 0.01 ≤ f) (h1 : f ≤ 1000) (b0 : 1 / 10 ^ 50 ≤ B) (b1 : B ≤ 10 ^ 39) {u : ℕ → ℝ} (hu : ∀ n, |u n| ≤ B) {a : ℝ} (ha : |a| ≤ B) :
    ∃ z : ℕ → ℝ, z 0 = a ∧ ∀ n, low_pass_filter DELTA_T (Rd.fin (u n)) (Rd.fin (z n)) (Rd.fin f) = (.ok (Rd.fin (z (n + 1))) : P (Rd A)) := by
  have hf : 0 < f := by norm_num at h0; linarith
  have ex : ∀ (y l : ℝ), ∃ r, |y| ≤ B → |l| ≤ 1001 / 1000 * B → low_pass_filter DELTA_T (Rd.fin y) (Rd.fin l) (Rd.fin f) = (.ok (Rd.fin r) : P (Rd A)) := by
    intro y l
    by_cases hb : |y| ≤ B ∧ |l| ≤ 1001 / 1000 * B
    · obtain ⟨r, h2, -⟩ := run_step (A := A) h0 h1 b0 b1 hb.1 hb.2
      exact ⟨r, fun _ _ => h2⟩
    · exact ⟨0, fun h2 h3 => absurd ⟨h2, h3⟩ hb⟩
  choose next hnext using ex
  let z : ℕ → ℝ := fun n => Nat.rec a (fun n l => next (u n) l) n
  have key := fun N => filter_error (f := f) (B := B) (by norm_num at h0 ⊢; linarith) (lt_of_lt_of_le (by norm_num) b0) (z := z) (exactFilter_low hf a u N) (fun n _ => hu n) ha rfl
    (fun n _ hb => run_bound h0 h1 b0 b1 (hu n) hb (hnext (u n) (z n) (hu n) hb))
  exact ⟨z, rfl, fun n => hnext (u n) (z n) (hu n) (key n n le_rfl).2.2⟩

/-- **C100**: if the new value stays the same, the filtered value goes towards it, up to the same small difference. -/
theorem C100_converges {f B : ℝ} (h0 : 0.01 ≤ f) (h1 : f ≤ 1000) (b0 : 1 / 10 ^ 50 ≤ B) (b1 : B ≤ 10 ^ 39) {y : ℝ} {z : ℕ → ℝ} (hy : |y| ≤ B) (start : |z 0| ≤ B)
    (hz : ∀ n, low_pass_filter DELTA_T (Rd.fin y) (Rd.fin (z n)) (Rd.fin f) = (.ok (Rd.fin (z (n + 1))) : P (Rd A))) (n : ℕ) :
    |z n - y| ≤ (1 - share f) ^ n * |z 0 - y| + 5 / 10 ^ 15 * B / share f := by
  have hf : 0 < f := by norm_num at h0; linarith
  have h2 := C100_follows_the_exact_filter h0 h1 b0 b1 (N := n) (u := fun _ => y) (x := exactFilter f (z 0) fun _ => y) (z := z) (fun _ _ => hy) (exactFilter_low hf _ _ n) start rfl
    (fun n _ => hz n) n le_rfl
  have h3 : ∀ n, exactFilter f (z 0) (fun _ => y) n - y = (1 - share f) ^ n * (z 0 - y) := by
    intro n
    induction n with
    | zero => simp [exactFilter]
    | succ n ih =>
      have : exactFilter f (z 0) (fun _ => y) (n + 1) - y = (1 - share f) * (exactFilter f (z 0) (fun _ => y) n - y) := by simp only [exactFilter]; ring
      rw [this, ih, pow_succ]
      ring
  have h4 : |exactFilter f (z 0) (fun _ => y) n - y| = (1 - share f) ^ n * |z 0 - y| := by
    rw [h3, abs_mul, abs_of_nonneg (pow_nonneg (by linarith [share_lt_one hf]) n)]
  have := abs_sub_le (z n) (exactFilter f (z 0) (fun _ => y) n) y
  linarith

/-! ## Control calls -/

theorem rd_with_filter {f : ℝ} (h1 : f ≤ 999) : Fl.flt (Rd.fin f : Rd A) MAX_CUTOFF_FREQUENCY = true := by
  obtain ⟨c, hc, ec⟩ : Near (MAX_CUTOFF_FREQUENCY : Rd A) ((1000 : ℚ) : ℝ) (13 / 10 ^ 17 * 1001) := near_lit (by norm_num) (by norm_num) (by norm_num)
  rw [hc, Rd.flt_fin, decide_eq_true_iff]
  have := (abs_le.1 ec).1
  norm_num at this
  linarith

/-- What the filter makes of seven values. -/
theorem filtered_joints {k : ℕ} {f : ℝ} {u l : Fin k → ℝ} {y : Arr (Rd A) k} {r : Fin k → ℝ}
    (h : Arr.tabulateP (fun i => low_pass_filter DELTA_T ((Arr.rd u : Arr (Rd A) k) i) ((Arr.rd l : Arr (Rd A) k) i) (Rd.fin f)) = .ok y) (hy : y = Arr.rd r) (i : Fin k) :
    low_pass_filter DELTA_T (Rd.fin (u i)) (Rd.fin (l i)) (Rd.fin f) = (.ok (Rd.fin (r i)) : P (Rd A)) := by
  have := Arr.tabulateP_inv h i
  rw [hy] at this
  exact this

section
variable [Wire (Rd A)] [Geo (Rd A)] {w : World (Rd A)} (hw : RobotReachable w) {c : RobotCall (Rd A)} {σ : Type} {c0 : σ} {f B : ℝ} (h0 : 0.01 ≤ f) (h1 : f ≤ 999)
  (b0 : 1 / 10 ^ 50 ≤ B) (b1 : B ≤ 10 ^ 39)
include hw h0 h1 b0 b1

/-- **C100**, joint positions: a control call without rate limiting. `u i n` is the position of joint `i` which the motion callback returned in its `n`-th call, `y i n`
the one that the robot reports in the `n`-th state and `y i (n + 1)` the one in the command for it; `x i` is the signal `u i` after an exact low pass. The
commands are this signal, up to the errors of rounding, which do not add up. -/
theorem C100_joint_positions {call : ControlCall (Rd A) σ .JointPositions} (hc : IsControl c call c0) (hl : call.limit_rate = false) (hf : call.cutoff = Rd.fin f)
    (u y x : Fin 7 → ℕ → ℝ) (bounded : ∀ i, |y i 0| ≤ B ∧ ∀ n < answered w c, |u i n| ≤ B)
    (returned : ∀ n out, (motionOutputs .JointPositions (newEvents w (c.run w).2))[n]? = some out → JointPositions.q out = Arr.rd fun i => u i n)
    (reported : ∀ n st x, Exchange w c n st x → st.q_d = Arr.rd fun i => y i n)
    (commanded : ∀ n st x, Exchange w c n st x → x.motion.q_c = Arr.rd fun i => y i (n + 1))
    (exact : ∀ i, x i 0 = y i 0 ∧ LowPassedFor (answered w c) f (u i) (x i)) (i : Fin 7) :
    ∀ n ≤ answered w c, |y i n - x i n| ≤ 5 / 10 ^ 15 * B / share f := by
  refine C100_follows_the_exact_filter (A := A) h0 (by linarith) b0 b1 (bounded i).2 (exact i).2 ((exact i).1 ▸ (bounded i).1) (exact i).1.symm fun n hn => ?_
  obtain ⟨st, x, hx⟩ := exchange_exists hn
  obtain ⟨pre, t, k1, k2, k3, -, k5⟩ := turn_at hw hc hx
  have hu := returned n _ k5
  have hconv := k1.moved.conv
  rw [hf, hl, k2] at hconv
  have hto : t.out = (⟨JointPositions.motion_finished t.out, Arr.rd fun i => u i n⟩ : JointPositions (Rd A)) := by rw [← hu]; rfl
  rw [hto] at hconv
  change JointPositions.convert_motion ⟨_, Arr.rd fun i => u i n⟩ st (mBefore pre) (Rd.fin f) false = .ok t.m at hconv
  have hconv : ((Arr.tabulateP fun i => low_pass_filter DELTA_T ((Arr.rd fun i => u i n : Arr (Rd A) 7) i) (st.q_d i) (Rd.fin f)) >>= fun z =>
      assertFinite z >>= fun _ => (pure { mBefore pre with q_c := z } : P (MotionGeneratorCommand (Rd A)))) = .ok t.m := by
    rw [← hconv]
    unfold JointPositions.convert_motion
    rw [rd_with_filter h1]
    rfl
  obtain ⟨z, e1, hconv⟩ := P_bind_inv hconv
  obtain ⟨_, -, hconv⟩ := P_bind_inv hconv
  have hz : z = t.m.q_c := by injection hconv with hconv; rw [← hconv]
  have hq : x.motion.q_c = t.m.q_c := by
    rw [← k3]
    unfold Turn.cmd
    split <;> rfl
  rw [reported n st x hx] at e1
  exact filtered_joints e1 (hz.trans (hq.symm.trans (commanded n st x hx))) i

/-- **C100**, joint velocities. -/
theorem C100_joint_velocities {call : ControlCall (Rd A) σ .JointVelocities} (hc : IsControl c call c0) (hl : call.limit_rate = false) (hf : call.cutoff = Rd.fin f)
    (u y x : Fin 7 → ℕ → ℝ) (bounded : ∀ i, |y i 0| ≤ B ∧ ∀ n < answered w c, |u i n| ≤ B)
    (returned : ∀ n out, (motionOutputs .JointVelocities (newEvents w (c.run w).2))[n]? = some out → JointVelocities.dq out = Arr.rd fun i => u i n)
    (reported : ∀ n st x, Exchange w c n st x → st.dq_d = Arr.rd fun i => y i n)
    (commanded : ∀ n st x, Exchange w c n st x → x.motion.dq_c = Arr.rd fun i => y i (n + 1))
    (exact : ∀ i, x i 0 = y i 0 ∧ LowPassedFor (answered w c) f (u i) (x i)) (i : Fin 7) :
    ∀ n ≤ answered w c, |y i n - x i n| ≤ 5 / 10 ^ 15 * B / share f := by
  refine C100_follows_the_exact_filter (A := A) h0 (by linarith) b0 b1 (bounded i).2 (exact i).2 ((exact i).1 ▸ (bounded i).1) (exact i).1.symm fun n hn => ?_
  obtain ⟨st, x, hx⟩ := exchange_exists hn
  obtain ⟨pre, t, k1, k2, k3, -, k5⟩ := turn_at hw hc hx
  have hu := returned n _ k5
  have hconv := k1.moved.conv
  rw [hf, hl, k2] at hconv
  have hto : t.out = (⟨JointVelocities.motion_finished t.out, Arr.rd fun i => u i n⟩ : JointVelocities (Rd A)) := by rw [← hu]; rfl
  rw [hto] at hconv
  change JointVelocities.convert_motion ⟨_, Arr.rd fun i => u i n⟩ st (mBefore pre) (Rd.fin f) false = .ok t.m at hconv
  have hconv : ((Arr.tabulateP fun i => low_pass_filter DELTA_T ((Arr.rd fun i => u i n : Arr (Rd A) 7) i) (st.dq_d i) (Rd.fin f)) >>= fun z =>
      assertFinite z >>= fun _ => (pure { mBefore pre with dq_c := z } : P (MotionGeneratorCommand (Rd A)))) = .ok t.m := by
    rw [← hconv]
    unfold JointVelocities.convert_motion
    rw [rd_with_filter h1]
    rfl
  obtain ⟨z, e1, hconv⟩ := P_bind_inv hconv
  obtain ⟨_, -, hconv⟩ := P_bind_inv hconv
  have hz : z = t.m.dq_c := by injection hconv with hconv; rw [← hconv]
  have hq : x.motion.dq_c = t.m.dq_c := by
    rw [← k3]
    unfold Turn.cmd
    split <;> rfl
  rw [reported n st x hx] at e1
  exact filtered_joints e1 (hz.trans (hq.symm.trans (commanded n st x hx))) i

/-- **C100**, torques, for as long as the torque callback is called. -/
theorem C100_torques {k : MotionKind} {call : ControlCall (Rd A) σ k} (hc : IsControl c call c0) (ht : call.torque ≠ none) (hl : call.limit_rate = false)
    (hf : call.cutoff = Rd.fin f) (u y x : Fin 7 → ℕ → ℝ) {N : ℕ} (hN : N ≤ answered w c) (bounded : ∀ i, |y i 0| ≤ B ∧ ∀ n < N, |u i n| ≤ B)
    (returned : ∀ n < N, ∃ out, (torqueOutputs (newEvents w (c.run w).2))[n]? = some out ∧ out.tau_J = Arr.rd fun i => u i n)
    (reported : ∀ n st x, Exchange w c n st x → st.tau_J_d = Arr.rd fun i => y i n)
    (commanded : ∀ n st x, Exchange w c n st x → x.control.tau_J_d = Arr.rd fun i => y i (n + 1))
    (exact : ∀ i, x i 0 = y i 0 ∧ LowPassedFor N f (u i) (x i)) (i : Fin 7) :
    ∀ n ≤ N, |y i n - x i n| ≤ 5 / 10 ^ 15 * B / share f := by
  refine C100_follows_the_exact_filter (A := A) h0 (by linarith) b0 b1 (bounded i).2 (exact i).2 ((exact i).1 ▸ (bounded i).1) (exact i).1.symm fun n hn => ?_
  obtain ⟨st, x, hx⟩ := exchange_exists (by omega : n < answered w c)
  obtain ⟨out, k1, k2⟩ := returned n hn
  have hconv := torque_turn_at hw hc ht hx k1
  rw [hf, hl, k2] at hconv
  have hconv : ((Arr.tabulateP fun i => low_pass_filter DELTA_T ((Arr.rd fun i => u i n : Arr (Rd A) 7) i) (st.tau_J_d i) (Rd.fin f)) >>= fun z =>
      assertFinite z >>= fun _ => (pure z : P (Arr (Rd A) 7))) = .ok x.control.tau_J_d := by
    rw [← hconv]
    unfold ControlLoop.convert_torques
    rw [rd_with_filter h1]
    rfl
  obtain ⟨z, e1, hconv⟩ := P_bind_inv hconv
  obtain ⟨_, -, hconv⟩ := P_bind_inv hconv
  have hz : z = x.control.tau_J_d := by injection hconv
  rw [reported n st x hx] at e1
  exact filtered_joints e1 (hz.trans (commanded n st x hx)) i

end

/-- With the default cutoff frequency and positions up to 4 rad the difference is less than 10⁻¹³ rad. -/
example : 5 / 10 ^ 15 * (4 : ℝ) / share 100 < 1 / 10 ^ 13 := by
  have h1 := Real.pi_gt_d2
  have : (0.38 : ℝ) ≤ share 100 := by
    unfold share
    rw [le_div_iff₀ (by positivity)]
    norm_num at h1 ⊢
    linarith
  rw [div_lt_iff₀ (by linarith)]
  norm_num at this ⊢
  linarith

end Verif
