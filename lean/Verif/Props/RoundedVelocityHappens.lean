import Verif.Props.RoundedVelocity
import Verif.Props.RoundedFollowsHappen
/-!
# The motions of C109 happen

There is a robot that follows, and then the call of the joint velocity examples returns Ok. This shows that the hypotheses of `C109_velocity_example` are met.
-/
set_option linter.unusedSectionVars false
namespace Verif
open Prog Spec Fl

variable {A : Rounding}

/-- With the rounding of `f64`, integers are kept. -/
theorem binary64_integers : KeepsIntegers binary64 := by
  intro k hk
  show nearest (k : ℝ) = k
  by_cases h0 : k = 0
  · subst h0
    simp [nearest]
  have hx : 0 < |(k : ℝ)| := abs_pos.2 (by exact_mod_cast h0)
  have hlog : Int.log 2 |(k : ℝ)| < 53 := by
    rw [← Int.lt_zpow_iff_log_lt (by norm_num) hx]
    have : |(k : ℝ)| < 2 ^ 53 := by exact_mod_cast hk
    exact_mod_cast this
  obtain ⟨m, hm⟩ := Int.eq_ofNat_of_zero_le (show 0 ≤ 52 - Int.log 2 |(k : ℝ)| by omega)
  have e : Int.log 2 |(k : ℝ)| - 52 = -(m : ℤ) := by omega
  unfold nearest
  rw [e, zpow_neg, zpow_natCast, div_inv_eq_mul]
  have h2 : (k : ℝ) * 2 ^ m = ((k * 2 ^ m : ℤ) : ℝ) := by push_cast; rfl
  rw [h2, round_intCast]
  push_cast
  rw [mul_assoc, mul_inv_cancel₀ (by positivity), mul_one]

/-- The low pass and the velocity limiter of joint `i`. -/
noncomputable def smoothedVelocityOf (A : Rounding) (f : ℝ) (i : Fin 7) (u v a : ℝ) : P (Rd A) :=
  low_pass_filter DELTA_T (Rd.fin u) (Rd.fin v) (Rd.fin f) >>= fun r => limit_rate_velocity (MAX_JOINT_VELOCITY i) (MAX_JOINT_ACCELERATION i) (MAX_JOINT_JERK i) r (Rd.fin v) (Rd.fin a)

/-- A joint whose velocities come from the low pass and the limiter: if the commanded velocities stay inside the limits, then there is always a number. -/
theorem smoothed_velocity_goes (i : Fin 7) {f : ℝ} (f0 : 0.1 ≤ f) (f1 : f ≤ 999) {N : ℕ} {u y : ℕ → ℝ} (h0 : |y 0| ≤ 4) (hu : ∀ n < N, |u n| ≤ 4)
    (inside : VelocityInside N (jointLimits i) (starting (y 0) u))
    (next : ∀ n < N, smoothedVelocityOf A f i (u n) (y n) (rate y n) = .ok (Rd.fin (y (n + 1))) ∨
      (∀ z, smoothedVelocityOf A f i (u n) (y n) (rate y n) ≠ .ok (Rd.fin z)) ∧ y (n + 1) = 1000) :
    ∀ n < N, smoothedVelocityOf A f i (u n) (y n) (rate y n) = .ok (Rd.fin (y (n + 1))) := by
  intro n
  induction n using Nat.strong_induction_on with
  | _ n ih =>
    intro hn
    rcases next n hn with h | ⟨hno, hy⟩
    · exact h
    exfalso
    have fp : 0 < f := lt_of_lt_of_le (by norm_num) f0
    have hb : 6 / 10 ^ 4 ≤ share f ∧ share f ≤ 1 := ⟨share_at_least f0, (share_lt_one fp).le⟩
    have g0 : 0 < share f := lt_of_lt_of_le (by norm_num) hb.1
    have hmean : ∀ k < n + 1, lowPass f (y 0) u (k + 1) = share f * u k + (1 - share f) * lowPass f (y 0) u k := fun k _ => by rw [share_gain f fp]; rfl
    have hxb : ∀ k ≤ n + 1, |lowPass f (y 0) u k| ≤ 4 := mean_bounded g0 hb.2 hmean h0 fun k hk => hu k (by omega)
    have hsmall : (2 / 10 ^ 14 + 2 / 10 ^ 12) / share f ≤ 4 / 10 ^ 7 := by
      rw [div_le_iff₀ g0]
      linarith [hb.1]
    have := velocity_follows (most_wider i) (g := share f) (e := 2 / 10 ^ 14) (δ := 2 / 10 ^ 12) g0 hb.2 (by norm_num) (by norm_num) hsmall (N := n + 1) (u := u)
      (x := lowPass f (y 0) u) (y := y) (a := rate y) rfl hmean inside.1 (fun k hk => inside.2 k (by omega))
      (fun k _ => by rw [sub_self, abs_zero]; norm_num)
      (fun k hk hv ha => by
        have hyb : |y k| ≤ 4 := by linarith [(most_wider i).moderate.v2]
        obtain ⟨r, r1, r2⟩ := C100_step (A := A) (f := f) (y := u k) (l := y k) (B := 4) (by norm_num at f0 ⊢; linarith) (by linarith) (by norm_num) (by norm_num) (hu k (by omega)) hyb
        refine ⟨r, ?_, fun hal => ?_⟩
        · rw [show share f * u k + (1 - share f) * y k = y k + share f * (u k - y k) by ring]
          exact r2.trans (by norm_num)
        rcases Nat.lt_or_ge k n with hkn | hkn
        · have h := ih k hkn (by omega)
          unfold smoothedVelocityOf at h
          rw [r1, P_bind_ok_eq] at h
          exact limiter_passes h hv ha hal
        · obtain rfl : k = n := by omega
          obtain ⟨z, _, hz, -⟩ := rd_limit_rate_velocity (near_velocity (A := A) i) (near_acceleration i) (near_jerk i) (code_moderate i) r (hv.trans (by linarith)) ha
          refine absurd ?_ (hno z)
          unfold smoothedVelocityOf
          rw [r1, P_bind_ok_eq]
          exact hz) (n + 1) le_rfl
    rw [hy] at this
    have h1 := abs_le_of_close (x := 1000) this (hxb (n + 1) le_rfl)
    linarith

/-- What is known of the example while it is carried out: the captured time and the velocities in the last two states. -/
structure Turning (A : Rounding) where
  captured : Rd A
  now : Fin 7 → ℝ
  before : Fin 7 → ℝ

namespace Turning

noncomputable def acc (x : Turning A) : Fin 7 → ℝ := fun i => (x.now i - x.before i) / 0.001

/-- The `n`-th state. -/
noncomputable def state (n : ℕ) (x : Turning A) : RobotStateIntern (Rd A) :=
  plainState (UInt64.ofNat (n + 3)) (fun _ => lit 0) (Arr.rd x.now) (Arr.rd x.acc) .JointVelocity .JointImpedance .Move

/-- The `n`-th call of the callback. -/
noncomputable def answer (ω : ℚ) (T : ℕ) (n : ℕ) (x : Turning A) : Rd A × JointVelocities (Rd A) :=
  Examples.velocity_callback (lit ω) (lit (T : ℚ)) x.captured (RobotState.ofIntern (x.state n)) (periodOf n)

open Classical in
/-- The velocity a joint has afterwards. -/
noncomputable def moved (ω : ℚ) (T : ℕ) (f : ℝ) (n : ℕ) (x : Turning A) (i : Fin 7) : ℝ :=
  if h : ∃ z u, (x.answer ω T n).2.dq i = Rd.fin u ∧ smoothedVelocityOf A f i u (x.now i) (x.acc i) = .ok (Rd.fin z) then h.choose else 1000

/-- The motion. -/
noncomputable def run (ω : ℚ) (T : ℕ) (f : ℝ) : ℕ → Turning A
  | 0 => ⟨lit 0, fun _ => 0, fun _ => 0⟩
  | n + 1 => ⟨((run ω T f n).answer ω T n).1, (run ω T f n).moved ω T f n, (run ω T f n).now⟩

variable {ω : ℚ} {T : ℕ} {f : ℝ}

/-- The velocity of a joint in the `n`-th state. -/
noncomputable def speed (A : Rounding) (ω : ℚ) (T : ℕ) (f : ℝ) (i : Fin 7) (n : ℕ) : ℝ := (run (A := A) ω T f n).now i

theorem acc_eq (n : ℕ) (i : Fin 7) : (run (A := A) ω T f n).acc i = rate (speed A ω T f i) n := by
  cases n with
  | zero => show ((0 : ℝ) - 0) / 0.001 = 0; norm_num
  | succ n => rfl

theorem moved_eq {n : ℕ} {x : Turning A} {i : Fin 7} {u : ℝ} (hu : (x.answer ω T n).2.dq i = Rd.fin u) :
    smoothedVelocityOf A f i u (x.now i) (x.acc i) = .ok (Rd.fin (x.moved ω T f n i)) ∨
      (∀ z, smoothedVelocityOf A f i u (x.now i) (x.acc i) ≠ .ok (Rd.fin z)) ∧ x.moved ω T f n i = 1000 := by
  unfold moved
  by_cases h : ∃ z u, (x.answer ω T n).2.dq i = Rd.fin u ∧ smoothedVelocityOf A f i u (x.now i) (x.acc i) = .ok (Rd.fin z)
  · rw [dif_pos h]
    refine .inl ?_
    obtain ⟨u', h1, h2⟩ := h.choose_spec
    rwa [← Rd.fin_inj (hu.symm.trans h1)] at h2
  · rw [dif_neg h]
    exact .inr ⟨fun z hz => h ⟨z, u, hu, hz⟩, rfl⟩

end Turning
open Turning RoundedVelocity
open VelocityExample (target)

/-- Velocities that pass the low pass and the limiters are converted. -/
theorem smoothed_velocity_converts {out : JointVelocities (Rd A)} {f : ℝ} {u v a z : Fin 7 → ℝ} {st : RobotState (Rd A)} {m m' : MotionGeneratorCommand (Rd A)} {cutoff : Rd A}
    (hf : cutoff = Rd.fin f) (f1 : f ≤ 999) (ho : out.dq = Arr.rd u) (hst : st.dq_d = Arr.rd v ∧ st.ddq_d = Arr.rd a)
    (h : ∀ i, smoothedVelocityOf A f i (u i) (v i) (a i) = .ok (Rd.fin (z i))) (hm : { m with dq_c := Arr.rd z } = m') :
    JointVelocities.convert_motion out st m cutoff true = .ok m' := by
  have hr : ∀ i, ∃ r : ℝ, low_pass_filter DELTA_T (Rd.fin (u i)) (Rd.fin (v i)) (Rd.fin f) = (.ok (Rd.fin r) : P (Rd A)) := fun i => by
    obtain ⟨r, r1, r2⟩ := P_bind_inv (h i)
    unfold limit_rate_velocity at r2
    obtain ⟨_, r3, -⟩ := P_bind_inv r2
    have : isFinite r = true := by
      cases hr : isFinite r
      · rw [hr] at r3
        cases r3
      · rfl
    cases r with
    | fin r => exact ⟨r, r1⟩
    | inf b => cases this
    | nan => cases this
  choose r hr using hr
  unfold JointVelocities.convert_motion
  have e : flt (Rd.fin f : Rd A) MAX_CUTOFF_FREQUENCY = true := rd_with_filter f1
  have e1 : (Arr.tabulateP fun i => low_pass_filter DELTA_T ((Arr.rd u : Arr (Rd A) 7) i) ((Arr.rd v : Arr (Rd A) 7) i) (Rd.fin f)) = (.ok (Arr.rd r) : P (Arr (Rd A) 7)) := Arr.tabulateP_ok hr
  have e2 : limit_rate_joint_velocities MAX_JOINT_VELOCITY MAX_JOINT_ACCELERATION MAX_JOINT_JERK (Arr.rd r) (Arr.rd v) (Arr.rd a) = (.ok (Arr.rd z) : P (Arr (Rd A) 7)) := by
    unfold limit_rate_joint_velocities
    rw [rd_assertFinite, P_bind_ok_eq]
    refine Arr.tabulateP_ok fun i => ?_
    have := h i
    unfold smoothedVelocityOf at this
    rw [hr i, P_bind_ok_eq] at this
    exact this
  subst hf
  simp only [e, if_true]
  rw [ho, hst.1, hst.2]
  show ((Arr.tabulateP fun i => low_pass_filter DELTA_T ((Arr.rd u : Arr (Rd A) 7) i) ((Arr.rd v : Arr (Rd A) 7) i) (Rd.fin f)) >>= fun x => limit_rate_joint_velocities _ _ _ x _ _ >>= fun y =>
    assertFinite y >>= fun _ => (pure { m with dq_c := y } : P (MotionGeneratorCommand (Rd A)))) = _
  rw [e1, P_bind_ok_eq, e2, P_bind_ok_eq, rd_assertFinite, P_bind_ok_eq, ← hm]
  rfl

/-- The robot reports these desired velocities, and the accelerations that follow. -/
def VelocityReported (v : Fin 7 → ℕ → ℝ) (n : ℕ) (st : RobotState (Rd A)) : Prop := st.dq_d = (Arr.rd fun i => v i n) ∧ st.ddq_d = Arr.rd fun i => rate (v i) n

/-- The commands with which it comes to these velocities. -/
noncomputable def velocityCommands (v : Fin 7 → ℕ → ℝ) (n : ℕ) : MotionGeneratorCommand (Rd A) := { noMotion with dq_c := Arr.rd fun i => v i (n + 1) }

/-- The state in which it reports them. -/
noncomputable def reportVelocity (M : ℕ) (v : Fin 7 → ℕ → ℝ) (n : ℕ) : RobotStateIntern (Rd A) :=
  plainState (UInt64.ofNat (M + 2 + n)) (fun _ => lit 0) (Arr.rd fun i => v i n) (Arr.rd fun i => rate (v i) n) .JointVelocity .JointImpedance .Move

/-- Such a robot follows. -/
theorem velocity_reports_follow {v : Fin 7 → ℕ → ℝ} (h0 : ∀ i, v i 0 = 0) {M N : ℕ} (hN : M + N ≤ 2 ^ 40) {o : ℕ → Motion (Rd A) .JointVelocities}
    {s : ℕ → RobotStateIntern (Rd A)} (hs : s = reportVelocity M v) :
    FollowsVelocitiesRounded v ((List.range (N + 1)).map fun j => (RobotState.ofIntern (s j), (⟨(s j).message_id, sentCmd o (velocityCommands v) j, noTorques⟩ : RobotCommand (Rd A)))) := by
  have hget : ∀ n st x, ((List.range (N + 1)).map fun j => (RobotState.ofIntern (s j), (⟨(s j).message_id, sentCmd o (velocityCommands v) j, noTorques⟩ : RobotCommand (Rd A))))[n]? = some (st, x) →
      n ≤ N ∧ st = RobotState.ofIntern (reportVelocity M v n) ∧ x.motion.dq_c = Arr.rd fun i => v i (n + 1) := by
    intro n st x h
    rw [List.getElem?_map] at h
    obtain ⟨j, hj, e⟩ := Option.map_eq_some_iff.1 h
    obtain ⟨hn, hj⟩ := List.getElem?_eq_some_iff.1 hj
    rw [List.getElem_range] at hj
    rw [List.length_range] at hn
    subst hj
    simp only [Prod.mk.injEq] at e
    refine ⟨by omega, by rw [← e.1, hs], ?_⟩
    rw [← e.2]
    show (sentCmd o (velocityCommands v) n).dq_c = _
    unfold sentCmd
    split <;> rfl
  refine ⟨h0, fun n st x h => ?_, fun n st x h => ?_, fun n st x st' x' h h' => ?_⟩
  · rw [(hget n st x h).2.1]
    rfl
  · refine ⟨_, by rw [(hget n st x h).2.1]; rfl, fun i => ?_⟩
    rw [sub_self, abs_zero]
    norm_num
  · obtain ⟨e0, e1, e2⟩ := hget n st x h
    obtain ⟨e3, e4, -⟩ := hget (n + 1) st' x' h'
    rw [e1, e4, e2]
    refine ⟨rfl, ?_⟩
    show (UInt64.ofNat (M + 2 + (n + 1))).toNat = (UInt64.ofNat (M + 2 + n)).toNat + 1
    rw [UInt64.toNat_ofNat', UInt64.toNat_ofNat', Nat.mod_eq_of_lt (by omega), Nat.mod_eq_of_lt (by omega)]
    rfl

set_option maxHeartbeats 1000000 in
/-- The plan of the joint velocity examples. -/
theorem velocity_plan_rounded [Geo (Rd A)] (hA : KeepsIntegers A) {ω : ℚ} (hω : 0 ≤ ω ∧ ω ≤ 1) {T : ℕ} (hT : 1 ≤ T ∧ T ≤ 4) :
    ∃ (cs : ℕ → Rd A) (o : ℕ → Motion (Rd A) .JointVelocities) (v : Fin 7 → ℕ → ℝ) (N : ℕ), N ≤ 8001 ∧ (∀ i, v i 0 = 0) ∧
      (∀ n < N, (o n).is_finished = false) ∧ (o N).is_finished = true ∧
      IsPlanOf (call (A := A) ω T) (lit 0) cs o (velocityCommands v) (fun n st => n ≤ N ∧ VelocityReported v n st) := by
  obtain ⟨f, hf1, hf2, -⟩ := cutoff_near (A := A) ω T
  obtain ⟨f1, f2⟩ := abs_le.1 hf2
  have f0 : 0.1 ≤ f := by norm_num1 at f1 ⊢; linarith
  have f9 : f ≤ 999 := by norm_num1 at f2; linarith
  have hgo : ∀ n, TimeAt T n (run (A := A) ω T f n).captured ∧ VelocityAt ω T n ((run (A := A) ω T f n).answer ω T n).2 := by
    intro n
    induction n with
    | zero => exact ⟨rfl, (goes hA hT.1 hT.2 hω.1 hω.2 0 _ _ rfl).2⟩
    | succ n ih =>
      have h1 := (goes hA hT.1 hT.2 hω.1 hω.2 n _ (RobotState.ofIntern ((run (A := A) ω T f n).state n)) ih.1).1
      exact ⟨h1, (goes hA hT.1 hT.2 hω.1 hω.2 (n + 1) _ _ h1).2⟩
  -- the last command
  have hex : ((run (A := A) ω T f (2 * (1000 * T) + 1)).answer ω T (2 * (1000 * T) + 1)).2.motion_finished = true := ((hgo (2 * (1000 * T) + 1)).2 le_rfl).2.2 (by omega)
  obtain ⟨N, hN, hNmin, hN9⟩ : ∃ N, ((run (A := A) ω T f N).answer ω T N).2.motion_finished = true ∧
      (∀ n < N, ((run (A := A) ω T f n).answer ω T n).2.motion_finished = false) ∧ N ≤ 2 * (1000 * T) + 1 := by
    classical
    have hex' : ∃ n, ((run (A := A) ω T f n).answer ω T n).2.motion_finished = true := ⟨_, hex⟩
    exact ⟨Nat.find hex', Nat.find_spec hex', fun n hn => by simpa using Nat.find_min hex' hn, Nat.find_min' hex' hex⟩
  have hu : ∀ n : ℕ, ∃ u : Fin 7 → ℝ, n ≤ N → ((run (A := A) ω T f n).answer ω T n).2.dq = Arr.rd u ∧ ∀ i, |u i - target ω (1000 * T) i n| ≤ 6 / 10 ^ 9 := by
    intro n
    by_cases hn : n ≤ N
    · choose u u1 u2 using ((hgo n).2 (by omega)).1
      exact ⟨u, fun _ => ⟨funext u1, u2⟩⟩
    · exact ⟨0, fun h => absurd h hn⟩
  choose u hu using hu
  have hgoes : ∀ i, ∀ n < N + 1, smoothedVelocityOf A f i (u n i) (speed A ω T f i n) (rate (speed A ω T f i) n) = .ok (Rd.fin (speed A ω T f i (n + 1))) := fun i => by
    refine smoothed_velocity_goes i f0 f9 (u := fun n => u n i) (y := speed A ω T f i) (by show |(0 : ℝ)| ≤ 4; norm_num) (fun n hn => ?_) ?_ fun n hn => ?_
    · have := abs_le_of_close ((hu n (by omega)).2 i) (target_abs hω.1 hω.2 (1000 * T) i n)
      norm_num1 at this
      linarith
    · exact wave_inside hω.1 hω.2 (by omega) i fun n hn => (hu n (by omega)).2 i
    · have := moved_eq (f := f) (n := n) (x := run ω T f n) (i := i) (congrFun (hu n (by omega)).1 i)
      rw [acc_eq] at this
      exact this
  refine ⟨fun n => (run (A := A) ω T f n).captured, fun n => ((run (A := A) ω T f n).answer ω T n).2, speed A ω T f, N, by omega, fun _ => rfl, hNmin, hN, rfl, rfl,
    fun n st hst => rfl, fun n st hst => ?_⟩
  obtain ⟨hn, r1, r2⟩ := hst
  show JointVelocities.convert_motion ((run (A := A) ω T f n).answer ω T n).2 st _ _ true = _
  exact smoothed_velocity_converts (z := fun i => speed A ω T f i (n + 1)) hf1 f9 (hu n hn).1 ⟨r1, r2⟩ (fun i => hgoes i n (by omega)) (by cases n <;> rfl)

/-- **C109**, without hypotheses on the robot: there is a robot that follows, and then the call of the joint velocity examples returns Ok. -/
theorem C109_velocity_example_happens [Geo (Rd A)] (hA : KeepsIntegers A) {ω : ℚ} (hω : 0 ≤ ω ∧ ω ≤ 1) {T : ℕ} (hT : 1 ≤ T ∧ T ≤ 4) :
    ∃ (_ : Wire (Rd A)) (w : World (Rd A)), RobotReachable w ∧ ((roundedVelocityExample A ω T).run w).1 = .ok () ∧ 0 < answered w (roundedVelocityExample A ω T) ∧
      ∃ v, FollowsVelocitiesRounded v (exchanges (newEvents w ((roundedVelocityExample A ω T).run w).2)) := by
  obtain ⟨cs, o, v, N, hN9, h0, hNmin, hN, hplan⟩ := velocity_plan_rounded (A := A) hA hω hT
  obtain ⟨s, hs⟩ : ∃ s : ℕ → RobotStateIntern (Rd A), s = reportVelocity 1 v := ⟨_, rfl⟩
  obtain ⟨wire, k0, kp⟩ := wire_for_arrays (F := Rd A) (fun n => ![(s n).q_d, (s n).dq_d, (s n).ddq_d]) (show N ≤ 1000000000 by omega)
  have kz : Kept (fun _ => lit 0 : Arr (Rd A) 7) := fun _ => k0
  have hrobot : RobotFor (call (A := A) ω T) (fun n st => n ≤ N ∧ VelocityReported v n st) N
      (plainState (F := Rd A) 2 (fun _ => lit 0) (fun _ => lit 0) (fun _ => lit 0) .JointVelocity .JointImpedance .Move) s
      (plainState (F := Rd A) (UInt64.ofNat (N + 4)) (fun _ => lit 0) (fun _ => lit 0) (fun _ => lit 0) .Idle .Other .Idle) := by
    refine ⟨by omega, rfl, ⟨rfl, rfl⟩, fun n _ => ?_, fun n _ => by rw [hs]; exact ⟨rfl, rfl, rfl⟩, fun n hn => ⟨hn, by rw [hs]; exact ⟨rfl, rfl⟩⟩, rfl, ?_,
      plainState_holds k0 kz kz kz, fun n hn => ?_, plainState_holds k0 kz kz kz⟩
    · rw [hs]
      show UInt64.ofNat (1 + 2 + n) = _
      rw [Nat.add_comm]
    · rintro (h | h) <;> first | exact h rfl | cases h
    · have h1 := kp n hn 0
      have h2 := kp n hn 1
      have h3 := kp n hn 2
      rw [hs] at h1 h2 h3 ⊢
      exact plainState_holds k0 h1 h2 h3
  obtain ⟨w, g1, g2, g3⟩ := hplan.happens hrobot hNmin hN (isControl (A := A) ω T)
  refine ⟨wire, w, g1, g2, ?_, v, ?_⟩
  · unfold answered
    rw [g3]
    simp
  · rw [g3]
    exact velocity_reports_follow h0 (by omega) hs

/-- For example the two programs, with the rounding of `f64`. -/
example [Geo (Rd binary64)] : ∃ (_ : Wire (Rd binary64)) (w : World (Rd binary64)), RobotReachable w ∧ ((roundedVelocityExample binary64 1 1).run w).1 = .ok () ∧
    0 < answered w (roundedVelocityExample binary64 1 1) ∧ ∃ v, FollowsVelocitiesRounded v (exchanges (newEvents w ((roundedVelocityExample binary64 1 1).run w).2)) :=
  C109_velocity_example_happens binary64_integers (by norm_num) (by norm_num)

example [Geo (Rd binary64)] : ∃ (_ : Wire (Rd binary64)) (w : World (Rd binary64)), RobotReachable w ∧ ((roundedVelocityExample binary64 (1 / 5) 4).run w).1 = .ok () ∧
    0 < answered w (roundedVelocityExample binary64 (1 / 5) 4) ∧ ∃ v, FollowsVelocitiesRounded v (exchanges (newEvents w ((roundedVelocityExample binary64 (1 / 5) 4).run w).2)) :=
  C109_velocity_example_happens binary64_integers (by norm_num) (by norm_num)

end Verif
