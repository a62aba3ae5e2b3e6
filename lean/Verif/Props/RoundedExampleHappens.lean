import Verif.Props.RoundedExample
import Verif.Props.RoundedFollowsHappen
/-!
# The motions of C108 happen

From every position there is a robot that follows, and then the call of the joint position example returns Ok. This shows that the hypotheses of `C108_position_example` are met.
-/
set_option linter.unusedSectionVars false
namespace Verif
open Prog Spec Fl

variable {A : Rounding}

/-- The low pass and the limiter of joint `i`. -/
noncomputable def smoothedOf (A : Rounding) (f : ℝ) (i : Fin 7) (u p v a : ℝ) : P (Rd A) :=
  low_pass_filter DELTA_T (Rd.fin u) (Rd.fin p) (Rd.fin f) >>= fun r => limit_rate_position (MAX_JOINT_VELOCITY i) (MAX_JOINT_ACCELERATION i) (MAX_JOINT_JERK i) r (Rd.fin p) (Rd.fin v) (Rd.fin a)

/-- A joint whose positions come from the low pass and the limiter: if the commanded positions stay inside the limits, then there is always a number. -/
theorem smoothed_goes (i : Fin 7) {f : ℝ} (f0 : 0.1 ≤ f) (f1 : f ≤ 999) {N : ℕ} {u y : ℕ → ℝ} (h0 : |y 0| ≤ 9) (hu : ∀ n < N, |u n| ≤ 9)
    (inside : PositionInside N (jointLimits i) (starting (y 0) u))
    (next : ∀ n < N, smoothedOf A f i (u n) (y n) (rate y n) (rate (rate y) n) = .ok (Rd.fin (y (n + 1))) ∨
      (∀ z, smoothedOf A f i (u n) (y n) (rate y n) (rate (rate y) n) ≠ .ok (Rd.fin z)) ∧ y (n + 1) = 1000) :
    ∀ n < N, smoothedOf A f i (u n) (y n) (rate y n) (rate (rate y) n) = .ok (Rd.fin (y (n + 1))) := by
  intro n
  induction n using Nat.strong_induction_on with
  | _ n ih =>
    intro hn
    rcases next n hn with h | ⟨hno, hy⟩
    · exact h
    exfalso
    have fp : 0 < f := lt_of_lt_of_le (by norm_num) f0
    have hb : 6 / 10 ^ 4 ≤ share f ∧ share f ≤ 1 := ⟨share_at_least f0, (share_lt_one fp).le⟩
    have g0 : 0 < share f := lt_of_lt_of_le (by norm_num) hb.1
    have hmean : ∀ k < n + 1, lowPass f (y 0) u (k + 1) = share f * u k + (1 - share f) * lowPass f (y 0) u k := fun k _ => by rw [share_gain f fp]; rfl
    have hxb : ∀ k ≤ n + 1, |lowPass f (y 0) u k| ≤ 9 := mean_bounded g0 hb.2 hmean h0 fun k hk => hu k (by omega)
    have hsmall : (4 / 10 ^ 14 + 1 / 10 ^ 14) / share f ≤ 2 / 10 ^ 10 := by
      rw [div_le_iff₀ g0]
      linarith [hb.1]
    have := position_follows (most_wider i) (g := share f) (e := 4 / 10 ^ 14) (δ := 1 / 10 ^ 14) g0 hb.2 (by norm_num) (by norm_num) hsmall (N := n + 1) (u := u)
      (x := lowPass f (y 0) u) (y := y) (v := rate y) (a := rate (rate y)) rfl hmean (fun k hk => inside.2 k (by omega))
      (fun k _ => by rw [sub_self, abs_zero]; norm_num) (fun k _ => by rw [sub_self, abs_zero]; norm_num)
      (fun k hk hd hv ha => by
        have hyb : |y k| ≤ 10 := by linarith [abs_le_of_close hd (hxb k (by omega))]
        obtain ⟨r, r1, r2⟩ := C100_step (A := A) (f := f) (y := u k) (l := y k) (B := 10) (by norm_num at f0 ⊢; linarith) (by linarith) (by norm_num) (by norm_num) ((hu k (by omega)).trans (by norm_num)) hyb
        refine ⟨r, ?_, fun h6 hal => ?_⟩
        · rw [show share f * u k + (1 - share f) * y k = y k + share f * (u k - y k) by ring]
          exact r2.trans (by norm_num)
        rcases Nat.lt_or_ge k n with hkn | hkn
        · have h := ih k hkn (by omega)
          unfold smoothedOf at h
          rw [r1, P_bind_ok_eq] at h
          exact position_limiter_passes h hyb h6 hv ha hal
        · obtain rfl : k = n := by omega
          obtain ⟨z, hz, -⟩ := rd_limit_position_near (near_velocity (A := A) i) (near_acceleration i) (near_jerk i) (code_moderate i) hyb h6 (hv.trans (by linarith)) ha
          refine absurd ?_ (hno z)
          unfold smoothedOf
          rw [r1, P_bind_ok_eq]
          exact hz) (n + 1) le_rfl
    rw [hy] at this
    have h1 := abs_le_of_close (x := 1000) this (hxb (n + 1) le_rfl)
    linarith

/-- What is known of the example while it is carried out: the captured values and the positions in the last three states. -/
structure Swinging (A : Rounding) where
  captured : Examples.PositionState (Rd A)
  now : Fin 7 → ℝ
  before : Fin 7 → ℝ
  earlier : Fin 7 → ℝ

namespace Swinging

noncomputable def vel (x : Swinging A) : Fin 7 → ℝ := fun i => (x.now i - x.before i) / 0.001
noncomputable def acc (x : Swinging A) : Fin 7 → ℝ := fun i => (x.now i - 2 * x.before i + x.earlier i) / 0.001 / 0.001

/-- The `n`-th state. -/
noncomputable def state (n : ℕ) (x : Swinging A) : RobotStateIntern (Rd A) :=
  plainState (UInt64.ofNat (n + 3)) (Arr.rd x.now) (Arr.rd x.vel) (Arr.rd x.acc) .JointPosition .JointImpedance .Move

/-- The `n`-th call of the callback. -/
noncomputable def answer (n : ℕ) (x : Swinging A) : Examples.PositionState (Rd A) × JointPositions (Rd A) :=
  Examples.position_callback x.captured (RobotState.ofIntern (x.state n)) (periodOf n)

open Classical in
/-- The position a joint has afterwards. -/
noncomputable def moved (f : ℝ) (n : ℕ) (x : Swinging A) (i : Fin 7) : ℝ :=
  if h : ∃ z u, (x.answer n).2.q i = Rd.fin u ∧ smoothedOf A f i u (x.now i) (x.vel i) (x.acc i) = .ok (Rd.fin z) then h.choose else 1000

/-- The motion. -/
noncomputable def run (f : ℝ) (start : Fin 7 → ℝ) : ℕ → Swinging A
  | 0 => ⟨.new, start, start, start⟩
  | n + 1 => ⟨((run f start n).answer n).1, (run f start n).moved f n, (run f start n).now, (run f start n).before⟩

variable {f : ℝ} {start : Fin 7 → ℝ}

/-- The position of a joint in the `n`-th state. -/
noncomputable def place (A : Rounding) (f : ℝ) (start : Fin 7 → ℝ) (i : Fin 7) (n : ℕ) : ℝ := (run (A := A) f start n).now i

theorem before_eq (n : ℕ) (i : Fin 7) : (run (A := A) f start n).before i = place A f start i (n - 1) := by cases n <;> rfl

theorem earlier_eq (n : ℕ) (i : Fin 7) : (run (A := A) f start n).earlier i = place A f start i (n - 2) := by
  match n with
  | 0 => rfl
  | 1 => rfl
  | n + 2 => rfl

theorem vel_eq (n : ℕ) (i : Fin 7) : (run (A := A) f start n).vel i = rate (place A f start i) n := by
  rw [(rates_before _ n).1]
  unfold vel
  rw [before_eq, show n + 3 - 3 = n by omega, show n + 2 - 3 = n - 1 by omega]
  rfl

theorem acc_eq (n : ℕ) (i : Fin 7) : (run (A := A) f start n).acc i = rate (rate (place A f start i)) n := by
  rw [(rates_before _ n).2]
  unfold acc
  rw [before_eq, earlier_eq, show n + 3 - 3 = n by omega, show n + 2 - 3 = n - 1 by omega, show n + 1 - 3 = n - 2 by omega]
  rfl

theorem moved_eq {n : ℕ} {x : Swinging A} {i : Fin 7} {u : ℝ} (hu : (x.answer n).2.q i = Rd.fin u) :
    smoothedOf A f i u (x.now i) (x.vel i) (x.acc i) = .ok (Rd.fin (x.moved f n i)) ∨ (∀ z, smoothedOf A f i u (x.now i) (x.vel i) (x.acc i) ≠ .ok (Rd.fin z)) ∧ x.moved f n i = 1000 := by
  unfold moved
  by_cases h : ∃ z u, (x.answer n).2.q i = Rd.fin u ∧ smoothedOf A f i u (x.now i) (x.vel i) (x.acc i) = .ok (Rd.fin z)
  · rw [dif_pos h]
    refine .inl ?_
    obtain ⟨u', h1, h2⟩ := h.choose_spec
    rwa [← Rd.fin_inj (hu.symm.trans h1)] at h2
  · rw [dif_neg h]
    exact .inr ⟨fun z hz => h ⟨z, u, hu, hz⟩, rfl⟩

end Swinging
open Swinging RoundedExample
open PositionExample (target)

/-- Positions that pass the low pass and the limiters are converted. -/
theorem smoothed_converts {out : JointPositions (Rd A)} {f : ℝ} {u p v a z : Fin 7 → ℝ} {st : RobotState (Rd A)} {m m' : MotionGeneratorCommand (Rd A)} {cutoff : Rd A} (hf : cutoff = Rd.fin f)
    (f1 : f ≤ 999) (ho : out.q = Arr.rd u) (hst : st.q_d = Arr.rd p ∧ st.dq_d = Arr.rd v ∧ st.ddq_d = Arr.rd a)
    (h : ∀ i, smoothedOf A f i (u i) (p i) (v i) (a i) = .ok (Rd.fin (z i))) (hm : { m with q_c := Arr.rd z } = m') :
    JointPositions.convert_motion out st m cutoff true = .ok m' := by
  have hr : ∀ i, ∃ r : ℝ, low_pass_filter DELTA_T (Rd.fin (u i)) (Rd.fin (p i)) (Rd.fin f) = (.ok (Rd.fin r) : P (Rd A)) := fun i => by
    obtain ⟨r, r1, r2⟩ := P_bind_inv (h i)
    unfold limit_rate_position at r2
    obtain ⟨_, r3, -⟩ := P_bind_inv r2
    have : isFinite r = true := by
      cases hr : isFinite r
      · rw [hr] at r3
        cases r3
      · rfl
    cases r with
    | fin r => exact ⟨r, r1⟩
    | inf b => cases this
    | nan => cases this
  choose r hr using hr
  unfold JointPositions.convert_motion
  have e : flt (Rd.fin f : Rd A) MAX_CUTOFF_FREQUENCY = true := rd_with_filter f1
  have e1 : (Arr.tabulateP fun i => low_pass_filter DELTA_T ((Arr.rd u : Arr (Rd A) 7) i) ((Arr.rd p : Arr (Rd A) 7) i) (Rd.fin f)) = (.ok (Arr.rd r) : P (Arr (Rd A) 7)) := Arr.tabulateP_ok hr
  have e2 : limit_rate_joint_positions MAX_JOINT_VELOCITY MAX_JOINT_ACCELERATION MAX_JOINT_JERK (Arr.rd r) (Arr.rd p) (Arr.rd v) (Arr.rd a) = (.ok (Arr.rd z) : P (Arr (Rd A) 7)) := by
    unfold limit_rate_joint_positions
    rw [rd_assertFinite, P_bind_ok_eq]
    refine Arr.tabulateP_ok fun i => ?_
    have := h i
    unfold smoothedOf at this
    rw [hr i, P_bind_ok_eq] at this
    exact this
  subst hf
  simp only [e, if_true]
  rw [ho, hst.1, hst.2.1, hst.2.2]
  show ((Arr.tabulateP fun i => low_pass_filter DELTA_T ((Arr.rd u : Arr (Rd A) 7) i) ((Arr.rd p : Arr (Rd A) 7) i) (Rd.fin f)) >>= fun x => limit_rate_joint_positions _ _ _ x _ _ _ >>= fun y =>
    assertFinite y >>= fun _ => (pure { m with q_c := y } : P (MotionGeneratorCommand (Rd A)))) = _
  rw [e1, P_bind_ok_eq, e2, P_bind_ok_eq, rd_assertFinite, P_bind_ok_eq, ← hm]
  rfl

theorem position_callback_same (c : Examples.PositionState (Rd A)) {st st' : RobotState (Rd A)} (h : st.q_d = st'.q_d) (t : ℕ) :
    Examples.position_callback c st t = Examples.position_callback c st' t := by
  unfold Examples.position_callback
  rw [h]

set_option maxHeartbeats 1000000 in
/-- The plan of the joint position example. -/
theorem position_plan_rounded [Geo (Rd A)] (hz : A.rnd 0 = 0) (start : Fin 7 → ℝ) (hs : ∀ i, |start i| ≤ 8) :
    ∃ (cs : ℕ → Examples.PositionState (Rd A)) (o : ℕ → Motion (Rd A) .JointPositions) (q : Fin 7 → ℕ → ℝ) (N : ℕ), N ≤ 5001 ∧ (∀ i, q i 0 = start i) ∧
      (∀ n < N, (o n).is_finished = false) ∧ (o N).is_finished = true ∧ IsPlanOf (call (A := A)) .new cs o (positionCommands q) (fun n st => n ≤ N ∧ ReportedRounded q n st) := by
  obtain ⟨f, hf1, hf2, -⟩ := cutoff_near (A := A)
  obtain ⟨f1, f2⟩ := abs_le.1 hf2
  have f0 : 0.1 ≤ f := by norm_num1 at f1 ⊢; linarith
  have f9 : f ≤ 999 := by norm_num1 at f2; linarith
  have hgo : ∀ n, CapturedAt start n (run (A := A) f start n).captured ∧ AnsweredAt start n ((run (A := A) f start n).answer n).2 := by
    intro n
    induction n with
    | zero => exact ⟨rfl, (goes hz hs 0 _ _ rfl fun _ => rfl).2⟩
    | succ n ih =>
      have h1 := (goes hz hs n _ (RobotState.ofIntern ((run (A := A) f start n).state n)) ih.1 fun h => by subst h; rfl).1
      exact ⟨h1, (goes hz hs (n + 1) _ _ h1 nofun).2⟩
  -- the last command
  have hex : ((run (A := A) f start 5001).answer 5001).2.motion_finished = true := ((hgo 5001).2 le_rfl).2.2 (by norm_num)
  obtain ⟨N, hN, hNmin, hN9⟩ : ∃ N, ((run (A := A) f start N).answer N).2.motion_finished = true ∧
      (∀ n < N, ((run (A := A) f start n).answer n).2.motion_finished = false) ∧ N ≤ 5001 := by
    classical
    have hex' : ∃ n, ((run (A := A) f start n).answer n).2.motion_finished = true := ⟨5001, hex⟩
    exact ⟨Nat.find hex', Nat.find_spec hex', fun n hn => by simpa using Nat.find_min hex' hn, Nat.find_min' hex' hex⟩
  have hu : ∀ n : ℕ, ∃ u : Fin 7 → ℝ, n ≤ N → ((run (A := A) f start n).answer n).2.q = Arr.rd u ∧ ∀ i, |u i - target start i n| ≤ 1 / 10 ^ 9 := by
    intro n
    by_cases hn : n ≤ N
    · choose u u1 u2 using ((hgo n).2 (by omega)).1
      exact ⟨u, fun _ => ⟨funext u1, u2⟩⟩
    · exact ⟨0, fun h => absurd h hn⟩
  choose u hu using hu
  have hgoes : ∀ i, ∀ n < N + 1, smoothedOf A f i (u n i) (place A f start i n) (rate (place A f start i) n) (rate (rate (place A f start i)) n) =
      .ok (Rd.fin (place A f start i (n + 1))) := fun i => by
    refine smoothed_goes i f0 f9 (u := fun n => u n i) (y := place A f start i) ((hs i).trans (by norm_num)) (fun n hn => ?_) ?_ fun n hn => ?_
    · have := abs_le_of_close ((hu n (by omega)).2 i) (target_bounded hs i n)
      norm_num1 at this
      linarith
    · exact swing_inside i fun n hn => (hu n (by omega)).2 i
    · have := moved_eq (f := f) (n := n) (x := run f start n) (i := i) (congrFun (hu n (by omega)).1 i)
      rw [vel_eq, acc_eq] at this
      exact this
  refine ⟨fun n => (run (A := A) f start n).captured, fun n => ((run (A := A) f start n).answer n).2, place A f start, N, hN9, fun _ => rfl, hNmin, hN, rfl, rfl,
    fun n st hst => ?_, fun n st hst => ?_⟩
  · obtain ⟨-, r1, -, -⟩ := hst
    show Examples.position_callback (run (A := A) f start n).captured st (periodOf n) = _
    rw [position_callback_same (st' := RobotState.ofIntern ((run (A := A) f start n).state n)) _ r1]
    rfl
  · obtain ⟨hn, r1, r2, r3⟩ := hst
    show JointPositions.convert_motion ((run (A := A) f start n).answer n).2 st _ _ true = _
    exact smoothed_converts (z := fun i => place A f start i (n + 1)) hf1 f9 (hu n hn).1 ⟨r1, r2, r3⟩ (fun i => hgoes i n (by omega)) (by cases n <;> rfl)

/-- **C108**, without hypotheses on the robot: from every position there is a robot that follows, and then the call of the joint position example returns Ok. -/
theorem C108_position_example_happens [Geo (Rd A)] (hz : A.rnd 0 = 0) (start : Fin 7 → ℝ) (hs : ∀ i, |start i| ≤ 8) :
    ∃ (_ : Wire (Rd A)) (w : World (Rd A)), RobotReachable w ∧ ((roundedPositionExample A).run w).1 = .ok () ∧ 0 < answered w (roundedPositionExample A) ∧
      ∃ q, FollowsRounded start q (exchanges (newEvents w ((roundedPositionExample A).run w).2)) := by
  obtain ⟨cs, o, q, N, h1, h2, h3, h4, h5⟩ := position_plan_rounded (A := A) hz start hs
  obtain ⟨wire, w, g1, g2, g3, g4, -⟩ := rounded_positions_happen (isControl (A := A)) rfl (by omega) h2 h3 h4 h5
  exact ⟨wire, w, g1, g2, by omega, q, g4⟩

/-- For example with the rounding of `f64`, from the position in which the example starts the motion. -/
example [Geo (Rd binary64)] : ∃ (_ : Wire (Rd binary64)) (w : World (Rd binary64)), RobotReachable w ∧ ((roundedPositionExample binary64).run w).1 = .ok () ∧
    0 < answered w (roundedPositionExample binary64) ∧
    ∃ q, FollowsRounded ![0, -(Real.pi / 4), 0, -(3 * Real.pi / 4), 0, Real.pi / 2, Real.pi / 4] q (exchanges (newEvents w ((roundedPositionExample binary64).run w).2)) :=
  C108_position_example_happens binary64_zero _ fun i => by
    have h1 := Real.pi_lt_d2
    have h2 := Real.pi_pos
    norm_num1 at h1
    fin_cases i <;> simp [abs_of_pos h2, abs_div, abs_mul] <;> linarith

end Verif
