import Verif.Props.RoundedTwist
import Verif.Props.RoundedVelocityHappens
/-!
# The motions of C110 happen

There is a robot that follows, and then the call of the Cartesian velocity example returns Ok. This shows that the hypotheses of `C110_cartesian_velocity_example` are met.
-/
set_option linter.unusedSectionVars false
namespace Verif
open Prog Spec Fl

variable {A : Rounding}

/-- The low pass and the limiters of the Cartesian velocity. -/
noncomputable def smoothedTwistOf (A : Rounding) (f : ℝ) (u v a : Fin 6 → ℝ) : P (Arr (Rd A) 6) :=
  (Arr.tabulateP fun i => low_pass_filter DELTA_T ((Arr.rd u : Arr (Rd A) 6) i) ((Arr.rd v : Arr (Rd A) 6) i) (Rd.fin f)) >>= fun r =>
    limit_rate_cartesian_velocity MAX_TRANSLATIONAL_VELOCITY MAX_TRANSLATIONAL_ACCELERATION MAX_TRANSLATIONAL_JERK MAX_ROTATIONAL_VELOCITY MAX_ROTATIONAL_ACCELERATION
      MAX_ROTATIONAL_JERK r (Arr.rd v) (Arr.rd a)

/-- The low pass of numbers. -/
theorem low_passes {f : ℝ} (f0 : 0.1 ≤ f) (f1 : f ≤ 999) {u v : Fin 6 → ℝ} (hu : ∀ i, |u i| ≤ 4) (hv : ∀ i, |v i| ≤ 4) : ∃ r : Fin 6 → ℝ,
    (Arr.tabulateP fun i => low_pass_filter DELTA_T ((Arr.rd u : Arr (Rd A) 6) i) ((Arr.rd v : Arr (Rd A) 6) i) (Rd.fin f)) = (.ok (Arr.rd r) : P (Arr (Rd A) 6)) ∧
      ∀ i, |r i - (share f * u i + (1 - share f) * v i)| ≤ 16 / 10 ^ 15 := by
  have h : ∀ i, ∃ r : ℝ, low_pass_filter DELTA_T (Rd.fin (u i)) (Rd.fin (v i)) (Rd.fin f) = (.ok (Rd.fin r) : P (Rd A)) ∧ |r - (share f * u i + (1 - share f) * v i)| ≤ 16 / 10 ^ 15 := fun i => by
    obtain ⟨r, r1, r2⟩ := C100_step (A := A) (f := f) (y := u i) (l := v i) (B := 4) (by norm_num at f0 ⊢; linarith) (by linarith) (by norm_num) (by norm_num) (hu i) (hv i)
    refine ⟨r, r1, ?_⟩
    rw [show share f * u i + (1 - share f) * v i = v i + share f * (u i - v i) by ring]
    exact r2.trans (by norm_num)
  choose r h1 h2 using h
  exact ⟨r, Arr.tabulateP_ok h1, h2⟩

/-- A robot whose velocities come from the low pass and the limiters: if the commanded velocities stay inside the limits, then there are always numbers. -/
theorem smoothed_twist_goes {f : ℝ} (f0 : 0.1 ≤ f) (f1 : f ≤ 999) {N : ℕ} {u y : Fin 6 → ℕ → ℝ} (h0 : ∀ i, y i 0 = 0) (hu : ∀ n < N, ∀ i, |u i n| ≤ 1)
    (inside1 : CartesianInside N translationLimits (translation fun i => Spec.starting 0 (u i)))
    (inside2 : CartesianInside N rotationLimits (rotation fun i => Spec.starting 0 (u i)))
    (next : ∀ n < N, smoothedTwistOf A f (sample u n) (sample y n) (fun i => rate (y i) n) = .ok (Arr.rd (sample y (n + 1))) ∨
      ∀ z, smoothedTwistOf A f (sample u n) (sample y n) (fun i => rate (y i) n) ≠ .ok (Arr.rd z)) :
    ∀ n < N, smoothedTwistOf A f (sample u n) (sample y n) (fun i => rate (y i) n) = .ok (Arr.rd (sample y (n + 1))) := by
  intro n
  induction n using Nat.strong_induction_on with
  | _ n ih =>
    intro hn
    rcases next n hn with h | hno
    · exact h
    exfalso
    have fp : 0 < f := lt_of_lt_of_le (by norm_num) f0
    have hb : 6 / 10 ^ 4 ≤ share f ∧ share f ≤ 1 := ⟨share_at_least f0, (share_lt_one fp).le⟩
    have g0 : 0 < share f := lt_of_lt_of_le (by norm_num) hb.1
    have hmean : ∀ i, ∀ k < n, lowPass f 0 (u i) (k + 1) = share f * u i k + (1 - share f) * lowPass f 0 (u i) k := fun i k _ => by rw [share_gain f fp]; rfl
    have hxb : ∀ i, ∀ k ≤ n, |lowPass f 0 (u i) k| ≤ 1 := fun i => mean_bounded g0 hb.2 (hmean i) (by show |(0 : ℝ)| ≤ 1; norm_num) fun k hk => hu k (by omega) i
    have hsmall : (16 / 10 ^ 15 + 1 / 10 ^ 15) / share f ≤ 1 / 10 ^ 7 := by
      rw [div_le_iff₀ g0]
      linarith [hb.1]
    have step : ∀ k < n, ∃ r : Fin 6 → ℝ, (∀ i, |y i k| ≤ 4 → |r i - (share f * u i k + (1 - share f) * y i k)| ≤ 16 / 10 ^ 15) ∧
        (Clear codeTranslation (linear r) (linear (sample y k)) (linear fun i => rate (y i) k) → ∀ i, |linear (sample y (k + 1)) i - linear r i| ≤ 1 / 10 ^ 15) ∧
        (Clear codeRotation (angular r) (angular (sample y k)) (angular fun i => rate (y i) k) → ∀ i, |angular (sample y (k + 1)) i - angular r i| ≤ 1 / 10 ^ 15) := by
      intro k hk
      have h := ih k hk (by omega)
      unfold smoothedTwistOf at h
      obtain ⟨x, h1, h2⟩ := P_bind_inv h
      have hx : ∃ r, x = Arr.rd r := by
        unfold limit_rate_cartesian_velocity at h2
        obtain ⟨_, h4, -⟩ := P_bind_inv h2
        exact rd_assertFinite_inv h4
      obtain ⟨r, rfl⟩ := hx
      obtain ⟨e1, e2⟩ := limiter_keeps h2
      refine ⟨r, fun i hv => ?_, e1, e2⟩
      have h3 : (if Fl.flt (Rd.fin f : Rd A) MAX_CUTOFF_FREQUENCY then
          (Arr.tabulateP fun i => low_pass_filter DELTA_T ((Arr.rd (sample u k) : Arr (Rd A) 6) i) ((Arr.rd (sample y k) : Arr (Rd A) 6) i) (Rd.fin f)) else pure (Arr.rd (sample u k))) =
          .ok (Arr.rd r) := by
        rw [rd_with_filter f1, if_pos rfl]
        exact h1
      exact (reaches_limiter (B := 4) (by norm_num) (by norm_num) (.inr ⟨rfl, f0, f1, rfl⟩) h3 i ((hu k (by omega) i).trans (by norm_num)) hv).trans (by norm_num)
    have hkey : ∀ k ≤ n, ∀ i, |y i k - lowPass f 0 (u i) k| ≤ 1 / 10 ^ 7 := by
      have p1 := cartesian_follows inner_translation (u := translation u) (x := translation fun i => lowPass f 0 (u i)) (y := translation y) (a := translation fun i => rate (y i)) (N := n)
        g0 hb.2 (by norm_num) (by norm_num) hsmall (fun i => by fin_cases i <;> exact (h0 _).symm) (fun i k hk => by fin_cases i <;> exact hmean _ k hk)
        (by
          have h := inside1.1
          rwa [show sample (translation fun i => Spec.starting 0 (u i)) 0 = sample (translation y) 0 by funext i; fin_cases i <;> exact (h0 _).symm] at h)
        (fun k hk => by
          have h := inside1.2 k (by omega)
          rwa [show (translation fun i => Spec.starting 0 (u i)) = fun i => Spec.starting (translation y i 0) (translation u i) by
            funext i n; cases n <;> fin_cases i <;> first | exact (h0 _).symm | rfl] at h)
        (fun i k hk => by
          have e : translation (fun i => rate (y i)) i k = rate (translation y i) k := by fin_cases i <;> rfl
          rw [e, sub_self, abs_zero]; norm_num)
        (fun k hk hv => by
          obtain ⟨r, h1, h2, -⟩ := step k hk
          refine ⟨linear r, fun i => ?_, fun hc => ?_⟩
          · have h4 := (hv i).trans (by norm_num : (3 : ℝ) ≤ 4)
            fin_cases i <;> exact h1 _ h4
          · exact h2 hc)
      have p2 := cartesian_follows inner_rotation (u := rotation u) (x := rotation fun i => lowPass f 0 (u i)) (y := rotation y) (a := rotation fun i => rate (y i)) (N := n)
        g0 hb.2 (by norm_num) (by norm_num) hsmall (fun i => by fin_cases i <;> exact (h0 _).symm) (fun i k hk => by fin_cases i <;> exact hmean _ k hk)
        (by
          have h := inside2.1
          rwa [show sample (rotation fun i => Spec.starting 0 (u i)) 0 = sample (rotation y) 0 by funext i; fin_cases i <;> exact (h0 _).symm] at h)
        (fun k hk => by
          have h := inside2.2 k (by omega)
          rwa [show (rotation fun i => Spec.starting 0 (u i)) = fun i => Spec.starting (rotation y i 0) (rotation u i) by
            funext i n; cases n <;> fin_cases i <;> first | exact (h0 _).symm | rfl] at h)
        (fun i k hk => by
          have e : rotation (fun i => rate (y i)) i k = rate (rotation y i) k := by fin_cases i <;> rfl
          rw [e, sub_self, abs_zero]; norm_num)
        (fun k hk hv => by
          obtain ⟨r, h1, -, h2⟩ := step k hk
          refine ⟨angular r, fun i => ?_, fun hc => ?_⟩
          · have h4 := (hv i).trans (by norm_num : (3 : ℝ) ≤ 4)
            fin_cases i <;> exact h1 _ h4
          · exact h2 hc)
      intro k hk i
      refine le_trans ?_ hsmall
      fin_cases i
      · exact p1 k hk 0
      · exact p1 k hk 1
      · exact p1 k hk 2
      · exact p2 k hk 0
      · exact p2 k hk 1
      · exact p2 k hk 2
    have hyb : ∀ k ≤ n, ∀ i, |y i k| ≤ 1.1 := fun k hk i => by
      have := abs_le_of_close (hkey k hk i) (hxb i k hk)
      norm_num1 at this ⊢
      linarith
    have hrb : ∀ i, |rate (y i) n| ≤ 10 ^ 6 := by
      intro i
      cases n with
      | zero => simp only [rate]; norm_num
      | succ n =>
        have k1 := abs_le.1 (hyb (n + 1) le_rfl i)
        have k2 := abs_le.1 (hyb n (by omega) i)
        rw [rate, abs_div, abs_of_pos (by norm_num : (0 : ℝ) < 0.001), div_le_iff₀ (by norm_num), abs_le]
        norm_num1 at k1 k2 ⊢
        constructor <;> linarith [k1.1, k1.2, k2.1, k2.2]
    have hlen : ∀ {x : Fin 3 → ℝ}, (∀ i, |x i| ≤ 1.1) → len x ≤ 1.98 := by
      intro x hx
      refine Real.sqrt_le_iff.2 ⟨by norm_num, ?_⟩
      have := fun i => sq_le_sq' (abs_le.1 (hx i)).1 (abs_le.1 (hx i)).2
      have k0 := this 0
      have k1 := this 1
      have k2 := this 2
      norm_num1 at k0 k1 k2 ⊢
      linarith
    obtain ⟨r, r1, -⟩ := low_passes (A := A) f0 f1 (u := sample u n) (v := sample y n) (fun i => (hu n hn i).trans (by norm_num)) fun i => (hyb n le_rfl i).trans (by norm_num)
    obtain ⟨z, hz, -⟩ := C101_limiter (A := A) r (v := sample y n) (a := fun i => rate (y i) n)
      ((hlen fun i => by fin_cases i <;> exact hyb n le_rfl _).trans (by norm_num)) ((hlen fun i => by fin_cases i <;> exact hyb n le_rfl _).trans (by norm_num)) hrb
    refine hno z ?_
    unfold smoothedTwistOf
    rw [r1, P_bind_ok_eq]
    exact hz

/-- What is known of the example while it is carried out: the captured time and the velocities in the last two states. -/
structure Sinking (A : Rounding) where
  captured : Rd A
  now : Fin 6 → ℝ
  before : Fin 6 → ℝ

namespace Sinking

noncomputable def acc (x : Sinking A) : Fin 6 → ℝ := fun i => (x.now i - x.before i) / 0.001

/-- The `n`-th state. -/
noncomputable def state (n : ℕ) (x : Sinking A) : RobotStateIntern (Rd A) :=
  cartesianState (UInt64.ofNat (n + 3)) (fun _ => lit 0) (Arr.rd x.now) (Arr.rd x.acc) (fun _ => lit 0) (fun _ => lit 0) (fun _ => lit 0) .CartesianVelocity .JointImpedance .Move

/-- The `n`-th call of the callback. -/
noncomputable def answer (n : ℕ) (x : Sinking A) : Rd A × CartesianVelocities (Rd A) :=
  Examples.cartesian_velocity_callback x.captured (RobotState.ofIntern (x.state n)) (periodOf n)

open Classical in
/-- The velocity afterwards. -/
noncomputable def moved (f : ℝ) (n : ℕ) (x : Sinking A) : Fin 6 → ℝ :=
  if h : ∃ z u, (x.answer n).2.O_dP_EE = Arr.rd u ∧ smoothedTwistOf A f u x.now x.acc = .ok (Arr.rd z) then h.choose else 0

/-- The motion. -/
noncomputable def run (f : ℝ) : ℕ → Sinking A
  | 0 => ⟨lit 0, fun _ => 0, fun _ => 0⟩
  | n + 1 => ⟨((run f n).answer n).1, (run f n).moved f n, (run f n).now⟩

variable {f : ℝ}

/-- The velocity in the `n`-th state. -/
noncomputable def pace (A : Rounding) (f : ℝ) (i : Fin 6) (n : ℕ) : ℝ := (run (A := A) f n).now i

theorem acc_eq (n : ℕ) : (run (A := A) f n).acc = fun i => rate (pace A f i) n := by
  funext i
  cases n with
  | zero => show ((0 : ℝ) - 0) / 0.001 = 0; norm_num
  | succ n => rfl

theorem moved_eq {n : ℕ} {x : Sinking A} {u : Fin 6 → ℝ} (hu : (x.answer n).2.O_dP_EE = Arr.rd u) :
    smoothedTwistOf A f u x.now x.acc = .ok (Arr.rd (x.moved f n)) ∨ ∀ z, smoothedTwistOf A f u x.now x.acc ≠ .ok (Arr.rd z) := by
  unfold moved
  by_cases h : ∃ z u, (x.answer n).2.O_dP_EE = Arr.rd u ∧ smoothedTwistOf A f u x.now x.acc = .ok (Arr.rd z)
  · rw [dif_pos h]
    refine .inl ?_
    obtain ⟨u', h1, h2⟩ := h.choose_spec
    rwa [← rd_arr_inj (hu.symm.trans h1)] at h2
  · exact .inr fun z hz => h ⟨z, u, hu, hz⟩

end Sinking
open Sinking RoundedTwist
open RoundedVelocity (TimeAt)
open CartesianVelocityExample (target)

/-- Velocities that pass the low pass and the limiters are converted. -/
theorem smoothed_twist_converts {out : CartesianVelocities (Rd A)} {f : ℝ} {u v a z : Fin 6 → ℝ} {st : RobotState (Rd A)} {m m' : MotionGeneratorCommand (Rd A)} {cutoff : Rd A}
    (hf : cutoff = Rd.fin f) (f1 : f ≤ 999) (ho : out.O_dP_EE = Arr.rd u) (he : out.elbow = none) (hst : st.O_dP_EE_c = Arr.rd v ∧ st.O_ddP_EE_c = Arr.rd a)
    (h : smoothedTwistOf A f u v a = .ok (Arr.rd z)) (hm : { m with O_dP_EE_c := Arr.rd z, valid_elbow := false, elbow_c := fun _ => lit 0 } = m') :
    CartesianVelocities.convert_motion out st m cutoff true = .ok m' := by
  have e : flt (Rd.fin f : Rd A) MAX_CUTOFF_FREQUENCY = true := rd_with_filter f1
  unfold CartesianVelocities.convert_motion
  subst hf
  simp only [e, if_true]
  rw [ho, hst.1, hst.2, he]
  unfold smoothedTwistOf at h
  obtain ⟨r, r1, r2⟩ := P_bind_inv h
  show ((Arr.tabulateP fun i => low_pass_filter DELTA_T ((Arr.rd u : Arr (Rd A) 6) i) ((Arr.rd v : Arr (Rd A) 6) i) (Rd.fin f)) >>= fun x =>
    limit_rate_cartesian_velocity MAX_TRANSLATIONAL_VELOCITY MAX_TRANSLATIONAL_ACCELERATION MAX_TRANSLATIONAL_JERK MAX_ROTATIONAL_VELOCITY MAX_ROTATIONAL_ACCELERATION
      MAX_ROTATIONAL_JERK x (Arr.rd v) (Arr.rd a) >>= fun y => assertFinite y >>= fun _ => convert_elbow none st { m with O_dP_EE_c := y } (Rd.fin f) true) = _
  rw [r1, P_bind_ok_eq, r2, P_bind_ok_eq, rd_assertFinite, P_bind_ok_eq, ← hm]
  rfl

/-- The arrays of the first states can be given bit patterns. -/
theorem wire_for_twists (v a : ℕ → Arr (Rd A) 6) {N : ℕ} (hN : N ≤ 1000000000) : ∃ _ : Wire (Rd A), Wire.ofBits (Wire.toBits (lit 0 : Rd A)) = (lit 0 : Rd A) ∧
    ∀ n ≤ N, Kept (v n) ∧ Kept (a n) := by
  obtain ⟨wire, k0, kp⟩ := wire_for_arrays (F := Rd A) (fun n => ![fun i => if h : i.val < 6 then v n ⟨i, h⟩ else lit 0, fun i => if h : i.val < 6 then a n ⟨i, h⟩ else lit 0, fun _ => lit 0]) hN
  refine ⟨wire, k0, fun n hn => ⟨fun i => ?_, fun i => ?_⟩⟩
  · have := kp n hn 0 ⟨i, by omega⟩
    simpa using this
  · have := kp n hn 1 ⟨i, by omega⟩
    simpa using this

/-- The robot reports these desired velocities, and the accelerations that follow. -/
def TwistReported (v : Fin 6 → ℕ → ℝ) (n : ℕ) (st : RobotState (Rd A)) : Prop := st.O_dP_EE_c = Arr.rd (sample v n) ∧ st.O_ddP_EE_c = Arr.rd fun i => rate (v i) n

/-- The commands with which it comes to these velocities. -/
noncomputable def twistCommands (v : Fin 6 → ℕ → ℝ) (n : ℕ) : MotionGeneratorCommand (Rd A) := { noMotion with O_dP_EE_c := Arr.rd (sample v (n + 1)) }

/-- The state in which it reports them. -/
noncomputable def reportTwist (M : ℕ) (v : Fin 6 → ℕ → ℝ) (n : ℕ) : RobotStateIntern (Rd A) :=
  cartesianState (UInt64.ofNat (M + 2 + n)) (fun _ => lit 0) (Arr.rd (sample v n)) (Arr.rd fun i => rate (v i) n) (fun _ => lit 0) (fun _ => lit 0) (fun _ => lit 0) .CartesianVelocity
    .JointImpedance .Move

/-- Such a robot follows. -/
theorem twist_reports_follow {v : Fin 6 → ℕ → ℝ} (h0 : ∀ i, v i 0 = 0) {M N : ℕ} (hN : M + N ≤ 2 ^ 40) {o : ℕ → Motion (Rd A) .CartesianVelocities}
    {s : ℕ → RobotStateIntern (Rd A)} (hs : s = reportTwist M v) :
    FollowsTwistsRounded v ((List.range (N + 1)).map fun j => (RobotState.ofIntern (s j), (⟨(s j).message_id, sentCmd o (twistCommands v) j, noTorques⟩ : RobotCommand (Rd A)))) := by
  have hget : ∀ n st x, ((List.range (N + 1)).map fun j => (RobotState.ofIntern (s j), (⟨(s j).message_id, sentCmd o (twistCommands v) j, noTorques⟩ : RobotCommand (Rd A))))[n]? = some (st, x) →
      n ≤ N ∧ st = RobotState.ofIntern (reportTwist M v n) ∧ x.motion.O_dP_EE_c = Arr.rd (sample v (n + 1)) := by
    intro n st x h
    rw [List.getElem?_map] at h
    obtain ⟨j, hj, e⟩ := Option.map_eq_some_iff.1 h
    obtain ⟨hn, hj⟩ := List.getElem?_eq_some_iff.1 hj
    rw [List.getElem_range] at hj
    rw [List.length_range] at hn
    subst hj
    simp only [Prod.mk.injEq] at e
    refine ⟨by omega, by rw [← e.1, hs], ?_⟩
    rw [← e.2]
    show (sentCmd o (twistCommands v) n).O_dP_EE_c = _
    unfold sentCmd
    split <;> rfl
  refine ⟨h0, fun n st x h => ?_, fun n st x h => ?_, fun n st x st' x' h h' => ?_⟩
  · rw [(hget n st x h).2.1]
    rfl
  · refine ⟨_, by rw [(hget n st x h).2.1]; rfl, fun i => ?_⟩
    rw [sub_self, abs_zero]
    norm_num
  · obtain ⟨e0, e1, e2⟩ := hget n st x h
    obtain ⟨e3, e4, -⟩ := hget (n + 1) st' x' h'
    rw [e1, e4, e2]
    refine ⟨rfl, ?_⟩
    show (UInt64.ofNat (M + 2 + (n + 1))).toNat = (UInt64.ofNat (M + 2 + n)).toNat + 1
    rw [UInt64.toNat_ofNat', UInt64.toNat_ofNat', Nat.mod_eq_of_lt (by omega), Nat.mod_eq_of_lt (by omega)]
    rfl

set_option maxHeartbeats 1000000 in
/-- The plan of the Cartesian velocity example. -/
theorem twist_plan_rounded [Geo (Rd A)] (hA : KeepsIntegers A) :
    ∃ (cs : ℕ → Rd A) (o : ℕ → Motion (Rd A) .CartesianVelocities) (v : Fin 6 → ℕ → ℝ) (N : ℕ), N ≤ 8001 ∧ (∀ i, v i 0 = 0) ∧
      (∀ n < N, (o n).is_finished = false) ∧ (o N).is_finished = true ∧
      IsPlanOf (call (A := A)) (lit 0) cs o (twistCommands v) (fun n st => n ≤ N ∧ TwistReported v n st) := by
  obtain ⟨f, hf1, hf2, -⟩ := cutoff_near (A := A)
  obtain ⟨f1, f2⟩ := abs_le.1 hf2
  have f0 : 0.1 ≤ f := by norm_num1 at f1 ⊢; linarith
  have f9 : f ≤ 999 := by norm_num1 at f2; linarith
  have hgo : ∀ n, TimeAt 4 n (run (A := A) f n).captured ∧ TwistAt n ((run (A := A) f n).answer n).2 := by
    intro n
    induction n with
    | zero => exact ⟨rfl, (goes hA 0 _ _ rfl).2⟩
    | succ n ih =>
      have h1 := (goes hA n _ (RobotState.ofIntern ((run (A := A) f n).state n)) ih.1).1
      exact ⟨h1, (goes hA (n + 1) _ _ h1).2⟩
  -- the last command
  have hex : ((run (A := A) f 8001).answer 8001).2.motion_finished = true := ((hgo 8001).2 le_rfl).2.2.1 (by omega)
  obtain ⟨N, hN, hNmin, hN9⟩ : ∃ N, ((run (A := A) f N).answer N).2.motion_finished = true ∧
      (∀ n < N, ((run (A := A) f n).answer n).2.motion_finished = false) ∧ N ≤ 8001 := by
    classical
    have hex' : ∃ n, ((run (A := A) f n).answer n).2.motion_finished = true := ⟨_, hex⟩
    exact ⟨Nat.find hex', Nat.find_spec hex', fun n hn => by simpa using Nat.find_min hex' hn, Nat.find_min' hex' hex⟩
  have hu : ∀ n : ℕ, ∃ u : Fin 6 → ℝ, n ≤ N → ((run (A := A) f n).answer n).2.O_dP_EE = Arr.rd u ∧ ∀ i, |u i - target i n| ≤ 6 / 10 ^ 9 := by
    intro n
    by_cases hn : n ≤ N
    · choose u u1 u2 using ((hgo n).2 (by omega)).1
      exact ⟨u, fun _ => ⟨funext u1, u2⟩⟩
    · exact ⟨0, fun h => absurd h hn⟩
  choose u hu using hu
  have hin := inside (N := N + 1) (u := u) fun n hn => (hu n (by omega)).2
  have hgoes : ∀ n < N + 1, smoothedTwistOf A f (u n) (sample (pace A f) n) (fun i => rate (pace A f i) n) = .ok (Arr.rd (sample (pace A f) (n + 1))) := by
    refine smoothed_twist_goes f0 f9 (u := fun i n => u n i) (y := pace A f) (fun i => rfl) (fun n hn i => ?_) hin.1 hin.2 fun n hn => ?_
    · have := abs_le_of_close ((hu n (by omega)).2 i) (target_abs i n)
      norm_num1 at this
      linarith
    · have := moved_eq (f := f) (n := n) (x := run f n) (hu n (by omega)).1
      rw [acc_eq] at this
      exact this
  refine ⟨fun n => (run (A := A) f n).captured, fun n => ((run (A := A) f n).answer n).2, pace A f, N, hN9, fun _ => rfl, hNmin, hN, rfl, rfl, fun n st hst => rfl, fun n st hst => ?_⟩
  obtain ⟨hn, r1, r2⟩ := hst
  show CartesianVelocities.convert_motion ((run (A := A) f n).answer n).2 st _ _ true = _
  exact smoothed_twist_converts (z := sample (pace A f) (n + 1)) hf1 f9 (hu n hn).1 ((hgo n).2 (by omega)).2.2.2 ⟨r1, r2⟩ (hgoes n (by omega)) (by cases n <;> rfl)

/-- **C110**, without hypotheses on the robot: there is a robot that follows, and then the call of the Cartesian velocity example returns Ok. -/
theorem C110_cartesian_velocity_example_happens [Geo (Rd A)] (hA : KeepsIntegers A) :
    ∃ (_ : Wire (Rd A)) (w : World (Rd A)), RobotReachable w ∧ ((roundedTwistExample A).run w).1 = .ok () ∧ 0 < answered w (roundedTwistExample A) ∧
      ∃ v, FollowsTwistsRounded v (exchanges (newEvents w ((roundedTwistExample A).run w).2)) := by
  obtain ⟨cs, o, v, N, hN9, h0, hNmin, hN, hplan⟩ := twist_plan_rounded (A := A) hA
  obtain ⟨s, hs⟩ : ∃ s : ℕ → RobotStateIntern (Rd A), s = reportTwist 1 v := ⟨_, rfl⟩
  obtain ⟨wire, k0, kp⟩ := wire_for_twists (A := A) (fun n => (s n).O_dP_EE_c) (fun n => (s n).O_ddP_EE_c) (show N ≤ 1000000000 by omega)
  have kz : ∀ m, Kept (fun _ => lit 0 : Arr (Rd A) m) := fun _ _ => k0
  have hrobot : RobotFor (call (A := A)) (fun n st => n ≤ N ∧ TwistReported v n st) N
      (plainState (F := Rd A) 2 (fun _ => lit 0) (fun _ => lit 0) (fun _ => lit 0) .CartesianVelocity .JointImpedance .Move) s
      (plainState (F := Rd A) (UInt64.ofNat (N + 4)) (fun _ => lit 0) (fun _ => lit 0) (fun _ => lit 0) .Idle .Other .Idle) := by
    refine ⟨by omega, rfl, ⟨rfl, rfl⟩, fun n _ => ?_, fun n _ => by rw [hs]; exact ⟨rfl, rfl, rfl⟩, fun n hn => ⟨hn, by rw [hs]; exact ⟨rfl, rfl⟩⟩, rfl, ?_,
      plainState_holds k0 (kz 7) (kz 7) (kz 7), fun n hn => ?_, plainState_holds k0 (kz 7) (kz 7) (kz 7)⟩
    · rw [hs]
      show UInt64.ofNat (1 + 2 + n) = _
      rw [Nat.add_comm]
    · rintro (h | h) <;> first | exact h rfl | cases h
    · obtain ⟨h1, h2⟩ := kp n hn
      rw [hs] at h1 h2 ⊢
      exact cartesianState_holds k0 (kz 16) h1 h2 (kz 2) (kz 2) (kz 2)
  obtain ⟨w, g1, g2, g3⟩ := hplan.happens hrobot hNmin hN (isControl (A := A))
  refine ⟨wire, w, g1, g2, ?_, v, ?_⟩
  · unfold answered
    rw [g3]
    simp
  · rw [g3]
    exact twist_reports_follow h0 (by omega) hs

/-- For example the program with the rounding of `f64`. -/
example [Geo (Rd binary64)] : ∃ (_ : Wire (Rd binary64)) (w : World (Rd binary64)), RobotReachable w ∧ ((roundedTwistExample binary64).run w).1 = .ok () ∧
    0 < answered w (roundedTwistExample binary64) ∧ ∃ v, FollowsTwistsRounded v (exchanges (newEvents w ((roundedTwistExample binary64).run w).2)) :=
  C110_cartesian_velocity_example_happens binary64_integers

end Verif
