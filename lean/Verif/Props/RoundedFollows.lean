import Verif.Lemmas.RoundedCalls
import Verif.Props.RoundedTransparent
import Verif.Props.RoundedCartesian
import Verif.Spec.RoundedFollow
/-!
# Joint motions are carried out in spite of rounding: C106
-/
set_option linter.unusedSectionVars false
namespace Verif
open Prog Spec Fl

variable {A : Rounding}

theorem rate_congr {f g : ℕ → ℝ} {n : ℕ} (h : ∀ k ≤ n, f k = g k) : rate f n = rate g n := by
  cases n with
  | zero => rfl
  | succ n =>
    show (f (n + 1) - f n) / 0.001 = (g (n + 1) - g n) / 0.001
    rw [h (n + 1) le_rfl, h n (by omega)]

theorem rd_arr_inj {n : ℕ} {x y : Fin n → ℝ} (h : (Arr.rd x : Arr (Rd A) n) = Arr.rd y) : x = y := funext fun i => Rd.fin_inj (congrFun h i)

theorem rd_positions_finite {out : JointPositions (Rd A)} {st : RobotState (Rd A)} {m m' : MotionGeneratorCommand (Rd A)} {cutoff : Rd A}
    (h : JointPositions.convert_motion out st m cutoff true = .ok m') : ∃ z, m'.q_c = Arr.rd z := by
  have h : ((if Fl.flt cutoff MAX_CUTOFF_FREQUENCY then Arr.tabulateP fun i => low_pass_filter DELTA_T (out.q i) (st.q_d i) cutoff else pure out.q) >>= fun x =>
      limit_rate_joint_positions MAX_JOINT_VELOCITY MAX_JOINT_ACCELERATION MAX_JOINT_JERK x st.q_d st.dq_d st.ddq_d >>= fun y =>
      assertFinite y >>= fun _ => (pure { m with q_c := y } : P (MotionGeneratorCommand (Rd A)))) = .ok m' := by
    rw [← h]
    unfold JointPositions.convert_motion
    split <;> rfl
  obtain ⟨x, h1, h⟩ := P_bind_inv h
  obtain ⟨y, h2, h⟩ := P_bind_inv h
  obtain ⟨_, h3, h⟩ := P_bind_inv h
  have h9 : { m with q_c := y } = m' := by injection h
  obtain ⟨z, rfl⟩ := rd_assertFinite_inv h3
  exact ⟨z, by rw [← h9]⟩

/-- A motion that is not too short takes some time. -/
theorem plan_long {sf L : ℝ} {start goal T : Fin 7 → ℝ} {path : Fin 7 → ℝ → ℝ} (hsf : 0 < sf) (hsf1 : sf ≤ 0.98)
    (hp : ∀ i, JointPlan (start i) (goal i) (sf * jointSpeed i) (sf * jointAcceleration) L (T i) (path i)) (hg : Gentle sf start goal) (i : Fin 7) :
    sf ≤ 0.37 ∨ T i = 0 ∨ 0.014 ≤ T i := by
  rcases hg with hg | ⟨j, hj⟩
  · exact .inl hg
  · have hV : 0 < sf * jointSpeed j := mul_pos hsf (by have := (jointSpeed_range j).1; linarith)
    have ha : 0 < sf * jointAcceleration := mul_pos hsf (by unfold jointAcceleration; norm_num)
    have hD : 0 < |goal j - start j| := lt_of_lt_of_le (by norm_num) hj
    have h1 := ((hp j).least (lt_of_lt_of_le (by norm_num) hj)).2
    rw [← leastTime_profile hV ha hD] at h1
    have h2 := leastTime_ge hV ha hD
    have h0 := leastTime_pos hV ha hD
    generalize leastTime (sf * jointSpeed j) (sf * jointAcceleration) (|goal j - start j|) = τ at *
    rw [div_le_iff₀ ha] at h2
    unfold jointAcceleration at h2
    have h3 : 0.0155 ≤ τ := by
      by_contra hc
      have h4 : τ ^ 2 < 0.0155 ^ 2 := pow_lt_pow_left₀ (not_le.1 hc) h0.le (by norm_num)
      have h5 : τ ^ 2 * (sf * 5) ≤ 0.0155 ^ 2 * (0.98 * 5) := by gcongr
      norm_num at *
      linarith
    rcases (hp i).time with h | h
    · exact .inr (.inl h)
    · refine .inr (.inr ?_)
      have := (abs_le.1 h).1
      norm_num at *
      linarith

section
variable [Wire (Rd A)] [Geo (Rd A)]

set_option maxHeartbeats 1000000 in
/-- **C106.** `joint_motion` with a speed factor `sf` between 1 % and 98 %, from a start to a goal within 4 rad, computed with rounded numbers from the planning of the motion to
the rate limiting of the commands: if the robot follows the commands, then there is a path for each joint, a smooth move from its start to its goal with the limits of the joint
scaled by `sf` up to 0.1 %, and all joints that move take the same time `L` up to 0.1 %, which is the time the slowest of them needs. The `n`-th command has the positions on the
paths after `n` ms, up to 5·10⁻⁹ rad. A command that is flagged as the last one is the last one, and is sent when the paths are over, up to 2·10⁻⁷ s; then each joint that had to
move is within 10⁻⁸ rad of its goal and every other within 1.1·10⁻⁶ rad. A command for a time after the end of the paths is flagged. If the call returns Ok, then the last
command was flagged. -/
theorem C106_joint_motion (hz : A.rnd 0 = 0) {sf : ℝ} (s1 : 1 / 100 ≤ sf) (s2 : sf ≤ 0.98) (goal start : Fin 7 → ℝ) (hgoal : ∀ i, |goal i| ≤ 4)
    (hstart : ∀ i, |start i| ≤ 4) (hg : Gentle sf start goal) {w : World (Rd A)} (hw : RobotReachable w) {q : Fin 7 → ℕ → ℝ}
    (hf : FollowsRounded start q (exchanges (newEvents w ((RobotCall.joint_motion (Rd.fin sf) (Arr.rd goal)).run w).2))) :
    ∃ (L : ℝ) (T : Fin 7 → ℝ) (path : Fin 7 → ℝ → ℝ), 0 ≤ L ∧ sf * L ≤ 5 ∧
      (L = 0 ∨ ∃ j, |L - profileTime (sf * jointSpeed j) (sf * jointAcceleration) (|goal j - start j|)| ≤ L / 1000) ∧
      (∀ i, JointPlan (start i) (goal i) (sf * jointSpeed i) (sf * jointAcceleration) L (T i) (path i)) ∧
      ∀ n st x, Exchange w (.joint_motion (Rd.fin sf) (Arr.rd goal)) n st x →
        (∃ y : Fin 7 → ℝ, x.motion.q_c = Arr.rd y ∧ (∀ i, |y i - path i ((n : ℝ) / 1000)| ≤ 5 / 10 ^ 9) ∧
          (x.motion.motion_generation_finished = true → ∀ i, |y i - goal i| ≤ 11 / 10 ^ 7 ∧ (1001 / 10 ^ 9 < |goal i - start i| → |y i - goal i| ≤ 1 / 10 ^ 8))) ∧
        (x.motion.motion_generation_finished = true → n + 1 = answered w (.joint_motion (Rd.fin sf) (Arr.rd goal)) ∧ ∀ i, T i ≤ (n : ℝ) / 1000 + 2 / 10 ^ 7) ∧
        ((∀ i, T i + 2 / 10 ^ 7 ≤ (n : ℝ) / 1000) → x.motion.motion_generation_finished = true) ∧
        (((RobotCall.joint_motion (Rd.fin sf) (Arr.rd goal)).run w).1 = .ok () → n + 1 = answered w (.joint_motion (Rd.fin sf) (Arr.rd goal)) →
          x.motion.motion_generation_finished = true) := by
  have hsf : 0 < sf := by linarith
  have hctl := IsControl.jointMotion (F := Rd A) (Rd.fin sf) (Arr.rd goal)
  generalize RobotCall.joint_motion (Rd.fin sf : Rd A) (Arr.rd goal) = c at hf hctl ⊢
  have huniq : ∀ {n : ℕ} {st st' : RobotState (Rd A)} {x x'}, Exchange w c n st x → Exchange w c n st' x' → st = st' ∧ x = x' := fun h h' => by
    unfold Exchange at h h'
    rw [h] at h'
    injection h' with h'
    injection h' with h1 h2
    exact ⟨h1, h2⟩
  have hlt : ∀ {n : ℕ} {st : RobotState (Rd A)} {x}, Exchange w c n st x → n < answered w c := fun h => (List.getElem?_eq_some_iff.1 h).1
  -- the first state
  obtain ⟨s0, hs0, hs0'⟩ : ∃ s0 : RobotState (Rd A), s0.q_d = Arr.rd start ∧ ∀ st x, Exchange w c 0 st x → st = s0 := by
    by_cases h : 0 < answered w c
    · obtain ⟨st, x, hx⟩ := exchange_exists h
      refine ⟨st, ?_, fun st' x' hx' => (huniq hx' hx).1⟩
      rw [hf.position 0 st x hx]
      congr 1
      exact funext hf.first
    · exact ⟨{ RobotState.ofIntern (RobotStateIntern.dummy (Rd A)) with q_d := Arr.rd start }, rfl, fun st x hx => absurd (hlt hx) h⟩
  obtain ⟨L, T, tf, path, hL, hL5, hLj, hp, htf, hsh, hgen⟩ := rd_first_shape hz s1 (by norm_num at s2; linarith) goal start hgoal hstart s0 hs0
  -- the answers of the generator
  have key := calls_called (F := Rd A) (k := .JointPositions) (I := GeneratorAt (MotionGenerator.new (Rd.fin sf) (Arr.rd goal)) ((MotionGenerator.new (Rd.fin sf) (Arr.rd goal)).generate_motion s0 0).1)
    (O := AnswerAt tf path) (R := fun n st => n = 0 → st = s0) rfl rfl (generator_goes hz hgen) hw hctl (fun n st x hx h => by subst h; exact hs0' st x hx)
    (fun n st x st' x' hx hx' => (hf.next n st x st' x' hx hx').2)
  have hTL : ∀ i, 0 ≤ T i ∧ T i ≤ 1001 / 1000 * L := fun i => by
    rcases (hp i).time with h | h
    · rw [h]; exact ⟨le_rfl, by positivity⟩
    · have := abs_le.1 h
      constructor <;> linarith
  have unfinished : ∀ (j : ℕ) (out : JointPositions (Rd A)), j ≤ 600000 → AnswerAt tf path j out → out.motion_finished = false → sf * ((j : ℝ) / 1000) ≤ 5.007 := by
    intro j out hj ho hfin
    obtain ⟨x, x1, -, x3⟩ := ho hj
    have : ¬ ∀ i, tf i ≤ x := fun h => by rw [x3.2 h] at hfin; cases hfin
    push Not at this
    obtain ⟨i, hi⟩ := this
    have h1 := (abs_le.1 (htf i)).2
    have h2 := (hTL i).2
    have h3 := (abs_le.1 x1).1
    have hj0 : (0 : ℝ) ≤ j := Nat.cast_nonneg j
    have h4 : (j : ℝ) / 1000 ≤ 1.0011 * L + 2 / 10 ^ 12 := by norm_num at *; linarith
    have h5 := mul_le_mul_of_nonneg_left h4 hsf.le
    norm_num at *
    linarith
  have early : ∀ n st x, Exchange w c n st x → n ≤ 600000 ∧ sf * ((n : ℝ) / 1000) ≤ 5.01 ∧ (n : ℝ) / 1000 ≤ 501 := by
    intro n st x hx
    obtain ⟨out, -, -, -, -, hbefore, -⟩ := key n st x hx
    have hn : n ≤ 600000 := by
      by_contra hn
      obtain ⟨out', -, o1, o2⟩ := hbefore 600000 (by omega)
      have := unfinished 600000 out' le_rfl o1 o2
      norm_num at *
      linarith
    have h2 : sf * ((n : ℝ) / 1000) ≤ 5.01 := by
      cases n with
      | zero => norm_num
      | succ m =>
        obtain ⟨out', -, o1, o2⟩ := hbefore m (by omega)
        have := unfinished m out' (by omega) o1 o2
        push_cast
        norm_num at *
        linarith
    refine ⟨hn, h2, ?_⟩
    have hn0 : (0 : ℝ) ≤ n := Nat.cast_nonneg n
    nlinarith
  have hlip : ∀ i s t, |path i t - path i s| ≤ 2503 / 1000 * sf * |t - s| := fun i s t => by
    obtain ⟨a, b, -, -, -, hm⟩ := (hp i).path
    refine ((C53_move hm).2.2.2.2 s t).trans (mul_le_mul_of_nonneg_right ?_ (abs_nonneg _))
    have := mul_le_mul_of_nonneg_left (jointSpeed_range i).2 hsf.le
    linarith
  have honpath : ∀ i t, |path i t| ≤ 5 := fun i t => by
    obtain ⟨a, b, h1, h2, -, hm⟩ := (hp i).path
    have h3 := (C53_move hm).2.2.2.1 t
    have ha := abs_le_of_close h1 (hstart i)
    have hb := abs_le_of_close h2 (hgoal i)
    rw [abs_le] at ha hb ⊢
    rcases Set.mem_uIcc.1 h3 with h | h <;> constructor <;> linarith
  -- what the callback returns
  have hu : ∀ n : ℕ, ∃ u : Fin 7 → ℝ, n < answered w c → (∀ out, (motionOutputs .JointPositions (newEvents w (c.run w).2))[n]? = some out → JointPositions.q out = Arr.rd u) ∧
      ∀ i, |u i - path i ((n : ℝ) / 1000)| ≤ 47 / 10 ^ 10 := by
    intro n
    by_cases hn : n < answered w c
    · obtain ⟨st, x, hx⟩ := exchange_exists hn
      obtain ⟨e1, e2, e3⟩ := early n st x hx
      obtain ⟨out, o1, o2, -⟩ := key n st x hx
      obtain ⟨τ, t1, t2, -⟩ := o2 e1
      choose u u1 u2 using t2
      refine ⟨u, fun _ => ⟨fun out' ho => ?_, fun i => ?_⟩⟩
      · rw [o1] at ho
        cases ho
        exact funext u1
      · have h1 := abs_sub_le (u i) (path i τ) (path i ((n : ℝ) / 1000))
        have h2 := hlip i ((n : ℝ) / 1000) τ
        have h3 : 2503 / 1000 * sf * |τ - (n : ℝ) / 1000| ≤ 2503 / 1000 * sf * (2 / 10 ^ 13 * n) := by gcongr
        have h4 : 2503 / 1000 * sf * (2 / 10 ^ 13 * n) = 2503 / 1000 * (2 / 10 ^ 10) * (sf * ((n : ℝ) / 1000)) := by ring
        have h5 := u2 i
        norm_num at *
        linarith
    · exact ⟨0, fun h => absurd h hn⟩
  choose u' hu' using hu
  -- the commands
  have hz' : ∀ n : ℕ, ∃ z : Fin 7 → ℝ, ∀ st x, Exchange w c n st x → x.motion.q_c = Arr.rd z := by
    intro n
    by_cases hn : n < answered w c
    · obtain ⟨st, x, hx⟩ := exchange_exists hn
      obtain ⟨out, -, -, ⟨m, m', h1, h2⟩, -⟩ := key n st x hx
      obtain ⟨z, h3⟩ := rd_positions_finite h1
      refine ⟨z, fun st' x' hx' => ?_⟩
      rw [← (huniq hx hx').2, h2]
      split <;> exact h3
    · exact ⟨0, fun st x hx => absurd (hlt hx) hn⟩
  choose z hz1 using hz'
  obtain ⟨p, hp'⟩ : ∃ p : Fin 7 → ℕ → ℝ, p = fun i => Spec.starting (start i) fun n => z n i := ⟨_, rfl⟩
  have hp0 : ∀ i, p i 0 = start i := fun i => by rw [hp']; rfl
  have hps : ∀ i n, p i (n + 1) = z n i := fun i n => by rw [hp']; rfl
  have hpq : ∀ i, ∀ n < answered w c, q i n = p i n := by
    intro i n hn
    cases n with
    | zero => rw [hf.first, hp0]
    | succ n =>
      obtain ⟨st', x', hx'⟩ := exchange_exists hn
      obtain ⟨st, x, hx⟩ := exchange_exists (show n < answered w c by omega)
      have h1 := (hf.next n st x st' x' hx hx').1
      rw [hf.position _ _ _ hx', hz1 n st x hx] at h1
      rw [hps]
      exact congrFun (rd_arr_inj h1) i
  have hv : ∀ n : ℕ, ∃ v : Fin 7 → ℝ, ∀ st x, Exchange w c n st x → st.dq_d = Arr.rd v ∧ ∀ i, |v i - rate (p i) n| ≤ 1 / 10 ^ 10 := by
    intro n
    by_cases hn : n < answered w c
    · obtain ⟨st, x, hx⟩ := exchange_exists hn
      obtain ⟨v, h1, h2⟩ := hf.velocity n st x hx
      refine ⟨v, fun st' x' hx' => ⟨(huniq hx hx').1 ▸ h1, fun i => ?_⟩⟩
      rw [← rate_congr fun k hk => hpq i k (by omega)]
      exact h2 i
    · exact ⟨0, fun st x hx => absurd (hlt hx) hn⟩
  choose v hv using hv
  have ha : ∀ n : ℕ, ∃ a : Fin 7 → ℝ, ∀ st x, Exchange w c n st x → st.ddq_d = Arr.rd a ∧ ∀ i, |a i - rate (rate (p i)) n| ≤ 1 / 10 ^ 7 := by
    intro n
    by_cases hn : n < answered w c
    · obtain ⟨st, x, hx⟩ := exchange_exists hn
      obtain ⟨a, h1, h2⟩ := hf.acceleration n st x hx
      refine ⟨a, fun st' x' hx' => ⟨(huniq hx hx').1 ▸ h1, fun i => ?_⟩⟩
      rw [← rate_congr fun k hk => rate_congr fun k' hk' => hpq i k' (by omega)]
      exact h2 i
    · exact ⟨0, fun st x hx => absurd (hlt hx) hn⟩
  choose a ha using ha
  have follow : ∀ i, ∀ n < answered w c, |z n i - u' n i| ≤ 1 / 10 ^ 13 := by
    intro i n hn
    have := rd_positions_follow hw hctl rfl (f := 0) (.inl ⟨rd_no_filter, rfl⟩) (fun i n => u' n i) p (fun i n => v n i) (fun i n => a n i)
      (fun i => Spec.starting (p i 0) fun n => u' n i)
      (fun i => ⟨by rw [hp0]; linarith [hstart i], fun n hn => by
        have := abs_le_of_close ((hu' n hn).2 i) (honpath i _)
        linarith⟩)
      (fun n hn out ho => (hu' n hn).1 out ho)
      (fun n st x hx => ⟨by rw [hf.position n st x hx]; congr 1; exact funext fun i => hpq i n (hlt hx), (hv n st x hx).1, (ha n st x hx).1⟩)
      (fun i n hn => by obtain ⟨st, x, hx⟩ := exchange_exists hn; exact (hv n st x hx).2 i)
      (fun i n hn => by obtain ⟨st, x, hx⟩ := exchange_exists hn; exact (ha n st x hx).2 i)
      (fun n st x hx => by rw [hz1 n st x hx]; congr 1; exact funext fun i => (hps i n).symm)
      (fun i => by
        rw [hp0]
        exact shape_inside (hp i) (hsh i) hsf s2 (plan_long hsf s2 hp hg i) fun n hn => (hu' n hn).2 i)
      (fun i => ⟨rfl, fun n _ => by simp [Spec.starting]⟩) i (n + 1) hn
    rw [hps] at this
    refine le_trans (le_of_eq ?_) (this.trans (by norm_num))
    rfl
  refine ⟨L, T, path, hL, hL5, hLj, hp, fun n st x hx => ?_⟩
  have hn := hlt hx
  obtain ⟨e1, e2, e3⟩ := early n st x hx
  obtain ⟨out, o1, o2, -, oflag, -, olast⟩ := key n st x hx
  obtain ⟨τ, t1, t2, t3⟩ := o2 e1
  have hn0 : (0 : ℝ) ≤ n := Nat.cast_nonneg n
  obtain ⟨t4, t5⟩ := abs_le.1 t1
  have hnear : ∀ i, |z n i - path i ((n : ℝ) / 1000)| ≤ 48 / 10 ^ 10 := fun i => by
    have h1 := abs_sub_le (z n i) (u' n i) (path i ((n : ℝ) / 1000))
    have h2 := follow i n hn
    have h3 := (hu' n hn).2 i
    norm_num at *
    linarith
  have hover : x.motion.motion_generation_finished = true → ∀ i, T i ≤ (n : ℝ) / 1000 + 15 / 10 ^ 8 := fun hfin i => by
    rw [oflag] at hfin
    have h1 := t3.1 hfin i
    have h2 := (abs_le.1 (htf i)).1
    norm_num at *
    linarith
  refine ⟨⟨z n, hz1 n st x hx, fun i => (hnear i).trans (by norm_num), fun hfin i => ?_⟩, fun hfin => ⟨?_, fun i => (hover hfin i).trans (by norm_num)⟩, fun h => ?_, fun hok hl => ?_⟩
  · obtain ⟨a, b, -, hb, hab, hm⟩ := (hp i).path
    have h3 : |path i τ - b| ≤ 3 / 10 ^ 12 := by
      rw [oflag] at hfin
      have g1 := t3.1 hfin i
      have g2 := (abs_le.1 (htf i)).1
      rcases le_total (T i) τ with h | h
      · rw [hm.after _ h, sub_self, abs_zero]; norm_num
      · have g3 := hlip i (T i) τ
        rw [hm.after _ le_rfl, abs_sub_comm τ, abs_of_nonneg (sub_nonneg.2 h)] at g3
        have g4 : 2503 / 1000 * sf * (T i - τ) ≤ 2503 / 1000 * 0.98 * (1 / 10 ^ 12) := by
          gcongr
          linarith
        norm_num at *
        linarith
    have h4 : |u' n i - path i τ| ≤ 2 / 10 ^ 9 := by
      obtain ⟨y, g1, g2⟩ := t2 i
      rw [(hu' n hn).1 out o1] at g1
      rwa [← Rd.fin_inj (show (Rd.fin (u' n i) : Rd A) = Rd.fin y from g1)] at g2
    have h5 := abs_sub_le (z n i) b (goal i)
    have h6 := abs_sub_le (z n i) (u' n i) b
    have h8 := abs_sub_le (u' n i) (path i τ) b
    have h9 := follow i n hn
    refine ⟨by norm_num at *; linarith, fun hmv => ?_⟩
    have h7 := (hab hmv).2
    norm_num at *
    linarith
  · by_contra hne
    obtain ⟨st', x', hx'⟩ := exchange_exists (show n + 1 < answered w c by omega)
    obtain ⟨-, -, -, -, -, hbefore, -⟩ := key (n + 1) st' x' hx'
    obtain ⟨out', g1, -, g2⟩ := hbefore n (by omega)
    rw [o1] at g1
    injection g1 with g1
    rw [oflag, g1, g2] at hfin
    cases hfin
  · rw [oflag]
    refine t3.2 fun i => ?_
    have h1 := h i
    have h2 := (abs_le.1 (htf i)).2
    norm_num at *
    linarith
  · rw [oflag]
    exact olast hok hl

end
end Verif
