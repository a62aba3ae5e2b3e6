import Verif.Lemmas.RoundedFirst
import Verif.Props.JointMotion
import Verif.Props.Rounding
/-!
Joint motions with rounding: C86.
-/
set_option linter.unusedSectionVars false
namespace Verif
open Spec Fl

variable {A : Rounding}

/-- The next time of a motion generator that adds up periods: close to the sum of the periods. -/
theorem time_step {x : ℝ} {n p : Nat} (hp : 0 < p) (hn : n + p ≤ 10 ^ 6) (hx : |x - (n : ℝ) / 1000| ≤ 2 / 10 ^ 13 * n) :
    ∃ y, (Rd.fin x + secs p : Rd A) = Rd.fin y ∧ |y - ((n + p : Nat) : ℝ) / 1000| ≤ 2 / 10 ^ 13 * ((n + p : Nat) : ℝ) ∧ 9 / 10 ^ 4 ≤ y := by
  have hp1 : (1 : ℝ) ≤ p := by exact_mod_cast hp
  have hn1 : ((n + p : Nat) : ℝ) ≤ 10 ^ 6 := by exact_mod_cast hn
  have hn0 : (0 : ℝ) ≤ n := Nat.cast_nonneg n
  push_cast at hn1 ⊢
  have hp2 : |(p : ℝ) / 1000| ≤ 1000 := by rw [abs_of_nonneg (by positivity)]; linarith
  obtain ⟨x1, x2⟩ := abs_le.1 hx
  have h1 := rnd_le (A := A) ((p : ℝ) / 1000)
  rw [abs_of_nonneg (show 0 ≤ (p : ℝ) / 1000 by positivity)] at h1
  obtain ⟨h2, h3⟩ := abs_le.1 h1
  have hs : |x + A.rnd ((p : ℝ) / 1000)| ≤ 1001 := by rw [abs_le]; constructor <;> linarith
  have h4 := rnd_le (A := A) (x + A.rnd ((p : ℝ) / 1000))
  obtain ⟨h5, h6⟩ := abs_le.1 (h4.trans (add_le_add_left (mul_le_mul_of_nonneg_left hs (by norm_num)) _))
  refine ⟨A.rnd (x + A.rnd ((p : ℝ) / 1000)), ?_, ?_, ?_⟩
  · show (Rd.fin x + Rd.round A (.fin ((p : ℝ) / 1000)) : Rd A) = _
    rw [rnd_fin (hp2.trans (by norm_num))]
    exact rnd_fin (z := x + A.rnd ((p : ℝ) / 1000)) (hs.trans (by norm_num))
  · rw [abs_le]
    constructor <;> linarith
  · linarith

theorem answers_near {start goal T tf : Fin 7 → ℝ} {path : Fin 7 → ℝ → ℝ} {sf L : ℝ} (s2 : sf ≤ 1)
    (hp : ∀ i, JointPlan (start i) (goal i) (sf * jointSpeed i) (sf * jointAcceleration) L (T i) (path i)) (htf : ∀ i, |tf i - T i| ≤ 1 / 10 ^ 12)
    {t x : ℝ} (ht0 : 0 ≤ t) (htx : |x - t| ≤ 2 / 10 ^ 10 * t) {g : MotionGenerator (Rd A)}
    (hg : (∀ i, Near ((Arr.add g.q_start (g.calculate_desired_values (Rd.fin x)).1) i) (path i x) (2 / 10 ^ 9)) ∧
        ((g.calculate_desired_values (Rd.fin x)).2 = true ↔ ∀ i, tf i ≤ x)) :
    NearPath start goal T path t (⟨(g.calculate_desired_values (Rd.fin x)).2, Arr.add g.q_start (g.calculate_desired_values (Rd.fin x)).1⟩ : JointPositions (Rd A)) := by
  obtain ⟨hn, hf⟩ := hg
  obtain ⟨x1, x2⟩ := abs_le.1 htx
  choose q hq hq' using hn
  have hlip : ∀ i s t, |path i t - path i s| ≤ 3 * |t - s| := fun i s t => by
    obtain ⟨a, b, -, -, -, hm⟩ := (hp i).path
    refine ((C53_move hm).2.2.2.2 s t).trans (mul_le_mul_of_nonneg_right ?_ (abs_nonneg _))
    obtain ⟨j1, j2⟩ := jointSpeed_range i
    have : sf * jointSpeed i ≤ 1 * (5 / 2) := mul_le_mul s2 j2 (by linarith) (by norm_num)
    linarith
  refine ⟨⟨q, funext hq, fun i => ?_, fun hfin i => ?_⟩, fun hfin i => ?_, fun h => ?_⟩
  · have h1 := abs_sub_le (q i) (path i x) (path i t)
    have h2 := hlip i t x
    have h3 := hq' i
    linarith
  · obtain ⟨a, b, -, hb, hab, hm⟩ := (hp i).path
    have h1 := hf.1 hfin i
    have h2 := (abs_le.1 (htf i)).1
    have h3 : |path i x - b| ≤ 3 / 10 ^ 12 := by
      rcases le_total (T i) x with h | h
      · rw [hm.after x h, sub_self, abs_zero]; norm_num
      · rw [← hm.after (T i) le_rfl]
        refine (hlip i (T i) x).trans ?_
        rw [abs_of_nonpos (by linarith)]
        linarith
    have h4 := abs_sub_le (q i) (path i x) b
    have h5 := abs_sub_le (q i) b (goal i)
    have h6 := hq' i
    refine ⟨by linarith, fun hmv => ?_⟩
    have h7 := (hab hmv).2
    linarith
  · have h1 := hf.1 hfin i
    have h2 := (abs_le.1 (htf i)).1
    linarith
  · refine hf.2 fun i => ?_
    have h1 := h i
    have h2 := (abs_le.1 (htf i)).2
    linarith

theorem answers_near_later {P : ℝ → JointPositions (Rd A) → Prop} {g0 : MotionGenerator (Rd A)} (hz : A.rnd 0 = 0)
    (h : ∀ (g : MotionGenerator (Rd A)) (n : ℕ) (x : ℝ), 9 / 10 ^ 4 ≤ x → |x - (n : ℝ) / 1000| ≤ 2 / 10 ^ 13 * n → { g with time := Rd.fin 0 } = g0 →
      P ((n : ℝ) / 1000) ⟨(g.calculate_desired_values (Rd.fin x)).2, Arr.add g.q_start (g.calculate_desired_values (Rd.fin x)).1⟩)
    (calls : List (RobotState (Rd A) × Nat)) : ∀ (g : MotionGenerator (Rd A)) (n : Nat) (x : ℝ), { g with time := Rd.fin 0 } = g0 → g.time = Rd.fin x →
      |x - (n : ℝ) / 1000| ≤ 2 / 10 ^ 13 * n → (∀ c ∈ calls, 0 < c.2) → n + (calls.map (·.2)).sum ≤ 10 ^ 6 → List.Forall₂ P (callTimes n calls) (answers g calls) := by
  induction calls with
  | nil => intros; exact .nil
  | cons c cs ih =>
    intro g n x hg ht hx hc hs
    obtain ⟨s, p⟩ := c
    have hp : 0 < p := hc _ List.mem_cons_self
    rw [List.map_cons, List.sum_cons, ← Nat.add_assoc] at hs
    obtain ⟨y, y1, y2, y3⟩ := time_step (A := A) hp (le_trans (Nat.le_add_right _ _) hs) hx
    have hgen : g.generate_motion s p = ({ g with time := Rd.fin y },
        ⟨(({ g with time := Rd.fin y } : MotionGenerator (Rd A)).calculate_desired_values (Rd.fin y)).2,
          Arr.add g.q_start (({ g with time := Rd.fin y } : MotionGenerator (Rd A)).calculate_desired_values (Rd.fin y)).1⟩) := by
      unfold MotionGenerator.generate_motion
      have e : (g.time + secs p : Rd A) = Rd.fin y := by rw [ht]; exact y1
      have e0 : feq (Rd.fin y : Rd A) (lit 0 : Rd A) = false := by
        rw [Rd.lit_zero hz]
        refine (XR.feq_fin y 0).trans (decide_eq_false ?_)
        linarith
      simp only [e, e0, Bool.false_eq_true, if_false]
    unfold answers callTimes
    rw [hgen]
    exact .cons (h { g with time := Rd.fin y } _ _ y3 y2 hg) (ih _ _ _ hg rfl y2 (fun c hc' => hc c (List.mem_cons_of_mem _ hc')) hs)

/-- **C86.** A `MotionGenerator` computing with rounded numbers, for a speed factor `sf` between 1 % and 100 %, a start and a goal within 4 rad: there is
a path for each joint, fixed at the first call whatever follows, that is a smooth move from its start to its goal with the limits of the joint scaled by
`sf` up to 0.1 %. All joints that move need the time `L` up to 0.1 %, and `L` is the time the slowest of them needs. Every call answers positions that are
on the paths up to a few 1e-9 rad. Within 1000 s of calls with any positive periods the motion is finished exactly when the time of every path is over, up
to a few 1e-9 s, and then each joint that had to move is within 1e-8 rad of its goal and every other within 1.1e-6 rad. -/
theorem C86_joint_motion_rounded (hz : A.rnd 0 = 0) {sf : ℝ} (s1 : 1 / 100 ≤ sf) (s2 : sf ≤ 1) (goal start : Fin 7 → ℝ) (hgoal : ∀ i, |goal i| ≤ 4)
    (hstart : ∀ i, |start i| ≤ 4) (s0 : RobotState (Rd A)) (hs0 : s0.q_d = Arr.rd start) :
    ∃ (L : ℝ) (T : Fin 7 → ℝ) (path : Fin 7 → ℝ → ℝ), 0 ≤ L ∧ sf * L ≤ 5 ∧
      (L = 0 ∨ ∃ j, |L - profileTime (sf * jointSpeed j) (sf * jointAcceleration) (|goal j - start j|)| ≤ L / 1000) ∧
      (∀ i, JointPlan (start i) (goal i) (sf * jointSpeed i) (sf * jointAcceleration) L (T i) (path i)) ∧
      ∀ calls : List (RobotState (Rd A) × Nat), (∀ c ∈ calls, 0 < c.2) → (calls.map (·.2)).sum ≤ 10 ^ 6 →
        List.Forall₂ (NearPath start goal T path) (callTimes 0 ((s0, 0) :: calls))
          (answers (MotionGenerator.new (Rd.fin sf) (Arr.rd goal)) ((s0, 0) :: calls)) := by
  obtain ⟨L, T, tf, path, hL, hL5, hLj, hp, htf, h⟩ := rd_first_call hz s1 s2 goal start hgoal hstart s0 hs0
  refine ⟨L, T, path, hL, hL5, hLj, hp, fun calls hc hsum => ?_⟩
  obtain ⟨g0, hg0⟩ : ∃ g0, g0 = ((MotionGenerator.new (Rd.fin sf) (Arr.rd goal)).generate_motion s0 0).1 := ⟨_, rfl⟩
  have ht : ((MotionGenerator.new (Rd.fin sf) (Arr.rd goal)).time + secs 0 : Rd A) = Rd.fin 0 := by
    show (lit 0 + Rd.round A (.fin ((0 : ℕ) / 1000)) : Rd A) = _
    rw [Rd.lit_zero hz, Nat.cast_zero, zero_div, rnd_fin (by norm_num), hz]
    show Rd.round A (.fin (0 + 0)) = _
    rw [add_zero, rnd_fin (by norm_num), hz]
  have h0 : feq (Rd.fin 0 : Rd A) (lit 0 : Rd A) = true := by
    rw [Rd.lit_zero hz]
    exact (XR.feq_fin 0 0).trans (by simp)
  have htime : g0.time = Rd.fin 0 := by
    rw [hg0]
    unfold MotionGenerator.generate_motion
    simp only [ht, h0, if_true]
    rfl
  have hsame : { g0 with time := Rd.fin 0 } = g0 := by rw [← htime]
  have h2 : ((MotionGenerator.new (Rd.fin sf) (Arr.rd goal)).generate_motion s0 0).2 =
      ⟨(g0.calculate_desired_values (Rd.fin 0)).2, Arr.add g0.q_start (g0.calculate_desired_values (Rd.fin 0)).1⟩ := by
    rw [hg0]
    unfold MotionGenerator.generate_motion
    simp only [ht, h0, if_true]
    rfl
  unfold answers callTimes
  rw [h2, ← hg0]
  refine .cons ?_ ?_
  · rw [show ((0 + 0 : Nat) : ℝ) / 1000 = 0 by norm_num]
    exact answers_near s2 hp htf le_rfl (by norm_num) (h g0 0 (.inl rfl) (hsame.trans hg0))
  · refine answers_near_later hz ?_ calls g0 0 0 hsame htime (by norm_num) hc (by simpa using hsum)
    intro g n x hx1 hx2 hg
    have hn : (0 : ℝ) ≤ n := Nat.cast_nonneg n
    exact answers_near s2 hp htf (by positivity) (hx2.trans (by linarith)) (h g x (.inr (by linarith)) (hg.trans hg0))

/-- **C86.** So the motion finishes: at any call after more than 1.002 times 5 s divided by the speed factor. -/
theorem C86_finishes (hz : A.rnd 0 = 0) {sf : ℝ} (s1 : 1 / 100 ≤ sf) (s2 : sf ≤ 1) (goal start : Fin 7 → ℝ) (hgoal : ∀ i, |goal i| ≤ 4)
    (hstart : ∀ i, |start i| ≤ 4) (s0 : RobotState (Rd A)) (hs0 : s0.q_d = Arr.rd start) (calls : List (RobotState (Rd A) × Nat)) (hc : ∀ c ∈ calls, 0 < c.2)
    (hsum : (calls.map (·.2)).sum ≤ 10 ^ 6) :
    List.Forall₂ (fun t y => 501 / 100 ≤ sf * t → y.motion_finished = true ∧ ∃ q : Fin 7 → ℝ, y.q = Arr.rd q ∧ ∀ i, |q i - goal i| ≤ 11 / 10 ^ 7)
      (callTimes 0 ((s0, 0) :: calls)) (answers (MotionGenerator.new (Rd.fin sf) (Arr.rd goal)) ((s0, 0) :: calls)) := by
  obtain ⟨L, T, path, hL, hL5, -, hp, h⟩ := C86_joint_motion_rounded hz s1 s2 goal start hgoal hstart s0 hs0
  refine (h calls hc hsum).imp fun t y hy ht => ?_
  have hfin : y.motion_finished = true := hy.ends fun i => by
    have hsf : 0 < sf := by linarith
    have ht5 : 501 / 100 ≤ t := by
      by_contra hc
      have := mul_lt_mul' s2 (not_le.1 hc) (by by_contra h0; have := mul_neg_of_pos_of_neg hsf (not_le.1 h0); linarith) (by norm_num)
      linarith
    have hLt : L ≤ 500 / 501 * t := by
      by_contra hc
      have := mul_lt_mul_of_pos_left (not_le.1 hc) hsf
      linarith
    rcases (hp i).time with h0 | h0
    · rw [h0]; linarith
    · have := (abs_le.1 h0).2
      linarith
  obtain ⟨q, q1, -, q3⟩ := hy.near
  exact ⟨hfin, q, q1, fun i => (q3 hfin i).1⟩

/-- A state in which the robot is told to be at zero. -/
noncomputable def roundedZero : RobotState (Rd binary64) := { (zeroState : RobotState XR) with q_d := Arr.rd fun _ => 0 }

theorem binary64_zero : binary64.rnd 0 = 0 := by
  show nearest 0 = 0
  simp [nearest]

/-- Example: with binary64 numbers, at half speed, all joints move by 1 rad in steps of 1 s. The calls after 11 s and later answer that the motion is
finished, at positions within 1.1e-6 rad of the goal. -/
example : List.Forall₂ (fun t y => 501 / 100 ≤ 1 / 2 * t → y.motion_finished = true ∧ ∃ q : Fin 7 → ℝ, y.q = Arr.rd q ∧ ∀ i, |q i - 1| ≤ 11 / 10 ^ 7)
    (callTimes 0 ((roundedZero, 0) :: List.replicate 15 (roundedZero, 1000)))
    (answers (MotionGenerator.new (Rd.fin (1 / 2)) (Arr.rd fun _ => 1) : MotionGenerator (Rd binary64)) ((roundedZero, 0) :: List.replicate 15 (roundedZero, 1000))) :=
  C86_finishes binary64_zero (by norm_num) (by norm_num) (fun _ => 1) (fun _ => 0) (fun _ => by norm_num) (fun _ => by norm_num) roundedZero rfl _
    (fun c hc => by rw [List.eq_of_mem_replicate hc]; norm_num) (by norm_num)

/-- Example: a joint that moves by 1 rad needs the time of its smooth profile, and moves from exactly its start. -/
example : ∃ (L : ℝ) (T : Fin 7 → ℝ) (path : Fin 7 → ℝ → ℝ), T 0 ≠ 0 ∧ path 0 0 = 0 ∧ |path 0 (T 0) - 1| ≤ 1 / 10 ^ 14 ∧ 1 ≤ L := by
  obtain ⟨L, T, path, -, -, -, hp, -⟩ := C86_joint_motion_rounded (A := binary64) binary64_zero (sf := 1 / 2) (by norm_num) (by norm_num) (fun _ => 1) (fun _ => 0)
    (fun _ => by norm_num) (fun _ => by norm_num) roundedZero rfl
  obtain ⟨⟨a, b, -, -, hab, hm⟩, -, hl⟩ := hp 0
  obtain ⟨h1, h2⟩ := hl (by norm_num)
  obtain ⟨h3, h4⟩ := hab (by norm_num)
  refine ⟨L, T, path, h1, by rw [hm.before 0 le_rfl, h3], by rw [hm.after (T 0) le_rfl]; exact h4, ?_⟩
  unfold profileTime at h2
  rw [if_neg (by norm_num [jointSpeed, jointAcceleration])] at h2
  norm_num [jointSpeed, jointAcceleration] at h2
  linarith

end Verif
