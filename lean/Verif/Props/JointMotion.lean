import Verif.Lemmas.Plan
import Mathlib.Analysis.Calculus.Deriv.MeanValue
/-!
# The joint motion generator: C52, C53, C54

Over real numbers, see `Spec/Real.lean`. What a motion is says `Spec/JointMotion.lean`.
-/
namespace Verif
open Fl Spec

theorem speed_fin (sf : ℝ) (goal : Fin 7 → ℝ) (i : Fin 7) : (MotionGenerator.new (XR.fin sf) (Arr.fin goal)).dq_max i = .fin (sf * jointSpeed i) := by
  show (Arr.rmul ![lit 2, lit 2, lit 2, lit 2, lit (25 / 10), lit (25 / 10), lit (25 / 10)] (XR.fin sf) : Arr XR 7) i = _
  have e2 : (lit 2 : XR) = .fin 2 := by rw [XR.lit_fin]; norm_num
  have e25 : (lit (25 / 10) : XR) = .fin (2.5) := by rw [XR.lit_fin]; norm_num
  rw [e2, e25]
  unfold jointSpeed
  rw [mul_comm]
  fin_cases i <;> rfl

theorem acceleration_fin (sf : ℝ) (goal : Fin 7 → ℝ) (i : Fin 7) :
    (MotionGenerator.new (XR.fin sf) (Arr.fin goal)).ddq_max_start i = .fin (sf * jointAcceleration) ∧
    (MotionGenerator.new (XR.fin sf) (Arr.fin goal)).ddq_max_goal i = .fin (sf * jointAcceleration) := by
  have e : (Arr.rmul (fun _ => lit 5) (XR.fin sf) : Arr XR 7) i = .fin (sf * jointAcceleration) := by
    show (lit 5 * XR.fin sf : XR) = _
    have e5 : (lit 5 : XR) = .fin 5 := by rw [XR.lit_fin]; norm_num
    rw [e5, XR.fin_mul, mul_comm]
    rfl
  exact ⟨e, e⟩

theorem jointSpeed_pos (i : Fin 7) : 0 < jointSpeed i := by
  unfold jointSpeed
  fin_cases i <;> norm_num

/-- The path `x` of a joint that starts at `a` and has the way `δ` to go in the time `T`, with the acceleration `A`. -/
def PlannedJoint (a δ A T : ℝ) (x : ℝ → ℝ) : Prop :=
  (1 / 1000000 < |δ| → ∃ v τ t2, x = profile a (dir δ) v τ t2 ∧ 0 < v ∧ 0 < τ ∧ τ ≤ t2 ∧ |δ| = v * t2 ∧ T = t2 + τ ∧ 3 / 2 * v / τ = A) ∧
  (¬ 1 / 1000000 < |δ| → ∃ b, (x = fun _ => b) ∧ |b - a| ≤ 1 / 1000000)

/-- The generator after its first call. -/
theorem first_call_planned (sf : ℝ) (hsf : 0 < sf) (goal start : Fin 7 → ℝ) (s0 : RobotState XR) (hs0 : s0.q_d = Arr.fin start) :
    ∃ (T : ℝ) (path : Fin 7 → ℝ → ℝ), 0 ≤ T ∧
      (∀ i, ∃ a b, |a - start i| ≤ 1 / 1000000 ∧ |b - goal i| ≤ 1 / 1000000 ∧ (1 / 1000000 < |goal i - start i| → a = start i ∧ b = goal i) ∧
        Move a b (sf * jointSpeed i) (sf * jointAcceleration) T (path i)) ∧
      (∀ i, PlannedJoint (start i) (goal i - start i) (sf * jointAcceleration) T (path i)) ∧
      (T = 0 ∨ ∃ j, 1 / 1000000 < |goal j - start j| ∧ T = leastTime (sf * jointSpeed j) (sf * jointAcceleration) |goal j - start j|) ∧
      ∀ (g : MotionGenerator XR) (t : ℝ), 0 ≤ t →
        { g with time := XR.fin 0 } = ((MotionGenerator.new (XR.fin sf) (Arr.fin goal)).generate_motion s0 0).1 →
        Arr.add g.q_start (g.calculate_desired_values (.fin t)).1 = Arr.fin (fun i => path i t) ∧ (g.calculate_desired_values (.fin t)).2 = decide (T ≤ t) := by
  have hA : 0 < sf * jointAcceleration := mul_pos hsf (by unfold jointAcceleration; norm_num)
  have hV : ∀ i, 0 < sf * jointSpeed i := fun i => mul_pos hsf (jointSpeed_pos i)
  -- the generator when it plans
  obtain ⟨g1, hg1⟩ : ∃ g1 : MotionGenerator XR, g1 = { MotionGenerator.new (XR.fin sf) (Arr.fin goal) with
      time := XR.fin 0
      q_start := Arr.fin start
      delta_q := Arr.fin fun i => goal i - start i } := ⟨_, rfl⟩
  have hδ : ∀ i, g1.delta_q i = .fin (goal i - start i) := fun i => by rw [hg1]; rfl
  have hv : ∀ i, g1.dq_max i = .fin (sf * jointSpeed i) := fun i => by rw [hg1]; exact speed_fin sf goal i
  have hs : ∀ i, g1.ddq_max_start i = .fin (sf * jointAcceleration) := fun i => by rw [hg1]; exact (acceleration_fin sf goal i).1
  have hg : ∀ i, g1.ddq_max_goal i = .fin (sf * jointAcceleration) := fun i => by rw [hg1]; exact (acceleration_fin sf goal i).2
  have hfirst : ((MotionGenerator.new (XR.fin sf) (Arr.fin goal)).generate_motion s0 0).1 = g1.calculate_synchronized_values := by
    unfold MotionGenerator.generate_motion
    have ht : ((MotionGenerator.new (XR.fin sf) (Arr.fin goal)).time + secs 0 : XR) = .fin 0 := by
      show (lit 0 + secs 0 : XR) = _
      rw [XR.lit_fin, XR.secs_fin, XR.fin_add]
      norm_num
    have h0 : feq (XR.fin 0) (lit 0 : XR) = true := by
      rw [XR.lit_fin, XR.feq_fin]
      norm_num
    simp only [ht, h0, if_true]
    congr 1
    rw [hg1, hs0]
    rfl
  -- the time
  have ht : ∀ i, ∃ t, g1.unsync_t_f i = .fin t ∧ 0 ≤ t ∧ (1 / 1000000 < |goal i - start i| → t = leastTime (sf * jointSpeed i) (sf * jointAcceleration) |goal i - start i| ∧ 0 < t) ∧
      (¬ 1 / 1000000 < |goal i - start i| → t = 0) := by
    intro i
    by_cases hn : 1 / 1000000 < |goal i - start i|
    · have := leastTime_pos (hV i) hA (lt_trans (by norm_num) hn : 0 < |goal i - start i|)
      exact ⟨_, MotionGenerator.unsync_moving (hδ i) (hv i) (hs i) (hg i) (hV i) hA hn, this.le, fun _ => ⟨rfl, this⟩, fun h => absurd hn h⟩
    · exact ⟨0, MotionGenerator.unsync_small (hδ i) hn, le_rfl, fun h => absurd h hn, fun _ => rfl⟩
  choose tf htf htf0 htfm htfs using ht
  obtain ⟨T, hT, hTle, j, hTj⟩ := MotionGenerator.vecMax_fin tf
  have hmax : MotionGenerator.vecMax (fun i => g1.unsync_t_f i) = .fin T := by
    rw [← hT]
    congr 1
    funext i
    exact htf i
  have hT0 : 0 ≤ T := (htf0 0).trans (hTle 0)
  have hsync : ∀ i, 1 / 1000000 < |goal i - start i| → _ := fun i hn =>
    MotionGenerator.sync_moving (T := T) (hδ i) (hs i) (hg i) (hV i) hA hn (by rw [← (htfm i hn).1]; exact hTle i)
  -- each joint
  have hj : ∀ i, ∃ path : ℝ → ℝ, (∃ a b, |a - start i| ≤ 1 / 1000000 ∧ |b - goal i| ≤ 1 / 1000000 ∧ (1 / 1000000 < |goal i - start i| → a = start i ∧ b = goal i) ∧
      Move a b (sf * jointSpeed i) (sf * jointAcceleration) T path) ∧ PlannedJoint (start i) (goal i - start i) (sf * jointAcceleration) T path ∧
      ∀ (g : MotionGenerator XR) (t : ℝ), 0 ≤ t → { g with time := XR.fin 0 } = g1.calculate_synchronized_values →
        (XR.fin (start i) + (g.desired_joint (.fin t) i).1 : XR) = .fin (path t) ∧
        (g.desired_joint (.fin t) i).2 = (decide (T ≤ t) || !decide (1 / 1000000 < |goal i - start i|)) := by
    intro i
    have still : ∀ a, Move a a (sf * jointSpeed i) (sf * jointAcceleration) T fun _ => a := fun a =>
      ⟨fun _ _ => rfl, fun _ _ => rfl, fun h => absurd rfl h, fun _ => 0, fun t => hasDerivAt_const t a, fun _ => ⟨fun _ => le_rfl, fun _ => le_rfl⟩,
        fun _ => by rw [abs_zero]; exact (hV i).le, fun s t => by rw [sub_zero, abs_zero]; exact mul_nonneg hA.le (abs_nonneg _)⟩
    have hmv : flt (DELTA_Q_MOTION_FINISHED : XR) (fabs (g1.delta_q i)) = decide (1 / 1000000 < |goal i - start i|) := by
      rw [hδ, dead_band, XR.fabs_fin, XR.flt_fin]
    by_cases hn : 1 / 1000000 < |goal i - start i|
    · obtain ⟨v, τ, t2, h1, h2, h3, h4, h5, h6, h7, h8⟩ := hsync i hn
      refine ⟨profile (start i) (dir (goal i - start i)) v τ t2, ⟨start i, goal i, by norm_num, by norm_num, fun _ => ⟨rfl, rfl⟩, ?_⟩,
        ⟨fun _ => ⟨v, τ, t2, rfl, h2, h4, h5, h6, h7, h8⟩, fun h => absurd hn h⟩, ?_⟩
      · have := (move_profile (a := start i) (dir_cases (goal i - start i)) h2 h4 (h4.trans_le h5)).weaken h3
        rwa [← h6, dir_mul_abs, h8, ← h7, add_sub_cancel] at this
      · intro g t ht hgt
        have hmv' : flt (DELTA_Q_MOTION_FINISHED : XR) (fabs (g1.delta_q i)) = true := by rw [hmv]; exact decide_eq_true hn
        have f1 : g.dq_max_sync i = .fin v := by
          have : g.dq_max_sync i = g1.calculate_synchronized_values.dq_max_sync i := by rw [← hgt]
          rw [this]
          unfold MotionGenerator.calculate_synchronized_values
          simp only [hmv', if_true, hmax, h1]
        have f2 : g.t_1_sync i = .fin τ := by
          have : g.t_1_sync i = g1.calculate_synchronized_values.t_1_sync i := by rw [← hgt]
          rw [this]
          unfold MotionGenerator.calculate_synchronized_values
          simp only [hmv', if_true, hmax, h1]
        have f3 : g.t_2_sync i = .fin t2 := by
          have : g.t_2_sync i = g1.calculate_synchronized_values.t_2_sync i := by rw [← hgt]
          rw [this]
          unfold MotionGenerator.calculate_synchronized_values
          simp only [hmv', if_true, hmax, h1]
        have f4 : g.t_f_sync i = .fin (t2 + τ) := by
          have : g.t_f_sync i = g1.calculate_synchronized_values.t_f_sync i := by rw [← hgt]
          rw [this]
          unfold MotionGenerator.calculate_synchronized_values
          simp only [hmv', if_true, hmax, h1]
          rw [h7]
        have f5 : g.q_1 i = .fin (v * dir (goal i - start i) * (5 / 10 * τ)) := by
          have : g.q_1 i = g1.calculate_synchronized_values.q_1 i := by rw [← hgt]
          rw [this]
          unfold MotionGenerator.calculate_synchronized_values
          simp only [hmv', if_true, hmax, h1]
        have f6 : g.delta_q i = .fin (goal i - start i) := by
          have : g.delta_q i = g1.calculate_synchronized_values.delta_q i := by rw [← hgt]
          rw [this]
          exact hδ i
        rw [MotionGenerator.desired_moving f6 f1 f2 f3 f4 f5 h6 h4 h5 (by linarith) ht]
        refine ⟨?_, ?_⟩
        · rw [XR.fin_add]
          unfold profile
          rw [zero_add]
        · rw [h7, decide_eq_true hn, Bool.not_true, Bool.or_false]
    · have hmv' : ¬ flt (DELTA_Q_MOTION_FINISHED : XR) (fabs (g1.delta_q i)) = true := by rw [hmv]; simpa using hn
      have hle : |goal i - start i| ≤ 1 / 1000000 := not_lt.1 hn
      by_cases hlt : |goal i - start i| < 1 / 1000000
      · refine ⟨fun _ => start i, ⟨start i, start i, by norm_num, by rw [abs_sub_comm]; exact hle, fun h => absurd h hn, still _⟩,
          ⟨fun h => absurd h hn, fun _ => ⟨_, rfl, by norm_num⟩⟩, ?_⟩
        intro g t ht hgt
        have f6 : g.delta_q i = .fin (goal i - start i) := by
          have : g.delta_q i = g1.calculate_synchronized_values.delta_q i := by rw [← hgt]
          rw [this]
          exact hδ i
        rw [MotionGenerator.desired_small f6 hlt]
        refine ⟨by rw [XR.fin_add, add_zero], by rw [decide_eq_false hn, Bool.not_false, Bool.or_true]⟩
      · refine ⟨fun _ => goal i, ⟨goal i, goal i, hle, by norm_num, fun h => absurd h hn, still _⟩, ⟨fun h => absurd h hn, fun _ => ⟨_, rfl, hle⟩⟩, ?_⟩
        intro g t ht hgt
        have f6 : g.delta_q i = .fin (goal i - start i) := by
          have : g.delta_q i = g1.calculate_synchronized_values.delta_q i := by rw [← hgt]
          rw [this]
          exact hδ i
        have e0 : (lit 0 : XR) = .fin 0 := by rw [XR.lit_fin]; norm_num
        have f2 : g.t_1_sync i = .fin 0 := by
          have : g.t_1_sync i = g1.calculate_synchronized_values.t_1_sync i := by rw [← hgt]
          rw [this]
          unfold MotionGenerator.calculate_synchronized_values
          simp only [if_neg hmv']
          rw [hg1]
          exact e0
        have f3 : g.t_2_sync i = .fin 0 := by
          have : g.t_2_sync i = g1.calculate_synchronized_values.t_2_sync i := by rw [← hgt]
          rw [this]
          unfold MotionGenerator.calculate_synchronized_values
          simp only [if_neg hmv']
          rw [hg1]
          exact e0
        have f4 : g.t_f_sync i = .fin 0 := by
          have : g.t_f_sync i = g1.calculate_synchronized_values.t_f_sync i := by rw [← hgt]
          rw [this]
          unfold MotionGenerator.calculate_synchronized_values
          simp only [if_neg hmv']
          rw [hg1]
          exact e0
        have : g.desired_joint (.fin t) i = (.fin (goal i - start i), true) := by
          unfold MotionGenerator.desired_joint
          simp only [f6, f2, f3, f4, XR.fabs_fin, dead_band, XR.flt_fin, XR.fle_fin, hlt, decide_false, Bool.false_eq_true, if_false, not_lt.2 ht, Bool.and_false]
        rw [this]
        refine ⟨by rw [XR.fin_add, add_sub_cancel], by rw [decide_eq_false hn, Bool.not_false, Bool.or_true]⟩
  choose path hp1 hp3 hp2 using hj
  have hTj' : T = 0 ∨ ∃ j, 1 / 1000000 < |goal j - start j| ∧ T = leastTime (sf * jointSpeed j) (sf * jointAcceleration) |goal j - start j| := by
    by_cases hm : 1 / 1000000 < |goal j - start j|
    · exact .inr ⟨j, hm, by rw [← hTj, (htfm j hm).1]⟩
    · exact .inl (by rw [← hTj, htfs j hm])
  refine ⟨T, path, hT0, hp1, hp3, hTj', ?_⟩
  intro g t ht hgt
  rw [hfirst] at hgt
  constructor
  · have hq : g.q_start = Arr.fin start := by
      have : g.q_start = g1.calculate_synchronized_values.q_start := by rw [← hgt]
      rw [this]
      unfold MotionGenerator.calculate_synchronized_values
      rw [hg1]
    rw [hq]
    funext i
    exact (hp2 i g t ht hgt).1
  · show Arr.all (n := 7) id (fun i => (g.desired_joint (.fin t) i).2) = _
    unfold Arr.all
    rw [Bool.eq_iff_iff]
    simp only [decide_eq_true_eq, id, (hp2 _ g t ht hgt).2]
    constructor
    · intro h
      by_cases hm : 1 / 1000000 < |goal j - start j|
      · have := h j
        rw [decide_eq_true hm] at this
        simpa using this
      · rw [← hTj, htfs j hm]
        exact ht
    · intro h i
      simp [h]

theorem first_call (sf : ℝ) (hsf : 0 < sf) (goal start : Fin 7 → ℝ) (s0 : RobotState XR) (hs0 : s0.q_d = Arr.fin start) :
    ∃ (T : ℝ) (path : Fin 7 → ℝ → ℝ), 0 ≤ T ∧
      (∀ i, ∃ a b, |a - start i| ≤ 1 / 1000000 ∧ |b - goal i| ≤ 1 / 1000000 ∧ (1 / 1000000 < |goal i - start i| → a = start i ∧ b = goal i) ∧
        Move a b (sf * jointSpeed i) (sf * jointAcceleration) T (path i)) ∧
      ∀ (g : MotionGenerator XR) (t : ℝ), 0 ≤ t →
        { g with time := XR.fin 0 } = ((MotionGenerator.new (XR.fin sf) (Arr.fin goal)).generate_motion s0 0).1 →
        Arr.add g.q_start (g.calculate_desired_values (.fin t)).1 = Arr.fin (fun i => path i t) ∧ (g.calculate_desired_values (.fin t)).2 = decide (T ≤ t) := by
  obtain ⟨T, path, h1, h2, -, -, h3⟩ := first_call_planned sf hsf goal start s0 hs0
  exact ⟨T, path, h1, h2, h3⟩

theorem answers_later {g0 : MotionGenerator XR} {f : ℝ → JointPositions XR}
    (h : ∀ (g : MotionGenerator XR) (t : ℝ), 0 ≤ t → { g with time := XR.fin 0 } = g0 →
      f t = ⟨(g.calculate_desired_values (.fin t)).2, Arr.add g.q_start (g.calculate_desired_values (.fin t)).1⟩)
    (calls : List (RobotState XR × Nat)) : ∀ (g : MotionGenerator XR) (n : Nat), { g with time := XR.fin 0 } = g0 → g.time = .fin ((n : ℝ) / 1000) →
      (∀ c ∈ calls, 0 < c.2) → answers g calls = (callTimes n calls).map f := by
  induction calls with
  | nil => intros; rfl
  | cons c cs ih =>
    intro g n hg ht hc
    obtain ⟨s, p⟩ := c
    have hp : 0 < p := hc _ List.mem_cons_self
    have hgen : g.generate_motion s p = ({ g with time := XR.fin (((n + p : Nat) : ℝ) / 1000) }, f (((n + p : Nat) : ℝ) / 1000)) := by
      unfold MotionGenerator.generate_motion
      have e : (g.time + secs p : XR) = .fin (((n + p : Nat) : ℝ) / 1000) := by
        rw [ht, XR.secs_fin, XR.fin_add]
        congr 1
        push_cast
        ring
      have e0 : feq (XR.fin (((n + p : Nat) : ℝ) / 1000)) (lit 0 : XR) = false := by
        rw [XR.lit_fin, XR.feq_fin]
        have : (0 : ℝ) < ((n + p : Nat) : ℝ) / 1000 := by
          have : (0 : ℝ) < ((n + p : Nat) : ℝ) := by exact_mod_cast Nat.add_pos_right n hp
          positivity
        rw [decide_eq_false]
        push_cast
        push_cast at this
        linarith
      simp only [e, e0, Bool.false_eq_true, if_false]
      rw [h { g with time := XR.fin (((n + p : Nat) : ℝ) / 1000) } _ (by positivity) hg]
    unfold answers callTimes
    rw [hgen, List.map_cons]
    congr 1
    exact ih _ _ hg rfl fun c hc' => hc c (List.mem_cons_of_mem _ hc')

/-- **C52, C53.** A `MotionGenerator` for the speed factor `sf` and the joint position `goal` whose first call has period 0 and whose other calls have
any positive periods: there is a time `T` and a path for each joint, both fixed at the first call whatever follows, such that every call answers the
positions of these paths at its time, and that the motion is finished exactly if its time is `T` or later. The path of each joint is a `Move` from its
start to its goal with the velocity and acceleration limits of the joint scaled by `sf`. A joint that is within 1e-6 rad of its goal does not move:
then it rests within 1e-6 rad of both. -/
theorem C52_joint_motion (sf : ℝ) (hsf : 0 < sf) (goal start : Fin 7 → ℝ) (s0 : RobotState XR) (hs0 : s0.q_d = Arr.fin start) :
    ∃ (T : ℝ) (path : Fin 7 → ℝ → ℝ), 0 ≤ T ∧
      (∀ i, ∃ a b, |a - start i| ≤ 1 / 1000000 ∧ |b - goal i| ≤ 1 / 1000000 ∧ (1 / 1000000 < |goal i - start i| → a = start i ∧ b = goal i) ∧
        Move a b (sf * jointSpeed i) (sf * jointAcceleration) T (path i)) ∧
      ∀ calls : List (RobotState XR × Nat), (∀ c ∈ calls, 0 < c.2) →
        answers (MotionGenerator.new (.fin sf) (Arr.fin goal)) ((s0, 0) :: calls) =
          (callTimes 0 ((s0, 0) :: calls)).map fun t => ⟨decide (T ≤ t), Arr.fin fun i => path i t⟩ := by
  obtain ⟨T, path, hT, hp, h⟩ := first_call sf hsf goal start s0 hs0
  refine ⟨T, path, hT, hp, fun calls hc => ?_⟩
  obtain ⟨g0, hg0⟩ : ∃ g0, g0 = ((MotionGenerator.new (XR.fin sf) (Arr.fin goal)).generate_motion s0 0).1 := ⟨_, rfl⟩
  have ht : ((MotionGenerator.new (XR.fin sf) (Arr.fin goal)).time + secs 0 : XR) = .fin 0 := by
    show (lit 0 + secs 0 : XR) = _
    rw [XR.lit_fin, XR.secs_fin, XR.fin_add]
    norm_num
  have h0 : feq (XR.fin 0) (lit 0 : XR) = true := by
    rw [XR.lit_fin, XR.feq_fin]
    norm_num
  have htime : g0.time = .fin 0 := by
    rw [hg0]
    unfold MotionGenerator.generate_motion
    simp only [ht, h0, if_true]
    rfl
  have hsame : { g0 with time := XR.fin 0 } = g0 := by rw [← htime]
  have h2 : ((MotionGenerator.new (XR.fin sf) (Arr.fin goal)).generate_motion s0 0).2 =
      ⟨(g0.calculate_desired_values (.fin 0)).2, Arr.add g0.q_start (g0.calculate_desired_values (.fin 0)).1⟩ := by
    rw [hg0]
    unfold MotionGenerator.generate_motion
    simp only [ht, h0, if_true]
    rfl
  have hf : ∀ (g : MotionGenerator XR) (t : ℝ), 0 ≤ t → { g with time := XR.fin 0 } = g0 →
      (⟨decide (T ≤ t), Arr.fin fun i => path i t⟩ : JointPositions XR) =
        ⟨(g.calculate_desired_values (.fin t)).2, Arr.add g.q_start (g.calculate_desired_values (.fin t)).1⟩ := by
    intro g t ht hg
    obtain ⟨e1, e2⟩ := h g t ht (hg.trans hg0)
    rw [e1, e2]
  unfold answers callTimes
  rw [List.map_cons, h2, ← hg0]
  congr 1
  · rw [← hf g0 0 le_rfl hsame]
    norm_num
  · exact answers_later hf calls g0 0 hsame (by rw [htime]; norm_num) hc

/-- **C53.** What a `Move` is, said without derivatives: it is continuous, it goes from `a` to `b` without turning back, it stays between them, and it
moves at most by `V` per second. -/
theorem C53_move {a b V A T : ℝ} {x : ℝ → ℝ} (h : Move a b V A T x) :
    Continuous x ∧ (a ≤ b → Monotone x) ∧ (b ≤ a → Antitone x) ∧ (∀ t, x t ∈ Set.uIcc a b) ∧ ∀ s t, |x t - x s| ≤ V * |t - s| := by
  obtain ⟨v, hv, hdir, hV, -⟩ := h.velocity
  have hdiff : Differentiable ℝ x := fun t => (hv t).differentiableAt
  have hder : ∀ t, deriv x t = v t := fun t => (hv t).deriv
  have hmono : a ≤ b → Monotone x := fun hab => monotone_of_deriv_nonneg hdiff fun t => by rw [hder]; exact (hdir t).1 hab
  have hanti : b ≤ a → Antitone x := fun hab => antitone_of_deriv_nonpos hdiff fun t => by rw [hder]; exact (hdir t).2 hab
  refine ⟨hdiff.continuous, hmono, hanti, fun t => ?_, fun s t => ?_⟩
  · have h0 : x (min t 0) = a := h.before _ (min_le_right _ _)
    have h1 : x (max t T) = b := h.after _ (le_max_right _ _)
    rcases le_total a b with hab | hab
    · rw [Set.uIcc_of_le hab, ← h0, ← h1]
      exact ⟨hmono hab (min_le_left _ _), hmono hab (le_max_left _ _)⟩
    · rw [Set.uIcc_of_ge hab, ← h0, ← h1]
      exact ⟨hanti hab (le_max_left _ _), hanti hab (min_le_left _ _)⟩
  · have := Convex.norm_image_sub_le_of_norm_hasDerivWithin_le (𝕜 := ℝ) (f := x) (f' := v) (s := Set.univ) (C := V) (x := s) (y := t)
      (fun r _ => (hv r).hasDerivWithinAt) (fun r _ => hV r) convex_univ (Set.mem_univ _) (Set.mem_univ _)
    simpa only [Real.norm_eq_abs] using this

/-- **C53.** The planned paths of `C52_joint_motion`: the two answers of any two calls differ for each joint at most by its velocity limit times the
time between the calls, every answer lies between the start and the goal (up to 1e-6 rad), and later answers are not farther from the goal. -/
theorem C53_answers (sf : ℝ) (hsf : 0 < sf) (goal start : Fin 7 → ℝ) (s0 : RobotState XR) (hs0 : s0.q_d = Arr.fin start)
    (calls : List (RobotState XR × Nat)) (hc : ∀ c ∈ calls, 0 < c.2) :
    ∃ q : ℝ → Fin 7 → ℝ,
      (answers (MotionGenerator.new (.fin sf) (Arr.fin goal)) ((s0, 0) :: calls)).map (·.q) =
        (callTimes 0 ((s0, 0) :: calls)).map (fun t => Arr.fin (q t)) ∧
      (∀ i, Continuous fun t => q t i) ∧
      (∀ i s t, |q t i - q s i| ≤ sf * jointSpeed i * |t - s|) ∧
      (∀ i t, min (start i) (goal i) - 1 / 1000000 ≤ q t i ∧ q t i ≤ max (start i) (goal i) + 1 / 1000000) ∧
      (∀ i, 1 / 1000000 < |goal i - start i| → ∀ s t, s ≤ t → |q t i - goal i| ≤ |q s i - goal i| ∧ q t i ∈ Set.uIcc (start i) (goal i)) := by
  obtain ⟨T, path, -, hp, h⟩ := C52_joint_motion sf hsf goal start s0 hs0
  refine ⟨fun t i => path i t, ?_, ?_, ?_, ?_, ?_⟩
  · rw [h calls hc, List.map_map]
    rfl
  · intro i
    obtain ⟨a, b, -, -, -, hm⟩ := hp i
    exact (C53_move hm).1
  · intro i
    obtain ⟨a, b, -, -, -, hm⟩ := hp i
    exact (C53_move hm).2.2.2.2
  · intro i t
    obtain ⟨a, b, ha, hb, hab, hm⟩ := hp i
    have hmem := (C53_move hm).2.2.2.1 t
    rw [Set.mem_uIcc] at hmem
    rw [abs_le] at ha hb
    have m1 := min_le_left (start i) (goal i)
    have m2 := min_le_right (start i) (goal i)
    have m3 := le_max_left (start i) (goal i)
    have m4 := le_max_right (start i) (goal i)
    constructor <;> rcases hmem with h1 | h1 <;> linarith [h1.1, h1.2]
  · intro i hn s t hst
    obtain ⟨a, b, -, -, hab, hm⟩ := hp i
    obtain ⟨rfl, rfl⟩ := hab hn
    obtain ⟨-, m1, m2, m3, -⟩ := C53_move hm
    refine ⟨?_, m3 t⟩
    have ht := m3 t
    have hs := m3 s
    rcases le_total (start i) (goal i) with hab | hab
    · rw [Set.uIcc_of_le hab] at ht hs
      have := m1 hab hst
      rw [abs_of_nonpos (by linarith [ht.2]), abs_of_nonpos (by linarith [hs.2])]
      linarith
    · rw [Set.uIcc_of_ge hab] at ht hs
      have := m2 hab hst
      rw [abs_of_nonneg (by linarith [ht.1]), abs_of_nonneg (by linarith [hs.1])]
      linarith

/-- **C58.** The velocities of the planned paths of any two times differ for each joint at most by its acceleration limit times the time between
them, and the joints start and end at rest. -/
theorem C58_acceleration (sf : ℝ) (hsf : 0 < sf) (goal start : Fin 7 → ℝ) (s0 : RobotState XR) (hs0 : s0.q_d = Arr.fin start)
    (calls : List (RobotState XR × Nat)) (hc : ∀ c ∈ calls, 0 < c.2) :
    ∃ (q v : ℝ → Fin 7 → ℝ) (T : ℝ),
      (answers (MotionGenerator.new (.fin sf) (Arr.fin goal)) ((s0, 0) :: calls)).map (·.q) =
        (callTimes 0 ((s0, 0) :: calls)).map (fun t => Arr.fin (q t)) ∧
      (answers (MotionGenerator.new (.fin sf) (Arr.fin goal)) ((s0, 0) :: calls)).map (·.motion_finished) =
        (callTimes 0 ((s0, 0) :: calls)).map (fun t => decide (T ≤ t)) ∧
      (∀ i t, HasDerivAt (fun t => q t i) (v t i) t) ∧
      (∀ i, v 0 i = 0 ∧ v T i = 0) ∧
      ∀ i s t, |v t i - v s i| ≤ 5 * sf * |t - s| := by
  obtain ⟨T, path, -, hp, h⟩ := C52_joint_motion sf hsf goal start s0 hs0
  have hv : ∀ i, ∃ v : ℝ → ℝ, (∀ t, HasDerivAt (path i) (v t) t) ∧ v 0 = 0 ∧ v T = 0 ∧ ∀ s t, |v t - v s| ≤ 5 * sf * |t - s| := by
    intro i
    obtain ⟨a, b, -, -, -, hm⟩ := hp i
    obtain ⟨v, hv, -, -, hA⟩ := hm.velocity
    refine ⟨v, hv, ?_, ?_, fun s t => ?_⟩
    · refine (uniqueDiffWithinAt_Iic (0 : ℝ)).eq_deriv _ (hv 0).hasDerivWithinAt ?_
      exact (hasDerivWithinAt_const 0 (Set.Iic 0) a).congr (fun t ht => hm.before t ht) (hm.before 0 le_rfl)
    · refine (uniqueDiffWithinAt_Ici T).eq_deriv _ (hv T).hasDerivWithinAt ?_
      exact (hasDerivWithinAt_const T (Set.Ici T) b).congr (fun t ht => hm.after t ht) (hm.after T le_rfl)
    · have := hA s t
      unfold jointAcceleration at this
      rwa [mul_comm 5 sf]
  choose v h1 h2 h3 h4 using hv
  refine ⟨fun t i => path i t, fun t i => v i t, T, ?_, ?_, h1, fun i => ⟨h2 i, h3 i⟩, h4⟩
  · rw [h calls hc, List.map_map]
    rfl
  · rw [h calls hc, List.map_map]
    rfl

theorem answers_unplanned (calls : List (RobotState XR × Nat)) : ∀ (g : MotionGenerator XR) (n : Nat), g.q_start = Arr.fin (fun _ => 0) →
    g.delta_q = Arr.fin (fun _ => 0) → g.time = .fin ((n : ℝ) / 1000) → (∀ c ∈ calls.head?, 0 < n + c.2) →
    ∀ a ∈ answers g calls, a = ⟨true, Arr.fin fun _ => 0⟩ := by
  induction calls with
  | nil => intro g n _ _ _ _ a ha; cases ha
  | cons c cs ih =>
    intro g n hq hd ht hc a ha
    obtain ⟨s, p⟩ := c
    have hp : 0 < n + p := hc (s, p) rfl
    have hgen : g.generate_motion s p = ({ g with time := XR.fin (((n + p : Nat) : ℝ) / 1000) }, ⟨true, Arr.fin fun _ => 0⟩) := by
      unfold MotionGenerator.generate_motion
      have e : (g.time + secs p : XR) = .fin (((n + p : Nat) : ℝ) / 1000) := by
        rw [ht, XR.secs_fin, XR.fin_add]
        congr 1
        push_cast
        ring
      have e0 : feq (XR.fin (((n + p : Nat) : ℝ) / 1000)) (lit 0 : XR) = false := by
        rw [XR.lit_fin, XR.feq_fin]
        have : (0 : ℝ) < ((n + p : Nat) : ℝ) / 1000 := by
          have : (0 : ℝ) < ((n + p : Nat) : ℝ) := by exact_mod_cast hp
          positivity
        rw [decide_eq_false]
        push_cast
        push_cast at this
        linarith
      have hj : ∀ (g' : MotionGenerator XR) t i, g'.delta_q = Arr.fin (fun _ => 0) → g'.desired_joint t i = (.fin 0, true) := fun g' t i h' => by
        have := MotionGenerator.desired_small (g := g') (i := i) (δ := 0) (t := t) (by rw [h']; rfl) (by norm_num)
        exact this
      simp only [e, e0, Bool.false_eq_true, if_false]
      congr 1
      have hall : ∀ g' : MotionGenerator XR, g'.delta_q = Arr.fin (fun _ => 0) → g'.q_start = Arr.fin (fun _ => 0) → ∀ t,
          (⟨(g'.calculate_desired_values t).2, Arr.add g'.q_start (g'.calculate_desired_values t).1⟩ : JointPositions XR) = ⟨true, Arr.fin fun _ => 0⟩ := by
        intro g' h1 h2 t
        unfold MotionGenerator.calculate_desired_values
        simp only [hj g' t _ h1]
        congr 1
        rw [h2]
        funext i
        show (XR.fin 0 + XR.fin 0 : XR) = .fin 0
        rw [XR.fin_add, add_zero]
      exact hall _ hd hq _
    unfold answers at ha
    rw [hgen] at ha
    rcases List.mem_cons.1 ha with rfl | ha
    · rfl
    · exact ih { g with time := XR.fin (((n + p : Nat) : ℝ) / 1000) } (n + p) hq hd rfl (fun c _ => by omega) a ha

/-- **C54 is false.** If the period of the first call is not 0, the start position and the goal are never taken into account: whatever the states, the
goal and the speed factor, every call answers that the motion is finished, with the joint position 0. -/
theorem C54_first_period_not_zero (sf : ℝ) (goal : Fin 7 → ℝ) (c : RobotState XR × Nat) (calls : List (RobotState XR × Nat)) (hc : 0 < c.2) :
    ∀ a ∈ answers (MotionGenerator.new (.fin sf) (Arr.fin goal)) (c :: calls), a = ⟨true, Arr.fin fun _ => 0⟩ := by
  have e0 : (lit 0 : XR) = .fin 0 := by rw [XR.lit_fin]; norm_num
  refine answers_unplanned (c :: calls) _ 0 ?_ ?_ ?_ ?_
  · funext i; exact e0
  · funext i; exact e0
  · show (lit 0 : XR) = _
    rw [e0]
    norm_num
  · intro c' hc'
    cases hc'
    omega

/-- **C54** restricted to a first call with period 0: the first answer is the current desired joint position up to 1e-6 rad, and exactly it for every
joint that has farther to go. Missing: a first call with another period, for which the claim is false, see `C54_first_period_not_zero`. -/
theorem C54_start_partial (sf : ℝ) (hsf : 0 < sf) (goal start : Fin 7 → ℝ) (s0 : RobotState XR) (hs0 : s0.q_d = Arr.fin start) :
    ∃ q : Fin 7 → ℝ, ((MotionGenerator.new (XR.fin sf) (Arr.fin goal)).generate_motion s0 0).2.q = Arr.fin q ∧
      ∀ i, |q i - start i| ≤ 1 / 1000000 ∧ (1 / 1000000 < |goal i - start i| → q i = start i) := by
  obtain ⟨T, path, -, hp, h⟩ := C52_joint_motion sf hsf goal start s0 hs0
  have := h [] (by simp)
  unfold answers callTimes at this
  rw [List.map_cons] at this
  have hq := congrArg JointPositions.q (List.cons.inj this).1
  refine ⟨fun i => path i 0, ?_, fun i => ?_⟩
  · rw [hq]
    norm_num
  · obtain ⟨a, b, ha, -, hab, hm⟩ := hp i
    show |path i 0 - start i| ≤ _ ∧ (_ → path i 0 = start i)
    rw [hm.before 0 le_rfl]
    exact ⟨ha, fun hn => (hab hn).1⟩

/-- A robot at rest in its zero position. -/
noncomputable def zeroState : RobotState XR :=
  { O_T_EE := fun _ => .fin 0, O_T_EE_d := fun _ => .fin 0, F_T_EE := fun _ => .fin 0, F_T_NE := fun _ => .fin 0,
    NE_T_EE := fun _ => .fin 0, EE_T_K := fun _ => .fin 0, m_ee := .fin 0, I_ee := fun _ => .fin 0,
    F_x_Cee := fun _ => .fin 0, m_load := .fin 0, I_load := fun _ => .fin 0, F_x_Cload := fun _ => .fin 0,
    m_total := .fin 0, I_total := fun _ => .fin 0, F_x_Ctotal := fun _ => .fin 0, elbow := fun _ => .fin 0,
    elbow_d := fun _ => .fin 0, elbow_c := fun _ => .fin 0, delbow_c := fun _ => .fin 0, ddelbow_c := fun _ => .fin 0,
    tau_J := fun _ => .fin 0, tau_J_d := fun _ => .fin 0, dtau_J := fun _ => .fin 0, q := fun _ => .fin 0,
    q_d := fun _ => .fin 0, dq := fun _ => .fin 0, dq_d := fun _ => .fin 0, ddq_d := fun _ => .fin 0,
    joint_contact := fun _ => .fin 0, cartesian_contact := fun _ => .fin 0, joint_collision := fun _ => .fin 0,
    cartesian_collision := fun _ => .fin 0, tau_ext_hat_filtered := fun _ => .fin 0, O_F_ext_hat_K := fun _ => .fin 0,
    K_F_ext_hat_K := fun _ => .fin 0, O_dP_EE_d := fun _ => .fin 0, O_ddP_O := fun _ => .fin 0, O_T_EE_c := fun _ => .fin 0,
    O_dP_EE_c := fun _ => .fin 0, O_ddP_EE_c := fun _ => .fin 0, theta := fun _ => .fin 0, dtheta := fun _ => .fin 0,
    current_errors := ⟨[]⟩, last_motion_errors := ⟨[]⟩, control_command_success_rate := .fin 0, robot_mode := .Idle, time := 0 }

/-- A case of `C52_joint_motion`: at half speed from the zero position to 1 rad, one call for the start and one `p` ms later. The motion takes
at least 0.8 s. -/
theorem C52_shown (p : Nat) (hp : 0 < p) :
    ∃ T : ℝ, 0 ≤ T ∧ ∃ a : JointPositions XR,
      answers (MotionGenerator.new (.fin (1 / 2)) (Arr.fin fun _ => 1)) [(zeroState, 0), (zeroState, p)] =
        [⟨false, Arr.fin fun _ => 0⟩, a] ∧
      (T ≤ p / 1000 → a = ⟨true, Arr.fin fun _ => 1⟩) ∧ (p / 1000 < T → a.motion_finished = false ∧ ∀ i, a.q i ≠ .fin 1) ∧ 8 / 10 ≤ T := by
  obtain ⟨T, path, hT, hpath, h⟩ := C52_joint_motion (1 / 2) (by norm_num) (fun _ => 1) (fun _ => 0) zeroState rfl
  have hm : ∀ i, Move 0 1 (1 / 2 * jointSpeed i) (1 / 2 * jointAcceleration) T (path i) := by
    intro i
    obtain ⟨a, b, -, -, hab, hm⟩ := hpath i
    obtain ⟨rfl, rfl⟩ := hab (by norm_num)
    exact hm
  have hT8 : 8 / 10 ≤ T := by
    have := (C53_move (hm 4)).2.2.2.2 0 T
    rw [(hm 4).before 0 le_rfl, (hm 4).after T le_rfl, abs_of_nonneg (by linarith : 0 ≤ T - 0)] at this
    have e : jointSpeed 4 = 2.5 := rfl
    rw [e] at this
    norm_num at this
    linarith
  have := h [(zeroState, p)] (by simpa using hp)
  rw [this]
  refine ⟨T, hT, ⟨decide (T ≤ p / 1000), Arr.fin fun i => path i (p / 1000)⟩, ?_, ?_, ?_, hT8⟩
  · simp only [callTimes, List.map_cons, List.map_nil, Nat.add_zero, Nat.zero_add, Nat.cast_zero, zero_div]
    congr 2
    · rw [decide_eq_false]; linarith
    · congr 1
      funext i
      exact (hm i).before 0 le_rfl
  · intro hle
    rw [decide_eq_true hle]
    congr 2
    funext i
    exact (hm i).after _ hle
  · intro hlt
    refine ⟨decide_eq_false (not_le.2 hlt), fun i he => ?_⟩
    exact (hm i).not_earlier (by norm_num) _ hlt ((XR.fin_inj _ _).1 he)

/-- A case of `C54_first_period_not_zero`: the robot is in its zero position and should go to 1 rad, the first call has the period 1 ms: the motion is
finished at once. -/
example : ∀ a ∈ answers (MotionGenerator.new (.fin (1 / 2)) (Arr.fin fun _ => 1)) [(zeroState, 1), (zeroState, 1)],
    a = ⟨true, Arr.fin fun _ => 0⟩ :=
  C54_first_period_not_zero _ _ _ _ (by norm_num)

/-- … and if the robot is anywhere else, it is told to jump to the zero position. -/
example : ∀ a ∈ answers (MotionGenerator.new (.fin (1 / 2)) (Arr.fin fun _ => 2)) [({ zeroState with q_d := Arr.fin fun _ => 1 }, 1)],
    a.q ≠ Arr.fin fun _ => 1 := by
  intro a ha
  rw [C54_first_period_not_zero _ _ _ _ (by norm_num) a ha]
  intro h
  have := (XR.fin_inj _ _).1 (congrFun h 0)
  norm_num at this

end Verif
