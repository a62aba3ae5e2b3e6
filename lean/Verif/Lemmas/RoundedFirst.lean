import Verif.Lemmas.RoundedPath
/-!
The first call of the motion generator if every operation is rounded: planning.
-/
set_option linter.unusedSectionVars false
namespace Verif
open Spec Fl

section
variable {V a D : ℝ}

theorem leastTime_min (hV : 0 < V) (ha : 0 < a) (hD : 0 < D) {x : ℝ} (h0 : 0 < x) (hx : x ≤ V) : leastTime V a D ≤ 3 / 2 * x / a + D / x := by
  rw [leastTime_eq hV ha hD]
  have hr := reach_pos hV ha hD
  have key : 0 ≤ (x - reach V a D) * (3 / 2 * (x * reach V a D) - a * D) := by
    unfold reach
    have e1 : 3 / 4 * (V ^ 2 / a) + 3 / 4 * (V ^ 2 / a) = 3 / 2 * V ^ 2 / a := by ring
    have e2 : 4 / 3 * D * (a * a) / (a + a) = 2 / 3 * a * D := by field_simp; ring
    rw [e1, e2]
    split
    · have h1 : 0 < Real.sqrt (2 / 3 * a * D) := Real.sqrt_pos.2 (by positivity)
      have h2 : Real.sqrt (2 / 3 * a * D) * Real.sqrt (2 / 3 * a * D) = 2 / 3 * a * D := Real.mul_self_sqrt (by positivity)
      generalize Real.sqrt (2 / 3 * a * D) = r at *
      have e : (x - r) * (3 / 2 * (x * r) - a * D) = 3 / 2 * r * (x - r) ^ 2 := by
        have : a * D = 3 / 2 * (r * r) := by linarith
        rw [this]; ring
      rw [e]
      positivity
    · rename_i h
      have h1 : 3 / 2 * V ^ 2 ≤ a * D := by
        rw [not_lt, div_le_iff₀ ha] at h
        linarith
      refine mul_nonneg_of_nonpos_of_nonpos (by linarith) ?_
      nlinarith
  generalize reach V a D = r at *
  rw [div_add_div _ _ ha.ne' hr.ne', div_add_div _ _ ha.ne' h0.ne', div_le_div_iff₀ (by positivity) (by positivity)]
  have : a * ((x - r) * (3 / 2 * (x * r) - a * D)) = (3 / 2 * x * x + a * D) * (a * r) - (3 / 2 * r * r + a * D) * (a * x) := by ring
  have h3 : 0 ≤ a * ((x - r) * (3 / 2 * (x * r) - a * D)) := mul_nonneg ha.le key
  linarith

theorem leastTime_profile (hV : 0 < V) (ha : 0 < a) (hD : 0 < D) : leastTime V a D = profileTime V a D := by
  rw [leastTime_eq hV ha hD]
  unfold profileTime reach
  have e1 : 3 / 4 * (V ^ 2 / a) + 3 / 4 * (V ^ 2 / a) = 3 / 2 * V ^ 2 / a := by ring
  have e2 : 4 / 3 * D * (a * a) / (a + a) = 2 / 3 * a * D := by field_simp; ring
  rw [e1, e2]
  split
  · have h1 : 0 < Real.sqrt (2 / 3 * a * D) := Real.sqrt_pos.2 (by positivity)
    have h2 : Real.sqrt (2 / 3 * a * D) * Real.sqrt (2 / 3 * a * D) = 2 / 3 * a * D := Real.mul_self_sqrt (by positivity)
    generalize Real.sqrt (2 / 3 * a * D) = r at *
    have e : D / r = 3 / 2 * r / a := by
      rw [div_eq_div_iff h1.ne' ha.ne']
      linarith
    rw [e, eq_comm, Real.sqrt_eq_iff_mul_self_eq (by positivity) (by positivity)]
    field_simp
    nlinarith
  · rfl

/-- Slightly other limits and a slightly other way need nearly the same time. -/
theorem leastTime_near (hV : 0 < V) (ha : 0 < a) (hD : 0 < D) {V' a' D' : ℝ} (v : |V' - V| ≤ 1 / 10 ^ 6 * V) (h1 : |a' - a| ≤ 1 / 10 ^ 6 * a) (d : |D' - D| ≤ 1 / 10 ^ 6 * D) :
    leastTime V' a' D' ≤ (1 + 5 / 10 ^ 6) * leastTime V a D := by
  obtain ⟨v1, v2⟩ := abs_le.1 v
  obtain ⟨b1, b2⟩ := abs_le.1 h1
  obtain ⟨d1, d2⟩ := abs_le.1 d
  have hr := reach_pos hV ha hD
  have hr2 := reach_le hV ha hD
  have hV' : 0 < V' := by linarith
  have ha' : 0 < a' := by linarith
  have hD' : 0 < D' := by linarith
  rw [leastTime_eq hV ha hD]
  generalize reach V a D = r at *
  refine (leastTime_min hV' ha' hD' (x := r * (1 - 1 / 10 ^ 6)) (by positivity) (by nlinarith)).trans ?_
  have q1 : 3 / 2 * (r * (1 - 1 / 10 ^ 6)) / a' ≤ (1 + 5 / 10 ^ 6) * (3 / 2 * r / a) := by
    rw [← mul_div_assoc, div_le_div_iff₀ ha' ha]
    have : 0 < r * a := by positivity
    have : r * a' ≥ r * ((1 - 1 / 10 ^ 6) * a) := mul_le_mul_of_nonneg_left (by linarith) hr.le
    nlinarith
  have q2 : D' / (r * (1 - 1 / 10 ^ 6)) ≤ (1 + 5 / 10 ^ 6) * (D / r) := by
    rw [← mul_div_assoc, div_le_div_iff₀ (by positivity) hr]
    have h5 : 0 < r * D := by positivity
    have : D' * r ≤ (1 + 1 / 10 ^ 6) * D * r := mul_le_mul_of_nonneg_right (by linarith) hr.le
    nlinarith
  linarith
end

variable {A : Rounding}

theorem MotionGenerator.rd_vecMax (v : Fin 7 → ℝ) : ∃ m, vecMax (Arr.rd v : Arr (Rd A) 7) = Rd.fin m ∧ (∀ i, v i ≤ m) ∧ ∃ j, v j = m := MotionGenerator.vecMax_fin v

theorem Rd.lit_zero (hz : A.rnd 0 = 0) : (lit 0 : Rd A) = Rd.fin 0 := by
  show Rd.round A (.fin ((0 : ℚ) : ℝ)) = _
  rw [Rat.cast_zero, rnd_fin (by norm_num), hz]

theorem rd_threshold : ∃ θ : ℝ, (DELTA_Q_MOTION_FINISHED : Rd A) = Rd.fin θ ∧ 999 / 10 ^ 9 ≤ θ ∧ |θ - 1 / 10 ^ 6| ≤ 1 / 10 ^ 20 := by
  obtain ⟨θ, h1, h2, -, -⟩ : Rel (lit (1 / 1000000) : Rd A) (1 / 10 ^ 6) 1 6 := rel_num 6 (by norm_num) (by norm_num) (by norm_num) (by norm_num)
  rw [abs_of_pos (show (0 : ℝ) < 1 / 10 ^ 6 by norm_num)] at h2
  push_cast at h2
  obtain ⟨h3, h4⟩ := abs_le.1 h2
  exact ⟨θ, h1, by linarith, h2.trans (by norm_num)⟩

theorem jointSpeed_range (i : Fin 7) : 2 ≤ jointSpeed i ∧ jointSpeed i ≤ 5 / 2 := by
  unfold jointSpeed
  fin_cases i <;> norm_num

/-- The limits of the joints. -/
theorem rd_limits {sf : ℝ} (s1 : 1 / 100 ≤ sf) (s2 : sf ≤ 1) (goal : Arr (Rd A) 7) (i : Fin 7) :
    (∃ V, (MotionGenerator.new (Rd.fin sf : Rd A) goal).dq_max i = Rd.fin V ∧ |V - sf * jointSpeed i| ≤ 1 / 10 ^ 15 * (sf * jointSpeed i)) ∧
    ∃ a, (MotionGenerator.new (Rd.fin sf : Rd A) goal).ddq_max_start i = Rd.fin a ∧ (MotionGenerator.new (Rd.fin sf : Rd A) goal).ddq_max_goal i = Rd.fin a ∧
      |a - sf * jointAcceleration| ≤ 1 / 10 ^ 15 * (sf * jointAcceleration) := by
  have hs : 0 < sf := by linarith
  have rs : Rel (Rd.fin sf : Rd A) sf 0 2 := rel_fin (by rw [abs_of_pos hs]; norm_num; linarith) (by rw [abs_of_pos hs]; norm_num; linarith)
  have go : ∀ (q : ℚ) (r : ℝ), (q : ℝ) = r → 1 ≤ r → r ≤ 10 → ∃ V, (lit q * Rd.fin sf : Rd A) = Rd.fin V ∧ |V - sf * r| ≤ 1 / 10 ^ 15 * (sf * r) := by
    intro q r hq r1 r2
    have rq : Rel (lit q : Rd A) r 1 1 := rel_num 1 hq (by norm_num) (by rw [abs_of_pos (by linarith)]; norm_num; linarith) (by rw [abs_of_pos (by linarith)]; norm_num; linarith)
    obtain ⟨V, h1, h2, -, -⟩ := rq.mul rs (by norm_num) (by norm_num) (by norm_num)
    have hp : 0 < r * sf := mul_pos (by linarith) hs
    rw [abs_of_pos hp] at h2
    push_cast at h2
    refine ⟨V, h1, ?_⟩
    rw [mul_comm sf r]
    refine h2.trans ?_
    linarith
  constructor
  · have e : (MotionGenerator.new (Rd.fin sf : Rd A) goal).dq_max i = ![lit 2, lit 2, lit 2, lit 2, lit (25 / 10), lit (25 / 10), lit (25 / 10)] i * Rd.fin sf := rfl
    rw [e]
    have c2 := go 2 2 (by norm_num) (by norm_num) (by norm_num)
    have c25 := go (25 / 10) 2.5 (by norm_num) (by norm_num) (by norm_num)
    fin_cases i
    · exact c2
    · exact c2
    · exact c2
    · exact c2
    · exact c25
    · exact c25
    · exact c25
  · obtain ⟨a, h1, h2⟩ := go 5 5 (by norm_num) (by norm_num) (by norm_num)
    exact ⟨a, h1, h1, h2⟩

theorem still_move {V a : ℝ} (hV : 0 ≤ V) (ha : 0 ≤ a) (p T : ℝ) : Move p p V a T fun _ => p :=
  ⟨fun _ _ => rfl, fun _ _ => rfl, fun h => absurd rfl h, fun _ => 0, fun t => hasDerivAt_const t p, fun _ => ⟨fun _ => le_rfl, fun _ => le_rfl⟩,
    fun _ => by rw [abs_zero]; exact hV, fun s t => by rw [sub_zero, abs_zero]; exact mul_nonneg ha (abs_nonneg _)⟩

/-- The time that the slowest joint needs. -/
theorem leastTime_bounds {sf V a D : ℝ} {i : Fin 7} (s1 : 1 / 100 ≤ sf) (s2 : sf ≤ 1) (hV : |V - sf * jointSpeed i| ≤ 1 / 10 ^ 15 * (sf * jointSpeed i))
    (ha : |a - sf * jointAcceleration| ≤ 1 / 10 ^ 15 * (sf * jointAcceleration)) (d1 : 9 / 10 ^ 7 ≤ D) (d2 : D ≤ 81 / 10) :
    1 / 100 ≤ V ∧ V ≤ 3 ∧ 1 / 25 ≤ a ∧ a ≤ 6 ∧ 9 / 10 ^ 4 ≤ leastTime V a D ∧ sf * leastTime V a D ≤ 481 / 100 ∧ leastTime V a D ≤ 406 := by
  obtain ⟨j1, j2⟩ := jointSpeed_range i
  unfold jointAcceleration at ha
  obtain ⟨v1, v2⟩ := abs_le.1 hV
  obtain ⟨a1, a2⟩ := abs_le.1 ha
  have k1 : sf * 2 ≤ sf * jointSpeed i := mul_le_mul_of_nonneg_left j1 (by linarith)
  have k2 : sf * jointSpeed i ≤ sf * (5 / 2) := mul_le_mul_of_nonneg_left j2 (by linarith)
  have hV0 : 0 < V := by linarith
  have ha0 : 0 < a := by linarith
  have hD0 : 0 < D := lt_of_lt_of_le (by norm_num) d1
  refine ⟨by linarith, by linarith, by linarith, by linarith, ?_, ?_, ?_⟩
  · have h1 := leastTime_ge hV0 ha0 hD0
    have h0 := leastTime_pos hV0 ha0 hD0
    rw [div_le_iff₀ ha0] at h1
    by_contra hc
    have h3 : leastTime V a D ^ 2 < (9 / 10 ^ 4) ^ 2 := pow_lt_pow_left₀ (not_le.1 hc) h0.le (by norm_num)
    have h4 : leastTime V a D ^ 2 * a ≤ (9 / 10 ^ 4) ^ 2 * 6 := mul_le_mul h3.le (by linarith) ha0.le (by norm_num)
    linarith
  · have h1 := leastTime_min hV0 ha0 hD0 hV0 le_rfl
    have q1 : 3 / 2 * V / a ≤ 751 / 1000 := by
      rw [div_le_iff₀ ha0]; linarith
    have q2 : sf * (D / V) ≤ 4055 / 1000 := by
      rw [← mul_div_assoc, div_le_iff₀ hV0]
      have : sf * D ≤ sf * (81 / 10) := mul_le_mul_of_nonneg_left d2 (by linarith)
      linarith
    have q3 : sf * leastTime V a D ≤ sf * (751 / 1000 + D / V) := mul_le_mul_of_nonneg_left (by linarith) (by linarith)
    have q4 : sf * (751 / 1000 + D / V) = sf * (751 / 1000) + sf * (D / V) := by ring
    linarith
  · have h1 := leastTime_min hV0 ha0 hD0 hV0 le_rfl
    have q1 : 3 / 2 * V / a ≤ 751 / 1000 := by
      rw [div_le_iff₀ ha0]; linarith
    have q2 : D / V ≤ 4051 / 10 := by
      rw [div_le_iff₀ hV0]; linarith
    linarith

/-- The shape of a planned path: the joint rests, or it speeds up and slows down in the time `τ` each. -/
def PathShape (start sf T : ℝ) (x : ℝ → ℝ) : Prop := (∃ c, |c - start| ≤ 1001 / 10 ^ 9 ∧ x = fun _ => c) ∨
  ∃ d v τ t2 : ℝ, (d = 1 ∨ d = -1) ∧ x = profile start d v τ t2 ∧ 0 < v ∧ 0 < τ ∧ (1 - 1 / 10 ^ 4) * τ ≤ t2 ∧ T = t2 + τ ∧ 3 / 2 * v / τ ≤ 1001 / 1000 * (sf * jointAcceleration)

set_option maxHeartbeats 1000000 in
theorem rd_first_shape (hz : A.rnd 0 = 0) {sf : ℝ} (s1 : 1 / 100 ≤ sf) (s2 : sf ≤ 1) (goal start : Fin 7 → ℝ) (hgoal : ∀ i, |goal i| ≤ 4) (hstart : ∀ i, |start i| ≤ 4)
    (s0 : RobotState (Rd A)) (hs0 : s0.q_d = Arr.rd start) :
    ∃ (L : ℝ) (T tf : Fin 7 → ℝ) (path : Fin 7 → ℝ → ℝ), 0 ≤ L ∧ sf * L ≤ 5 ∧
      (L = 0 ∨ ∃ j, |L - profileTime (sf * jointSpeed j) (sf * jointAcceleration) (|goal j - start j|)| ≤ L / 1000) ∧
      (∀ i, JointPlan (start i) (goal i) (sf * jointSpeed i) (sf * jointAcceleration) L (T i) (path i)) ∧ (∀ i, |tf i - T i| ≤ 1 / 10 ^ 12) ∧
      (∀ i, PathShape (start i) sf (T i) (path i)) ∧
      ∀ (g : MotionGenerator (Rd A)) (t : ℝ), t = 0 ∨ 1 / 10 ^ 4 ≤ t →
        { g with time := Rd.fin 0 } = ((MotionGenerator.new (Rd.fin sf) (Arr.rd goal)).generate_motion s0 0).1 →
        (∀ i, Near ((Arr.add g.q_start (g.calculate_desired_values (Rd.fin t)).1) i) (path i t) (2 / 10 ^ 9)) ∧
        ((g.calculate_desired_values (Rd.fin t)).2 = true ↔ ∀ i, tf i ≤ t) := by
  obtain ⟨θ, eθ, θ1, θ2⟩ := rd_threshold (A := A)
  obtain ⟨θ3, θ4⟩ := abs_le.1 θ2
  have hsf : 0 < sf := by linarith
  have hacc : 0 < sf * jointAcceleration := mul_pos hsf (by unfold jointAcceleration; norm_num)
  have hspeed : ∀ i, 0 < sf * jointSpeed i := fun i => mul_pos hsf (by have := (jointSpeed_range i).1; linarith)
  have hlim := rd_limits (A := A) s1 s2 (Arr.rd goal)
  choose V hV hV' using fun i => (hlim i).1
  choose a ha ha' hacc' using fun i => (hlim i).2
  obtain ⟨δ, hδd⟩ : ∃ δ : Fin 7 → ℝ, δ = fun i => A.rnd (goal i - start i) := ⟨_, rfl⟩
  have hway : ∀ i, |goal i - start i| ≤ 8 := fun i => (abs_sub _ _).trans (by linarith [hgoal i, hstart i])
  have hδn : ∀ i, |δ i - (goal i - start i)| ≤ 1 / 10 ^ 15 := fun i => by
    rw [hδd]
    refine (rnd_le _).trans ?_
    linarith [hway i]
  have hδ8 : ∀ i, |δ i| ≤ 81 / 10 := fun i => by
    have := abs_sub_abs_le_abs_sub (δ i) (goal i - start i)
    linarith [hδn i, hway i]
  have hδ9 : ∀ i, |(|δ i|) - (|goal i - start i|)| ≤ 1 / 10 ^ 15 := fun i => (abs_abs_sub_abs_le _ _).trans (hδn i)
  obtain ⟨g1, hg1⟩ : ∃ g1 : MotionGenerator (Rd A), g1 = { MotionGenerator.new (Rd.fin sf) (Arr.rd goal) with
      time := Rd.fin 0
      q_start := Arr.rd start
      delta_q := Arr.rd δ } := ⟨_, rfl⟩
  have hδ : ∀ i, g1.delta_q i = Rd.fin (δ i) := fun i => by rw [hg1]; rfl
  have hv : ∀ i, g1.dq_max i = Rd.fin (V i) := fun i => by rw [hg1]; exact hV i
  have hs : ∀ i, g1.ddq_max_start i = Rd.fin (a i) := fun i => by rw [hg1]; exact ha i
  have hg : ∀ i, g1.ddq_max_goal i = Rd.fin (a i) := fun i => by rw [hg1]; exact ha' i
  have hfirst : ((MotionGenerator.new (Rd.fin sf) (Arr.rd goal)).generate_motion s0 0).1 = g1.calculate_synchronized_values := by
    unfold MotionGenerator.generate_motion
    have ht : ((MotionGenerator.new (Rd.fin sf) (Arr.rd goal)).time + secs 0 : Rd A) = Rd.fin 0 := by
      show (lit 0 + Rd.round A (.fin ((0 : ℕ) / 1000)) : Rd A) = _
      rw [Rd.lit_zero hz, Nat.cast_zero, zero_div, rnd_fin (by norm_num), hz]
      show Rd.round A (.fin (0 + 0)) = _
      rw [add_zero, rnd_fin (by norm_num), hz]
    have h0 : feq (Rd.fin 0 : Rd A) (lit 0 : Rd A) = true := by
      rw [Rd.lit_zero hz]
      exact (XR.feq_fin 0 0).trans (by simp)
    simp only [ht, h0, if_true]
    congr 1
    rw [hg1, hs0]
    congr 1
    funext i
    show (Rd.fin (goal i) - Rd.fin (start i) : Rd A) = Rd.fin (δ i)
    rw [Rd.sub_fin, rnd_fin (by linarith [hway i]), hδd]
  have hmv : ∀ i, flt (DELTA_Q_MOTION_FINISHED : Rd A) (fabs (g1.delta_q i)) = decide (θ < |δ i|) := fun i => by rw [hδ, eθ, Rd.fabs_fin, Rd.flt_fin]
  have hbd : ∀ i, θ < |δ i| → _ := fun i hn => leastTime_bounds (D := |δ i|) s1 s2 (hV' i) (hacc' i) (by linarith) (hδ8 i)
  -- the times
  have ht : ∀ i, ∃ t, g1.unsync_t_f i = Rd.fin t ∧ 0 ≤ t ∧ (θ < |δ i| → |t - leastTime (V i) (a i) (|δ i|)| ≤ 4 / 10 ^ 15 * leastTime (V i) (a i) (|δ i|)) ∧ (¬ θ < |δ i| → t = 0) := by
    intro i
    by_cases hn : θ < |δ i|
    · obtain ⟨b1, b2, b3, b4, b5, b6, b7⟩ := hbd i hn
      obtain ⟨t, h1, h2, -, -⟩ := MotionGenerator.rd_unsync (hδ i) (hv i) (hs i) (hg i) b1 (by linarith) (by linarith) (by linarith) (by linarith) (by linarith [hδ8 i]) (by rw [hmv]; exact decide_eq_true hn)
      rw [abs_of_pos (show 0 < leastTime (V i) (a i) (|δ i|) by linarith)] at h2
      push_cast at h2
      obtain ⟨h3, h4⟩ := abs_le.1 h2
      exact ⟨t, h1, by linarith, fun _ => h2.trans (by linarith), fun h => absurd hn h⟩
    · refine ⟨0, ?_, le_rfl, fun h => absurd h hn, fun _ => rfl⟩
      unfold MotionGenerator.unsync_t_f
      rw [hmv, if_neg (by simpa using hn), Rd.lit_zero hz]
  choose u hu hu0 hum hus using ht
  obtain ⟨L, hL, hLle, j, hLj⟩ := MotionGenerator.rd_vecMax (A := A) u
  have hmax : MotionGenerator.vecMax (fun i => g1.unsync_t_f i) = Rd.fin L := by
    rw [← hL]
    congr 1
    funext i
    exact hu i
  have hL0 : 0 ≤ L := (hu0 0).trans (hLle 0)
  -- the time that is meant is the one of a joint that moves
  have hLtime : L = 0 ∨ θ < |δ j| ∧ |L - leastTime (V j) (a j) (|δ j|)| ≤ 4 / 10 ^ 15 * leastTime (V j) (a j) (|δ j|) := by
    by_cases hn : θ < |δ j|
    · exact .inr ⟨hn, by rw [← hLj]; exact hum j hn⟩
    · exact .inl (by rw [← hLj, hus j hn])
  have hsL : sf * L ≤ 482 / 100 := by
    rcases hLtime with h | ⟨hnj, h⟩
    · rw [h, mul_zero]; norm_num
    · obtain ⟨-, -, -, -, -, c6, -⟩ := hbd j hnj
      have h3 := (abs_le.1 h).2
      have h5 : sf * L ≤ sf * ((1 + 4 / 10 ^ 15) * leastTime (V j) (a j) (|δ j|)) := mul_le_mul_of_nonneg_left (by linarith) hsf.le
      have h6 : sf * ((1 + 4 / 10 ^ 15) * leastTime (V j) (a j) (|δ j|)) = (1 + 4 / 10 ^ 15) * (sf * leastTime (V j) (a j) (|δ j|)) := by ring
      linarith
  have hnear : ∀ i, θ < |δ i| → |V i - sf * jointSpeed i| ≤ 1 / 10 ^ 6 * (sf * jointSpeed i) ∧ |a i - sf * jointAcceleration| ≤ 1 / 10 ^ 6 * (sf * jointAcceleration) ∧
      |(|δ i|) - (|goal i - start i|)| ≤ 1 / 10 ^ 7 * |goal i - start i| := by
    intro i hn
    refine ⟨(hV' i).trans (mul_le_mul_of_nonneg_right (by norm_num) (hspeed i).le), (hacc' i).trans (mul_le_mul_of_nonneg_right (by norm_num) hacc.le), (hδ9 i).trans ?_⟩
    have := (abs_le.1 (hδ9 i)).2
    linarith
  have hprof : ∀ i, θ < |δ i| → |leastTime (V i) (a i) (|δ i|) - profileTime (sf * jointSpeed i) (sf * jointAcceleration) (|goal i - start i|)| ≤ 6 / 10 ^ 6 * leastTime (V i) (a i) (|δ i|) := by
    intro i hn
    obtain ⟨n1, n2, n3⟩ := hnear i hn
    have hg0 : 0 < |goal i - start i| := by
      have := (abs_le.1 (hδ9 i)).2
      linarith
    have hδ0 : 0 < |δ i| := by linarith
    have hV0 : 0 < V i := by have := hspeed i; have := (abs_le.1 n1).1; linarith
    have ha0 : 0 < a i := by have := (abs_le.1 n2).1; linarith
    rw [← leastTime_profile (hspeed i) hacc hg0]
    have p1 := leastTime_near (hspeed i) hacc hg0 n1 n2 (n3.trans (mul_le_mul_of_nonneg_right (by norm_num) hg0.le))
    have swap : ∀ {x y c : ℝ}, 0 < y → 0 ≤ c → c ≤ 1 / 10 ^ 7 → |x - y| ≤ c * y → |y - x| ≤ 1 / 10 ^ 6 * x := by
      intro x y c hy c0 hc h
      rw [abs_sub_comm]
      have h2 := (abs_le.1 h).1
      have : c * y ≤ 1 / 10 ^ 7 * y := mul_le_mul_of_nonneg_right hc hy.le
      linarith
    have p2 := leastTime_near hV0 ha0 hδ0 (swap (hspeed i) (by norm_num) (by norm_num) (hV' i)) (swap hacc (by norm_num) (by norm_num) (hacc' i)) (swap hg0 (by norm_num) (le_refl _) n3)
    have p3 := leastTime_pos hV0 ha0 hδ0
    rw [abs_le]
    constructor <;> linarith
  -- each joint
  have hj : ∀ i, ∃ (T tf : ℝ) (path : ℝ → ℝ), JointPlan (start i) (goal i) (sf * jointSpeed i) (sf * jointAcceleration) L T path ∧ |tf - T| ≤ 1 / 10 ^ 12 ∧
      PathShape (start i) sf T path ∧ ∀ (g : MotionGenerator (Rd A)) (t : ℝ), t = 0 ∨ 1 / 10 ^ 4 ≤ t → { g with time := Rd.fin 0 } = g1.calculate_synchronized_values →
        Near (Rd.fin (start i) + (g.desired_joint (Rd.fin t) i).1 : Rd A) (path t) (2 / 10 ^ 9) ∧
        ((g.desired_joint (Rd.fin t) i).2 = true ↔ tf ≤ t) := by
    intro i
    have hV1 : 0 ≤ 1001 / 1000 * (sf * jointSpeed i) := by have := hspeed i; positivity
    have ha1 : 0 ≤ 1001 / 1000 * (sf * jointAcceleration) := by positivity
    have hsi := hstart i
    have f6 : ∀ g : MotionGenerator (Rd A), { g with time := Rd.fin 0 } = g1.calculate_synchronized_values → g.delta_q i = Rd.fin (δ i) := fun g hgt => by
      have : g.delta_q i = g1.calculate_synchronized_values.delta_q i := by rw [← hgt]
      rw [this]
      exact hδ i
    by_cases hn : θ < |δ i|
    · obtain ⟨b1, b2, b3, b4, b5, b6, b7⟩ := hbd i hn
      have d1 : 9 / 10 ^ 7 ≤ |δ i| := by linarith
      have d2 : |δ i| ≤ 9 := by linarith [hδ8 i]
      have hui := hum i hn
      have hV0 : 0 < V i := by linarith
      have ha0 : 0 < a i := by linarith
      have hδ0 : 0 < |δ i| := by linarith
      -- bounds of the time
      have hLi : leastTime (V i) (a i) (|δ i|) * (1 - 1 / 10 ^ 13) ≤ L := by
        have := hLle i
        have := (abs_le.1 hui).1
        linarith
      have hLpos : 1 / 10 ^ 4 ≤ L := by linarith
      obtain ⟨hnj, hLj'⟩ := hLtime.resolve_left (by linarith)
      obtain ⟨-, -, -, -, -, c6, c7⟩ := hbd j hnj
      have hL2 : L ≤ 450 := by
        have := (abs_le.1 hLj').2
        linarith
      have k1 : 5 / 10 ^ 10 ≤ 6 * |δ i| / (a i * L ^ 2) := by
        rw [le_div_iff₀ (by positivity)]
        have e1 : a i ≤ 501 / 100 * sf := by
          have := (abs_le.1 (hacc' i)).2
          unfold jointAcceleration at this
          linarith
        have e2 : a i * L ^ 2 ≤ 501 / 100 * sf * L ^ 2 := mul_le_mul_of_nonneg_right e1 (sq_nonneg L)
        have e3 : sf * L * L ≤ 482 / 100 * 450 := mul_le_mul hsL hL2 hL0 (by norm_num)
        have e4 : 501 / 100 * sf * L ^ 2 = 501 / 100 * (sf * L * L) := by ring
        linarith
      have hLp : 0 < L := by linarith
      obtain ⟨v, t1, tf, t2, q1, h1, h2, h3, h4, h5⟩ := MotionGenerator.rd_sync hz (hδ i) (hs i) (hg i) (by linarith) b4 d1 d2 hLpos hL2 k1 (kappa_le hV0 ha0 hδ0 hLp hLi)
      have h6 := meant_le hV0 ha0 hδ0 hLp hLi
      obtain ⟨w1, w2, w3, w4, w5, w6⟩ := h2.facts (by linarith) b4 d1 d2
      have hvV : v ≤ 1001 / 1000 * (sf * jointSpeed i) := by
        have m1 := (abs_le.1 h3).2
        have m2 := (abs_le.1 (hV' i)).2
        have m3 := hspeed i
        linarith
      have hτ : 3 / 2 * v / (3 / 2 * v / a i) = a i := by field_simp
      have hai : a i ≤ 1001 / 1000 * (sf * jointAcceleration) := by
        have := (abs_le.1 (hacc' i)).2
        linarith
      refine ⟨|δ i| / v + 3 / 2 * v / a i, tf, profile (start i) (dir (δ i)) v (3 / 2 * v / a i) (|δ i| / v), ⟨⟨start i, start i + δ i, by norm_num, ?_, fun _ => ⟨rfl, ?_⟩, ?_⟩, .inr ?_, fun _ => ⟨?_, ?_⟩⟩, ?_,
        .inr ⟨dir (δ i), v, 3 / 2 * v / a i, |δ i| / v, dir_cases _, rfl, w1, by linarith, by linarith, rfl, hτ.trans_le hai⟩, ?_⟩
      · rw [show start i + δ i - goal i = δ i - (goal i - start i) by ring]
        exact (hδn i).trans (by norm_num)
      · rw [show start i + δ i - goal i = δ i - (goal i - start i) by ring]
        exact (hδn i).trans (by norm_num)
      · have := (move_profile (a := start i) (dir_cases (δ i)) w1 (show 0 < 3 / 2 * v / a i by linarith) (show 0 < |δ i| / v by linarith)).weaken hvV
        rw [hτ, ← w6] at this
        exact this.relax hai
      · rw [abs_le]
        constructor <;> linarith
      · have : 0 < (1 - 1 / 10 ^ 4) * L := mul_pos (by norm_num) hLp
        linarith
      · have := (abs_le.1 (hprof i hn)).1
        linarith
      · rw [add_comm (|δ i| / v)]
        exact h2.nearf
      · intro g t ht hgt
        have hmv' : flt (DELTA_Q_MOTION_FINISHED : Rd A) (fabs (g1.delta_q i)) = true := by rw [hmv]; exact decide_eq_true hn
        have f1 : g.dq_max_sync i = Rd.fin v := by
          have : g.dq_max_sync i = g1.calculate_synchronized_values.dq_max_sync i := by rw [← hgt]
          rw [this]
          unfold MotionGenerator.calculate_synchronized_values
          simp only [hmv', if_true, hmax, h1]
        have f2 : g.t_1_sync i = Rd.fin t1 := by
          have : g.t_1_sync i = g1.calculate_synchronized_values.t_1_sync i := by rw [← hgt]
          rw [this]
          unfold MotionGenerator.calculate_synchronized_values
          simp only [hmv', if_true, hmax, h1]
        have f3 : g.t_2_sync i = Rd.fin t2 := by
          have : g.t_2_sync i = g1.calculate_synchronized_values.t_2_sync i := by rw [← hgt]
          rw [this]
          unfold MotionGenerator.calculate_synchronized_values
          simp only [hmv', if_true, hmax, h1]
        have f4 : g.t_f_sync i = Rd.fin tf := by
          have : g.t_f_sync i = g1.calculate_synchronized_values.t_f_sync i := by rw [← hgt]
          rw [this]
          unfold MotionGenerator.calculate_synchronized_values
          simp only [hmv', if_true, hmax, h1]
        have f5 : g.q_1 i = Rd.fin q1 := by
          have : g.q_1 i = g1.calculate_synchronized_values.q_1 i := by rw [← hgt]
          rw [this]
          unfold MotionGenerator.calculate_synchronized_values
          simp only [hmv', if_true, hmax, h1]
        obtain ⟨n1, n2⟩ := MotionGenerator.rd_desired hz h2 (by linarith) b4 d1 d2 ht (f6 g hgt) f1 f2 f3 f4 f5
          (by rw [f6 g hgt, eθ, Rd.fabs_fin, Rd.flt_fin]; exact decide_eq_false (not_lt.2 hn.le))
        refine ⟨?_, by rw [n2]; exact decide_eq_true_iff⟩
        have e : start i + profile 0 (dir (δ i)) v (3 / 2 * v / a i) (|δ i| / v) t = profile (start i) (dir (δ i)) v (3 / 2 * v / a i) (|δ i| / v) t := by
          unfold profile; ring
        have hpr : |profile 0 (dir (δ i)) v (3 / 2 * v / a i) (|δ i| / v) t| ≤ 9 := by
          have hτ0 : 0 < 3 / 2 * v / a i := by linarith
          have m1 := ramp_sub ((t - |δ i| / v) / (3 / 2 * v / a i)) (t / (3 / 2 * v / a i))
          rw [← sub_div, sub_sub_cancel, abs_of_nonneg (show 0 ≤ |δ i| / v / (3 / 2 * v / a i) by positivity)] at m1
          unfold profile
          rw [zero_add, abs_mul, show |dir (δ i)| = 1 by rcases dir_cases (δ i) with h | h <;> rw [h] <;> norm_num, one_mul, abs_mul, abs_of_pos (show 0 < v * (3 / 2 * v / a i) by positivity)]
          refine (mul_le_mul_of_nonneg_left m1 (by positivity)).trans ?_
          rw [show v * (3 / 2 * v / a i) * (|δ i| / v / (3 / 2 * v / a i)) = |δ i| by field_simp]
          exact d2
        refine ((near_fin (A := A) (start i)).add n1 (B := 20) ?_ (by norm_num) (by norm_num)).weaken ?_
        · have := abs_add_le (start i) (profile 0 (dir (δ i)) v (3 / 2 * v / a i) (|δ i| / v) t)
          linarith
        · rw [e, sub_self, abs_zero]
          norm_num
    · have hle : |δ i| ≤ θ := not_lt.1 hn
      have hgs : |goal i - start i| ≤ 1001 / 10 ^ 9 := by
        have := (abs_le.1 (hδ9 i)).1
        linarith
      have hmv' : ¬ flt (DELTA_Q_MOTION_FINISHED : Rd A) (fabs (g1.delta_q i)) = true := by rw [hmv]; simpa using hn
      by_cases hlt : |δ i| < θ
      · refine ⟨0, 0, fun _ => start i, ⟨⟨start i, start i, by norm_num, by rwa [abs_sub_comm], fun h => absurd hgs (not_le.2 h), still_move hV1 ha1 _ _⟩, .inl rfl, fun h => absurd hgs (not_le.2 h)⟩, by norm_num,
          .inl ⟨start i, by norm_num, rfl⟩, ?_⟩
        intro g t ht hgt
        have : g.desired_joint (Rd.fin t) i = (lit 0, true) := by
          unfold MotionGenerator.desired_joint
          simp only [f6 g hgt, Rd.fabs_fin, eθ, Rd.flt_fin, decide_eq_true hlt, if_true]
        rw [this, Rd.lit_zero hz]
        refine ⟨((near_fin (A := A) (start i)).add (near_fin (A := A) 0) (B := 5) (by rw [add_zero]; linarith) (by norm_num) (by norm_num)).weaken ?_, ?_⟩
        · show _ + |start i + 0 - start i| ≤ _
          rw [add_zero (start i), sub_self, abs_zero]; norm_num
        · simp only [true_iff]
          rcases ht with h | h <;> linarith
      · refine ⟨0, 0, fun _ => goal i, ⟨⟨goal i, goal i, hgs, by norm_num, fun h => absurd hgs (not_le.2 h), still_move hV1 ha1 _ _⟩, .inl rfl, fun h => absurd hgs (not_le.2 h)⟩, by norm_num,
          .inl ⟨goal i, hgs, rfl⟩, ?_⟩
        intro g t ht hgt
        have ht0 : 0 ≤ t := by rcases ht with h | h <;> linarith
        have e0 := Rd.lit_zero hz
        have f2 : g.t_1_sync i = Rd.fin 0 := by
          have : g.t_1_sync i = g1.calculate_synchronized_values.t_1_sync i := by rw [← hgt]
          rw [this]
          unfold MotionGenerator.calculate_synchronized_values
          simp only [if_neg hmv']
          rw [hg1]
          exact e0
        have f3 : g.t_2_sync i = Rd.fin 0 := by
          have : g.t_2_sync i = g1.calculate_synchronized_values.t_2_sync i := by rw [← hgt]
          rw [this]
          unfold MotionGenerator.calculate_synchronized_values
          simp only [if_neg hmv']
          rw [hg1]
          exact e0
        have f4 : g.t_f_sync i = Rd.fin 0 := by
          have : g.t_f_sync i = g1.calculate_synchronized_values.t_f_sync i := by rw [← hgt]
          rw [this]
          unfold MotionGenerator.calculate_synchronized_values
          simp only [if_neg hmv']
          rw [hg1]
          exact e0
        have : g.desired_joint (Rd.fin t) i = (Rd.fin (δ i), true) := by
          unfold MotionGenerator.desired_joint
          simp only [f6 g hgt, f2, f3, f4, Rd.fabs_fin, eθ, Rd.flt_fin, Rd.fle_fin, hlt, decide_false, Bool.false_eq_true, if_false, not_lt.2 ht0, Bool.and_false]
        rw [this]
        refine ⟨((near_fin (A := A) (start i)).add (near_fin (A := A) (δ i)) (B := 20) ?_ (by norm_num) (by norm_num)).weaken ?_, ?_⟩
        · have := abs_add_le (start i) (δ i)
          linarith [hδ8 i]
        · have : |start i + δ i - goal i| ≤ 1 / 10 ^ 15 := by rw [show start i + δ i - goal i = δ i - (goal i - start i) by ring]; exact hδn i
          linarith
        · simp only [true_iff]
          exact ht0
  choose T tf path hp1 hp2 hp4 hp3 using hj
  refine ⟨L, T, tf, path, hL0, by linarith, ?_, hp1, hp2, hp4, ?_⟩
  · rcases hLtime with h | ⟨hn, h⟩
    · exact .inl h
    · refine .inr ⟨j, ?_⟩
      have h1 := hprof j hn
      have h2 := abs_sub_le L (leastTime (V j) (a j) (|δ j|)) (profileTime (sf * jointSpeed j) (sf * jointAcceleration) (|goal j - start j|))
      have h3 := (abs_le.1 h).1
      obtain ⟨-, -, -, -, b5, -, -⟩ := hbd j hn
      linarith
  · intro g t ht hgt
    rw [hfirst] at hgt
    constructor
    · intro i
      have hq : g.q_start = Arr.rd start := by
        have : g.q_start = g1.calculate_synchronized_values.q_start := by rw [← hgt]
        rw [this]
        unfold MotionGenerator.calculate_synchronized_values
        rw [hg1]
      rw [hq]
      exact (hp3 i g t ht hgt).1
    · show Arr.all (n := 7) id (fun i => (g.desired_joint (Rd.fin t) i).2) = true ↔ _
      unfold Arr.all
      simp only [decide_eq_true_eq, id, (hp3 _ g t ht hgt).2]

theorem rd_first_call (hz : A.rnd 0 = 0) {sf : ℝ} (s1 : 1 / 100 ≤ sf) (s2 : sf ≤ 1) (goal start : Fin 7 → ℝ) (hgoal : ∀ i, |goal i| ≤ 4) (hstart : ∀ i, |start i| ≤ 4)
    (s0 : RobotState (Rd A)) (hs0 : s0.q_d = Arr.rd start) :
    ∃ (L : ℝ) (T tf : Fin 7 → ℝ) (path : Fin 7 → ℝ → ℝ), 0 ≤ L ∧ sf * L ≤ 5 ∧
      (L = 0 ∨ ∃ j, |L - profileTime (sf * jointSpeed j) (sf * jointAcceleration) (|goal j - start j|)| ≤ L / 1000) ∧
      (∀ i, JointPlan (start i) (goal i) (sf * jointSpeed i) (sf * jointAcceleration) L (T i) (path i)) ∧ (∀ i, |tf i - T i| ≤ 1 / 10 ^ 12) ∧
      ∀ (g : MotionGenerator (Rd A)) (t : ℝ), t = 0 ∨ 1 / 10 ^ 4 ≤ t →
        { g with time := Rd.fin 0 } = ((MotionGenerator.new (Rd.fin sf) (Arr.rd goal)).generate_motion s0 0).1 →
        (∀ i, Near ((Arr.add g.q_start (g.calculate_desired_values (Rd.fin t)).1) i) (path i t) (2 / 10 ^ 9)) ∧
        ((g.calculate_desired_values (Rd.fin t)).2 = true ↔ ∀ i, tf i ≤ t) := by
  obtain ⟨L, T, tf, path, h1, h2, h3, h4, h5, -, h6⟩ := rd_first_shape hz s1 s2 goal start hgoal hstart s0 hs0
  exact ⟨L, T, tf, path, h1, h2, h3, h4, h5, h6⟩

end Verif
