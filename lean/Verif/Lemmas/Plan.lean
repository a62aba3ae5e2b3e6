import Verif.Lemmas.Ramp
import Verif.Lemmas.Real
import Mathlib.Analysis.SpecialFunctions.Pow.NNReal
/-!
What the motion generator plans, over the real numbers.
-/
set_option linter.unusedSectionVars false
namespace Verif
open Fl

/-- The velocity a joint can reach on its way `D`. -/
noncomputable def reach (V A D : ℝ) : ℝ := if D < 3 / 4 * (V ^ 2 / A) + 3 / 4 * (V ^ 2 / A) then Real.sqrt (4 / 3 * D * (A * A) / (A + A)) else V

/-- The least time of a joint for the way `D`. -/
noncomputable def leastTime (V A D : ℝ) : ℝ := 15 / 10 * reach V A D / A / 2 + 15 / 10 * reach V A D / A / 2 + D / reach V A D

/-- The greatest velocity of a joint if it has the time `T` for the way `D`. -/
noncomputable def syncSpeed (A T D : ℝ) : ℝ :=
  (T * A * A - Real.sqrt (max (-T * A * A * (-T * A * A) - 4 * (15 / 10 / 2 * (A + A)) * (D * A * A)) 0)) / (2 * (15 / 10 / 2 * (A + A)))

section
variable {V A T D : ℝ} (hV : 0 < V) (hA : 0 < A) (hD : 0 < D)
include hV hA hD

theorem reach_pos : 0 < reach V A D := by
  unfold reach
  split
  · exact Real.sqrt_pos.2 (by positivity)
  · exact hV

theorem reach_le : reach V A D ≤ V := by
  unfold reach
  split
  · rename_i h
    rw [Real.sqrt_le_left hV.le]
    have : 4 / 3 * D * (A * A) / (A + A) = 2 / 3 * A * D := by field_simp; ring
    rw [this]
    have h2 : 3 / 4 * (V ^ 2 / A) + 3 / 4 * (V ^ 2 / A) = 3 / 2 * V ^ 2 / A := by field_simp; ring
    rw [h2, lt_div_iff₀ hA] at h
    nlinarith
  · exact le_rfl

theorem leastTime_eq : leastTime V A D = 3 / 2 * reach V A D / A + D / reach V A D := by
  unfold leastTime
  ring

theorem leastTime_pos : 0 < leastTime V A D := by
  rw [leastTime_eq hV hA hD]
  have := reach_pos hV hA hD
  positivity

/-- The quadratic equation of the velocity. -/
theorem syncSpeed_spec (hT : leastTime V A D ≤ T) :
    0 < syncSpeed A T D ∧ syncSpeed A T D ≤ V ∧ 3 / 2 * syncSpeed A T D / A + D / syncSpeed A T D = T ∧ syncSpeed A T D ^ 2 ≤ 2 / 3 * A * D := by
  have hr := reach_pos hV hA hD
  have hrV := reach_le hV hA hD
  rw [leastTime_eq hV hA hD] at hT
  generalize reach V A D = r at hr hrV hT
  have hT0 : 0 < T := lt_of_lt_of_le (by positivity) hT
  -- the disc.
  have hq : 3 / 2 * r ^ 2 - T * A * r + D * A ≤ 0 := by
    have : (3 / 2 * r / A + D / r) * (A * r) ≤ T * (A * r) := mul_le_mul_of_nonneg_right hT (by positivity)
    have e : (3 / 2 * r / A + D / r) * (A * r) = 3 / 2 * r ^ 2 + D * A := by field_simp
    rw [e] at this
    linarith
  have hdisc : 0 ≤ (T * A) ^ 2 - 6 * (D * A) := by nlinarith [sq_nonneg (3 * r - T * A)]
  have hs : syncSpeed A T D = (T * A - Real.sqrt ((T * A) ^ 2 - 6 * (D * A))) / 3 := by
    unfold syncSpeed
    have e : -T * A * A * (-T * A * A) - 4 * (15 / 10 / 2 * (A + A)) * (D * A * A) = A ^ 2 * ((T * A) ^ 2 - 6 * (D * A)) := by ring
    rw [e, max_eq_left (by positivity), Real.sqrt_mul (by positivity), Real.sqrt_sq hA.le]
    field_simp
    ring
  rw [hs]
  have hw := Real.sqrt_nonneg ((T * A) ^ 2 - 6 * (D * A))
  have hw2 := Real.sq_sqrt hdisc
  generalize Real.sqrt ((T * A) ^ 2 - 6 * (D * A)) = w at hw hw2
  have hTA : 0 < T * A := by positivity
  have hDA : 0 < D * A := by positivity
  have hlt : w < T * A := by nlinarith
  have hpos : 0 < (T * A - w) / 3 := by linarith
  have heq : 3 / 2 * ((T * A - w) / 3) ^ 2 - T * A * ((T * A - w) / 3) + D * A = 0 := by nlinarith
  refine ⟨hpos, ?_, ?_, ?_⟩
  · have : (T * A - w) / 3 ≤ r := by nlinarith
    linarith
  · generalize (T * A - w) / 3 = v at hpos heq
    field_simp
    nlinarith
  · nlinarith

end

theorem dead_band : (DELTA_Q_MOTION_FINISHED : XR) = .fin (1 / 1000000) := by
  unfold DELTA_Q_MOTION_FINISHED
  rw [XR.lit_fin]
  norm_num

/-- The direction of a way. -/
noncomputable def dir (δ : ℝ) : ℝ := if δ < 0 then -1 else 1

theorem dir_cases (δ : ℝ) : dir δ = 1 ∨ dir δ = -1 := by unfold dir; split <;> simp

theorem mul_dir (δ : ℝ) : δ * dir δ = |δ| := by
  unfold dir
  split
  · rw [abs_of_neg ‹_›]; ring
  · rw [abs_of_nonneg (not_lt.1 ‹_›), mul_one]

theorem dir_mul_abs (δ : ℝ) : dir δ * |δ| = δ := by
  rw [← mul_dir]
  rcases dir_cases δ with h | h <;> rw [h] <;> ring

namespace MotionGenerator

theorem desired_small {g : MotionGenerator XR} {i : Fin 7} {δ : ℝ} (hδ : g.delta_q i = .fin δ) (h : |δ| < 1 / 1000000) (t : XR) :
    g.desired_joint t i = (.fin 0, true) := by
  unfold desired_joint
  simp only [hδ, XR.fabs_fin, dead_band, XR.flt_fin, h, decide_true, if_true, XR.lit_fin]
  norm_num

theorem desired_moving {g : MotionGenerator XR} {i : Fin 7} {δ v τ t2 t : ℝ} (hδ : g.delta_q i = .fin δ) (hv : g.dq_max_sync i = .fin v)
    (h1 : g.t_1_sync i = .fin τ) (h2 : g.t_2_sync i = .fin t2) (hf : g.t_f_sync i = .fin (t2 + τ)) (hq : g.q_1 i = .fin (v * dir δ * (5 / 10 * τ)))
    (hD : |δ| = v * t2) (hτ : 0 < τ) (h12 : τ ≤ t2) (hn : ¬ |δ| < 1 / 1000000) (ht : 0 ≤ t) :
    g.desired_joint (.fin t) i = (.fin (profile 0 (dir δ) v τ t2 t), decide (t2 + τ ≤ t)) := by
  have hδ' : δ = dir δ * (v * t2) := by rw [← hD, dir_mul_abs]
  unfold desired_joint profile
  simp only [hδ, XR.fabs_fin, dead_band, XR.flt_fin, XR.fle_fin, hn, decide_false, Bool.false_eq_true, if_false, h1, h2, hf, hv, hq, XR.signum_fin, XR.lit_fin,
    XR.fin_sub, XR.powi_fin, XR.fin_mul, XR.fin_add, add_sub_cancel_left]
  rw [show (if δ < 0 then -1 else 1) = dir δ from rfl]
  by_cases c1 : t < τ
  · rw [if_pos (by simpa using c1), ramp_of_mem (z := t / τ) (by positivity) (by rw [div_le_one hτ]; exact c1.le),
      ramp_of_nonpos (z := (t - t2) / τ) (div_nonpos_of_nonpos_of_nonneg (by linarith) hτ.le), XR.fin_div _ _ (by positivity)]
    simp only [XR.fin_mul]
    have : ¬ t2 + τ ≤ t := by linarith
    simp only [this, decide_false]
    congr 2
    push_cast
    field_simp
    ring
  · rw [if_neg (by simpa using c1)]
    have c1' : τ ≤ t := not_lt.1 c1
    by_cases c2 : t < t2
    · rw [if_pos (by simp [c1', c2]), ramp_of_ge (z := t / τ) (by rw [le_div_iff₀ hτ]; linarith),
        ramp_of_nonpos (z := (t - t2) / τ) (div_nonpos_of_nonpos_of_nonneg (by linarith) hτ.le)]
      have : ¬ t2 + τ ≤ t := by linarith
      simp only [this, decide_false]
      congr 2
      field_simp
      ring
    · rw [if_neg (by simp [c2])]
      have c2' : t2 ≤ t := not_lt.1 c2
      by_cases c3 : t < t2 + τ
      · rw [if_pos (by simp [c2', c3]), ramp_of_ge (z := t / τ) (by rw [le_div_iff₀ hτ]; linarith),
          ramp_of_mem (z := (t - t2) / τ) (div_nonneg (by linarith) hτ.le) (by rw [div_le_one hτ]; linarith), XR.fin_div _ _ (by positivity)]
        simp only [XR.fin_mul, XR.fin_add]
        have : ¬ t2 + τ ≤ t := by linarith
        simp only [this, decide_false]
        congr 2
        push_cast
        generalize dir δ = d at hδ' ⊢
        rw [hδ']
        field_simp
        ring
      · rw [if_neg (by simp [c3])]
        have c3' : t2 + τ ≤ t := not_lt.1 c3
        rw [ramp_of_ge (z := t / τ) (by rw [le_div_iff₀ hτ]; linarith), ramp_of_ge (z := (t - t2) / τ) (by rw [le_div_iff₀ hτ]; linarith)]
        simp only [c3', decide_true]
        congr 2
        conv_lhs => rw [hδ']
        field_simp
        ring

theorem unsync_moving {g : MotionGenerator XR} {i : Fin 7} {δ V A : ℝ} (hδ : g.delta_q i = .fin δ) (hV : g.dq_max i = .fin V)
    (hs : g.ddq_max_start i = .fin A) (hg : g.ddq_max_goal i = .fin A) (hV0 : 0 < V) (hA : 0 < A) (hn : 1 / 1000000 < |δ|) :
    g.unsync_t_f i = .fin (leastTime V A |δ|) := by
  have hD : 0 < |δ| := lt_trans (by norm_num) hn
  have hr := reach_pos hV0 hA hD
  have e34 : (lit 3 / lit 4 : XR) = .fin (3 / 4) := by rw [XR.lit_fin, XR.lit_fin, XR.fin_div _ _ (by norm_num)]; norm_num
  have e43 : (lit 4 / lit 3 : XR) = .fin (4 / 3) := by rw [XR.lit_fin, XR.lit_fin, XR.fin_div _ _ (by norm_num)]; norm_num
  have e15 : (lit (15 / 10) : XR) = .fin (15 / 10) := by rw [XR.lit_fin]; norm_num
  have e2 : (lit 2 : XR) = .fin 2 := by rw [XR.lit_fin]; norm_num
  have hthr : (lit 3 / lit 4 * (powi (g.dq_max i) 2 / g.ddq_max_start i) + lit 3 / lit 4 * (powi (g.dq_max i) 2 / g.ddq_max_goal i) : XR) =
      .fin (3 / 4 * (V ^ 2 / A) + 3 / 4 * (V ^ 2 / A)) := by
    rw [hV, hs, hg, e34, XR.powi_fin, XR.fin_div _ _ hA.ne', XR.fin_mul, XR.fin_add]
  have hroot : fsqrt (lit 4 / lit 3 * g.delta_q i * signum (g.delta_q i) * (g.ddq_max_start i * g.ddq_max_goal i) / (g.ddq_max_start i + g.ddq_max_goal i)) =
      XR.fin (Real.sqrt (4 / 3 * |δ| * (A * A) / (A + A))) := by
    have e : 4 / 3 * δ * dir δ * (A * A) / (A + A) = 4 / 3 * |δ| * (A * A) / (A + A) := by
      rw [← mul_dir]
      ring
    rw [hs, hg, hδ, e43, XR.signum_fin, show (if δ < 0 then -1 else 1) = dir δ from rfl]
    simp only [XR.fin_mul, XR.fin_add]
    rw [XR.fin_div _ _ (by positivity), e, XR.fsqrt_fin _ (by positivity)]
  have hreach : (if flt (fabs (g.delta_q i)) (lit 3 / lit 4 * (powi (g.dq_max i) 2 / g.ddq_max_start i) + lit 3 / lit 4 * (powi (g.dq_max i) 2 / g.ddq_max_goal i)) then
      fsqrt (lit 4 / lit 3 * g.delta_q i * signum (g.delta_q i) * (g.ddq_max_start i * g.ddq_max_goal i) / (g.ddq_max_start i + g.ddq_max_goal i))
      else g.dq_max i) = XR.fin (reach V A |δ|) := by
    rw [hthr, hroot, hV, hδ, XR.fabs_fin, XR.flt_fin]
    unfold reach
    by_cases hc : |δ| < 3 / 4 * (V ^ 2 / A) + 3 / 4 * (V ^ 2 / A)
    · rw [if_pos hc, if_pos (decide_eq_true hc)]
    · rw [if_neg hc, if_neg (by rw [decide_eq_true_eq]; exact hc)]
  unfold unsync_t_f
  simp only [hreach]
  rw [hδ, hs, hg, XR.fabs_fin, dead_band, XR.flt_fin, if_pos (decide_eq_true hn), e15, e2, XR.fin_mul, XR.fin_div _ _ hA.ne', XR.fin_div _ _ two_ne_zero,
    XR.fin_div _ _ hr.ne', XR.fin_add, XR.fin_add]
  rfl

theorem unsync_small {g : MotionGenerator XR} {i : Fin 7} {δ : ℝ} (hδ : g.delta_q i = .fin δ) (hn : ¬ 1 / 1000000 < |δ|) : g.unsync_t_f i = .fin 0 := by
  unfold unsync_t_f
  simp only [hδ, XR.fabs_fin, dead_band, XR.flt_fin, hn, decide_false, Bool.false_eq_true, if_false, XR.lit_fin]
  norm_num

theorem vecMax_fin (v : Fin 7 → ℝ) : ∃ m, vecMax (Arr.fin v) = .fin m ∧ (∀ i, v i ≤ m) ∧ ∃ j, v j = m := by
  have step : ∀ (l : List (Fin 7)) (k : Fin 7), ∃ j, (l.map fun i => (Arr.fin v) i).foldl (fun a b : XR => if fle b a then a else b) (.fin (v k)) = .fin (v j) ∧
      v k ≤ v j ∧ ∀ i ∈ l, v i ≤ v j := by
    intro l
    induction l with
    | nil => exact fun k => ⟨k, rfl, le_rfl, by simp⟩
    | cons x l ih =>
      intro k
      by_cases h : v x ≤ v k
      · obtain ⟨j, h1, h2, h3⟩ := ih k
        refine ⟨j, ?_, h2, ?_⟩
        · rw [List.map_cons, List.foldl_cons]
          simpa [h] using h1
        · simp only [List.mem_cons, forall_eq_or_imp]
          exact ⟨h.trans h2, h3⟩
      · obtain ⟨j, h1, h2, h3⟩ := ih x
        refine ⟨j, ?_, (not_le.1 h).le.trans h2, ?_⟩
        · rw [List.map_cons, List.foldl_cons]
          simpa [h] using h1
        · simp only [List.mem_cons, forall_eq_or_imp]
          exact ⟨h2, h3⟩
  obtain ⟨j, h1, h2, h3⟩ := step [1, 2, 3, 4, 5, 6] 0
  refine ⟨v j, h1, ?_, j, rfl⟩
  intro i
  fin_cases i
  · exact h2
  all_goals exact h3 _ (by decide)

/-- The values of a joint that moves. -/
theorem sync_moving {g : MotionGenerator XR} {i : Fin 7} {δ V A T : ℝ} (hδ : g.delta_q i = .fin δ)
    (hs : g.ddq_max_start i = .fin A) (hg : g.ddq_max_goal i = .fin A) (hV : 0 < V) (hA : 0 < A) (hn : 1 / 1000000 < |δ|) (hT : leastTime V A |δ| ≤ T) :
    ∃ v τ t2 : ℝ, g.sync_joint (.fin T) i = ⟨.fin v, .fin τ, .fin T, .fin t2, .fin (v * dir δ * (5 / 10 * τ))⟩ ∧
      0 < v ∧ v ≤ V ∧ 0 < τ ∧ τ ≤ t2 ∧ |δ| = v * t2 ∧ T = t2 + τ ∧ 3 / 2 * v / τ = A := by
  have hD : 0 < |δ| := lt_trans (by norm_num) hn
  obtain ⟨h1, h2, h3, h4⟩ := syncSpeed_spec hV hA hD hT
  refine ⟨syncSpeed A T |δ|, 15 / 10 * syncSpeed A T |δ| / A, T - 15 / 10 * syncSpeed A T |δ| / A, ?_, h1, h2, by positivity, ?_, ?_, by ring, ?_⟩
  · have e15 : (lit (15 / 10) : XR) = .fin (15 / 10) := by rw [XR.lit_fin]; norm_num
    have e5 : (lit (5 / 10) : XR) = .fin (5 / 10) := by rw [XR.lit_fin]; norm_num
    have e2 : (lit 2 : XR) = .fin 2 := by rw [XR.lit_fin]; norm_num
    have e4 : (lit 4 : XR) = .fin 4 := by rw [XR.lit_fin]; norm_num
    have e0 : (lit 0 : XR) = .fin 0 := by rw [XR.lit_fin]; norm_num
    have em : (lit (-1) : XR) = .fin (-1) := by rw [XR.lit_fin]; norm_num
    have ha : (lit (15 / 10) / lit 2 * (g.ddq_max_goal i + g.ddq_max_start i) : XR) = .fin (15 / 10 / 2 * (A + A)) := by
      rw [e15, e2, hs, hg, XR.fin_div _ _ two_ne_zero, XR.fin_add, XR.fin_mul]
    have hb : (lit (-1) * .fin T * g.ddq_max_goal i * g.ddq_max_start i : XR) = .fin (-T * A * A) := by
      rw [em, hs, hg]
      simp only [XR.fin_mul]
      congr 1
      ring
    have hc : (fabs (g.delta_q i) * g.ddq_max_goal i * g.ddq_max_start i : XR) = .fin (|δ| * A * A) := by
      rw [hδ, hs, hg, XR.fabs_fin, XR.fin_mul, XR.fin_mul]
    have hsp : ((XR.fin (-1) * XR.fin (-T * A * A) - fsqrt (fmax (XR.fin (-T * A * A) * XR.fin (-T * A * A) -
        XR.fin 4 * XR.fin (15 / 10 / 2 * (A + A)) * XR.fin (|δ| * A * A)) (XR.fin 0))) / (XR.fin 2 * XR.fin (15 / 10 / 2 * (A + A))) : XR) = .fin (syncSpeed A T |δ|) := by
      simp only [XR.fin_mul, XR.fin_sub, XR.fmax_fin]
      rw [XR.fsqrt_fin _ (le_max_right _ _), XR.fin_sub, XR.fin_div _ _ (by positivity)]
      unfold syncSpeed
      congr 3
      ring
    unfold sync_joint
    simp only [ha, hb, hc]
    rw [e4, e0, em, e2]
    simp only [hsp]
    rw [e15, e5, hs, hg, hδ, XR.fin_mul, XR.fin_div _ _ hA.ne', XR.fin_div _ _ two_ne_zero, XR.fin_div _ _ h1.ne', XR.fabs_fin, XR.signum_fin,
      show (if δ < 0 then -1 else 1) = dir δ from rfl]
    simp only [XR.fin_add, XR.fin_sub, XR.fin_mul]
    generalize syncSpeed A T |δ| = v at h1 h3
    have ef : 15 / 10 * v / A / 2 + 15 / 10 * v / A / 2 + |δ / v| = T := by
      rw [abs_div, abs_of_pos h1]
      rw [← h3]
      ring
    rw [ef]
  · generalize syncSpeed A T |δ| = v at h1 h3 h4
    have : 15 / 10 * v / A ≤ |δ| / v := by
      rw [div_le_div_iff₀ hA h1]
      nlinarith
    have e : 15 / 10 * v / A = 3 / 2 * v / A := by ring
    linarith
  · generalize syncSpeed A T |δ| = v at h1 h3 h4
    have e : 15 / 10 * v / A = 3 / 2 * v / A := by ring
    rw [e, ← h3, add_sub_cancel_left]
    field_simp
  · generalize syncSpeed A T |δ| = v at h1
    field_simp
    norm_num

end MotionGenerator
end Verif
