import Verif.Props.Cartesian
/-! The Cartesian velocity limiter, if the last velocity is a bit above the limit. -/
set_option linter.unusedSectionVars false
namespace Verif
open Spec

/-- The result of the limiter if it takes the root of a negative number: the velocity limit is ignored. -/
noncomputable def cFree (L : Limits) (v a' : Fin 3 → ℝ) : Fin 3 → ℝ := fun i => v i + a' i / len a' * min (len a') L.acceleration / 1000

/-- The limiter for all last velocities. -/
theorem single_nan {L : Limits} (hJ : 0 < L.jerk) (u v a : Fin 3 → ℝ)
    (ht : tiny < len (cAcc L.jerk u v a))
    (hr : (dot3 (cAcc L.jerk u v a) v / len (cAcc L.jerk u v a)) ^ 2 - len v ^ 2 + L.velocity ^ 2 < 0) :
    limit_rate_single_cartesian_velocity (.fin L.velocity) (.fin L.acceleration) (.fin L.jerk) (Arr.fin u) (Arr.fin v) (Arr.fin a) =
      Arr.fin (cFree L v (cAcc L.jerk u v a)) := by
  have e1 : ((((Arr.fin u).sub (Arr.fin v)).divs DELTA_T).sub (Arr.fin a)).divs DELTA_T = Arr.fin (cJerk u v a) := by
    rw [sub_fin, divs_dt, sub_fin, divs_dt]; rfl
  have e2 : (if Fl.flt NORM_EPS (Vec3.norm (Arr.fin (cJerk u v a))) then
      (Arr.fin a).add (((Vec3.normalize (Arr.fin (cJerk u v a))).rmul
        (Fl.fmax (Fl.fmin (Vec3.norm (Arr.fin (cJerk u v a))) (.fin L.jerk)) (-(.fin L.jerk)))).rmul DELTA_T) else Arr.fin a) = Arr.fin (cAcc L.jerk u v a) := by
    rw [NORM_EPS_fin, norm_fin, XR.flt_fin]
    unfold cAcc
    by_cases h : tiny < len (cJerk u v a)
    · rw [if_pos h, decide_eq_true h, if_pos rfl, normalize_fin (tiny_pos.trans h), XR.fmin_fin, XR.fin_neg, XR.fmax_fin,
        max_eq_left (by have := le_min (len_nonneg (cJerk u v a)) hJ.le; linarith), rmul_fin, DELTA_T_fin, rmul_fin, add_fin]
      congr 1
      funext i
      ring
    · rw [if_neg h, decide_eq_false h]
      rfl
  unfold limit_rate_single_cartesian_velocity
  dsimp only
  rw [e1, e2]
  generalize cAcc L.jerk u v a = a' at ht hr ⊢
  have h0 := tiny_pos.trans ht
  have e3 : Fl.flt NORM_EPS (Vec3.norm (Arr.fin a')) = true := by rw [NORM_EPS_fin, norm_fin, XR.flt_fin, decide_eq_true ht]
  have e5 : dot3 (fun i => a' i / len a') v = dot3 a' v / len a' := by unfold dot3; ring
  have e6 : (Fl.fsqrt (XR.fin ((dot3 a' v / len a') ^ 2 - len v ^ 2 + L.velocity ^ 2)) : XR) = .nan := if_pos hr
  have e7 : ∀ (x y : XR), (Fl.fmin (x * (y + XR.nan)) (.fin L.acceleration) : XR) = .fin L.acceleration := by
    intro x y
    have : y + XR.nan = XR.nan := by cases y <;> rfl
    rw [this]
    have : x * XR.nan = XR.nan := by cases x <;> rfl
    rw [this]
    rfl
  rw [if_pos e3, normalize_fin h0, dot_fin, e5, norm_squared_fin, XR.powf2_fin, XR.powf2_fin, XR.fin_sub, XR.fin_add, e6, e7,
      norm_fin, XR.fmin_fin, rmul_fin, DELTA_T_fin, rmul_fin, add_fin]
  congr 1
  funext i
  unfold cFree
  ring

/-- The limiter in all cases. -/
theorem single_cases {L : Limits} (hL : CartesianOk L) (u v a : Fin 3 → ℝ) :
    ∃ r, limit_rate_single_cartesian_velocity (.fin L.velocity) (.fin L.acceleration) (.fin L.jerk) (Arr.fin u) (Arr.fin v) (Arr.fin a) = Arr.fin r ∧
      (r = v ∨ ∃ a', 0 < len a' ∧
        ((0 ≤ (dot3 a' v / len a') ^ 2 - len v ^ 2 + L.velocity ^ 2 ∧ r = fun i => v i + a' i / len a' * cLen L v a' / 1000) ∨
        ((dot3 a' v / len a') ^ 2 - len v ^ 2 + L.velocity ^ 2 < 0 ∧ r = cFree L v a'))) := by
  by_cases ht : tiny < len (cAcc L.jerk u v a)
  · rcases lt_or_ge ((dot3 (cAcc L.jerk u v a) v / len (cAcc L.jerk u v a)) ^ 2 - len v ^ 2 + L.velocity ^ 2) 0 with hr | hr
    · exact ⟨_, single_nan hL.jerk u v a ht hr, .inr ⟨_, tiny_pos.trans ht, .inr ⟨hr, rfl⟩⟩⟩
    · refine ⟨_, single_fin hL.jerk hL.acceleration u v a fun _ => hr, .inr ⟨_, tiny_pos.trans ht, .inl ⟨hr, ?_⟩⟩⟩
      unfold cOut
      exact if_pos ht
  · refine ⟨_, single_fin hL.jerk hL.acceleration u v a fun h => absurd h ht, .inl ?_⟩
    unfold cOut
    exact if_neg ht

/-- The length of a step in the direction of `a'`. -/
theorem step_sq {v a' : Fin 3 → ℝ} (h0 : 0 < len a') (s : ℝ) :
    len (fun i => v i + a' i / len a' * s / 1000) ^ 2 = len v ^ 2 + 2 * (s / 1000) * (dot3 a' v / len a') + (s / 1000) ^ 2 := by
  have hunit : len (fun i => a' i / len a') = 1 := by
    have : (fun i => a' i / len a') = fun i => (len a')⁻¹ * a' i := by funext i; ring
    rw [this, len_smul, abs_of_pos (by positivity)]
    field_simp
  have e : (fun i => v i + a' i / len a' * s / 1000) = fun i => v i + s / 1000 * (a' i / len a') := by funext i; ring
  have e2 : dot3 v (fun i => s / 1000 * (a' i / len a')) = s / 1000 * (dot3 a' v / len a') := by unfold dot3; ring
  rw [e, len_add_sq, len_smul, hunit, e2, mul_one, sq_abs]
  ring

theorem step_acc {v a' : Fin 3 → ℝ} (h0 : 0 < len a') (s : ℝ) :
    len (fun i => ((fun i => v i + a' i / len a' * s / 1000) i - v i) / 0.001) = |s| := by
  have hunit : len (fun i => a' i / len a') = 1 := by
    have : (fun i => a' i / len a') = fun i => (len a')⁻¹ * a' i := by funext i; ring
    rw [this, len_smul, abs_of_pos (by positivity)]
    field_simp
  have e : (fun i => ((fun i => v i + a' i / len a' * s / 1000) i - v i) / 0.001) = fun i => s * (a' i / len a') := by funext i; norm_num; ring
  rw [e, len_smul, hunit, mul_one]

/-- The documented limits `D` hold for one step if the velocity is at most `η` above the limit `L` of the code. -/
theorem single_above {L D : Limits} (hL : CartesianOk L) {η : ℝ} (hη : 0 ≤ η) (hV : 0 ≤ L.velocity) (hv' : L.velocity + η ≤ D.velocity)
    (ha' : L.acceleration ≤ D.acceleration) {c : ℝ} (hc0 : 0 ≤ c) (hc : (L.velocity + η) ^ 2 - L.velocity ^ 2 ≤ c ^ 2)
    (hc1 : L.jerk / L.acceleration * c ≤ L.acceleration)
    (hc2 : (L.velocity + η) ^ 2 + 2 * (L.acceleration / 1000) * c + (L.acceleration / 1000) ^ 2 ≤ D.velocity ^ 2)
    (u v a : Fin 3 → ℝ) (hv : len v ≤ L.velocity + η) :
    ∃ r, limit_rate_single_cartesian_velocity (.fin L.velocity) (.fin L.acceleration) (.fin L.jerk) (Arr.fin u) (Arr.fin v) (Arr.fin a) = Arr.fin r ∧
      StepRespects D v r := by
  have hD : 0 ≤ D.velocity := by linarith
  have hA := hL.acceleration
  have hJ := hL.jerk
  have hvv : len v ^ 2 ≤ (L.velocity + η) ^ 2 := pow_le_pow_left₀ (len_nonneg v) hv 2
  rcases le_or_gt (len v) L.velocity with hin | hout
  · refine ⟨_, single_fin hL.jerk hL.acceleration u v a (hL.roots hin), ?_⟩
    have h := cOut_respects (u := u) (a := a) hL.jerk hL.acceleration hL.ratio hin
    exact ⟨h.velocity.trans (by linarith), h.acceleration.trans ha'⟩
  obtain ⟨r, hr, h⟩ := single_cases hL u v a
  refine ⟨r, hr, ?_⟩
  have hw : 0 < len v ^ 2 - L.velocity ^ 2 := by nlinarith
  have shorter : ∀ {x : Fin 3 → ℝ}, len x ^ 2 ≤ len v ^ 2 → len x ≤ D.velocity := fun hx =>
    (abs_le_of_sq_le_sq' hx (len_nonneg v)).2.trans (hv.trans hv')
  have hk : L.jerk / L.acceleration ≤ 1000 := by rw [div_le_iff₀ hA]; exact hL.ratio
  have hk0 : 0 < L.jerk / L.acceleration := by positivity
  rcases h with rfl | ⟨a', h0, ⟨hroot, rfl⟩ | ⟨hroot, rfl⟩⟩
  · refine ⟨hv.trans hv', ?_⟩
    have e : (fun i => (r i - r i) / 0.001) = fun i => 0 * r i := by funext i; simp
    rw [e, len_smul]
    simpa using hA.le.trans ha'
  · have hq := Real.sq_sqrt hroot
    have hq0 := Real.sqrt_nonneg ((dot3 a' v / len a') ^ 2 - len v ^ 2 + L.velocity ^ 2)
    have hs : cLen L v a' = min (len a') (min (L.jerk / L.acceleration * (-(dot3 a' v / len a') + √((dot3 a' v / len a') ^ 2 - len v ^ 2 + L.velocity ^ 2))) L.acceleration) := rfl
    have hx := step_sq (v := v) h0 (cLen L v a')
    have hy := step_acc (v := v) h0 (cLen L v a')
    generalize cLen L v a' = s at hs hx hy ⊢
    generalize dot3 a' v / len a' = d at *
    generalize √(d ^ 2 - len v ^ 2 + L.velocity ^ 2) = q at *
    generalize L.jerk / L.acceleration = k at *
    rcases le_or_gt 0 d with hd | hd
    · have hqd : q ≤ d := (abs_le_of_sq_le_sq' (by linarith) hd).2
      have hD0 : k * (-d + q) ≤ 0 := mul_nonpos_of_nonneg_of_nonpos hk0.le (by linarith)
      rw [min_eq_left (hD0.trans hA.le), min_eq_right (hD0.trans h0.le)] at hs
      have h1 : d - q ≤ c := (abs_le_of_sq_le_sq' (by nlinarith) hc0).2
      refine ⟨shorter ?_, ?_⟩
      · rw [hx]
        have h2 : s / 1000 ≤ 0 := by rw [hs]; linarith
        have h3 : -(d - q) ≤ s / 1000 := by
          rw [hs]
          have : k * (d - q) ≤ 1000 * (d - q) := mul_le_mul_of_nonneg_right hk (by linarith)
          linarith
        nlinarith [mul_nonneg (neg_nonneg.2 h2) (show 0 ≤ 2 * d + s / 1000 by linarith)]
      · rw [hy, abs_of_nonpos (by rw [hs]; exact hD0), hs]
        have : k * (d - q) ≤ k * c := mul_le_mul_of_nonneg_left h1 hk0.le
        linarith
    · have hqd : q ≤ -d := (abs_le_of_sq_le_sq' (by nlinarith) (by linarith)).2
      have hs0 : 0 ≤ s := by rw [hs]; exact le_min h0.le (le_min (mul_nonneg hk0.le (by linarith)) hA.le)
      have hs1 : s ≤ k * (-d + q) := by rw [hs]; exact (min_le_right _ _).trans (min_le_left _ _)
      have hs2 : s ≤ L.acceleration := by rw [hs]; exact (min_le_right _ _).trans (min_le_right _ _)
      refine ⟨shorter ?_, ?_⟩
      · rw [hx]
        have h3 : s / 1000 ≤ -d + q := by
          have : k * (-d + q) ≤ 1000 * (-d + q) := mul_le_mul_of_nonneg_right hk (by linarith)
          linarith
        nlinarith [mul_nonneg (show 0 ≤ s / 1000 by positivity) (show 0 ≤ -(2 * d + s / 1000) by linarith)]
      · rw [hy, abs_of_nonneg hs0]
        linarith
  · have hx := step_sq (v := v) h0 (min (len a') L.acceleration)
    have hy := step_acc (v := v) h0 (min (len a') L.acceleration)
    have hs0 : 0 ≤ min (len a') L.acceleration := le_min h0.le hA.le
    have hs1 : min (len a') L.acceleration ≤ L.acceleration := min_le_right _ _
    unfold cFree
    generalize min (len a') L.acceleration = s at *
    generalize dot3 a' v / len a' = d at *
    have h1 : d ≤ c := (abs_le_of_sq_le_sq' (by nlinarith) hc0).2
    refine ⟨abs_le_of_sq_le_sq' ?_ hD |>.2, ?_⟩
    · rw [hx]
      have h2 : s / 1000 * d ≤ L.acceleration / 1000 * c := (mul_le_mul_of_nonneg_left h1 (by positivity)).trans (mul_le_mul_of_nonneg_right (by linarith) hc0)
      have h3 : (s / 1000) ^ 2 ≤ (L.acceleration / 1000) ^ 2 := pow_le_pow_left₀ (by positivity) (by linarith) 2
      linarith
    · rw [hy, abs_of_nonneg hs0]
      linarith

end Verif
