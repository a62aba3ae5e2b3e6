import Verif.Spec.Cartesian
import Verif.Lemmas.Limits
import Mathlib.Analysis.InnerProductSpace.PiL2
/-! The Cartesian velocity limiter over the reals. -/
set_option linter.unusedSectionVars false
namespace Verif
open Spec

/-! ## Vectors -/

theorem len_eq_norm (v : Fin 3 → ℝ) : len v = ‖(WithLp.toLp 2 v : EuclideanSpace ℝ (Fin 3))‖ := by
  rw [EuclideanSpace.norm_eq, Fin.sum_univ_three]
  simp [len]

theorem len_nonneg (v : Fin 3 → ℝ) : 0 ≤ len v := Real.sqrt_nonneg _

theorem len_sq (v : Fin 3 → ℝ) : len v ^ 2 = v 0 ^ 2 + v 1 ^ 2 + v 2 ^ 2 := Real.sq_sqrt (by positivity)

theorem len_smul (c : ℝ) (v : Fin 3 → ℝ) : len (fun i => c * v i) = |c| * len v := by
  have : (WithLp.toLp 2 (fun i => c * v i) : EuclideanSpace ℝ (Fin 3)) = c • WithLp.toLp 2 v := rfl
  rw [len_eq_norm, len_eq_norm, this, norm_smul, Real.norm_eq_abs]

theorem len_add_le (v w : Fin 3 → ℝ) : len (fun i => v i + w i) ≤ len v + len w := by
  have : (WithLp.toLp 2 (fun i => v i + w i) : EuclideanSpace ℝ (Fin 3)) = WithLp.toLp 2 v + WithLp.toLp 2 w := rfl
  rw [len_eq_norm, len_eq_norm, len_eq_norm, this]
  exact norm_add_le _ _

theorem len_pos {v : Fin 3 → ℝ} {i : Fin 3} (h : v i ≠ 0) : 0 < len v := by
  refine Real.sqrt_pos.2 ?_
  have : 0 < v i ^ 2 := by positivity
  fin_cases i <;> simp at this <;> positivity

theorem len_eq_zero {v : Fin 3 → ℝ} (h : len v = 0) (i : Fin 3) : v i = 0 := by
  by_contra hi
  exact (len_pos hi).ne' h

/-- The scalar product. -/
def dot3 (v w : Fin 3 → ℝ) : ℝ := v 0 * w 0 + v 1 * w 1 + v 2 * w 2

theorem len_add_sq (v w : Fin 3 → ℝ) : len (fun i => v i + w i) ^ 2 = len v ^ 2 + 2 * dot3 v w + len w ^ 2 := by
  rw [len_sq, len_sq, len_sq, dot3]
  ring

/-! ## The limiter -/

theorem norm_squared_fin (v : Fin 3 → ℝ) : Vec3.norm_squared (Arr.fin v) = .fin (len v ^ 2) := by
  unfold Vec3.norm_squared Vec3.dot
  simp only [Arr.fin_apply, XR.fin_mul, XR.fin_add, XR.lit_fin]
  congr 1
  rw [len_sq]
  push_cast
  ring

theorem norm_fin (v : Fin 3 → ℝ) : Vec3.norm (Arr.fin v) = .fin (len v) := by
  unfold Vec3.norm
  rw [norm_squared_fin, XR.fsqrt_fin _ (by positivity), Real.sqrt_sq (len_nonneg v)]

theorem normalize_fin {v : Fin 3 → ℝ} (h : 0 < len v) : Vec3.normalize (Arr.fin v) = Arr.fin fun i => v i / len v := by
  unfold Vec3.normalize Arr.divs
  rw [norm_fin]
  funext i
  rw [Arr.fin_apply, XR.fin_div _ _ h.ne']
  rfl

theorem dot_fin (v w : Fin 3 → ℝ) : Vec3.dot (Arr.fin v) (Arr.fin w) = .fin (dot3 v w) := rfl

theorem sub_fin {n : Nat} (v w : Fin n → ℝ) : (Arr.fin v).sub (Arr.fin w) = Arr.fin fun i => v i - w i := by
  funext i; simp [Arr.sub]

theorem add_fin {n : Nat} (v w : Fin n → ℝ) : (Arr.fin v).add (Arr.fin w) = Arr.fin fun i => v i + w i := rfl

theorem rmul_fin {n : Nat} (v : Fin n → ℝ) (c : ℝ) : (Arr.fin v).rmul (.fin c) = Arr.fin fun i => v i * c := rfl

theorem divs_dt {n : Nat} (v : Fin n → ℝ) : (Arr.fin v).divs DELTA_T = Arr.fin fun i => 1000 * v i := by
  funext i
  unfold Arr.divs
  rw [Arr.fin_apply, fin_div_dt]
  rfl

/-- The smallest number that counts as different from zero. -/
noncomputable def tiny : ℝ := 1 / 2 ^ 52

theorem tiny_pos : 0 < tiny := by unfold tiny; positivity

theorem NORM_EPS_fin : (NORM_EPS : XR) = .fin tiny := by
  unfold NORM_EPS tiny
  rw [XR.lit_fin]
  norm_num

/-- The jerk a command asks for. -/
noncomputable def cJerk (u v a : Fin 3 → ℝ) : Fin 3 → ℝ := fun i => 1000 * (1000 * (u i - v i) - a i)

open Classical in
/-- The acceleration after the jerk limit. -/
noncomputable def cAcc (J : ℝ) (u v a : Fin 3 → ℝ) : Fin 3 → ℝ :=
  if tiny < len (cJerk u v a) then fun i => a i + cJerk u v a i / len (cJerk u v a) * min (len (cJerk u v a)) J / 1000 else a

/-- The length of the acceleration that is applied in the direction of `a`, if the last velocity is `v`. -/
noncomputable def cLen (L : Limits) (v a : Fin 3 → ℝ) : ℝ :=
  min (len a) (min (L.jerk / L.acceleration * (-(dot3 a v / len a) + √((dot3 a v / len a) ^ 2 - len v ^ 2 + L.velocity ^ 2))) L.acceleration)

open Classical in
/-- The result of the limiter. -/
noncomputable def cOut (L : Limits) (u v a : Fin 3 → ℝ) : Fin 3 → ℝ :=
  let a' := cAcc L.jerk u v a
  if tiny < len a' then fun i => v i + a' i / len a' * cLen L v a' / 1000 else v

/-- The limiter takes no root of a negative number. -/
def Roots (L : Limits) (u v a : Fin 3 → ℝ) : Prop :=
  tiny < len (cAcc L.jerk u v a) → 0 ≤ (dot3 (cAcc L.jerk u v a) v / len (cAcc L.jerk u v a)) ^ 2 - len v ^ 2 + L.velocity ^ 2

theorem single_fin {L : Limits} (hJ : 0 < L.jerk) (hA : 0 < L.acceleration) (u v a : Fin 3 → ℝ)
    (hr : Roots L u v a) :
    limit_rate_single_cartesian_velocity (.fin L.velocity) (.fin L.acceleration) (.fin L.jerk) (Arr.fin u) (Arr.fin v) (Arr.fin a) = Arr.fin (cOut L u v a) := by
  have e1 : ((((Arr.fin u).sub (Arr.fin v)).divs DELTA_T).sub (Arr.fin a)).divs DELTA_T = Arr.fin (cJerk u v a) := by
    rw [sub_fin, divs_dt, sub_fin, divs_dt]; rfl
  have e2 : (if Fl.flt NORM_EPS (Vec3.norm (Arr.fin (cJerk u v a))) then
      (Arr.fin a).add (((Vec3.normalize (Arr.fin (cJerk u v a))).rmul
        (Fl.fmax (Fl.fmin (Vec3.norm (Arr.fin (cJerk u v a))) (.fin L.jerk)) (-(.fin L.jerk)))).rmul DELTA_T) else Arr.fin a) = Arr.fin (cAcc L.jerk u v a) := by
    rw [NORM_EPS_fin, norm_fin, XR.flt_fin]
    unfold cAcc
    by_cases h : tiny < len (cJerk u v a)
    · rw [if_pos h, decide_eq_true h, if_pos rfl, normalize_fin (tiny_pos.trans h), XR.fmin_fin, XR.fin_neg, XR.fmax_fin,
        max_eq_left (by have := le_min (len_nonneg (cJerk u v a)) hJ.le; linarith), rmul_fin, DELTA_T_fin, rmul_fin, add_fin]
      congr 1
      funext i
      ring
    · rw [if_neg h, decide_eq_false h]
      rfl
  unfold limit_rate_single_cartesian_velocity
  dsimp only
  rw [e1, e2]
  unfold Roots at hr
  generalize ha' : cAcc L.jerk u v a = a' at hr ⊢
  have e4 : cOut L u v a = if tiny < len a' then fun i => v i + a' i / len a' * cLen L v a' / 1000 else v := by
    unfold cOut
    rw [ha']
  rw [e4]
  by_cases h : tiny < len a'
  · have h0 := tiny_pos.trans h
    have e3 : Fl.flt NORM_EPS (Vec3.norm (Arr.fin a')) = true := by rw [NORM_EPS_fin, norm_fin, XR.flt_fin, decide_eq_true h]
    have e5 : dot3 (fun i => a' i / len a') v = dot3 a' v / len a' := by unfold dot3; ring
    have e6 : 0 ≤ (dot3 a' v / len a') ^ 2 - len v ^ 2 + L.velocity ^ 2 := hr h
    rw [if_pos e3, if_pos h, normalize_fin h0, dot_fin, e5, norm_squared_fin, XR.powf2_fin, XR.powf2_fin, XR.fin_sub, XR.fin_add, XR.fsqrt_fin _ e6,
      XR.fin_neg, XR.fin_add, XR.fin_div _ _ hA.ne', XR.fin_mul, XR.fmin_fin, norm_fin, XR.fmin_fin, rmul_fin, DELTA_T_fin, rmul_fin, add_fin]
    congr 1
    funext i
    unfold cLen
    ring
  · have e3 : Fl.flt NORM_EPS (Vec3.norm (Arr.fin a')) = false := by rw [NORM_EPS_fin, norm_fin, XR.flt_fin, decide_eq_false h]
    rw [if_neg h, e3]
    rfl

section
variable {L : Limits} (hJ : 0 < L.jerk) (hA : 0 < L.acceleration) (hJA : L.jerk ≤ 1000 * L.acceleration) {u v a : Fin 3 → ℝ} (hv : len v ≤ L.velocity)
include hJ hA hv

/-- The distance to the velocity limit in a direction of length one. -/
theorem reach_nonneg (d : ℝ) : 0 ≤ -d + √(d ^ 2 - len v ^ 2 + L.velocity ^ 2) := by
  have h1 : len v ^ 2 ≤ L.velocity ^ 2 := pow_le_pow_left₀ (len_nonneg v) hv 2
  have h2 : √(d ^ 2) ≤ √(d ^ 2 - len v ^ 2 + L.velocity ^ 2) := Real.sqrt_le_sqrt (by linarith)
  rw [Real.sqrt_sq_eq_abs] at h2
  have := le_abs_self d
  linarith

theorem root_nonneg (d : ℝ) : 0 ≤ d ^ 2 - len v ^ 2 + L.velocity ^ 2 := by
  have : len v ^ 2 ≤ L.velocity ^ 2 := pow_le_pow_left₀ (len_nonneg v) hv 2
  have := sq_nonneg d
  linarith

theorem roots (u a : Fin 3 → ℝ) : Roots L u v a := fun _ => root_nonneg hJ hA hv _

theorem cLen_nonneg (a' : Fin 3 → ℝ) : 0 ≤ cLen L v a' := by
  unfold cLen
  refine le_min (len_nonneg _) (le_min (mul_nonneg (by positivity) (reach_nonneg hJ hA hv _)) hA.le)

include hJA in
theorem cOut_respects : StepRespects L v (cOut L u v a) := by
  unfold cOut
  dsimp only
  generalize cAcc L.jerk u v a = a'
  by_cases h : tiny < len a'
  · rw [if_pos h]
    have h0 := tiny_pos.trans h
    have hm := cLen_nonneg hJ hA hv a'
    have hunit : len (fun i => a' i / len a') = 1 := by
      have : (fun i => a' i / len a') = fun i => (len a')⁻¹ * a' i := by funext i; ring
      rw [this, len_smul, abs_of_pos (by positivity)]
      field_simp
    constructor
    · -- the velocity
      set d := dot3 a' v / len a' with hd
      set D := -d + √(d ^ 2 - len v ^ 2 + L.velocity ^ 2) with hD
      have hD0 : 0 ≤ D := reach_nonneg hJ hA hv d
      have hr : 0 ≤ d ^ 2 - len v ^ 2 + L.velocity ^ 2 := by
        have : len v ^ 2 ≤ L.velocity ^ 2 := pow_le_pow_left₀ (len_nonneg v) hv 2
        have := sq_nonneg d
        linarith
      have hs : cLen L v a' / 1000 ≤ D := by
        have h1 : cLen L v a' ≤ L.jerk / L.acceleration * D := (min_le_right _ _).trans (min_le_left _ _)
        have h2 : L.jerk / L.acceleration ≤ 1000 := by rw [div_le_iff₀ hA]; exact hJA
        have h3 : L.jerk / L.acceleration * D ≤ 1000 * D := mul_le_mul_of_nonneg_right h2 hD0
        linarith
      set s := cLen L v a' / 1000 with hsdef
      have hs0 : 0 ≤ s := by positivity
      have e : (fun i => v i + a' i / len a' * cLen L v a' / 1000) = fun i => v i + s * (a' i / len a') := by
        funext i; rw [hsdef]; ring
      have hV : 0 ≤ L.velocity := (len_nonneg v).trans hv
      rw [e]
      refine abs_le_of_sq_le_sq' ?_ hV |>.2
      rw [len_add_sq, len_smul, hunit, abs_of_nonneg hs0, mul_one]
      have e2 : dot3 v (fun i => s * (a' i / len a')) = s * d := by rw [hd]; unfold dot3; ring
      rw [e2]
      have hq : (d + D) ^ 2 = d ^ 2 - len v ^ 2 + L.velocity ^ 2 := by
        rw [hD, add_neg_cancel_left, Real.sq_sqrt hr]
      have hVv : len v ^ 2 ≤ L.velocity ^ 2 := pow_le_pow_left₀ (len_nonneg v) hv 2
      rcases le_total (s + 2 * d) 0 with hc | hc
      · nlinarith [mul_nonneg hs0 (neg_nonneg.2 hc)]
      · have : s * (s + 2 * d) ≤ D * (D + 2 * d) := mul_le_mul hs (by linarith) hc hD0
        nlinarith
    · have e : (fun i => (v i + a' i / len a' * cLen L v a' / 1000 - v i) / 0.001) = fun i => cLen L v a' * (a' i / len a') := by
        funext i; norm_num; ring
      rw [e, len_smul, hunit, abs_of_nonneg hm, mul_one]
      exact (min_le_right _ _).trans (min_le_right _ _)
  · rw [if_neg h]
    refine ⟨hv, ?_⟩
    have e : (fun i => (v i - v i) / 0.001) = fun i => 0 * v i := by funext i; simp
    rw [e, len_smul]
    simpa using hA.le

/-- An allowed command is not changed. -/
theorem cOut_transparent (h : CartesianAllowed L u v a) (h1 : (∀ i, cJerk u v a i = 0) ∨ tiny < len (cJerk u v a))
    (h2 : (∀ i, u i = v i) ∨ tiny < len (fun i => 1000 * (u i - v i))) : cOut L u v a = u := by
  have hw : (fun i => (u i - v i) / 0.001) = fun i => 1000 * (u i - v i) := by funext i; norm_num; ring
  have hacc : cAcc L.jerk u v a = fun i => 1000 * (u i - v i) := by
    unfold cAcc
    rcases h1 with h1 | h1
    · have e : ∀ i, a i = 1000 * (u i - v i) := fun i => by have := h1 i; unfold cJerk at this; linarith
      have e2 : ¬ tiny < len (cJerk u v a) := by
        have : cJerk u v a = fun i => 0 * u i := by funext i; rw [h1 i, zero_mul]
        rw [this, len_smul]
        simpa using tiny_pos.le
      rw [if_neg e2]
      exact funext e
    · rw [if_pos h1]
      have hj : len (cJerk u v a) ≤ L.jerk := by
        have : cJerk u v a = fun i => ((u i - v i) / 0.001 - a i) / 0.001 := by
          funext i; unfold cJerk; norm_num; ring
        rw [this]
        exact h.jerk
      rw [min_eq_left hj]
      funext i
      rw [div_mul_cancel₀ _ (tiny_pos.trans h1).ne']
      unfold cJerk
      ring
  unfold cOut
  dsimp only
  rw [hacc]
  rcases h2 with h2 | h2
  · have e : ¬ tiny < len (fun i => 1000 * (u i - v i)) := by
      have : (fun i => 1000 * (u i - v i)) = fun i => 0 * u i := by funext i; rw [h2 i]; ring
      rw [this, len_smul]
      simpa using tiny_pos.le
    rw [if_neg e]
    exact (funext h2).symm
  · rw [if_pos h2]
    have h0 := tiny_pos.trans h2
    have hacl := h.acceleration
    have hmar := h.margin
    rw [hw] at hacl
    have hw' : ∀ i, (u i - v i) / 0.001 = 1000 * (u i - v i) := fun i => congrFun hw i
    simp only [hw'] at hmar
    set w : Fin 3 → ℝ := fun i => 1000 * (u i - v i) with hwdef
    have hlen : cLen L v w = len w := by
      unfold cLen
      refine min_eq_left (le_min ?_ hacl)
      set d := dot3 w v / len w with hd
      have hs : L.acceleration / L.jerk * len w ≤ -d + √(d ^ 2 - len v ^ 2 + L.velocity ^ 2) := by
        have hV : 0 ≤ L.velocity := (len_nonneg v).trans hv
        have g : len (fun i => v i + L.acceleration / L.jerk * w i) ^ 2 ≤ L.velocity ^ 2 := pow_le_pow_left₀ (len_nonneg _) hmar 2
        rw [len_add_sq, len_smul, abs_of_pos (by positivity)] at g
        have e2 : dot3 v (fun i => L.acceleration / L.jerk * w i) = L.acceleration / L.jerk * len w * d := by
          rw [hd]; unfold dot3; field_simp
        rw [e2] at g
        have : L.acceleration / L.jerk * len w + d ≤ √(d ^ 2 - len v ^ 2 + L.velocity ^ 2) := by
          refine Real.le_sqrt_of_sq_le ?_
          nlinarith
        linarith
      have hk : L.jerk / L.acceleration * (L.acceleration / L.jerk * len w) = len w := by field_simp
      rw [← hk]
      conv_lhs => rw [hk]
      calc len w = L.jerk / L.acceleration * (L.acceleration / L.jerk * len w) := hk.symm
        _ ≤ _ := mul_le_mul_of_nonneg_left hs (by positivity)
    funext i
    rw [hlen, div_mul_cancel₀ _ h0.ne', hwdef]
    ring

end
end Verif
