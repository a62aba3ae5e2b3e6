import Verif.Spec.JointMotion
import Mathlib.Analysis.Calculus.Deriv.Pow
import Mathlib.Analysis.Calculus.Deriv.Add
import Mathlib.Analysis.Calculus.Deriv.Mul
import Mathlib.Analysis.Calculus.Deriv.Comp
import Mathlib.Analysis.Calculus.Deriv.Shift
import Mathlib.Analysis.Calculus.MeanValue
import Mathlib.Tactic.Linarith
import Mathlib.Tactic.FieldSimp
import Mathlib.Tactic.Positivity
/-!
The smooth ramp the motion generator is made of.
-/
namespace Verif
open Set

/-- The velocity of a ramp: 0 before 0, 1 after 1, and a cubic between. -/
noncomputable def step (z : ℝ) : ℝ := if z ≤ 0 then 0 else if z ≤ 1 then 3 * z ^ 2 - 2 * z ^ 3 else 1

/-- The way covered by a ramp. -/
noncomputable def ramp (z : ℝ) : ℝ := if z ≤ 0 then 0 else if z ≤ 1 then z ^ 3 - z ^ 4 / 2 else z - 1 / 2

theorem hasDerivAt_ramp (z : ℝ) : HasDerivAt ramp (step z) z := by
  have poly : ∀ z : ℝ, HasDerivAt (fun z : ℝ => z ^ 3 - z ^ 4 / 2) (3 * z ^ 2 - 2 * z ^ 3) z := fun z => by
    have := (hasDerivAt_pow 3 z).sub ((hasDerivAt_pow 4 z).div_const 2)
    exact this.congr_deriv (by push_cast; ring)
  have line : ∀ z : ℝ, HasDerivAt (fun z : ℝ => z - 1 / 2) 1 z := fun z => (hasDerivAt_id z).sub_const _
  have e0 : ∀ y ≤ 0, ramp y = 0 := fun y hy => if_pos hy
  have e1 : ∀ y, 0 ≤ y → y ≤ 1 → ramp y = y ^ 3 - y ^ 4 / 2 := fun y h0 h1 => by
    unfold ramp
    split
    · have : y = 0 := le_antisymm ‹_› h0
      subst this; norm_num
    · rfl
  have e2 : ∀ y, 1 ≤ y → ramp y = y - 1 / 2 := fun y h => by
    unfold ramp
    rw [if_neg (by linarith)]
    split
    · have : y = 1 := le_antisymm ‹_› h
      subst this; norm_num
    · rfl
  rcases lt_trichotomy z 0 with h | rfl | h
  · rw [show step z = 0 from if_pos h.le]
    refine (hasDerivAt_const z (0 : ℝ)).congr_of_eventuallyEq ?_
    filter_upwards [Iio_mem_nhds h] with y hy using e0 y hy.le
  · rw [show step 0 = 0 from if_pos le_rfl]
    have l : HasDerivWithinAt ramp 0 (Iic 0) 0 :=
      (hasDerivWithinAt_const _ _ (0 : ℝ)).congr (fun y hy => e0 y hy) (e0 0 le_rfl)
    have r : HasDerivWithinAt ramp 0 (Icc 0 1) 0 := by
      have := (poly 0).hasDerivWithinAt (s := Icc 0 1)
      norm_num at this
      exact this.congr (fun y hy => e1 y hy.1 hy.2) (by rw [e0 0 le_rfl]; norm_num)
    have := l.union r
    refine this.hasDerivAt ?_
    filter_upwards [Iio_mem_nhds (show (0 : ℝ) < 1 by norm_num)] with y hy
    rcases le_total y 0 with h | h
    · exact .inl h
    · exact .inr ⟨h, hy.le⟩
  · rcases lt_trichotomy z 1 with h' | rfl | h'
    · rw [show step z = 3 * z ^ 2 - 2 * z ^ 3 by unfold step; rw [if_neg h.not_ge, if_pos h'.le]]
      refine (poly z).congr_of_eventuallyEq ?_
      filter_upwards [Ioo_mem_nhds h h'] with y hy using e1 y hy.1.le hy.2.le
    · rw [show step 1 = 1 by unfold step; norm_num]
      have l : HasDerivWithinAt ramp 1 (Icc 0 1) 1 := by
        have := (poly 1).hasDerivWithinAt (s := Icc 0 1)
        norm_num at this
        exact this.congr (fun y hy => e1 y hy.1 hy.2) (by rw [e2 1 le_rfl]; norm_num)
      have r : HasDerivWithinAt ramp 1 (Ici 1) 1 :=
        (line 1).hasDerivWithinAt.congr (fun y hy => e2 y hy) (e2 1 le_rfl)
      refine (l.union r).hasDerivAt ?_
      filter_upwards [Ioi_mem_nhds (show (0 : ℝ) < 1 by norm_num)] with y hy
      rcases le_total y 1 with h | h
      · exact .inl ⟨(show (0 : ℝ) < y from hy).le, h⟩
      · exact .inr h
    · rw [show step z = 1 by unfold step; rw [if_neg h.not_ge, if_neg h'.not_ge]]
      refine (line z).congr_of_eventuallyEq ?_
      filter_upwards [Ioi_mem_nhds h'] with y hy using e2 y (le_of_lt hy)

theorem step_nonneg (z : ℝ) : 0 ≤ step z := by
  unfold step
  split
  · exact le_rfl
  · split
    · nlinarith [sq_nonneg z]
    · norm_num

theorem step_le_one (z : ℝ) : step z ≤ 1 := by
  unfold step
  split
  · norm_num
  · split
    · nlinarith [mul_nonneg (sq_nonneg (1 - z)) (by linarith : (0 : ℝ) ≤ 1 + 2 * z)]
    · exact le_rfl

/-- The step grows, by at most 3/2 per unit. -/
theorem step_sub {y z : ℝ} (h : y ≤ z) : 0 ≤ step z - step y ∧ step z - step y ≤ 3 / 2 * (z - y) := by
  have key : ∀ y z : ℝ, 0 ≤ y → y ≤ z → z ≤ 1 → 0 ≤ (3 * z ^ 2 - 2 * z ^ 3) - (3 * y ^ 2 - 2 * y ^ 3) ∧
      (3 * z ^ 2 - 2 * z ^ 3) - (3 * y ^ 2 - 2 * y ^ 3) ≤ 3 / 2 * (z - y) := by
    intro y z h0 h h1
    have e : (3 * z ^ 2 - 2 * z ^ 3) - (3 * y ^ 2 - 2 * y ^ 3) = (z - y) * (3 * (z + y) - 2 * (z ^ 2 + z * y + y ^ 2)) := by ring
    rw [e]
    constructor
    · refine mul_nonneg (by linarith) ?_
      nlinarith [mul_nonneg h0 (by linarith : (0 : ℝ) ≤ 1 - z), mul_nonneg h0 (by linarith : (0 : ℝ) ≤ 1 - y), mul_nonneg (h0.trans h) (by linarith : (0 : ℝ) ≤ 1 - z)]
    · rw [mul_comm (3 / 2)]
      refine mul_le_mul_of_nonneg_left ?_ (by linarith)
      nlinarith [sq_nonneg (z + y - 1), sq_nonneg (z - y)]
  rcases le_or_gt z 0 with hz | hz
  · have : y ≤ 0 := h.trans hz
    simp only [step, if_pos hz, if_pos this]
    constructor <;> linarith
  · rcases le_or_gt y 0 with hy | hy
    · rw [show step y = 0 from if_pos hy]
      refine ⟨by linarith [step_nonneg z], ?_⟩
      rcases le_or_gt z 1 with h1 | h1
      · rw [show step z = 3 * z ^ 2 - 2 * z ^ 3 by unfold step; rw [if_neg hz.not_ge, if_pos h1]]
        have := (key 0 z le_rfl hz.le h1).2
        norm_num at this ⊢
        linarith
      · linarith [step_le_one z]
    · rcases le_or_gt z 1 with h1 | h1
      · rw [show step z = 3 * z ^ 2 - 2 * z ^ 3 by unfold step; rw [if_neg hz.not_ge, if_pos h1],
          show step y = 3 * y ^ 2 - 2 * y ^ 3 by unfold step; rw [if_neg hy.not_ge, if_pos (h.trans h1)]]
        exact key y z hy.le h h1
      · rw [show step z = 1 by unfold step; rw [if_neg hz.not_ge, if_neg h1.not_ge]]
        refine ⟨by linarith [step_le_one y], ?_⟩
        rcases le_or_gt y 1 with h2 | h2
        · rw [show step y = 3 * y ^ 2 - 2 * y ^ 3 by unfold step; rw [if_neg hy.not_ge, if_pos h2]]
          have := (key y 1 hy.le h2 le_rfl).2
          norm_num at this
          linarith
        · rw [show step y = 1 by unfold step; rw [if_neg hy.not_ge, if_neg h2.not_ge]]
          linarith

theorem ramp_of_nonpos {z : ℝ} (h : z ≤ 0) : ramp z = 0 := if_pos h

theorem ramp_of_ge {z : ℝ} (h : 1 ≤ z) : ramp z = z - 1 / 2 := by
  unfold ramp
  rw [if_neg (by linarith)]
  split
  · have : z = 1 := le_antisymm ‹_› h
    subst this; norm_num
  · rfl

theorem ramp_of_mem {z : ℝ} (h0 : 0 ≤ z) (h1 : z ≤ 1) : ramp z = z ^ 3 - z ^ 4 / 2 := by
  unfold ramp
  split
  · have : z = 0 := le_antisymm ‹_› h0
    subst this; norm_num
  · rfl

theorem ramp_lt {z : ℝ} (h : 0 < z) : ramp z < z := by
  rcases le_or_gt z 1 with h1 | h1
  · rw [ramp_of_mem h.le h1]
    have h2 : z ^ 2 ≤ 1 := by nlinarith
    have h3 : z ^ 3 ≤ z := by nlinarith
    have h4 : 0 < z ^ 4 := by positivity
    linarith
  · rw [ramp_of_ge h1.le]; linarith

/-- What a ramp lags behind decreases. -/
theorem ramp_lag {u z : ℝ} (h0 : 0 ≤ u) (h1 : u < 1) (h : u < z) : ramp z - z < ramp u - u := by
  have e : ∀ x, 0 ≤ x → x ≤ 1 → ramp x - x = (1 - x) ^ 3 * (2 - (1 - x)) / 2 - 1 / 2 := fun x h0 h1 => by rw [ramp_of_mem h0 h1]; ring
  rw [e u h0 h1.le]
  have hb : 0 < 1 - u := by linarith
  rcases le_or_gt z 1 with hz | hz
  · rw [e z (by linarith) hz]
    have ha : 0 ≤ 1 - z := by linarith
    have hab : 1 - z < 1 - u := by linarith
    have hb1 : 1 - u ≤ 1 := by linarith
    generalize 1 - z = a at *
    generalize 1 - u = b at *
    have : 0 < (b - a) * (2 * (a ^ 2 + a * b + b ^ 2) - (a + b) * (a ^ 2 + b ^ 2)) := by
      refine mul_pos (by linarith) ?_
      have h2 : (a + b) * (a ^ 2 + b ^ 2) ≤ 2 * (a ^ 2 + b ^ 2) := mul_le_mul_of_nonneg_right (by linarith) (by positivity)
      rcases ha.eq_or_lt with rfl | ha
      · nlinarith [pow_pos hb 2, pow_pos hb 3]
      · nlinarith [mul_pos ha hb]
    nlinarith
  · rw [ramp_of_ge hz.le]
    have : 0 < (1 - u) ^ 3 * (2 - (1 - u)) := mul_pos (by positivity) (by linarith)
    linarith

/-- Speeding up for `τ` seconds, and slowing down from `t2` on. -/
noncomputable def profile (a d v τ t2 t : ℝ) : ℝ := a + d * (v * τ * (ramp (t / τ) - ramp ((t - t2) / τ)))

open Spec in
theorem move_profile {a d v τ t2 : ℝ} (hd : d = 1 ∨ d = -1) (hv : 0 < v) (hτ : 0 < τ) (ht2 : 0 < t2) :
    Move a (a + d * (v * t2)) v (3 / 2 * v / τ) (t2 + τ) (profile a d v τ t2) := by
  have hd2 : d * d = 1 := by rcases hd with rfl | rfl <;> norm_num
  have hda : |d| = 1 := by rcases hd with rfl | rfl <;> norm_num
  have dv1 : ∀ t, HasDerivAt (fun t => ramp (t / τ)) (step (t / τ) * (1 / τ)) t := fun t =>
    HasDerivAt.comp (h₂ := ramp) (h := fun t => t / τ) t (hasDerivAt_ramp (t / τ)) ((hasDerivAt_id t).div_const τ)
  have dv2 : ∀ t, HasDerivAt (fun t => ramp ((t - t2) / τ)) (step ((t - t2) / τ) * (1 / τ)) t := fun t =>
    HasDerivAt.comp (h₂ := ramp) (h := fun t => (t - t2) / τ) t (hasDerivAt_ramp ((t - t2) / τ)) (((hasDerivAt_id t).sub_const t2).div_const τ)
  have hle : ∀ t, (t - t2) / τ ≤ t / τ := fun t => by
    apply div_le_div_of_nonneg_right _ hτ.le; linarith
  refine ⟨?_, ?_, ?_, fun t => d * (v * (step (t / τ) - step ((t - t2) / τ))), ?_, ?_, ?_, ?_⟩
  · intro t ht
    unfold profile
    rw [ramp_of_nonpos (div_nonpos_of_nonpos_of_nonneg ht hτ.le), ramp_of_nonpos (div_nonpos_of_nonpos_of_nonneg (by linarith) hτ.le)]
    ring
  · intro t ht
    unfold profile
    rw [ramp_of_ge (by rw [le_div_iff₀ hτ]; linarith), ramp_of_ge (by rw [le_div_iff₀ hτ]; linarith)]
    field_simp
    ring
  · intro _ t ht he
    have key : v * τ * (ramp (t / τ) - ramp ((t - t2) / τ)) < v * t2 := by
      rcases le_or_gt t t2 with h1 | h1
      · rw [ramp_of_nonpos (z := (t - t2) / τ) (div_nonpos_of_nonpos_of_nonneg (by linarith) hτ.le), sub_zero, mul_assoc]
        refine mul_lt_mul_of_pos_left ?_ hv
        rcases le_or_gt t 0 with h2 | h2
        · rw [ramp_of_nonpos (div_nonpos_of_nonpos_of_nonneg h2 hτ.le)]
          linarith
        · have := mul_lt_mul_of_pos_left (ramp_lt (div_pos h2 hτ)) hτ
          rw [mul_div_cancel₀ _ hτ.ne'] at this
          linarith
      · have hu0 : 0 < (t - t2) / τ := div_pos (by linarith) hτ
        have hu1 : (t - t2) / τ < 1 := by rw [div_lt_iff₀ hτ]; linarith
        have ht1 : t / τ = t2 / τ + (t - t2) / τ := by ring
        rw [mul_assoc]
        refine mul_lt_mul_of_pos_left ?_ hv
        have hlt : ramp (t / τ) - ramp ((t - t2) / τ) < t2 / τ := by
          have := ramp_lag hu0.le hu1 (z := t / τ) (by rw [ht1]; have := div_pos ht2 hτ; linarith)
          linarith
        have := mul_lt_mul_of_pos_left hlt hτ
        rwa [mul_div_cancel₀ _ hτ.ne'] at this
    unfold profile at he
    have he := add_left_cancel he
    have : d * d * (v * τ * (ramp (t / τ) - ramp ((t - t2) / τ))) = d * d * (v * t2) := by rw [mul_assoc, he, mul_assoc]
    rw [hd2] at this
    linarith
  · intro t
    have := ((((dv1 t).sub (dv2 t)).const_mul (v * τ)).const_mul d).const_add a
    refine this.congr_deriv ?_
    field_simp
  · intro t
    have h1 := (step_sub (hle t)).1
    have h2 : 0 ≤ v * (step (t / τ) - step ((t - t2) / τ)) := mul_nonneg hv.le h1
    have h3 : 0 < v * t2 := mul_pos hv ht2
    rcases hd with rfl | rfl
    · exact ⟨fun _ => by linarith, fun _ => by linarith⟩
    · exact ⟨fun _ => by linarith, fun _ => by linarith⟩
  · intro t
    have h1 := (step_sub (hle t)).1
    have h2 := step_le_one (t / τ)
    have h3 := step_nonneg ((t - t2) / τ)
    rw [abs_mul, hda, one_mul, abs_of_nonneg (mul_nonneg hv.le h1)]
    nlinarith
  · have key : ∀ s t, s ≤ t → |d * (v * (step (t / τ) - step ((t - t2) / τ))) - d * (v * (step (s / τ) - step ((s - t2) / τ)))| ≤ 3 / 2 * v / τ * |t - s| := by
      intro s t hst
      rw [← mul_sub, ← mul_sub, abs_mul, hda, one_mul, abs_mul, abs_of_pos hv]
      have hs : s / τ ≤ t / τ := div_le_div_of_nonneg_right hst hτ.le
      have hs2 : (s - t2) / τ ≤ (t - t2) / τ := div_le_div_of_nonneg_right (by linarith) hτ.le
      obtain ⟨a1, a2⟩ := step_sub hs
      obtain ⟨b1, b2⟩ := step_sub hs2
      have ea : t / τ - s / τ = (t - s) / τ := by ring
      have eb : (t - t2) / τ - (s - t2) / τ = (t - s) / τ := by ring
      rw [ea] at a2
      rw [eb] at b2
      rw [abs_of_nonneg (by linarith : 0 ≤ t - s)]
      have : |step (t / τ) - step ((t - t2) / τ) - (step (s / τ) - step ((s - t2) / τ))| ≤ 3 / 2 * ((t - s) / τ) := by
        rw [abs_le]
        constructor <;> linarith
      calc v * _ ≤ v * (3 / 2 * ((t - s) / τ)) := mul_le_mul_of_nonneg_left this hv.le
        _ = _ := by ring
    intro s t
    rcases le_total s t with h1 | h1
    · exact key s t h1
    · rw [abs_sub_comm, abs_sub_comm t s]
      exact key t s h1

theorem Spec.Move.relax {a b V A A' T : ℝ} {x : ℝ → ℝ} (h : Spec.Move a b V A T x) (hA : A ≤ A') : Spec.Move a b V A' T x := by
  obtain ⟨h1, h2, h3, v, h4, h5, h6, h7⟩ := h
  exact ⟨h1, h2, h3, v, h4, h5, h6, fun s t => (h7 s t).trans (mul_le_mul_of_nonneg_right hA (abs_nonneg _))⟩

theorem Spec.Move.weaken {a b V V' A T : ℝ} {x : ℝ → ℝ} (h : Spec.Move a b V A T x) (hV : V ≤ V') : Spec.Move a b V' A T x := by
  obtain ⟨h1, h2, h3, v, h4, h5, h6, h7⟩ := h
  exact ⟨h1, h2, h3, v, h4, h5, fun t => (h6 t).trans hV, h7⟩

end Verif
