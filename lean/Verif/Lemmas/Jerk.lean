import Verif.Lemmas.Ramp
import Mathlib.Analysis.Calculus.Deriv.MeanValue
/-!
Differences of sampled paths: velocity, acceleration and jerk of the paths of the motion generator, as a robot that samples them sees them.
-/
namespace Verif
open Set

/-- A function whose rate is at most `c + A (s - a)`. -/
theorem incr_le {f f' : ℝ → ℝ} {a b c A : ℝ} (h : ∀ t, HasDerivAt f (f' t) t) (hab : a ≤ b) (hb : ∀ s, a ≤ s → s ≤ b → f' s ≤ c + A * (s - a)) :
    f b - f a ≤ c * (b - a) + A / 2 * (b - a) ^ 2 := by
  have hd : ∀ t, HasDerivAt (fun s => f s - (c * (s - a) + A / 2 * (s - a) ^ 2)) (f' t - (c + A * (t - a))) t := fun t => by
    have h1 : HasDerivAt (fun s : ℝ => s - a) 1 t := (hasDerivAt_id t).sub_const a
    have h2 := (h1.const_mul c).add ((h1.pow 2).const_mul (A / 2))
    refine ((h t).sub h2).congr_deriv ?_
    push_cast
    ring
  have := antitoneOn_of_deriv_nonpos (convex_Icc a b) (fun t _ => (hd t).continuousAt.continuousWithinAt) (fun t _ => (hd t).differentiableAt.differentiableWithinAt)
    (fun t ht => by
      rw [(hd t).deriv]
      rw [interior_Icc] at ht
      linarith [hb t ht.1.le ht.2.le])
  have := this (left_mem_Icc.2 hab) (right_mem_Icc.2 hab) hab
  simp only [sub_self] at this
  nlinarith

theorem le_incr {f f' : ℝ → ℝ} {a b c A : ℝ} (h : ∀ t, HasDerivAt f (f' t) t) (hab : a ≤ b) (hb : ∀ s, a ≤ s → s ≤ b → c + A * (s - a) ≤ f' s) :
    c * (b - a) + A / 2 * (b - a) ^ 2 ≤ f b - f a := by
  have := incr_le (f := fun t => - f t) (f' := fun t => - f' t) (c := -c) (A := -A) (fun t => (h t).neg) hab (fun s h1 h2 => by linarith [hb s h1 h2])
  nlinarith

/-- Away from its middle the step grows a little slower. -/
theorem step_sub_slow {y z : ℝ} (h : y ≤ z) (hs : z ≤ 0.45 ∨ 0.55 ≤ y) : step z - step y ≤ 1.485 * (z - y) := by
  have key : ∀ y z : ℝ, 0 ≤ y → y ≤ z → z ≤ 1 → (z ≤ 0.45 ∨ 0.55 ≤ y) → (3 * z ^ 2 - 2 * z ^ 3) - (3 * y ^ 2 - 2 * y ^ 3) ≤ 1.485 * (z - y) := by
    intro y z h0 h h1 hs
    have e : (3 * z ^ 2 - 2 * z ^ 3) - (3 * y ^ 2 - 2 * y ^ 3) = (z - y) * (3 * (z + y) - 2 * (z ^ 2 + z * y + y ^ 2)) := by ring
    rw [e, mul_comm (1.485 : ℝ)]
    refine mul_le_mul_of_nonneg_left ?_ (by linarith)
    have e2 : 3 * (z + y) - 2 * (z ^ 2 + z * y + y ^ 2) = 3 / 2 - 2 * ((z - 1 / 2) ^ 2 + (z - 1 / 2) * (y - 1 / 2) + (y - 1 / 2) ^ 2) := by ring
    rw [e2]
    rcases hs with hs | hs
    · nlinarith [mul_nonneg (by linarith : (0 : ℝ) ≤ 0.45 - z) (by linarith : (0 : ℝ) ≤ 0.45 - y), mul_nonneg (by linarith : (0 : ℝ) ≤ 0.45 - z) (by linarith : (0 : ℝ) ≤ 0.45 - z),
        mul_nonneg (by linarith : (0 : ℝ) ≤ 0.45 - y) (by linarith : (0 : ℝ) ≤ 0.45 - y)]
    · nlinarith [mul_nonneg (by linarith : (0 : ℝ) ≤ z - 0.55) (by linarith : (0 : ℝ) ≤ y - 0.55), mul_nonneg (by linarith : (0 : ℝ) ≤ z - 0.55) (by linarith : (0 : ℝ) ≤ z - 0.55),
        mul_nonneg (by linarith : (0 : ℝ) ≤ y - 0.55) (by linarith : (0 : ℝ) ≤ y - 0.55)]
  have s0 : ∀ y : ℝ, y ≤ 0 → step y = 0 := fun y h => if_pos h
  have s1 : ∀ y : ℝ, 0 ≤ y → y ≤ 1 → step y = 3 * y ^ 2 - 2 * y ^ 3 := fun y h0 h1 => by
    unfold step
    split
    · have : y = 0 := le_antisymm ‹_› h0
      subst this; norm_num
    · rfl
  have s2 : ∀ y : ℝ, 1 ≤ y → step y = 1 := fun y h => by
    rcases eq_or_lt_of_le h with rfl | h
    · rw [s1 1 (by norm_num) le_rfl]; norm_num
    · unfold step
      rw [if_neg (by linarith), if_neg (by linarith)]
  rcases hs with hs | hs
  · rcases le_total z 0 with hz | hz
    · rw [s0 z hz, s0 y (h.trans hz)]
      linarith
    · rw [s1 z hz (by linarith)]
      rcases le_total y 0 with hy | hy
      · rw [s0 y hy]
        have := key 0 z le_rfl hz (by linarith) (.inl hs)
        norm_num at this ⊢
        linarith
      · rw [s1 y hy (by linarith)]
        exact key y z hy h (by linarith) (.inl hs)
  · rcases le_total 1 y with hy | hy
    · rw [s2 y hy, s2 z (hy.trans h)]
      linarith
    · rw [s1 y (by linarith) hy]
      rcases le_total 1 z with hz | hz
      · rw [s2 z hz]
        have := key y 1 (by linarith) hy le_rfl (.inr hs)
        norm_num at this ⊢
        linarith
      · rw [s1 z (by linarith) hz]
        exact key y z (by linarith) h hz (.inr hs)

section ramp
variable {y z : ℝ} (h : y ≤ z)
include h

theorem ramp_incr_ge : step y * (z - y) ≤ ramp z - ramp y := by
  have := le_incr (c := step y) (A := 0) hasDerivAt_ramp h (fun s h1 _ => by linarith [(step_sub h1).1])
  linarith

theorem ramp_incr_le' : ramp z - ramp y ≤ step z * (z - y) := by
  have := incr_le (c := step z) (A := 0) hasDerivAt_ramp h (fun s _ h2 => by linarith [(step_sub h2).1])
  linarith

theorem ramp_incr_le : ramp z - ramp y ≤ step y * (z - y) + 0.75 * (z - y) ^ 2 := by
  have := incr_le (c := step y) (A := 3 / 2) hasDerivAt_ramp h (fun s h1 _ => by linarith [(step_sub h1).2])
  linarith

theorem ramp_incr_ge' : step z * (z - y) - 0.75 * (z - y) ^ 2 ≤ ramp z - ramp y := by
  have := le_incr (c := step z - 3 / 2 * (z - y)) (A := 3 / 2) hasDerivAt_ramp h (fun s _ h2 => by linarith [(step_sub h2).2])
  linarith

theorem ramp_incr_le_slow (hs : z ≤ 0.45 ∨ 0.55 ≤ y) : ramp z - ramp y ≤ step y * (z - y) + 0.7425 * (z - y) ^ 2 := by
  have := incr_le (c := step y) (A := 1.485) hasDerivAt_ramp h (fun s h1 h2 => by
    linarith [step_sub_slow h1 (hs.imp (fun hs => h2.trans hs) id)])
  linarith

theorem ramp_incr_ge_slow (hs : z ≤ 0.45 ∨ 0.55 ≤ y) : step z * (z - y) - 0.7425 * (z - y) ^ 2 ≤ ramp z - ramp y := by
  have := le_incr (c := step z - 1.485 * (z - y)) (A := 1.485) hasDerivAt_ramp h (fun s h1 h2 => by
    linarith [step_sub_slow h2 (hs.imp id (fun hs => hs.trans h1))])
  linarith

end ramp

/-- Half of a third difference of the ramp. -/
theorem half_diff {k : ℝ} (hk : 0.18 ≤ k) (z : ℝ) : 0 ≤ ramp z - 3 * ramp (z - k) + 2 * ramp (z - 1.5 * k) ∧
    ramp z - 3 * ramp (z - k) + 2 * ramp (z - 1.5 * k) ≤ 1.1244 * k ^ 2 := by
  have hk0 : 0 < k := by linarith
  have e1 : z - (z - k) = k := by ring
  have e2 : z - k - (z - 1.5 * k) = 0.5 * k := by ring
  constructor
  · have h1 := ramp_incr_ge (show z - k ≤ z by linarith)
    have h2 := ramp_incr_le' (show z - 1.5 * k ≤ z - k by linarith)
    rw [e1] at h1
    rw [e2] at h2
    linarith
  · rcases le_total 0.5 (z - k) with hy | hy
    · have h1 := ramp_incr_le_slow (show z - 0.5 * k ≤ z by linarith) (.inr (by linarith))
      have h2 := ramp_incr_le (show z - k ≤ z - 0.5 * k by linarith)
      have h3 := ramp_incr_ge' (show z - 1.5 * k ≤ z - k by linarith)
      have h4 := (step_sub (show z - k ≤ z - 0.5 * k by linarith)).2
      have e3 : z - (z - 0.5 * k) = 0.5 * k := by ring
      have e4 : z - 0.5 * k - (z - k) = 0.5 * k := by ring
      rw [e2] at h3
      rw [e3] at h1
      rw [e4] at h2 h4
      nlinarith
    · have h1 := ramp_incr_le (show z - k ≤ z by linarith)
      have h2 := ramp_incr_ge' (show z - 1.28 * k ≤ z - k by linarith)
      have h3 := ramp_incr_ge_slow (show z - 1.5 * k ≤ z - 1.28 * k by linarith) (.inl (by linarith))
      have h4 := (step_sub (show z - 1.28 * k ≤ z - k by linarith)).2
      have e3 : z - k - (z - 1.28 * k) = 0.28 * k := by ring
      have e4 : z - 1.28 * k - (z - 1.5 * k) = 0.22 * k := by ring
      rw [e1] at h1
      rw [e3] at h2 h4
      rw [e4] at h3
      nlinarith

theorem ramp_mirror (z : ℝ) : ramp (1 - z) = ramp z - z + 1 / 2 := by
  rcases le_total z 0 with h | h
  · rw [ramp_of_nonpos h, ramp_of_ge (by linarith)]
    ring
  · rcases le_total z 1 with h1 | h1
    · rw [ramp_of_mem h h1, ramp_of_mem (by linarith) (by linarith)]
      ring
    · rw [ramp_of_nonpos (by linarith), ramp_of_ge h1]
      ring

/-- The third difference of a ramp that is short. -/
theorem ramp_third {k : ℝ} (hk : 0.18 ≤ k) (z : ℝ) : |ramp z - 3 * ramp (z - k) + 3 * ramp (z - 2 * k) - ramp (z - 3 * k)| ≤ 1.1244 * k ^ 2 := by
  have h1 := half_diff hk z
  have h2 := half_diff hk (1 - (z - 3 * k))
  rw [show 1 - (z - 3 * k) - k = 1 - (z - 2 * k) by ring, show 1 - (z - 3 * k) - 1.5 * k = 1 - (z - 1.5 * k) by ring, ramp_mirror, ramp_mirror, ramp_mirror] at h2
  rw [abs_le]
  constructor <;> linarith [h1.1, h1.2, h2.1, h2.2]

/-! ## Paths with two derivatives -/

theorem lip_of_deriv {f f' : ℝ → ℝ} {C : ℝ} (h : ∀ t, HasDerivAt f (f' t) t) (hC : ∀ t, |f' t| ≤ C) (s t : ℝ) : |f t - f s| ≤ C * |t - s| := by
  have := Convex.norm_image_sub_le_of_norm_hasDerivWithin_le (𝕜 := ℝ) (f := f) (f' := f') (s := Set.univ) (C := C) (x := s) (y := t)
    (fun r _ => (h r).hasDerivWithinAt) (fun r _ => hC r) convex_univ (Set.mem_univ _) (Set.mem_univ _)
  simpa only [Real.norm_eq_abs] using this

theorem hasDerivAt_shift {f f' : ℝ → ℝ} (h : ∀ t, HasDerivAt f (f' t) t) (c t : ℝ) : HasDerivAt (fun t => f (t - c)) (f' (t - c)) t :=
  HasDerivAt.comp_sub_const t c (h (t - c))

/-- The second difference of a path whose velocity changes at most by `A` per second. -/
theorem second_diff {x v : ℝ → ℝ} {A h : ℝ} (hx : ∀ t, HasDerivAt x (v t) t) (hv : ∀ s t, |v t - v s| ≤ A * |t - s|) (hh : 0 ≤ h) (t : ℝ) :
    |x t - 2 * x (t - h) + x (t - 2 * h)| ≤ A * h ^ 2 := by
  have := lip_of_deriv (f := fun t => x t - x (t - h)) (C := A * h) (fun t => (hx t).sub (hasDerivAt_shift hx h t)) (fun t => by
    have := hv (t - h) t
    rwa [sub_sub_cancel, abs_of_nonneg hh] at this) (t - h) t
  rw [sub_sub_cancel, abs_of_nonneg hh] at this
  rw [show t - h - h = t - 2 * h by ring] at this
  rw [show x t - 2 * x (t - h) + x (t - 2 * h) = x t - x (t - h) - (x (t - h) - x (t - 2 * h)) by ring]
  linarith

/-- The third difference of a path whose acceleration changes at most by `J` per second. -/
theorem third_diff {x v a : ℝ → ℝ} {J h : ℝ} (hx : ∀ t, HasDerivAt x (v t) t) (hv : ∀ t, HasDerivAt v (a t) t) (ha : ∀ s t, |a t - a s| ≤ J * |t - s|)
    (hh : 0 ≤ h) (t : ℝ) : |x t - 3 * x (t - h) + 3 * x (t - 2 * h) - x (t - 3 * h)| ≤ J * h ^ 3 := by
  have h2 := fun t => second_diff hv ha hh t
  have := lip_of_deriv (f := fun t => x t - 2 * x (t - h) + x (t - 2 * h)) (C := J * h ^ 2)
    (fun t => ((hx t).sub ((hasDerivAt_shift hx h t).const_mul 2)).add (hasDerivAt_shift hx (2 * h) t)) h2 (t - h) t
  rw [sub_sub_cancel, abs_of_nonneg hh] at this
  rw [show t - h - h = t - 2 * h by ring, show t - h - 2 * h = t - 3 * h by ring] at this
  rw [show x t - 3 * x (t - h) + 3 * x (t - 2 * h) - x (t - 3 * h) = x t - 2 * x (t - h) + x (t - 2 * h) - (x (t - h) - 2 * x (t - 2 * h) + x (t - 3 * h)) by ring]
  linarith

/-- The slope of the step. -/
noncomputable def slope (z : ℝ) : ℝ := if z ≤ 0 then 0 else if z ≤ 1 then 6 * z - 6 * z ^ 2 else 0

theorem hasDerivAt_step (z : ℝ) : HasDerivAt step (slope z) z := by
  have poly : ∀ z : ℝ, HasDerivAt (fun z : ℝ => 3 * z ^ 2 - 2 * z ^ 3) (6 * z - 6 * z ^ 2) z := fun z => by
    have := ((hasDerivAt_pow 2 z).const_mul 3).sub ((hasDerivAt_pow 3 z).const_mul 2)
    exact this.congr_deriv (by push_cast; ring)
  have e0 : ∀ y ≤ 0, step y = 0 := fun y hy => if_pos hy
  have e1 : ∀ y, 0 ≤ y → y ≤ 1 → step y = 3 * y ^ 2 - 2 * y ^ 3 := fun y h0 h1 => by
    unfold step
    split
    · have : y = 0 := le_antisymm ‹_› h0
      subst this; norm_num
    · rfl
  have e2 : ∀ y, 1 ≤ y → step y = 1 := fun y h => by
    rcases eq_or_lt_of_le h with rfl | h
    · rw [e1 1 (by norm_num) le_rfl]; norm_num
    · unfold step
      rw [if_neg (by linarith), if_neg (by linarith)]
  rcases lt_trichotomy z 0 with h | rfl | h
  · rw [show slope z = 0 from if_pos h.le]
    refine (hasDerivAt_const z (0 : ℝ)).congr_of_eventuallyEq ?_
    filter_upwards [Iio_mem_nhds h] with y hy using e0 y hy.le
  · rw [show slope 0 = 0 from if_pos le_rfl]
    have l : HasDerivWithinAt step 0 (Iic 0) 0 :=
      (hasDerivWithinAt_const _ _ (0 : ℝ)).congr (fun y hy => e0 y hy) (e0 0 le_rfl)
    have r : HasDerivWithinAt step 0 (Icc 0 1) 0 := by
      have := (poly 0).hasDerivWithinAt (s := Icc 0 1)
      norm_num at this
      exact this.congr (fun y hy => e1 y hy.1 hy.2) (by rw [e0 0 le_rfl]; norm_num)
    refine (l.union r).hasDerivAt ?_
    filter_upwards [Iio_mem_nhds (show (0 : ℝ) < 1 by norm_num)] with y hy
    rcases le_total y 0 with h | h
    · exact .inl h
    · exact .inr ⟨h, hy.le⟩
  · rcases lt_trichotomy z 1 with h' | rfl | h'
    · rw [show slope z = 6 * z - 6 * z ^ 2 by unfold slope; rw [if_neg h.not_ge, if_pos h'.le]]
      refine (poly z).congr_of_eventuallyEq ?_
      filter_upwards [Ioo_mem_nhds h h'] with y hy using e1 y hy.1.le hy.2.le
    · rw [show slope 1 = 0 by unfold slope; norm_num]
      have l : HasDerivWithinAt step 0 (Icc 0 1) 1 := by
        have := (poly 1).hasDerivWithinAt (s := Icc 0 1)
        norm_num at this
        exact this.congr (fun y hy => e1 y hy.1 hy.2) (by rw [e2 1 le_rfl]; norm_num)
      have r : HasDerivWithinAt step 0 (Ici 1) 1 :=
        (hasDerivWithinAt_const _ _ (1 : ℝ)).congr (fun y hy => e2 y hy) (e2 1 le_rfl)
      refine (l.union r).hasDerivAt ?_
      filter_upwards [Ioi_mem_nhds (show (0 : ℝ) < 1 by norm_num)] with y hy
      rcases le_total y 1 with h | h
      · exact .inl ⟨(show (0 : ℝ) < y from hy).le, h⟩
      · exact .inr h
    · rw [show slope z = 0 by unfold slope; rw [if_neg h.not_ge, if_neg h'.not_ge]]
      refine (hasDerivAt_const z (1 : ℝ)).congr_of_eventuallyEq ?_
      filter_upwards [Ioi_mem_nhds h'] with y hy using e2 y (le_of_lt hy)

theorem slope_nonpos {z : ℝ} (h : z ≤ 0) : slope z = 0 := if_pos h
theorem slope_ge {z : ℝ} (h : 1 ≤ z) : slope z = 0 := by
  unfold slope
  rw [if_neg (by linarith)]
  split
  · have : z = 1 := le_antisymm ‹_› h
    subst this; norm_num
  · rfl
theorem slope_eq {z : ℝ} (h0 : 0 ≤ z) (h1 : z ≤ 1) : slope z = 6 * z - 6 * z ^ 2 := by
  unfold slope
  split
  · have : z = 0 := le_antisymm ‹_› h0
    subst this; norm_num
  · rfl

theorem slope_lip {y z : ℝ} (h : y ≤ z) : |slope z - slope y| ≤ 6 * (z - y) := by
  have key : ∀ y z : ℝ, 0 ≤ y → y ≤ z → z ≤ 1 → |slope z - slope y| ≤ 6 * (z - y) := by
    intro y z h0 h h1
    rw [slope_eq (h0.trans h) h1, slope_eq h0 (h.trans h1), abs_le]
    constructor <;> nlinarith
  have e0 : slope 0 = 0 := slope_nonpos le_rfl
  have e1 : slope 1 = 0 := slope_ge le_rfl
  rcases le_total z 0 with hz | hz
  · rw [slope_nonpos hz, slope_nonpos (h.trans hz), sub_self, abs_zero]; linarith
  · rcases le_total 1 y with hy | hy
    · rw [slope_ge hy, slope_ge (hy.trans h), sub_self, abs_zero]; linarith
    · rcases le_total y 0 with hy0 | hy0
      · rcases le_total z 1 with hz1 | hz1
        · have := key 0 z le_rfl hz hz1
          rw [e0] at this
          rw [slope_nonpos hy0]
          linarith
        · rw [slope_nonpos hy0, slope_ge hz1, sub_self, abs_zero]; linarith
      · rcases le_total z 1 with hz1 | hz1
        · exact key y z hy0 h hz1
        · have := key y 1 hy0 hy le_rfl
          rw [e1] at this
          rw [slope_ge hz1]
          linarith

/-- A step up and, later, a step down. -/
theorem slopes_lip {c : ℝ} (hc : 1 ≤ c) (y z : ℝ) : |slope z - slope (z - c) - (slope y - slope (y - c))| ≤ 6 * |z - y| := by
  have key : ∀ y z, y ≤ z → |slope z - slope (z - c) - (slope y - slope (y - c))| ≤ 6 * (z - y) := by
    intro y z h
    rcases le_total z c with h1 | h1
    · rw [slope_nonpos (show z - c ≤ 0 by linarith), slope_nonpos (show y - c ≤ 0 by linarith), sub_zero, sub_zero]
      exact slope_lip h
    · rcases le_total 1 y with h2 | h2
      · rw [slope_ge h2, slope_ge (h2.trans h), zero_sub, zero_sub, ← neg_sub', abs_neg]
        have := slope_lip (show y - c ≤ z - c by linarith)
        linarith
      · rw [slope_ge (show 1 ≤ z by linarith), slope_nonpos (show y - c ≤ 0 by linarith), zero_sub, sub_zero]
        have h3 := slope_lip h2
        have h4 := slope_lip (show 0 ≤ z - c by linarith)
        rw [slope_ge le_rfl] at h3
        rw [slope_nonpos le_rfl] at h4
        rw [abs_le] at h3 h4 ⊢
        constructor <;> linarith
  rcases le_total y z with h | h
  · rw [abs_of_nonneg (show 0 ≤ z - y by linarith)]
    exact key y z h
  · rw [abs_sub_comm, abs_sub_comm z y, abs_of_nonneg (show 0 ≤ y - z by linarith)]
    exact key z y h

/-- The third difference of a profile. -/
theorem profile_third {a d v τ t2 h : ℝ} (hd : d = 1 ∨ d = -1) (hv : 0 < v) (hτ : 0 < τ) (ht2 : τ ≤ t2) (hh : 0 < h) (t : ℝ) :
    |profile a d v τ t2 t - 3 * profile a d v τ t2 (t - h) + 3 * profile a d v τ t2 (t - 2 * h) - profile a d v τ t2 (t - 3 * h)| ≤ 6 * v / τ ^ 2 * h ^ 3 := by
  have hda : |d| = 1 := by rcases hd with rfl | rfl <;> norm_num
  have sc : ∀ {f f' : ℝ → ℝ}, (∀ z, HasDerivAt f (f' z) z) → ∀ c t, HasDerivAt (fun t => f ((t - c) / τ)) (f' ((t - c) / τ) * (1 / τ)) t := fun hf c t =>
    HasDerivAt.comp (h := fun t => (t - c) / τ) t (hf ((t - c) / τ)) (((hasDerivAt_id t).sub_const c).div_const τ)
  refine third_diff (v := fun t => d * (v * (step ((t - 0) / τ) - step ((t - t2) / τ)))) (a := fun t => d * (v / τ * (slope ((t - 0) / τ) - slope ((t - t2) / τ)))) ?_ ?_ ?_ hh.le t
  · intro t
    have := ((((sc hasDerivAt_ramp 0 t).sub (sc hasDerivAt_ramp t2 t)).const_mul (v * τ)).const_mul d).const_add a
    unfold profile
    simp only [sub_zero] at this ⊢
    refine this.congr_deriv ?_
    field_simp
  · intro t
    have := (((sc hasDerivAt_step 0 t).sub (sc hasDerivAt_step t2 t)).const_mul v).const_mul d
    refine this.congr_deriv ?_
    field_simp
  · intro s t
    simp only [sub_zero]
    have h1 := slopes_lip (c := t2 / τ) (by rw [le_div_iff₀ hτ]; linarith) (s / τ) (t / τ)
    rw [← sub_div, ← sub_div, ← sub_div, abs_div, abs_of_pos hτ] at h1
    rw [← mul_sub, ← mul_sub, abs_mul, hda, one_mul, abs_mul, abs_of_pos (by positivity : 0 < v / τ)]
    calc v / τ * _ ≤ v / τ * (6 * (|t - s| / τ)) := mul_le_mul_of_nonneg_left h1 (by positivity)
      _ = _ := by field_simp

/-- The third difference of a profile whose ramps are short and far from each other. -/
theorem profile_third_short {a d v τ t2 h : ℝ} (hd : d = 1 ∨ d = -1) (hv : 0 < v) (hτ : 0 < τ) (hh : 0 < h) (hk : 0.18 * τ ≤ h) (hf : τ + 3 * h ≤ t2) (t : ℝ) :
    |profile a d v τ t2 t - 3 * profile a d v τ t2 (t - h) + 3 * profile a d v τ t2 (t - 2 * h) - profile a d v τ t2 (t - 3 * h)| ≤ 1.1244 * v / τ * h ^ 2 := by
  have hda : |d| = 1 := by rcases hd with rfl | rfl <;> norm_num
  have hk' : 0.18 ≤ h / τ := by rw [le_div_iff₀ hτ]; exact hk
  have e : ∀ b, b * h / τ = b * (h / τ) := fun b => by ring
  have main : ∀ R : ℝ, |R| ≤ 1.1244 * (h / τ) ^ 2 → ∀ X, X = d * (v * τ * R) → |X| ≤ 1.1244 * v / τ * h ^ 2 := by
    rintro R hR X rfl
    rw [abs_mul, hda, one_mul, abs_mul, abs_of_pos (by positivity : 0 < v * τ)]
    calc v * τ * |R| ≤ v * τ * (1.1244 * (h / τ) ^ 2) := mul_le_mul_of_nonneg_left hR (by positivity)
      _ = _ := by field_simp
  rcases le_total t t2 with h1 | h1
  · refine main _ (ramp_third hk' (t / τ)) _ ?_
    have z : ∀ s ≤ t2, ramp ((s - t2) / τ) = 0 := fun s hs => ramp_of_nonpos (div_nonpos_of_nonpos_of_nonneg (by linarith) hτ.le)
    unfold profile
    rw [z t h1, z (t - h) (by linarith), z (t - 2 * h) (by linarith), z (t - 3 * h) (by linarith), sub_div t h, sub_div t (2 * h), sub_div t (3 * h), e 2, e 3]
    ring
  · have hR := ramp_third hk' ((t - t2) / τ)
    rw [← abs_neg] at hR
    refine main _ hR _ ?_
    have z : ∀ s, τ ≤ s → ramp (s / τ) = s / τ - 1 / 2 := fun s hs => ramp_of_ge (by rw [le_div_iff₀ hτ]; linarith)
    have z' : ∀ b, (t - b - t2) / τ = (t - t2) / τ - b / τ := fun b => by ring
    unfold profile
    rw [z t (by linarith), z (t - h) (by linarith), z (t - 2 * h) (by linarith), z (t - 3 * h) (by linarith), z' h, z' (2 * h), z' (3 * h), e 2, e 3]
    ring

end Verif
