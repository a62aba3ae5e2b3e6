import Verif.Lemmas.RoundedSync
/-!
The path of a joint if every operation is rounded.
-/
set_option linter.unusedSectionVars false
namespace Verif
open Spec Fl

theorem ramp_end (z : ℝ) : 0 ≤ ramp z - (z - 1 / 2) ∧ ramp z - (z - 1 / 2) ≤ max (1 - z) 0 := by
  rcases le_or_gt z 0 with h | h
  · rw [ramp_of_nonpos h]
    exact ⟨by linarith, le_max_of_le_left (by linarith)⟩
  · rcases le_or_gt z 1 with h1 | h1
    · rw [ramp_of_mem h.le h1]
      have e : z ^ 3 - z ^ 4 / 2 - (z - 1 / 2) = (1 - z) * ((1 - z) ^ 2 * (1 + z) / 2) := by ring
      have h2 : (1 - z) ^ 2 ≤ 1 := by nlinarith
      have h3 : (1 - z) ^ 2 * (1 + z) ≤ 2 := by nlinarith [sq_nonneg (1 - z)]
      have h4 : 0 ≤ (1 - z) ^ 2 * (1 + z) := by positivity
      rw [e]
      exact ⟨mul_nonneg (by linarith) (by linarith), le_max_of_le_left (by nlinarith)⟩
    · rw [ramp_of_ge h1.le]
      exact ⟨by linarith, le_max_of_le_right (by linarith)⟩

theorem ramp_start (z : ℝ) : 0 ≤ ramp z ∧ ramp z ≤ max z 0 ∧ (z ≤ 1 → ramp z ≤ max z 0 ^ 3) := by
  rcases le_or_gt z 0 with h | h
  · rw [ramp_of_nonpos h, max_eq_right h]
    norm_num
  · rw [max_eq_left h.le]
    refine ⟨?_, (ramp_lt h).le, fun h1 => ?_⟩
    · have := (ramp_end z).1
      rcases le_or_gt z 1 with h1 | h1
      · rw [ramp_of_mem h.le h1]
        have : z ^ 3 - z ^ 4 / 2 = z ^ 3 * (1 - z / 2) := by ring
        rw [this]
        exact mul_nonneg (by positivity) (by linarith)
      · linarith
    · rw [ramp_of_mem h.le h1]
      have : 0 < z ^ 4 := by positivity
      linarith

theorem ramp_sub (y z : ℝ) : |ramp z - ramp y| ≤ |z - y| := by
  have := Convex.norm_image_sub_le_of_norm_hasDerivWithin_le (f := ramp) (f' := step) (C := 1) (s := Set.univ) (x := y) (y := z)
    (fun x _ => (hasDerivAt_ramp x).hasDerivWithinAt) (fun x _ => by rw [Real.norm_eq_abs, abs_of_nonneg (step_nonneg x)]; exact step_le_one x)
    convex_univ (Set.mem_univ _) (Set.mem_univ _)
  simpa using this

section
variable {δ a v t1 tf t2 q1 t : ℝ}

theorem abs_dir (x : ℝ) : |dir x| = 1 := by rcases dir_cases x with h | h <;> rw [h] <;> norm_num

/-- The facts about the exact numbers. -/
theorem RoundedSync.facts (h : RoundedSync δ a v t1 tf t2 q1) (a1 : 1 / 100 ≤ a) (a2 : a ≤ 6) (d1 : 9 / 10 ^ 7 ≤ |δ|) (d2 : |δ| ≤ 9) :
    0 < v ∧ 2 / 10 ^ 10 ≤ 3 / 2 * v / a ∧ 1 / 10 ^ 7 ≤ |δ| / v ∧ (1 - 1 / 10 ^ 4) * (3 / 2 * v / a) ≤ |δ| / v ∧ v * (3 / 2 * v / a) ≤ 10 ∧ δ = dir δ * (v * (|δ| / v)) := by
  have hv : 0 < v := lt_of_lt_of_le (by norm_num) h.pos
  have ha : 0 < a := by linarith
  have hs := h.square
  refine ⟨hv, ?_, ?_, ?_, ?_, ?_⟩
  · rw [le_div_iff₀ ha]
    linarith [h.pos]
  · rw [le_div_iff₀ hv]
    linarith [h.le]
  · have e : (1 - 1 / 10 ^ 4) * (3 / 2 * v / a) = (1 - 1 / 10 ^ 4) * (3 / 2 * v) / a := by ring
    rw [e, div_le_div_iff₀ ha hv]
    have : 0 < a * |δ| := mul_pos ha (lt_of_lt_of_le (by norm_num) d1)
    nlinarith
  · have e : v * (3 / 2 * v / a) = 3 / 2 * v ^ 2 / a := by ring
    rw [e, div_le_iff₀ ha]
    nlinarith
  · rw [mul_div_cancel₀ _ hv.ne', dir_mul_abs]

theorem phase_one (h : RoundedSync δ a v t1 tf t2 q1) (a1 : 1 / 100 ≤ a) (a2 : a ≤ 6) (d1 : 9 / 10 ^ 7 ≤ |δ|) (d2 : |δ| ≤ 9) (h0 : 0 ≤ t) (h1 : t < t1) :
    |v * dir δ * t1 * ((t / t1) ^ 3 - (t / t1) ^ 4 / 2) - profile 0 (dir δ) v (3 / 2 * v / a) (|δ| / v) t| ≤ 3 / 10 ^ 11 := by
  obtain ⟨hv, hτ1, -, ho, hw, -⟩ := h.facts a1 a2 d1 d2
  have n1 := h.near1
  unfold profile
  generalize |δ| / v = T2 at *
  generalize 3 / 2 * v / a = τ at *
  have hτ : 0 < τ := lt_of_lt_of_le (by norm_num) hτ1
  obtain ⟨m1, m2⟩ := abs_le.1 n1
  have ht1 : 0 < t1 := by linarith
  have hz0 : 0 ≤ t / t1 := by positivity
  have hz1 : t / t1 ≤ 1 := by rw [div_le_one ht1]; exact h1.le
  rw [← ramp_of_mem hz0 hz1, zero_add]
  have hx : (t - T2) / τ ≤ 11 / 10 ^ 5 := by
    rw [div_le_iff₀ hτ]
    linarith
  have hr2 : |ramp ((t - T2) / τ)| ≤ 2 / 10 ^ 12 := by
    obtain ⟨r1, -, r3⟩ := ramp_start ((t - T2) / τ)
    rw [abs_of_nonneg r1]
    refine (r3 (by linarith)).trans ?_
    have : max ((t - T2) / τ) 0 ≤ 11 / 10 ^ 5 := max_le hx (by norm_num)
    refine (pow_le_pow_left₀ (le_max_right _ _) this 3).trans (by norm_num)
  have hr1 : |ramp (t / t1) - ramp (t / τ)| * τ ≤ 1 / 10 ^ 15 * τ := by
    refine le_trans (mul_le_mul_of_nonneg_right (ramp_sub _ _) hτ.le) ?_
    have e : t / t1 - t / τ = t / t1 * ((τ - t1) / τ) := by field_simp
    rw [e, abs_mul, abs_of_nonneg hz0, abs_div, abs_of_pos hτ, mul_assoc, div_mul_cancel₀ _ hτ.ne', abs_sub_comm]
    have := mul_le_of_le_one_left (abs_nonneg (t1 - τ)) hz1
    linarith
  have hr3 : |ramp (t / t1)| ≤ 1 := by
    obtain ⟨r1, r2, -⟩ := ramp_start (t / t1)
    rw [abs_of_nonneg r1]
    exact r2.trans (max_le hz1 (by norm_num))
  have e : v * dir δ * t1 * ramp (t / t1) - dir δ * (v * τ * (ramp (t / τ) - ramp ((t - T2) / τ))) =
      dir δ * (v * ((t1 - τ) * ramp (t / t1) + (ramp (t / t1) - ramp (t / τ)) * τ + ramp ((t - T2) / τ) * τ)) := by ring
  rw [e, abs_mul, abs_dir, one_mul, abs_mul, abs_of_pos hv]
  have hb : |(t1 - τ) * ramp (t / t1) + (ramp (t / t1) - ramp (t / τ)) * τ + ramp ((t - T2) / τ) * τ| ≤ 3 / 10 ^ 12 * τ := by
    refine (abs_add_le _ _).trans ((add_le_add (abs_add_le _ _) le_rfl).trans ?_)
    rw [abs_mul, abs_mul, abs_mul, abs_of_pos hτ]
    have c1 : |t1 - τ| * |ramp (t / t1)| ≤ 1 / 10 ^ 15 * τ := (mul_le_of_le_one_right (abs_nonneg _) hr3).trans n1
    have c2 : |ramp ((t - T2) / τ)| * τ ≤ 2 / 10 ^ 12 * τ := mul_le_mul_of_nonneg_right hr2 hτ.le
    linarith
  calc v * _ ≤ v * (3 / 10 ^ 12 * τ) := mul_le_mul_of_nonneg_left hb hv.le
    _ = 3 / 10 ^ 12 * (v * τ) := by ring
    _ ≤ _ := by linarith

/-- What is true of the path when the joint has sped up. -/
theorem phase_later (h : RoundedSync δ a v t1 tf t2 q1) (a1 : 1 / 100 ≤ a) (a2 : a ≤ 6) (d1 : 9 / 10 ^ 7 ≤ |δ|) (d2 : |δ| ≤ 9) (h1 : t1 ≤ t) {r : ℝ} :
    |v * dir δ * (t - 3 / 2 * v / a / 2 - 3 / 2 * v / a * r) - profile 0 (dir δ) v (3 / 2 * v / a) (|δ| / v) t| ≤
      v * (3 / 2 * v / a * |r - ramp ((t - |δ| / v) / (3 / 2 * v / a))|) + 1 / 10 ^ 14 := by
  obtain ⟨hv, hτ1, -, ho, hw, -⟩ := h.facts a1 a2 d1 d2
  have n1 := h.near1
  unfold profile
  generalize |δ| / v = T2 at *
  generalize 3 / 2 * v / a = τ at *
  have hτ : 0 < τ := lt_of_lt_of_le (by norm_num) hτ1
  obtain ⟨m1, m2⟩ := abs_le.1 n1
  have hz : 1 - 1 / 10 ^ 15 ≤ t / τ := by rw [le_div_iff₀ hτ]; linarith
  obtain ⟨r1, r2⟩ := ramp_end (t / τ)
  have hr : |ramp (t / τ) - (t / τ - 1 / 2)| ≤ 1 / 10 ^ 15 := by
    rw [abs_of_nonneg r1]
    exact r2.trans (max_le (by linarith) (by norm_num))
  have e : v * dir δ * (t - τ / 2 - τ * r) - (0 + dir δ * (v * τ * (ramp (t / τ) - ramp ((t - T2) / τ)))) =
      dir δ * (-(v * τ * (ramp (t / τ) - (t / τ - 1 / 2))) - v * (τ * (r - ramp ((t - T2) / τ)))) := by field_simp; ring
  rw [e, abs_mul, abs_dir, one_mul]
  refine (abs_sub _ _).trans ?_
  rw [abs_neg, abs_mul (v * τ), abs_mul v (τ * _), abs_mul τ (r - _), abs_of_pos (mul_pos hv hτ), abs_of_pos hv, abs_of_pos hτ]
  have : v * τ * |ramp (t / τ) - (t / τ - 1 / 2)| ≤ 10 * (1 / 10 ^ 15) := mul_le_mul hw hr (abs_nonneg _) (by norm_num)
  linarith

theorem phase_two (h : RoundedSync δ a v t1 tf t2 q1) (a1 : 1 / 100 ≤ a) (a2 : a ≤ 6) (d1 : 9 / 10 ^ 7 ≤ |δ|) (d2 : |δ| ≤ 9) (h1 : t1 ≤ t) (h2 : t < t2) :
    |v * dir δ * (t - 3 / 2 * v / a / 2) - profile 0 (dir δ) v (3 / 2 * v / a) (|δ| / v) t| ≤ 1 / 10 ^ 11 := by
  obtain ⟨hv, hτ1, -, ho, hw, -⟩ := h.facts a1 a2 d1 d2
  have key := phase_later h a1 a2 d1 d2 h1 (r := 0)
  have n2 := (abs_le.1 h.near2).2
  rw [mul_zero, sub_zero] at key
  refine key.trans ?_
  generalize |δ| / v = T2 at *
  generalize 3 / 2 * v / a = τ at *
  have hτ : 0 < τ := lt_of_lt_of_le (by norm_num) hτ1
  obtain ⟨r1, r2, -⟩ := ramp_start ((t - T2) / τ)
  rw [zero_sub, abs_neg, abs_of_nonneg r1]
  have : τ * ramp ((t - T2) / τ) ≤ 1 / 10 ^ 12 := by
    refine (mul_le_mul_of_nonneg_left r2 hτ.le).trans ?_
    rcases le_total ((t - T2) / τ) 0 with h | h
    · rw [max_eq_right h]; norm_num
    · rw [max_eq_left h, mul_div_cancel₀ _ hτ.ne']; linarith
  have h3 : v * (τ * ramp ((t - T2) / τ)) ≤ 7 * (1 / 10 ^ 12) := mul_le_mul h.le this (mul_nonneg hτ.le r1) (by norm_num)
  linarith

theorem phase_three (h : RoundedSync δ a v t1 tf t2 q1) (a1 : 1 / 100 ≤ a) (a2 : a ≤ 6) (d1 : 9 / 10 ^ 7 ≤ |δ|) (d2 : |δ| ≤ 9) (h1 : t1 ≤ t) (h2 : t2 ≤ t) (hf : t < tf) :
    |δ + 1 / 2 * (((t - |δ| / v) - 2 * (3 / 2 * v / a)) * ((t - |δ| / v) / (3 / 2 * v / a)) ^ 3 + (2 * (t - |δ| / v) - 3 / 2 * v / a)) * v * dir δ -
      profile 0 (dir δ) v (3 / 2 * v / a) (|δ| / v) t| ≤ 2 / 10 ^ 11 := by
  obtain ⟨hv, hτ1, -, ho, hw, hd⟩ := h.facts a1 a2 d1 d2
  have key := phase_later h a1 a2 d1 d2 h1 (r := ((t - |δ| / v) / (3 / 2 * v / a)) ^ 3 - ((t - |δ| / v) / (3 / 2 * v / a)) ^ 4 / 2)
  have n2 := (abs_le.1 h.near2).1
  have n3 := (abs_le.1 h.nearf).2
  have hτ : 0 < 3 / 2 * v / a := lt_of_lt_of_le (by norm_num) hτ1
  have e : δ + 1 / 2 * (((t - |δ| / v) - 2 * (3 / 2 * v / a)) * ((t - |δ| / v) / (3 / 2 * v / a)) ^ 3 + (2 * (t - |δ| / v) - 3 / 2 * v / a)) * v * dir δ =
      v * dir δ * (t - 3 / 2 * v / a / 2 - 3 / 2 * v / a * (((t - |δ| / v) / (3 / 2 * v / a)) ^ 3 - ((t - |δ| / v) / (3 / 2 * v / a)) ^ 4 / 2)) := by
    conv_lhs => enter [1]; rw [hd]
    generalize |δ| / v = T2 at *
    generalize 3 / 2 * v / a = τ at *
    field_simp
    ring
  rw [e]
  refine key.trans ?_
  clear key e
  generalize |δ| / v = T2 at *
  generalize 3 / 2 * v / a = τ at *
  have eX : t - T2 = (t - T2) / τ * τ := by rw [div_mul_cancel₀ _ hτ.ne']
  have l1 : -(1 / 10 ^ 12) ≤ (t - T2) / τ * τ := by rw [← eX]; linarith
  have l2 : ((t - T2) / τ - 1) * τ ≤ 1 / 10 ^ 12 := by rw [sub_mul, ← eX]; linarith
  generalize (t - T2) / τ = R at l1 l2 ⊢
  have hR1 : -(1 / 100) ≤ R := by
    by_contra hc
    nlinarith
  have hR2 : R - 1 ≤ 1 / 100 := by
    by_contra hc
    nlinarith
  have : τ * |R ^ 3 - R ^ 4 / 2 - ramp R| ≤ 2 / 10 ^ 12 := by
    rcases le_or_gt R 0 with c | c
    · rw [ramp_of_nonpos c, sub_zero]
      have e2 : R ^ 3 - R ^ 4 / 2 = R * (R ^ 2 * (1 - R / 2)) := by ring
      have e3 : |R ^ 2 * (1 - R / 2)| ≤ 1 := by
        rw [abs_of_nonneg (mul_nonneg (sq_nonneg _) (by linarith))]
        nlinarith
      rw [e2, abs_mul, abs_of_nonpos c]
      have := mul_le_of_le_one_right (by nlinarith : 0 ≤ τ * -R) e3
      linarith
    · rcases le_or_gt R 1 with c1 | c1
      · rw [ramp_of_mem c.le c1, sub_self, abs_zero, mul_zero]
        norm_num
      · rw [ramp_of_ge c1.le]
        have e2 : R ^ 3 - R ^ 4 / 2 - (R - 1 / 2) = (R - 1) * (-((R - 1) ^ 2 * (R + 1) / 2)) := by ring
        have e3 : |(-((R - 1) ^ 2 * (R + 1) / 2))| ≤ 1 := by
          rw [abs_neg, abs_of_nonneg (by positivity)]
          have : (R - 1) ^ 2 ≤ (1 / 100) ^ 2 := pow_le_pow_left₀ (by linarith) hR2 2
          nlinarith
        rw [e2, abs_mul, abs_of_pos (by linarith : 0 < R - 1), ← mul_assoc]
        have := mul_le_of_le_one_right (by nlinarith : 0 ≤ τ * (R - 1)) e3
        linarith
  have h3 : v * (τ * |R ^ 3 - R ^ 4 / 2 - ramp R|) ≤ 7 * (2 / 10 ^ 12) := mul_le_mul h.le this (mul_nonneg hτ.le (abs_nonneg _)) (by norm_num)
  linarith

theorem phase_four (h : RoundedSync δ a v t1 tf t2 q1) (a1 : 1 / 100 ≤ a) (a2 : a ≤ 6) (d1 : 9 / 10 ^ 7 ≤ |δ|) (d2 : |δ| ≤ 9) (hf : tf ≤ t) :
    |δ - profile 0 (dir δ) v (3 / 2 * v / a) (|δ| / v) t| ≤ 1 / 10 ^ 11 := by
  obtain ⟨hv, hτ1, hT1, ho, hw, hd⟩ := h.facts a1 a2 d1 d2
  have n1 := (abs_le.1 h.near1).2
  have n3 := (abs_le.1 h.nearf).1
  have hs := h.short
  have hτ : 0 < 3 / 2 * v / a := lt_of_lt_of_le (by norm_num) hτ1
  have key := phase_later (t := t) h a1 a2 d1 d2 (by linarith) (r := (t - |δ| / v) / (3 / 2 * v / a) - 1 / 2)
  have e : δ = v * dir δ * (t - 3 / 2 * v / a / 2 - 3 / 2 * v / a * ((t - |δ| / v) / (3 / 2 * v / a) - 1 / 2)) := by
    conv_lhs => rw [hd]
    generalize |δ| / v = T2 at *
    generalize 3 / 2 * v / a = τ at *
    field_simp
    ring
  conv_lhs => enter [1, 1]; rw [e]
  refine key.trans ?_
  clear key e
  generalize |δ| / v = T2 at *
  generalize 3 / 2 * v / a = τ at *
  obtain ⟨r1, r2⟩ := ramp_end ((t - T2) / τ)
  rw [abs_sub_comm, abs_of_nonneg r1]
  have : τ * (ramp ((t - T2) / τ) - ((t - T2) / τ - 1 / 2)) ≤ 1 / 10 ^ 12 := by
    refine (mul_le_mul_of_nonneg_left r2 hτ.le).trans ?_
    rcases le_total (1 - (t - T2) / τ) 0 with h | h
    · rw [max_eq_right h]; norm_num
    · rw [max_eq_left h, mul_sub, mul_div_cancel₀ _ hτ.ne']; linarith
  have h3 := mul_le_mul h.le this (mul_nonneg hτ.le r1) (by norm_num)
  linarith
end

variable {A : Rounding}

theorem rel_cube {x : ℝ} {n : ℕ} (h1 : (1 / 10) ^ n ≤ |x|) (h2 : |x| ≤ 10 ^ n) (hn : n * 3 ≤ 50) : Rel (powi (Rd.fin x) 3 : Rd A) (x ^ 3) 1 (n * 3) := by
  rw [Rd.powi_fin]
  refine rel_round (c := 0) (by simp) (by norm_num) (by norm_num) hn ?_ ?_
  · rw [abs_pow, pow_mul]
    exact pow_le_pow_left₀ (by positivity) h1 3
  · rw [abs_pow, pow_mul]
    exact pow_le_pow_left₀ (abs_nonneg _) h2 3

theorem Rel.toNear {x : Rd A} {r e : ℝ} {k n : ℕ} (h : Rel x r k n) (he : (k : ℝ) * (12 / 10 ^ 17) * |r| ≤ e) : Near x r e := by
  obtain ⟨y, h1, h2, -, -⟩ := h
  exact ⟨y, h1, h2.trans he⟩

section
variable {δ a v t1 tf t2 q1 t : ℝ}

theorem fin_mul_zero (hz : A.rnd 0 = 0) (x : ℝ) : (Rd.fin x * Rd.fin 0 : Rd A) = Rd.fin 0 := by
  show Rd.round A (.fin (x * 0)) = _
  rw [mul_zero, rnd_fin (by norm_num), hz]

theorem float_one (hz : A.rnd 0 = 0) (h : RoundedSync δ a v t1 tf t2 q1) (a1 : 1 / 100 ≤ a) (a2 : a ≤ 6) (d1 : 9 / 10 ^ 7 ≤ |δ|) (d2 : |δ| ≤ 9)
    (h0 : t = 0 ∨ 1 / 10 ^ 4 ≤ t) (h1 : t < t1) :
    Near (lit (-1) / powi (Rd.fin t1) 3 * Rd.fin v * Rd.fin (dir δ) * (lit (5 / 10) * Rd.fin t - Rd.fin t1) * powi (Rd.fin t) 3 : Rd A)
      (profile 0 (dir δ) v (3 / 2 * v / a) (|δ| / v) t) (1 / 10 ^ 10) := by
  have ht0 : 0 ≤ t := by rcases h0 with h | h <;> linarith
  have key := phase_one h a1 a2 d1 d2 ht0 h1
  obtain ⟨hv, hτ1, hT, ho, hw, -⟩ := h.facts a1 a2 d1 d2
  obtain ⟨m1, m2⟩ := abs_le.1 h.near1
  have hs := h.short
  have v2 := h.le
  have v1 := h.pos
  have hvt : v * t1 ≤ 11 := by
    have : v * t1 ≤ v * (3 / 2 * v / a * (1 + 1 / 10 ^ 15)) := mul_le_mul_of_nonneg_left (by linarith) hv.le
    linarith
  have l1 : 1 / 10 ^ 10 ≤ t1 := by linarith
  have l2 : t1 ≤ 501 := by linarith
  have ht1 : 0 < t1 := by linarith
  have rm : Rel (lit (-1) : Rd A) (-1) 1 0 := rel_num 0 (by norm_num) (by norm_num) (by norm_num) (by norm_num)
  have rv : Rel (Rd.fin v : Rd A) v 0 9 := rel_fin (by rw [abs_of_pos hv]; norm_num at v1 ⊢; linarith) (by rw [abs_of_pos hv]; norm_num; linarith)
  have rd : Rel (Rd.fin (dir δ) : Rd A) (dir δ) 0 0 := rel_dir δ
  have r5 : Rel (lit (5 / 10) : Rd A) (5 / 10) 1 1 := rel_num 1 (by norm_num) (by norm_num) (by norm_num) (by norm_num)
  rcases h0 with rfl | h0
  · have rc : Rel (powi (Rd.fin t1) 3 : Rd A) (t1 ^ 3) 1 (10 * 3) :=
      rel_cube (by rw [abs_of_pos ht1]; norm_num at l1 ⊢; linarith) (by rw [abs_of_pos ht1]; norm_num; linarith) (by norm_num)
    have rx := ((rm.div rc (by norm_num) (by norm_num) (by norm_num)).mul rv (by norm_num) (by norm_num) (by norm_num)).mul rd (by norm_num) (by norm_num) (by norm_num)
    obtain ⟨y, ey, -⟩ := r5
    rw [ey, fin_mul_zero hz, Rd.sub_fin]
    have rh : Rel (Rd.round A (.fin (0 - t1))) (0 - t1) 1 10 :=
      rel_round (c := 0) (by simp) (by norm_num) (by norm_num) (by norm_num) (by rw [zero_sub, abs_neg, abs_of_pos ht1]; norm_num at l1 ⊢; linarith)
        (by rw [zero_sub, abs_neg, abs_of_pos ht1]; norm_num; linarith)
    obtain ⟨x, ex, -⟩ := rx.mul rh (by norm_num) (by norm_num) (by norm_num)
    rw [ex, Rd.powi_fin, zero_pow (by norm_num), rnd_fin (by norm_num), hz, fin_mul_zero hz]
    refine ⟨0, rfl, ?_⟩
    have e : v * dir δ * t1 * ((0 / t1) ^ 3 - (0 / t1) ^ 4 / 2) = 0 := by norm_num
    rw [e] at key
    linarith
  · have rt1 : Rel (Rd.fin t1 : Rd A) t1 0 4 := rel_fin (by rw [abs_of_pos ht1]; norm_num at h0 ⊢; linarith) (by rw [abs_of_pos ht1]; norm_num; linarith)
    have ht : 0 < t := by linarith
    have rt : Rel (Rd.fin t : Rd A) t 0 4 := rel_fin (by rw [abs_of_pos ht]; norm_num at h0 ⊢; linarith) (by rw [abs_of_pos ht]; norm_num; linarith)
    have rc : Rel (powi (Rd.fin t1) 3 : Rd A) (t1 ^ 3) 1 (4 * 3) :=
      rel_cube (by rw [abs_of_pos ht1]; norm_num at h0 ⊢; linarith) (by rw [abs_of_pos ht1]; norm_num; linarith) (by norm_num)
    have rc' : Rel (powi (Rd.fin t) 3 : Rd A) (t ^ 3) 1 (4 * 3) :=
      rel_cube (by rw [abs_of_pos ht]; norm_num at h0 ⊢; linarith) (by rw [abs_of_pos ht]; norm_num; linarith) (by norm_num)
    have rh : Rel (lit (5 / 10) * Rd.fin t - Rd.fin t1 : Rd A) (5 / 10 * t - t1) 3 5 := by
      obtain ⟨y, ey, hy, -, -⟩ := r5.mul rt (by norm_num) (by norm_num) (by norm_num)
      rw [ey, Rd.sub_fin]
      rw [abs_of_pos (show 0 < 5 / 10 * t by positivity)] at hy
      push_cast at hy
      have hr : |5 / 10 * t - t1| = t1 - 5 / 10 * t := by rw [abs_of_neg (by linarith)]; ring
      refine rel_round (c := 2 * (12 / 10 ^ 17)) ?_ (by norm_num) (by norm_num) (by norm_num) ?_ ?_
      · rw [hr, show y - t1 - (5 / 10 * t - t1) = y - 5 / 10 * t by ring]
        refine hy.trans ?_
        linarith
      · rw [hr]; norm_num; linarith
      · rw [hr]; norm_num; linarith
    have rx := ((((rm.div rc (by norm_num) (by norm_num) (by norm_num)).mul rv (by norm_num) (by norm_num) (by norm_num)).mul rd (by norm_num) (by norm_num) (by norm_num)).mul rh
      (by norm_num) (by norm_num) (by norm_num)).mul rc' (by norm_num) (by norm_num) (by norm_num)
    have ex : -1 / t1 ^ 3 * v * dir δ * (5 / 10 * t - t1) * t ^ 3 = v * dir δ * t1 * ((t / t1) ^ 3 - (t / t1) ^ 4 / 2) := by field_simp; ring
    rw [ex] at rx
    refine (rx.toNear le_rfl).weaken ?_
    have hz0 : 0 ≤ t / t1 := by positivity
    have hz1 : t / t1 ≤ 1 := by rw [div_le_one ht1]; exact h1.le
    have hb : |v * dir δ * t1 * ((t / t1) ^ 3 - (t / t1) ^ 4 / 2)| ≤ 11 := by
      rw [← ramp_of_mem hz0 hz1, abs_mul, abs_mul, abs_mul, abs_dir, mul_one, abs_of_pos hv, abs_of_pos ht1]
      obtain ⟨r1, r2, -⟩ := ramp_start (t / t1)
      rw [abs_of_nonneg r1]
      exact (mul_le_of_le_one_right (by positivity) (r2.trans (max_le hz1 (by norm_num)))).trans hvt
    push_cast
    linarith

theorem float_two (h : RoundedSync δ a v t1 tf t2 q1) (a1 : 1 / 100 ≤ a) (a2 : a ≤ 6) (d1 : 9 / 10 ^ 7 ≤ |δ|) (d2 : |δ| ≤ 9) (h1 : t1 ≤ t) (h2 : t < t2) :
    Near (Rd.fin q1 + (Rd.fin t - Rd.fin t1) * Rd.fin v * Rd.fin (dir δ) : Rd A) (profile 0 (dir δ) v (3 / 2 * v / a) (|δ| / v) t) (1 / 10 ^ 10) := by
  have key := phase_two h a1 a2 d1 d2 h1 h2
  obtain ⟨hv, hτ1, hT, ho, hw, -⟩ := h.facts a1 a2 d1 d2
  have n1 := h.near1
  have nq := h.nearq
  obtain ⟨m1, m2⟩ := abs_le.1 n1
  obtain ⟨m3, m4⟩ := abs_le.1 h.near2
  have hs := h.short
  have v2 := h.le
  have hvT : v * (|δ| / v) ≤ 9 := by rw [mul_div_cancel₀ _ hv.ne']; exact d2
  generalize |δ| / v = T2 at *
  generalize 3 / 2 * v / a = τ at *
  have hτ : 0 < τ := by linarith
  have hd := abs_dir δ
  have b1 : |t - τ| ≤ 501 := abs_le.2 ⟨by linarith, by linarith⟩
  have b2 : |(t - τ) * v| ≤ 20 := by
    rw [abs_mul, abs_of_pos hv]
    have : |t - τ| ≤ T2 + 1 := abs_le.2 ⟨by linarith, by linarith⟩
    have := mul_le_mul_of_nonneg_right this hv.le
    linarith
  have nt1 : Near (Rd.fin t1 : Rd A) τ (1 / 10 ^ 12) := ⟨t1, rfl, by linarith⟩
  have c1 := (near_fin (A := A) t).sub nt1 (B := 600) (by linarith) (by norm_num) (by norm_num)
  have c2 := c1.mul (near_fin (A := A) v) (m := 600) (m' := 7) (B := 30) (by linarith) (by rw [abs_of_pos hv]; exact v2) (by linarith) (by norm_num) (by norm_num)
  have c3 := c2.mul (near_fin (A := A) (dir δ)) (m := 30) (m' := 1) (B := 30) (by linarith) hd.le (by rw [abs_mul, hd]; linarith) (by norm_num) (by norm_num)
  have nq1 : Near (Rd.fin q1 : Rd A) (v * dir δ * (τ / 2)) (1 / 10 ^ 13) := ⟨q1, rfl, nq⟩
  have c4 := nq1.add c3 (B := 50) (by
    refine le_trans (add_le_add (abs_add_le _ _) le_rfl) ?_
    rw [abs_mul, abs_mul v, abs_mul _ (dir δ), hd, abs_of_pos hv, abs_of_pos (half_pos hτ)]
    linarith) (by norm_num) (by norm_num)
  refine c4.weaken ?_
  have e : v * dir δ * (τ / 2) + (t - τ) * v * dir δ = v * dir δ * (t - τ / 2) := by ring
  rw [e]
  linarith

theorem product_near {w x1 x2 P A1 c R : ℝ} (w1 : 1 / 10 ^ 10 ≤ w) (w2 : w ≤ 502) (hx1 : |x1 / w| ≤ 105 / 100) (hx2 : |x2| ≤ 1100)
    (hP : |P - 1 / w ^ 3| ≤ 3 * (12 / 10 ^ 17) * (1 / w ^ 3)) (hA : |A1 - P * x2| ≤ 12 / 10 ^ 17 * |P * x2| + 1 / 10 ^ 70)
    (hc : |c - x1 ^ 3| ≤ 12 / 10 ^ 17 * |x1 ^ 3| + 1 / 10 ^ 70) (hR : |R - A1 * c| ≤ 12 / 10 ^ 17 * |A1 * c| + 1 / 10 ^ 70) :
    |R - x2 * (x1 / w) ^ 3| ≤ 2 / 10 ^ 12 ∧ |A1 * c| ≤ 2000 := by
  have hw : 0 < w := lt_of_lt_of_le (by norm_num) w1
  have hw3 : 0 < w ^ 3 := by positivity
  have w3 : w ^ 3 ≤ 10 ^ 9 := (pow_le_pow_left₀ hw.le w2 3).trans (by norm_num)
  have w4 : 1 / w ^ 3 ≤ 10 ^ 30 := by
    rw [div_le_iff₀ hw3]
    have := pow_le_pow_left₀ (by norm_num) w1 3
    norm_num at this ⊢
    linarith
  have hp : |P * w ^ 3 - 1| ≤ 3 * (12 / 10 ^ 17) := by
    have : P * w ^ 3 - 1 = (P - 1 / w ^ 3) * w ^ 3 := by field_simp
    rw [this, abs_mul, abs_of_pos hw3]
    refine (mul_le_mul_of_nonneg_right hP hw3.le).trans (le_of_eq ?_)
    field_simp
  have hα : |A1 * w ^ 3 - P * w ^ 3 * x2| ≤ 12 / 10 ^ 17 * |P * w ^ 3 * x2| + 1 / 10 ^ 60 := by
    have e : A1 * w ^ 3 - P * w ^ 3 * x2 = (A1 - P * x2) * w ^ 3 := by ring
    have e2 : |P * w ^ 3 * x2| = |P * x2| * w ^ 3 := by rw [show P * w ^ 3 * x2 = P * x2 * w ^ 3 by ring, abs_mul _ (w ^ 3), abs_of_pos hw3]
    rw [e, abs_mul, abs_of_pos hw3, e2]
    refine (mul_le_mul_of_nonneg_right hA hw3.le).trans ?_
    linarith
  have hγ : |c / w ^ 3 - (x1 / w) ^ 3| ≤ 12 / 10 ^ 17 * |(x1 / w) ^ 3| + 1 / 10 ^ 40 := by
    have e : c / w ^ 3 - (x1 / w) ^ 3 = (c - x1 ^ 3) * (1 / w ^ 3) := by field_simp
    have e2 : |(x1 / w) ^ 3| = |x1 ^ 3| * (1 / w ^ 3) := by rw [show (x1 / w) ^ 3 = x1 ^ 3 * (1 / w ^ 3) by field_simp, abs_mul, abs_of_pos (by positivity : 0 < 1 / w ^ 3)]
    rw [e, abs_mul, abs_of_pos (by positivity : 0 < 1 / w ^ 3), e2]
    refine (mul_le_mul_of_nonneg_right hc (by positivity)).trans ?_
    linarith
  have hac : A1 * c = A1 * w ^ 3 * (c / w ^ 3) := by field_simp
  rw [hac] at hR ⊢
  have hρ : |(x1 / w) ^ 3| ≤ 12 / 10 := by
    rw [abs_pow]
    exact (pow_le_pow_left₀ (abs_nonneg _) hx1 3).trans (by norm_num)
  generalize (x1 / w) ^ 3 = ρ at *
  generalize c / w ^ 3 = γ at *
  generalize A1 * w ^ 3 = α at *
  generalize P * w ^ 3 = p at *
  have h1 : |p * x2 - x2| ≤ 4 / 10 ^ 16 * 1100 := by
    rw [show p * x2 - x2 = (p - 1) * x2 by ring, abs_mul]
    exact mul_le_mul (by linarith) hx2 (abs_nonneg _) (by norm_num)
  have h2 : |p * x2| ≤ 1101 := by
    have := abs_sub_abs_le_abs_sub (p * x2) x2
    linarith
  have h3 : |α - x2| ≤ 6 / 10 ^ 13 := by
    have := abs_sub_le α (p * x2) x2
    linarith
  have h4 : |γ - ρ| ≤ 2 / 10 ^ 16 := by linarith
  have h5 : |γ| ≤ 13 / 10 := by
    have := abs_sub_abs_le_abs_sub γ ρ
    linarith
  have h6 : |α * γ - x2 * ρ| ≤ 6 / 10 ^ 13 * (13 / 10) + 1100 * (2 / 10 ^ 16) := by
    rw [show α * γ - x2 * ρ = (α - x2) * γ + x2 * (γ - ρ) by ring]
    refine (abs_add_le _ _).trans (add_le_add ?_ ?_)
    · rw [abs_mul]
      exact mul_le_mul h3 h5 (abs_nonneg _) (by norm_num)
    · rw [abs_mul]
      exact mul_le_mul hx2 h4 (abs_nonneg _) (by norm_num)
  have h7 : |x2 * ρ| ≤ 1100 * (12 / 10) := by
    rw [abs_mul]
    exact mul_le_mul hx2 hρ (abs_nonneg _) (by norm_num)
  have h8 : |α * γ| ≤ 1400 := by
    have := abs_sub_abs_le_abs_sub (α * γ) (x2 * ρ)
    linarith
  refine ⟨?_, by linarith⟩
  have := abs_sub_le R (α * γ) (x2 * ρ)
  linarith

theorem cube_near {τ w X x1 x2 : ℝ} (hτ : 2 / 10 ^ 10 ≤ τ) (hX1 : -(1 / 10 ^ 12) ≤ X) (hX2 : X ≤ τ + 1 / 10 ^ 12) (hw : |w - τ| ≤ 3 / 10 ^ 12) (h1 : |x1 - X| ≤ 4 / 10 ^ 12)
    (h2 : |x2 - (X - 2 * τ)| ≤ 2 / 10 ^ 11) : |x1 / w| ≤ 105 / 100 ∧ |x2 * (x1 / w) ^ 3 - (X - 2 * τ) * (X / τ) ^ 3| ≤ 1 / 10 ^ 10 := by
  obtain ⟨w1, w2⟩ := abs_le.1 hw
  obtain ⟨a1, a2⟩ := abs_le.1 h1
  have hτ0 : 0 < τ := lt_of_lt_of_le (by norm_num) hτ
  have hw0 : 0 < w := by linarith
  have hρ : |x1 / w| ≤ 105 / 100 := by
    rw [abs_div, abs_of_pos hw0, div_le_iff₀ hw0, abs_le]
    constructor <;> linarith
  have hR : |X / τ| ≤ 101 / 100 := by
    rw [abs_div, abs_of_pos hτ0, div_le_iff₀ hτ0, abs_le]
    constructor <;> linarith
  refine ⟨hρ, ?_⟩
  have hd : |x1 / w - X / τ| * τ ≤ 8 / 10 ^ 12 := by
    have e : x1 / w - X / τ = ((x1 - X) - X / τ * (w - τ)) / w := by field_simp; ring
    rw [e, abs_div, abs_of_pos hw0]
    have h3 : |(x1 - X) - X / τ * (w - τ)| ≤ 4 / 10 ^ 12 + 101 / 100 * (3 / 10 ^ 12) := by
      refine (abs_sub _ _).trans (add_le_add h1 ?_)
      rw [abs_mul]
      exact mul_le_mul hR hw (abs_nonneg _) (by norm_num)
    have h4 : τ / w ≤ 102 / 100 := by
      rw [div_le_iff₀ hw0]; linarith
    calc |(x1 - X) - X / τ * (w - τ)| / w * τ = |(x1 - X) - X / τ * (w - τ)| * (τ / w) := by ring
      _ ≤ (4 / 10 ^ 12 + 101 / 100 * (3 / 10 ^ 12)) * (102 / 100) := mul_le_mul h3 h4 (by positivity) (by norm_num)
      _ ≤ _ := by norm_num
  generalize x1 / w = ρ at *
  have hXe : |X - 2 * τ| ≤ 21 / 10 * τ := abs_le.2 ⟨by linarith, by linarith⟩
  generalize X / τ = R at *
  have c1 : |ρ ^ 3| ≤ 12 / 10 := by
    rw [abs_pow]
    exact (pow_le_pow_left₀ (abs_nonneg _) hρ 3).trans (by norm_num)
  have c2 : |ρ ^ 2 + ρ * R + R ^ 2| ≤ 35 / 10 := by
    obtain ⟨_, _⟩ := abs_le.1 hρ
    obtain ⟨_, _⟩ := abs_le.1 hR
    rw [abs_le]
    constructor <;> nlinarith
  rw [show x2 * ρ ^ 3 - (X - 2 * τ) * R ^ 3 = (x2 - (X - 2 * τ)) * ρ ^ 3 + (X - 2 * τ) * ((ρ - R) * (ρ ^ 2 + ρ * R + R ^ 2)) by ring]
  refine (abs_add_le _ _).trans ?_
  rw [abs_mul, abs_mul (X - 2 * τ), abs_mul (ρ - R)]
  have c3 : |x2 - (X - 2 * τ)| * |ρ ^ 3| ≤ 2 / 10 ^ 11 * (12 / 10) := mul_le_mul h2 c1 (abs_nonneg _) (by norm_num)
  have c4 : |X - 2 * τ| * (|ρ - R| * |ρ ^ 2 + ρ * R + R ^ 2|) ≤ 21 / 10 * τ * (|ρ - R| * (35 / 10)) := by gcongr
  have c5 : 21 / 10 * τ * (|ρ - R| * (35 / 10)) = 21 / 10 * (35 / 10) * (|ρ - R| * τ) := by ring
  linarith

set_option maxHeartbeats 1000000 in
theorem float_three (h : RoundedSync δ a v t1 tf t2 q1) (a1 : 1 / 100 ≤ a) (a2 : a ≤ 6) (d1 : 9 / 10 ^ 7 ≤ |δ|) (d2 : |δ| ≤ 9) (h1 : t1 ≤ t) (h2 : t2 ≤ t) (hf : t < tf) :
    Near (Rd.fin δ + lit (5 / 10) * (lit 1 / powi (Rd.fin tf - Rd.fin t2) 3 * (Rd.fin t - Rd.fin t1 - lit 2 * (Rd.fin tf - Rd.fin t2) - (Rd.fin t2 - Rd.fin t1)) *
        powi (Rd.fin t - Rd.fin t1 - (Rd.fin t2 - Rd.fin t1)) 3 + (lit 2 * Rd.fin t - lit 2 * Rd.fin t1 - (Rd.fin tf - Rd.fin t2) - lit 2 * (Rd.fin t2 - Rd.fin t1))) *
      Rd.fin v * Rd.fin (dir δ) : Rd A) (profile 0 (dir δ) v (3 / 2 * v / a) (|δ| / v) t) (1 / 10 ^ 9) := by
  have key := phase_three h a1 a2 d1 d2 h1 h2 hf
  obtain ⟨hv, hτ1, hT, ho, hw, -⟩ := h.facts a1 a2 d1 d2
  have n1 := h.near1
  have n2 := h.near2
  have n3 := h.nearf
  obtain ⟨m1, m2⟩ := abs_le.1 n1
  obtain ⟨m3, m4⟩ := abs_le.1 n2
  obtain ⟨m5, m6⟩ := abs_le.1 n3
  have hs := h.short
  have v2 := h.le
  generalize |δ| / v = T2 at *
  generalize 3 / 2 * v / a = τ at *
  have hτ : 0 < τ := by linarith
  have hd := abs_dir δ
  have nt1 : Near (Rd.fin t1 : Rd A) τ (5 / 10 ^ 13) := ⟨t1, rfl, by linarith⟩
  have nt2 : Near (Rd.fin t2 : Rd A) T2 (1 / 10 ^ 12) := ⟨t2, rfl, n2⟩
  have ntf : Near (Rd.fin tf : Rd A) (τ + T2) (1 / 10 ^ 12) := ⟨tf, rfl, n3⟩
  have nt : Near (Rd.fin t : Rd A) t 0 := near_fin t
  have l2 : Near (lit 2 : Rd A) 2 (4 / 10 ^ 16) := by
    have := near_lit (A := A) (q := 2) (B := 2) (by norm_num) (by norm_num) (by norm_num)
    rw [show ((2 : ℚ) : ℝ) = 2 by norm_num] at this
    exact this.weaken (by rw [sub_self, abs_zero]; norm_num)
  have l5 : Near (lit (5 / 10) : Rd A) (1 / 2) (4 / 10 ^ 16) := by
    have := near_lit (A := A) (q := 5 / 10) (B := 2) (by norm_num) (by norm_num) (by norm_num)
    rw [show ((5 / 10 : ℚ) : ℝ) = 1 / 2 by norm_num] at this
    exact this.weaken (by rw [sub_self, abs_zero]; norm_num)
  have wd : ∀ {x : Rd A} {r e e' : ℝ}, Near x r e → e ≤ e' → Near x r e' := fun h he => h.weaken (by rw [sub_self, abs_zero]; linarith)
  -- the numbers computed from the times
  have cw : Near (Rd.fin tf - Rd.fin t2 : Rd A) τ (3 / 10 ^ 12) := by
    have := ntf.sub nt2 (B := 600) (by rw [show τ + T2 - T2 = τ by ring, abs_of_pos hτ]; linarith) (by norm_num) (by norm_num)
    rw [show τ + T2 - T2 = τ by ring] at this
    exact wd this (by norm_num)
  have cd : Near (Rd.fin t2 - Rd.fin t1 : Rd A) (T2 - τ) (2 / 10 ^ 12) :=
    wd (nt2.sub nt1 (B := 600) (by have : |T2 - τ| ≤ 500 := abs_le.2 ⟨by linarith, by linarith⟩
                                   linarith) (by norm_num) (by norm_num)) (by norm_num)
  have c0 : Near (Rd.fin t - Rd.fin t1 : Rd A) (t - τ) (1 / 10 ^ 12) :=
    wd (nt.sub nt1 (B := 600) (by have : |t - τ| ≤ 501 := abs_le.2 ⟨by linarith, by linarith⟩
                                  linarith) (by norm_num) (by norm_num)) (by norm_num)
  have cx : Near (Rd.fin t - Rd.fin t1 - (Rd.fin t2 - Rd.fin t1) : Rd A) (t - T2) (4 / 10 ^ 12) := by
    have := c0.sub cd (B := 600) (by rw [show t - τ - (T2 - τ) = t - T2 by ring]; have : |t - T2| ≤ 501 := abs_le.2 ⟨by linarith, by linarith⟩
                                     linarith) (by norm_num) (by norm_num)
    rw [show t - τ - (T2 - τ) = t - T2 by ring] at this
    exact wd this (by norm_num)
  have c2w : Near (lit 2 * (Rd.fin tf - Rd.fin t2) : Rd A) (2 * τ) (1 / 10 ^ 11) :=
    wd (l2.mul cw (m := 3) (m' := 501) (B := 1100) (by norm_num) (by rw [abs_of_pos hτ]; linarith) (by rw [abs_of_pos (by positivity)]; linarith) (by norm_num) (by norm_num)) (by norm_num)
  have cy : Near (Rd.fin t - Rd.fin t1 - lit 2 * (Rd.fin tf - Rd.fin t2) - (Rd.fin t2 - Rd.fin t1) : Rd A) (t - T2 - 2 * τ) (2 / 10 ^ 11) := by
    have c3 := c0.sub c2w (B := 2000) (by have : |t - τ - 2 * τ| ≤ 1600 := abs_le.2 ⟨by linarith, by linarith⟩
                                          linarith) (by norm_num) (by norm_num)
    have := c3.sub cd (B := 2000) (by have : |t - τ - 2 * τ - (T2 - τ)| ≤ 1700 := abs_le.2 ⟨by linarith, by linarith⟩
                                      linarith) (by norm_num) (by norm_num)
    rw [show t - τ - 2 * τ - (T2 - τ) = t - T2 - 2 * τ by ring] at this
    exact wd this (by norm_num)
  have cz : Near (lit 2 * Rd.fin t - lit 2 * Rd.fin t1 - (Rd.fin tf - Rd.fin t2) - lit 2 * (Rd.fin t2 - Rd.fin t1) : Rd A) (2 * (t - T2) - τ) (2 / 10 ^ 11) := by
    have b1 : |t| ≤ 502 := abs_le.2 ⟨by linarith, by linarith⟩
    have b2 : |τ| ≤ 500 := abs_le.2 ⟨by linarith, by linarith⟩
    have b3 : |T2 - τ| ≤ 500 := abs_le.2 ⟨by linarith, by linarith⟩
    have e1 := l2.mul nt (m := 3) (m' := 502) (B := 1100) (by norm_num) b1 (by rw [abs_mul, abs_two]; linarith) (by norm_num) (by norm_num)
    have e2 := l2.mul nt1 (m := 3) (m' := 502) (B := 1100) (by norm_num) (by linarith) (by rw [abs_mul, abs_two]; linarith) (by norm_num) (by norm_num)
    have e3 := l2.mul cd (m := 3) (m' := 502) (B := 1100) (by norm_num) (by linarith) (by rw [abs_mul, abs_two]; linarith) (by norm_num) (by norm_num)
    have e4 := e1.sub e2 (B := 2500) (by have : |2 * t - 2 * τ| ≤ 2010 := abs_le.2 ⟨by linarith, by linarith⟩
                                         linarith) (by norm_num) (by norm_num)
    have e5 := e4.sub cw (B := 3000) (by have : |2 * t - 2 * τ - τ| ≤ 2600 := abs_le.2 ⟨by linarith, by linarith⟩
                                         linarith) (by norm_num) (by norm_num)
    have := e5.sub e3 (B := 4000) (by have : |2 * t - 2 * τ - τ - 2 * (T2 - τ)| ≤ 3600 := abs_le.2 ⟨by linarith, by linarith⟩
                                      linarith) (by norm_num) (by norm_num)
    rw [show 2 * t - 2 * τ - τ - 2 * (T2 - τ) = 2 * (t - T2) - τ by ring] at this
    exact wd this (by norm_num)
  obtain ⟨w, ew, w1⟩ := cw
  obtain ⟨x1, ex1, hx1⟩ := cx
  obtain ⟨x2, ex2, hx2⟩ := cy
  rw [ew] at ex2 cz ⊢
  rw [ex1, ex2]
  obtain ⟨k1, k2⟩ := cube_near hτ1 (by linarith : -(1 / 10 ^ 12) ≤ t - T2) (by linarith) w1 hx1 hx2
  obtain ⟨w2, w3⟩ := abs_le.1 w1
  have hw0 : 0 < w := by linarith
  have rc : Rel (powi (Rd.fin w) 3 : Rd A) (w ^ 3) 1 (10 * 3) :=
    rel_cube (by rw [abs_of_pos hw0]; norm_num at hτ1 w2 ⊢; linarith) (by rw [abs_of_pos hw0]; norm_num; linarith) (by norm_num)
  have r1 : Rel (lit 1 : Rd A) 1 1 0 := rel_num 0 (by norm_num) (by norm_num) (by norm_num) (by norm_num)
  obtain ⟨P, eP, hP, -, P2⟩ := r1.div rc (by norm_num) (by norm_num) (by norm_num)
  rw [abs_of_pos (show 0 < 1 / w ^ 3 by positivity)] at hP P2
  push_cast at hP
  have hxb : |x2| ≤ 1100 := by
    obtain ⟨_, _⟩ := abs_le.1 hx2
    exact abs_le.2 ⟨by linarith, by linarith⟩
  have hPa : |P * x2| ≤ 10 ^ 40 := by
    obtain ⟨p1, p2⟩ := abs_le.1 hP
    have q1 : 1 / w ^ 3 ≤ 10 ^ 31 := P2.trans (by norm_num)
    have q2 : 0 < 1 / w ^ 3 := by positivity
    have : |P| ≤ 10 ^ 35 := abs_le.2 ⟨by linarith, by linarith⟩
    rw [abs_mul]
    exact (mul_le_mul this hxb (abs_nonneg _) (by norm_num)).trans (by norm_num)
  have hx1b : |x1 ^ 3| ≤ 10 ^ 10 := by
    obtain ⟨_, _⟩ := abs_le.1 hx1
    have : |x1| ≤ 600 := abs_le.2 ⟨by linarith, by linarith⟩
    rw [abs_pow]
    exact (pow_le_pow_left₀ (abs_nonneg _) this 3).trans (by norm_num)
  obtain ⟨f1, f2⟩ := product_near (R := A.rnd (A.rnd (P * x2) * A.rnd (x1 ^ 3))) (by linarith) (by linarith) k1 hxb hP (rnd_le _) (rnd_le _) (rnd_le _)
  have eprod : (lit 1 / powi (Rd.fin w) 3 * Rd.fin x2 * powi (Rd.fin x1) 3 : Rd A) = Rd.fin (A.rnd (A.rnd (P * x2) * A.rnd (x1 ^ 3))) := by
    rw [eP, Rd.powi_fin, rnd_fin (by linarith)]
    rw [show (Rd.fin P * Rd.fin x2 : Rd A) = Rd.round A (.fin (P * x2)) from rfl, rnd_fin (by linarith)]
    rw [show (Rd.fin (A.rnd (P * x2)) * Rd.fin (A.rnd (x1 ^ 3)) : Rd A) = Rd.round A (.fin (A.rnd (P * x2) * A.rnd (x1 ^ 3))) from rfl, rnd_fin (by linarith)]
  rw [eprod]
  have cp : Near (Rd.fin (A.rnd (A.rnd (P * x2) * A.rnd (x1 ^ 3))) : Rd A) ((t - T2 - 2 * τ) * ((t - T2) / τ) ^ 3) (11 / 10 ^ 11) :=
    ⟨_, rfl, by have := abs_sub_le (A.rnd (A.rnd (P * x2) * A.rnd (x1 ^ 3))) (x2 * (x1 / w) ^ 3) ((t - T2 - 2 * τ) * ((t - T2) / τ) ^ 3)
                linarith⟩
  -- the rest
  have hvτ : v * τ ≤ 10 := hw
  have hXτ : |(t - T2) / τ| ≤ 101 / 100 := by
    rw [abs_div, abs_of_pos hτ, div_le_iff₀ hτ, abs_le]
    constructor <;> linarith
  have hR3 : |((t - T2) / τ) ^ 3| ≤ 11 / 10 := by
    rw [abs_pow]
    exact (pow_le_pow_left₀ (abs_nonneg _) hXτ 3).trans (by norm_num)
  have hin : |(t - T2 - 2 * τ) * ((t - T2) / τ) ^ 3 + (2 * (t - T2) - τ)| ≤ 5 * τ := by
    have b1 : |t - T2 - 2 * τ| ≤ 21 / 10 * τ := abs_le.2 ⟨by linarith, by linarith⟩
    have b2 : |2 * (t - T2) - τ| ≤ 11 / 10 * τ := abs_le.2 ⟨by linarith, by linarith⟩
    refine (abs_add_le _ _).trans ?_
    rw [abs_mul]
    have := mul_le_mul b1 hR3 (abs_nonneg _) (by positivity)
    linarith
  have s1 := cp.add cz (B := 2600) (by linarith) (by norm_num) (by norm_num)
  generalize (t - T2 - 2 * τ) * ((t - T2) / τ) ^ 3 + (2 * (t - T2) - τ) = I at *
  have s2 := l5.mul s1 (m := 6 / 10) (m' := 2500) (B := 1300) (by norm_num) (by linarith) (by rw [abs_mul, abs_of_pos (by norm_num : (0 : ℝ) < 1 / 2)]; linarith) (by norm_num) (by norm_num)
  have hIv : |1 / 2 * I * v| ≤ 25 := by
    rw [abs_mul, abs_mul, abs_of_pos (by norm_num : (0 : ℝ) < 1 / 2), abs_of_pos hv]
    have := mul_le_mul_of_nonneg_right hin hv.le
    linarith
  have s3 := s2.mul (near_fin (A := A) v) (m := 1300) (m' := 7) (B := 30) (by rw [abs_mul, abs_of_pos (by norm_num : (0 : ℝ) < 1 / 2)]; linarith) (by rw [abs_of_pos hv]; exact v2) (by linarith) (by norm_num) (by norm_num)
  have s4 := s3.mul (near_fin (A := A) (dir δ)) (m := 30) (m' := 1) (B := 30) (by linarith) hd.le (by rw [abs_mul, hd]; linarith) (by norm_num) (by norm_num)
  have s5 := (near_fin (A := A) δ).add s4 (B := 50) (by
    refine le_trans (add_le_add (abs_add_le _ _) le_rfl) ?_
    rw [abs_mul _ (dir δ), hd]
    linarith) (by norm_num) (by norm_num)
  refine s5.weaken ?_
  linarith

/-- One joint at one time. -/
theorem MotionGenerator.rd_desired (hz : A.rnd 0 = 0) {g : MotionGenerator (Rd A)} {i : Fin 7} (h : RoundedSync δ a v t1 tf t2 q1) (a1 : 1 / 100 ≤ a) (a2 : a ≤ 6)
    (d1 : 9 / 10 ^ 7 ≤ |δ|) (d2 : |δ| ≤ 9) (h0 : t = 0 ∨ 1 / 10 ^ 4 ≤ t) (hδ : g.delta_q i = Rd.fin δ) (hv : g.dq_max_sync i = Rd.fin v)
    (h1 : g.t_1_sync i = Rd.fin t1) (h2 : g.t_2_sync i = Rd.fin t2) (hf : g.t_f_sync i = Rd.fin tf) (hq : g.q_1 i = Rd.fin q1)
    (hn : flt (fabs (g.delta_q i)) (DELTA_Q_MOTION_FINISHED : Rd A) = false) :
    Near (g.desired_joint (Rd.fin t) i).1 (profile 0 (dir δ) v (3 / 2 * v / a) (|δ| / v) t) (1 / 10 ^ 9) ∧ (g.desired_joint (Rd.fin t) i).2 = decide (tf ≤ t) := by
  obtain ⟨hv0, hτ1, hT, ho, hw, -⟩ := h.facts a1 a2 d1 d2
  obtain ⟨m1, m2⟩ := abs_le.1 h.near1
  obtain ⟨m3, m4⟩ := abs_le.1 h.near2
  obtain ⟨m5, m6⟩ := abs_le.1 h.nearf
  have hs := h.short
  have wd : ∀ {x : Rd A} {r e e' : ℝ}, Near x r e → e ≤ e' → Near x r e' := fun h he => h.weaken (by rw [sub_self, abs_zero]; linarith)
  unfold desired_joint
  simp only [hn, Bool.false_eq_true, if_false]
  simp only [hδ, hv, h1, h2, hf, hq, Rd.signum_fin, Rd.flt_fin, Rd.fle_fin]
  by_cases c1 : t < t1
  · rw [if_pos (by simpa using c1)]
    refine ⟨wd (float_one hz h a1 a2 d1 d2 h0 c1) (by norm_num), ?_⟩
    rw [decide_eq_false (by linarith)]
  · rw [if_neg (by simpa using c1)]
    have c1' : t1 ≤ t := not_lt.1 c1
    by_cases c2 : t < t2
    · rw [if_pos (by simp [c1', c2])]
      refine ⟨wd (float_two h a1 a2 d1 d2 c1' c2) (by norm_num), ?_⟩
      rw [decide_eq_false (by linarith)]
    · rw [if_neg (by simp [c2])]
      have c2' : t2 ≤ t := not_lt.1 c2
      by_cases c3 : t < tf
      · rw [if_pos (by simp [c2', c3])]
        refine ⟨float_three h a1 a2 d1 d2 c1' c2' c3, ?_⟩
        rw [decide_eq_false (by linarith)]
      · rw [if_neg (by simp [c3])]
        have c3' : tf ≤ t := not_lt.1 c3
        refine ⟨⟨δ, rfl, (phase_four h a1 a2 d1 d2 c3').trans (by norm_num)⟩, ?_⟩
        rw [decide_eq_true c3']
end
end Verif
