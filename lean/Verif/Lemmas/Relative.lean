import Verif.Lemmas.Rounding
/-!
Computing with rounded doubles: the relative error of products, quotients, roots and sums of positive numbers.
-/
namespace Verif
open Spec Fl
variable {A : Rounding}

/-- A double is finite and has a relative error of at most `k` roundings; the exact value is between `10 ^ -n` and `10 ^ n` in size. -/
def Rel (x : Rd A) (r : ℝ) (k n : ℕ) : Prop := ∃ y, x = Rd.fin y ∧ |y - r| ≤ k * (12 / 10 ^ 17) * |r| ∧ (1 / 10) ^ n ≤ |r| ∧ |r| ≤ 10 ^ n

theorem tiny_le {r : ℝ} {n : ℕ} (hn : n ≤ 50) (h : (1 / 10) ^ n ≤ |r|) : (2⁻¹ : ℝ) ^ 1075 ≤ 1 / 10 ^ 20 * |r| := by
  have h1 : (1 / 10 : ℝ) ^ 50 ≤ (1 / 10) ^ n := pow_le_pow_of_le_one (by norm_num) (by norm_num) hn
  have h2 : (2⁻¹ : ℝ) ^ 1075 ≤ 2⁻¹ ^ 250 := pow_le_pow_of_le_one (by norm_num) (by norm_num) (by norm_num)
  have h3 : (2⁻¹ : ℝ) ^ 250 ≤ 1 / 10 ^ 20 * (1 / 10) ^ 50 := by norm_num
  exact h2.trans (h3.trans (mul_le_mul_of_nonneg_left (h1.trans h) (by norm_num)))

theorem max_huge {n : ℕ} (hn : n ≤ 50) : 4 * (10 : ℝ) ^ n ≤ A.max := by
  have h1 : (10 : ℝ) ^ n ≤ 10 ^ 50 := pow_le_pow_right₀ (by norm_num) hn
  have h2 : 4 * (10 : ℝ) ^ 50 ≤ 2 ^ 250 := by norm_num
  have h3 : (2 : ℝ) ^ 250 ≤ 2 ^ 1000 := pow_le_pow_right₀ (by norm_num) (by norm_num)
  exact (mul_le_mul_of_nonneg_left h1 (by norm_num)).trans (h2.trans (h3.trans A.big))

/-- Rounding a number with a relative error. -/
theorem rel_round {z r c : ℝ} {k n : ℕ} (h : |z - r| ≤ c * |r|) (hc : c + (1 + c) * (112 / 10 ^ 18) ≤ k * (12 / 10 ^ 17)) (hc1 : c ≤ 1) (hn : n ≤ 50)
    (h1 : (1 / 10) ^ n ≤ |r|) (h2 : |r| ≤ 10 ^ n) : Rel (Rd.round A (.fin z)) r k n := by
  have hr : 0 < |r| := lt_of_lt_of_le (by positivity) h1
  have hz : |z| ≤ (1 + c) * |r| := by
    have := abs_sub_abs_le_abs_sub z r
    linarith
  have ht := tiny_le hn h1
  have he : |A.rnd z - z| ≤ (1 + c) * (112 / 10 ^ 18) * |r| := by
    refine (A.error z).trans ?_
    have hc0 : 0 ≤ c := by
      have := (abs_nonneg _).trans h
      by_contra hneg
      have : c * |r| < 0 := mul_neg_of_neg_of_pos (not_le.1 hneg) hr
      linarith
    have h3 : (2⁻¹ : ℝ) ^ 53 ≤ 1111 / 10 ^ 19 := by norm_num
    have h4 : (2⁻¹ : ℝ) ^ 53 * |z| ≤ 1111 / 10 ^ 19 * ((1 + c) * |r|) := mul_le_mul h3 hz (abs_nonneg _) (by norm_num)
    have h5 : (1 / 10 ^ 20 : ℝ) * |r| ≤ 1 / 10 ^ 20 * ((1 + c) * |r|) := by
      refine mul_le_mul_of_nonneg_left ?_ (by norm_num)
      nlinarith
    have h6 : 0 ≤ (1 + c) * |r| := by positivity
    refine (add_le_add h4 (ht.trans h5)).trans ?_
    generalize (1 + c) = d at h6 ⊢
    nlinarith
  refine ⟨A.rnd z, if_pos ?_, ?_, h1, h2⟩
  · have h3 := abs_sub_abs_le_abs_sub (A.rnd z) z
    have h4 := max_huge (A := A) hn
    have h5 : (1 + c) * (112 / 10 ^ 18) * |r| ≤ |r| := by nlinarith
    have h6 : (1 + c) * |r| ≤ 2 * |r| := by nlinarith
    linarith
  · have h3 := abs_sub_le (A.rnd z) z r
    have h4 := mul_le_mul_of_nonneg_right hc hr.le
    linarith

theorem Rel.weaken {x : Rd A} {r : ℝ} {k n k' n' : ℕ} (h : Rel x r k n) (hk : k ≤ k') (hn : n ≤ n') : Rel x r k' n' := by
  obtain ⟨y, h1, h2, h3, h4⟩ := h
  refine ⟨y, h1, h2.trans ?_, le_trans (pow_le_pow_of_le_one (by norm_num) (by norm_num) hn) h3, h4.trans (pow_le_pow_right₀ (by norm_num) hn)⟩
  have : (k : ℝ) ≤ k' := by exact_mod_cast hk
  gcongr

theorem rel_fin {x : ℝ} {n : ℕ} (h1 : (1 / 10) ^ n ≤ |x|) (h2 : |x| ≤ 10 ^ n) : Rel (Rd.fin x : Rd A) x 0 n := ⟨x, rfl, by simp, h1, h2⟩

theorem rel_lit {q : ℚ} {n : ℕ} (hn : n ≤ 50) (h1 : (1 / 10) ^ n ≤ |(q : ℝ)|) (h2 : |(q : ℝ)| ≤ 10 ^ n) : Rel (lit q : Rd A) q 1 n :=
  rel_round (z := q) (c := 0) (by simp) (by norm_num) (by norm_num) hn h1 h2

section
variable {x y : Rd A} {r s : ℝ} {k l n m : ℕ}

theorem Rel.mul (hx : Rel x r k n) (hy : Rel y s l m) (hk : k ≤ 100) (hl : l ≤ 100) (hn : n + m ≤ 50) : Rel (x * y) (r * s) (k + l + 1) (n + m) := by
  obtain ⟨x, rfl, hx, x1, x2⟩ := hx
  obtain ⟨y, rfl, hy, y1, y2⟩ := hy
  have hk' : (k : ℝ) ≤ 100 := by exact_mod_cast hk
  have hl' : (l : ℝ) ≤ 100 := by exact_mod_cast hl
  have hk0 : (0 : ℝ) ≤ k := k.cast_nonneg
  have hl0 : (0 : ℝ) ≤ l := l.cast_nonneg
  have hkl : (k : ℝ) * l ≤ 10000 := by nlinarith
  refine rel_round (z := x * y) (c := k * (12 / 10 ^ 17) + l * (12 / 10 ^ 17) + k * l * (12 / 10 ^ 17) ^ 2) ?_ ?_ ?_ hn ?_ ?_
  · have e : x * y - r * s = (x - r) * s + r * (y - s) + (x - r) * (y - s) := by ring
    rw [e, abs_mul r s]
    refine (abs_add_three _ _ _).trans ?_
    rw [abs_mul, abs_mul, abs_mul]
    have h1 := mul_le_mul_of_nonneg_right hx (abs_nonneg s)
    have h2 := mul_le_mul_of_nonneg_left hy (abs_nonneg r)
    have h3 := mul_le_mul hx hy (abs_nonneg _) (by positivity)
    nlinarith
  · push_cast
    nlinarith
  · nlinarith
  · rw [abs_mul, pow_add]
    exact mul_le_mul x1 y1 (by positivity) (abs_nonneg r)
  · rw [abs_mul, pow_add]
    exact mul_le_mul x2 y2 (abs_nonneg s) (by positivity)

theorem Rel.div (hx : Rel x r k n) (hy : Rel y s l m) (hk : k ≤ 100) (hl : l ≤ 100) (hn : n + m ≤ 50) : Rel (x / y) (r / s) (k + l + 1) (n + m) := by
  obtain ⟨x, rfl, hx, x1, x2⟩ := hx
  obtain ⟨y, rfl, hy, y1, y2⟩ := hy
  have hk' : (k : ℝ) ≤ 100 := by exact_mod_cast hk
  have hl' : (l : ℝ) ≤ 100 := by exact_mod_cast hl
  have hk0 : (0 : ℝ) ≤ k := k.cast_nonneg
  have hl0 : (0 : ℝ) ≤ l := l.cast_nonneg
  have hs : 0 < |s| := lt_of_lt_of_le (by positivity) y1
  have hs0 : s ≠ 0 := abs_pos.1 hs
  have hy1 : (1 - l * (12 / 10 ^ 17)) * |s| ≤ |y| := by
    have := abs_sub_abs_le_abs_sub s y
    rw [abs_sub_comm] at this
    linarith
  have hl2 : (0 : ℝ) < 1 - l * (12 / 10 ^ 17) := by nlinarith
  have hypos : 0 < |y| := lt_of_lt_of_le (by positivity) hy1
  have hy0 : y ≠ 0 := abs_pos.1 hypos
  have hd : XR.div (.fin x) (.fin y) = .fin (x / y) := if_neg hy0
  have : Rel (Rd.round A (.fin (x / y))) (r / s) (k + l + 1) (n + m) := by
    refine rel_round (c := (k * (12 / 10 ^ 17) + l * (12 / 10 ^ 17)) * (1 + 2 * (l * (12 / 10 ^ 17)))) ?_ ?_ ?_ hn ?_ ?_
    · have e : x / y - r / s = ((x - r) * s - r * (y - s)) / (y * s) := by field_simp; ring
      rw [e, abs_div, abs_mul, abs_div, div_le_iff₀ (by positivity)]
      have h1 : |(x - r) * s - r * (y - s)| ≤ (k * (12 / 10 ^ 17) + l * (12 / 10 ^ 17)) * (|r| * |s|) := by
        refine (abs_sub _ _).trans ?_
        rw [abs_mul, abs_mul]
        have h1 := mul_le_mul_of_nonneg_right hx (abs_nonneg s)
        have h2 := mul_le_mul_of_nonneg_left hy (abs_nonneg r)
        nlinarith
      have h2 : |s| ≤ (1 + 2 * (l * (12 / 10 ^ 17))) * |y| := by
        refine le_trans ?_ (mul_le_mul_of_nonneg_left hy1 (by positivity))
        have : 1 ≤ (1 + 2 * (l * (12 / 10 ^ 17 : ℝ))) * (1 - l * (12 / 10 ^ 17)) := by nlinarith
        nlinarith
      refine h1.trans ?_
      have e2 : (k * (12 / 10 ^ 17) + l * (12 / 10 ^ 17)) * (1 + 2 * (l * (12 / 10 ^ 17))) * (|r| / |s|) * (|y| * |s|) =
          (k * (12 / 10 ^ 17) + l * (12 / 10 ^ 17)) * (|r| * ((1 + 2 * (l * (12 / 10 ^ 17))) * |y|)) := by
        field_simp
      rw [e2]
      gcongr
    · push_cast
      have : ((k : ℝ) + l) * l ≤ 20000 := by nlinarith
      nlinarith
    · have : ((k : ℝ) + l) * l ≤ 20000 := by nlinarith
      nlinarith
    · rw [abs_div, le_div_iff₀ hs]
      calc (1 / 10 : ℝ) ^ (n + m) * |s| ≤ (1 / 10) ^ (n + m) * 10 ^ m := by gcongr
        _ = (1 / 10) ^ n := by rw [pow_add, mul_assoc, ← mul_pow]; norm_num
        _ ≤ |r| := x1
    · rw [abs_div, div_le_iff₀ hs]
      calc |r| ≤ 10 ^ n := x2
        _ = 10 ^ (n + m) * (1 / 10) ^ m := by rw [pow_add, mul_assoc, ← mul_pow]; norm_num
        _ ≤ 10 ^ (n + m) * |s| := by gcongr
  rw [← hd] at this
  exact this

theorem Rel.add (hx : Rel x r k n) (hy : Rel y s k n) (hr : 0 ≤ r) (hs : 0 ≤ s) (hk : k ≤ 100) (hn : n + 1 ≤ 50) : Rel (x + y) (r + s) (k + 1) (n + 1) := by
  obtain ⟨x, rfl, hx, x1, x2⟩ := hx
  obtain ⟨y, rfl, hy, y1, y2⟩ := hy
  have hk' : (k : ℝ) ≤ 100 := by exact_mod_cast hk
  have hk0 : (0 : ℝ) ≤ k := k.cast_nonneg
  rw [abs_of_nonneg hr] at hx x1 x2
  rw [abs_of_nonneg hs] at hy y1 y2
  refine rel_round (z := x + y) (c := k * (12 / 10 ^ 17)) ?_ ?_ ?_ hn ?_ ?_
  · rw [abs_of_nonneg (by linarith : 0 ≤ r + s), show x + y - (r + s) = x - r + (y - s) by ring]
    have := abs_add_le (x - r) (y - s)
    linarith
  · push_cast
    nlinarith
  · nlinarith
  · rw [abs_of_nonneg (by linarith : 0 ≤ r + s)]
    have : (1 / 10 : ℝ) ^ (n + 1) ≤ (1 / 10) ^ n := pow_le_pow_of_le_one (by norm_num) (by norm_num) (by omega)
    linarith
  · rw [abs_of_nonneg (by linarith : 0 ≤ r + s), pow_succ]
    have : (0 : ℝ) ≤ 10 ^ n := by positivity
    linarith

theorem Rel.sqrt (hx : Rel x r k n) (hr : 0 ≤ r) (hk : k ≤ 100) (hn : n ≤ 50) : Rel (fsqrt x) (Real.sqrt r) (k + 1) n := by
  obtain ⟨x, rfl, hx, x1, x2⟩ := hx
  have hk' : (k : ℝ) ≤ 100 := by exact_mod_cast hk
  have hk0 : (0 : ℝ) ≤ k := k.cast_nonneg
  rw [abs_of_nonneg hr] at hx x1 x2
  have hr0 : 0 < r := lt_of_lt_of_le (by positivity) x1
  have hx0 : 0 ≤ x := by
    have := (abs_le.1 hx).1
    nlinarith
  have hd : XR.sqrt (.fin x) = .fin (Real.sqrt x) := if_neg (not_lt.2 hx0)
  have hq : 0 < Real.sqrt r := Real.sqrt_pos.2 hr0
  have hq2 := Real.mul_self_sqrt hr
  have : Rel (Rd.round A (.fin (Real.sqrt x))) (Real.sqrt r) (k + 1) n := by
    refine rel_round (c := k * (12 / 10 ^ 17)) ?_ ?_ ?_ hn ?_ ?_
    · rw [abs_of_pos hq]
      have hp := Real.sqrt_nonneg x
      have hp2 := Real.mul_self_sqrt hx0
      have e : (Real.sqrt x - Real.sqrt r) * (Real.sqrt x + Real.sqrt r) = x - r := by nlinarith
      have e2 : |Real.sqrt x - Real.sqrt r| * (Real.sqrt x + Real.sqrt r) ≤ k * (12 / 10 ^ 17) * (Real.sqrt r * Real.sqrt r) := by
        rw [← abs_of_nonneg (add_nonneg hp hq.le), ← abs_mul, e, hq2]
        exact hx
      have e3 : |Real.sqrt x - Real.sqrt r| * Real.sqrt r ≤ k * (12 / 10 ^ 17) * Real.sqrt r * Real.sqrt r := by
        have := mul_le_mul_of_nonneg_left (le_add_of_nonneg_left hp : Real.sqrt r ≤ _) (abs_nonneg (Real.sqrt x - Real.sqrt r))
        linarith
      exact le_of_mul_le_mul_right e3 hq
    · push_cast
      nlinarith
    · nlinarith
    · rw [abs_of_pos hq]
      refine Real.le_sqrt_of_sq_le ?_
      have h1 : ((1 / 10 : ℝ) ^ n) ^ 2 ≤ (1 / 10) ^ n := by
        have : (1 / 10 : ℝ) ^ n ≤ 1 := pow_le_one₀ (by norm_num) (by norm_num)
        have : (0 : ℝ) ≤ (1 / 10) ^ n := by positivity
        nlinarith
      linarith
    · rw [abs_of_pos hq, Real.sqrt_le_left (by positivity)]
      have h1 : (10 : ℝ) ^ n ≤ ((10 : ℝ) ^ n) ^ 2 := by
        have : (1 : ℝ) ≤ 10 ^ n := one_le_pow₀ (by norm_num)
        nlinarith
      linarith
  rw [← hd] at this
  exact this

theorem Rel.abs (hx : Rel x r k n) : Rel (fabs x) |r| k n := by
  obtain ⟨x, rfl, hx, x1, x2⟩ := hx
  refine ⟨|x|, rfl, ?_, by rwa [abs_abs], by rwa [abs_abs]⟩
  rw [abs_abs]
  exact (abs_abs_sub_abs_le x r).trans hx

theorem XR.pow_fin (x : ℝ) (p : ℕ) : XR.pow (.fin x) p = .fin (x ^ p) := by
  induction p with
  | zero => rw [pow_zero]; rfl
  | succ p ih =>
    show XR.mul (XR.pow (.fin x) p) (.fin x) = _
    rw [ih, pow_succ]
    rfl

theorem Rd.powi_fin (x : ℝ) (p : ℕ) : powi (Rd.fin x : Rd A) p = Rd.round A (.fin (x ^ p)) := congrArg (Rd.round A) (XR.pow_fin x p)

theorem Rel.square (hx : Rel x r k n) (hk : k ≤ 100) (hn : n + n ≤ 50) : Rel (powi x 2) (r ^ 2) (k + k + 1) (n + n) := by
  have := hx.mul hx hk hk hn
  obtain ⟨x, rfl, -⟩ := hx
  rw [Rd.powi_fin, pow_two, pow_two]
  exact this

end
end Verif
