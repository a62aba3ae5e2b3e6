import Verif.Lemmas.RoundedPlan
/-!
The velocities, times and ways the motion generator plans for each joint if every operation is rounded.
-/
set_option linter.unusedSectionVars false
namespace Verif
open Spec Fl

/-- The velocity the code means to choose for the way `D` in the time `T`. -/
noncomputable def meant (a T D : ℝ) : ℝ := T * a / 3 * (1 - Real.sqrt (max (1 - 6 * D / (a * T ^ 2)) 0))

section
variable {V a D T : ℝ}

/-- A square root that is computed from a slightly wrong number. -/
theorem sqrt_near {κ w : ℝ} (h1 : 5 / 10 ^ 10 ≤ κ) (hw : 0 ≤ w) (h : |w - max (1 - κ) 0| ≤ 3 / 10 ^ 15) :
    0 < 1 - Real.sqrt (max (1 - κ) 0) ∧ 12 / 10 ^ 16 ≤ 1 / 10 ^ 5 * (1 - Real.sqrt (max (1 - κ) 0)) ∧
      |Real.sqrt w - Real.sqrt (max (1 - κ) 0)| ≤ 2 / 10 ^ 5 * (1 - Real.sqrt (max (1 - κ) 0)) ∧
      (1 / 2 < κ → 1 / 10 ≤ 1 - Real.sqrt (max (1 - κ) 0) ∧ |Real.sqrt w - Real.sqrt (max (1 - κ) 0)| ≤ 1 / 10 ^ 7) := by
  have hm : 0 ≤ max (1 - κ) 0 := le_max_right _ _
  have hs2 := Real.mul_self_sqrt hm
  have hs0 := Real.sqrt_nonneg (max (1 - κ) 0)
  have hw2 := Real.mul_self_sqrt hw
  have hw0 := Real.sqrt_nonneg w
  have hmle : max (1 - κ) 0 ≤ max (1 - 5 / 10 ^ 10) 0 := max_le_max (by linarith) le_rfl
  have hmle' : max (1 - κ) 0 ≤ 1 - 5 / 10 ^ 10 := hmle.trans (by norm_num)
  set m := max (1 - κ) 0 with hmd
  set s := Real.sqrt m
  set q := Real.sqrt w
  have hs1 : s ≤ 1 - 25 / 10 ^ 11 := by nlinarith
  have e : |q - s| * (q + s) ≤ 3 / 10 ^ 15 := by
    rw [← abs_of_nonneg (add_nonneg hw0 hs0), ← abs_mul, show (q - s) * (q + s) = w - m by nlinarith]
    exact h
  refine ⟨by linarith, by linarith, ?_, fun hk => ?_⟩
  · by_cases hk : κ ≤ 1 / 2
    · have hm2 : 1 / 2 ≤ m := le_trans (by linarith) (le_max_left _ _)
      have hs3 : 7 / 10 ≤ s := by nlinarith
      have : |q - s| * (7 / 10) ≤ 3 / 10 ^ 15 := le_trans (mul_le_mul_of_nonneg_left (by linarith) (abs_nonneg _)) e
      linarith
    · have hm2 : m ≤ 1 / 2 := max_le (by linarith) (by norm_num)
      have hs3 : s ≤ 8 / 10 := by nlinarith
      have h4 : |q - s| ≤ q + s := abs_le.2 ⟨by linarith, by linarith⟩
      have : |q - s| ≤ 1 / 10 ^ 7 := by
        by_contra hc
        have := abs_nonneg (q - s)
        nlinarith
      linarith
  · have hm2 : m ≤ 1 / 2 := max_le (by linarith) (by norm_num)
    have hs3 : s ≤ 8 / 10 := by nlinarith
    have h4 : |q - s| ≤ q + s := abs_le.2 ⟨by linarith, by linarith⟩
    refine ⟨by linarith, ?_⟩
    by_contra hc
    have := abs_nonneg (q - s)
    nlinarith

/-- What is true of the velocity that is meant, if the time is, up to an error, sufficient. -/
theorem meant_spec (ha : 0 < a) (hD : 0 < D) (hT : 0 < T) (hk : 6 * D / (a * T ^ 2) ≤ 1 + 1 / 10 ^ 12) :
    0 < meant a T D ∧ meant a T D ^ 2 ≤ 2 / 3 * a * D ∧ T ≤ 3 / 2 * meant a T D / a + D / meant a T D ∧
      3 / 2 * meant a T D / a + D / meant a T D ≤ (1 + 1 / 10 ^ 12) * T ∧ (∀ x, x < meant a T D → T * a * x < 3 / 2 * x ^ 2 + a * D) := by
  have hκ0 : 0 < 6 * D / (a * T ^ 2) := by positivity
  have eκ : D = 6 * D / (a * T ^ 2) * (a * T ^ 2) / 6 := by field_simp
  have hs0 := Real.sqrt_nonneg (max (1 - 6 * D / (a * T ^ 2)) 0)
  have hs2 := Real.mul_self_sqrt (le_max_right (1 - 6 * D / (a * T ^ 2)) 0)
  unfold meant
  set κ := 6 * D / (a * T ^ 2)
  set s := Real.sqrt (max (1 - κ) 0)
  have hs1 : s < 1 := by
    have : max (1 - κ) 0 < 1 := max_lt (by linarith) (by norm_num)
    nlinarith
  -- (1 - s) (1 + s) ≤ κ, with equality unless κ > 1
  have hle : (1 - s) * (1 + s) ≤ κ := by
    have := le_max_left (1 - κ) 0
    nlinarith
  have hge : κ ≤ (1 - s) * (1 + s) * (1 + 1 / 10 ^ 12) := by
    rcases le_total κ 1 with h | h
    · have : max (1 - κ) 0 = 1 - κ := max_eq_left (by linarith)
      rw [this] at hs2
      nlinarith
    · have : max (1 - κ) 0 = 0 := max_eq_right (by linarith)
      rw [this] at hs2
      nlinarith
  have hp : 0 < T * a / 3 * (1 - s) := mul_pos (by positivity) (by linarith)
  have hpT : T * a / 3 * (1 - s) ≤ T * a / 3 := by
    have : 0 < T * a / 3 := by positivity
    nlinarith
  have e1 : 3 / 2 * (T * a / 3 * (1 - s)) / a = T * (1 - s) / 2 := by field_simp
  have e2 : D / (T * a / 3 * (1 - s)) = T * (κ / (1 - s)) / 2 := by
    have : 1 - s ≠ 0 := by linarith
    rw [eκ]
    field_simp
    ring
  have h1s : 0 < 1 - s := by linarith
  have h3 : 1 + s ≤ κ / (1 - s) := by rw [le_div_iff₀ h1s]; linarith
  have h4 : κ / (1 - s) ≤ (1 + s) * (1 + 1 / 10 ^ 12) := by rw [div_le_iff₀ h1s]; linarith
  refine ⟨hp, ?_, ?_, ?_, fun x hx => ?_⟩
  · rw [eκ]
    have h5 : (1 - s) ^ 2 ≤ κ := by nlinarith
    have : (T * a / 3 * (1 - s)) ^ 2 = T ^ 2 * a ^ 2 / 9 * (1 - s) ^ 2 := by ring
    rw [this]
    have : 2 / 3 * a * (κ * (a * T ^ 2) / 6) = T ^ 2 * a ^ 2 / 9 * κ := by ring
    rw [this]
    gcongr
  · rw [e1, e2]
    nlinarith
  · rw [e1, e2]
    nlinarith
  · have hq : 0 ≤ 3 / 2 * (T * a / 3 * (1 - s)) ^ 2 - T * a * (T * a / 3 * (1 - s)) + a * D := by
      have e3 : 3 / 2 * (T * a / 3 * (1 - s)) ^ 2 - T * a * (T * a / 3 * (1 - s)) + a * D = T ^ 2 * a ^ 2 / 6 * (κ - (1 - s) * (1 + s)) := by
        rw [eκ]
        ring
      rw [e3]
      exact mul_nonneg (by positivity) (by linarith)
    have : 0 < (T * a / 3 * (1 - s) - x) * (T * a - 3 / 2 * (T * a / 3 * (1 - s) + x)) := mul_pos (by linarith) (by linarith)
    nlinarith

theorem leastTime_ge (hV : 0 < V) (ha : 0 < a) (hD : 0 < D) : 6 * D / a ≤ leastTime V a D ^ 2 := by
  have hr := reach_pos hV ha hD
  rw [leastTime_eq hV ha hD]
  generalize reach V a D = r at hr
  have e : (3 / 2 * r / a + D / r) ^ 2 = 6 * D / a + (3 / 2 * r / a - D / r) ^ 2 := by field_simp; ring
  rw [e]
  linarith [sq_nonneg (3 / 2 * r / a - D / r)]

theorem kappa_le (hV : 0 < V) (ha : 0 < a) (hD : 0 < D) (hT : 0 < T) (h : leastTime V a D * (1 - 1 / 10 ^ 13) ≤ T) : 6 * D / (a * T ^ 2) ≤ 1 + 1 / 10 ^ 12 := by
  have h1 := leastTime_ge hV ha hD
  have h0 := leastTime_pos hV ha hD
  rw [div_le_iff₀ ha] at h1
  rw [div_le_iff₀ (by positivity)]
  generalize leastTime V a D = L at h h0 h1
  have h2 : (L * (1 - 1 / 10 ^ 13)) ^ 2 ≤ T ^ 2 := pow_le_pow_left₀ (mul_nonneg h0.le (by norm_num)) h 2
  have h3 : L ^ 2 ≤ (1 + 1 / 10 ^ 12) * T ^ 2 := by nlinarith [sq_nonneg L]
  calc 6 * D ≤ L ^ 2 * a := h1
    _ ≤ (1 + 1 / 10 ^ 12) * T ^ 2 * a := by gcongr
    _ = _ := by ring

theorem meant_le (hV : 0 < V) (ha : 0 < a) (hD : 0 < D) (hT : 0 < T) (h : leastTime V a D * (1 - 1 / 10 ^ 13) ≤ T) : meant a T D ≤ (1 + 1 / 10 ^ 5) * V := by
  obtain ⟨h0, h1, -, -, h2⟩ := meant_spec ha hD hT (kappa_le hV ha hD hT h)
  rw [leastTime_eq hV ha hD] at h
  unfold reach at h
  have e1 : 3 / 4 * (V ^ 2 / a) + 3 / 4 * (V ^ 2 / a) = 3 / 2 * V ^ 2 / a := by ring
  rw [e1] at h
  by_cases hc : D < 3 / 2 * V ^ 2 / a
  · rw [lt_div_iff₀ ha] at hc
    nlinarith
  · rw [if_neg hc] at h
    by_contra hlt
    have h3 := h2 _ (not_le.1 hlt)
    have h4 : ((1 + 1 / 10 ^ 5) * V) ^ 2 < meant a T D ^ 2 := pow_lt_pow_left₀ (not_le.1 hlt) (by positivity) (by norm_num)
    have e : (3 / 2 * V / a + D / V) * (1 - 1 / 10 ^ 13) * (a * V) = (3 / 2 * V ^ 2 + a * D) * (1 - 1 / 10 ^ 13) := by field_simp
    have h5 : (3 / 2 * V ^ 2 + a * D) * (1 - 1 / 10 ^ 13) ≤ T * (a * V) := by
      rw [← e]
      exact mul_le_mul_of_nonneg_right h (by positivity)
    have h6 : 0 < V ^ 2 := by positivity
    nlinarith

end

variable {A : Rounding}

theorem Rd.sub_fin (x y : ℝ) : (Rd.fin x - Rd.fin y : Rd A) = Rd.round A (.fin (x - y)) := by
  rw [sub_eq_add_neg]
  rfl

/-- The numbers that are planned for a joint which has the way `δ` to go with the acceleration `a`: the velocity `v`, the times and the way of speeding up. -/
structure RoundedSync (δ a v t1 tf t2 q1 : ℝ) : Prop where
  pos : 1 / 10 ^ 9 ≤ v
  le : v ≤ 7
  square : v ^ 2 ≤ (1 + 1 / 10 ^ 4) * (2 / 3 * a * |δ|)
  short : 3 / 2 * v / a + |δ| / v ≤ 500
  near1 : |t1 - 3 / 2 * v / a| ≤ 1 / 10 ^ 15 * (3 / 2 * v / a)
  near2 : |t2 - |δ| / v| ≤ 1 / 10 ^ 12
  nearf : |tf - (3 / 2 * v / a + |δ| / v)| ≤ 1 / 10 ^ 12
  nearq : |q1 - v * dir δ * (3 / 2 * v / a / 2)| ≤ 1 / 10 ^ 13

namespace MotionGenerator

theorem quot_near {a c num N : ℝ} (a1 : 1 / 100 ≤ a) (a2 : a ≤ 6) (hbp : 0 < c) (hc1 : c ≤ 10 ^ 5) (hc2 : 1 / 10 ^ 8 * (1 / 10 ^ 10) ≤ c)
    (hN : |N - 3 * a| ≤ 7 * (12 / 10 ^ 17) * (3 * a)) (hnum : |num - c| ≤ 31 / 10 ^ 6 * c) :
    ∃ v, (Rd.fin num / Rd.fin N : Rd A) = Rd.fin v ∧ |v - c / (3 * a)| ≤ 4 / 10 ^ 5 * (c / (3 * a)) := by
  have ha0 : 0 < a := by linarith
  -- the quotient
  obtain ⟨n1, n2⟩ := abs_le.1 hN
  obtain ⟨m1, m2⟩ := abs_le.1 hnum
  have hN0 : 0 < N := by linarith
  have hdv : XR.div (.fin num) (.fin N) = .fin (num / N) := if_neg hN0.ne'
  have hquot : |num / N - c / (3 * a)| ≤ 32 / 10 ^ 6 * (c / (3 * a)) := by
    have e : num / N - c / (3 * a) = (num * (3 * a) - c * N) / (N * (3 * a)) := by field_simp
    rw [e, abs_div, abs_of_pos (by positivity : 0 < N * (3 * a)), div_le_iff₀ (by positivity)]
    have e2 : 32 / 10 ^ 6 * (c / (3 * a)) * (N * (3 * a)) = 32 / 10 ^ 6 * c * N := by field_simp
    rw [e2, abs_le]
    have h3a : 0 < 3 * a := by positivity
    generalize 3 * a = b at *
    have h5 : 0 < c * b := mul_pos hbp h3a
    have h6 : (1 - 1 / 10 ^ 14) * (c * b) ≤ c * N := by nlinarith
    have h7 : c * N ≤ (1 + 1 / 10 ^ 14) * (c * b) := by nlinarith
    have h8 : num * b ≤ (1 + 31 / 10 ^ 6) * (c * b) := by nlinarith
    have h9 : (1 - 31 / 10 ^ 6) * (c * b) ≤ num * b := by nlinarith
    constructor <;> linarith
  have hcN : c / (3 * a) ≤ 10 ^ 9 ∧ 1 / 10 ^ 20 ≤ c / (3 * a) := by
    rw [div_le_iff₀ (by positivity), le_div_iff₀ (by positivity)]
    constructor <;> linarith
  obtain ⟨u1, u2⟩ := hcN
  obtain ⟨w1, w2⟩ := abs_le.1 hquot
  have hE := rnd_le (A := A) (num / N)
  have hpos : 0 < num / N := by linarith
  refine ⟨A.rnd (num / N), (congrArg (Rd.round A) hdv).trans (rnd_fin (by rw [abs_of_pos hpos]; linarith)), ?_⟩
  rw [abs_of_pos hpos] at hE
  obtain ⟨z1, z2⟩ := abs_le.1 hE
  rw [abs_le]
  constructor <;> linarith

/-- The velocity that is computed is nearly the one that is meant. -/
theorem rd_speed (hz : A.rnd 0 = 0) {D a T : ℝ} (a1 : 1 / 100 ≤ a) (a2 : a ≤ 6) (d1 : 1 / 10 ^ 7 ≤ D) (d2 : D ≤ 9) (t1 : 1 / 10 ^ 4 ≤ T) (t2 : T ≤ 450)
    (k1 : 5 / 10 ^ 10 ≤ 6 * D / (a * T ^ 2)) (k2 : 6 * D / (a * T ^ 2) ≤ 1 + 1 / 10 ^ 12) :
    ∃ v, ((lit (-1) * (lit (-1) * Rd.fin T * Rd.fin a * Rd.fin a) - fsqrt (fmax (lit (-1) * Rd.fin T * Rd.fin a * Rd.fin a * (lit (-1) * Rd.fin T * Rd.fin a * Rd.fin a) -
      lit 4 * (lit (15 / 10) / lit 2 * (Rd.fin a + Rd.fin a)) * (Rd.fin D * Rd.fin a * Rd.fin a)) (lit 0))) / (lit 2 * (lit (15 / 10) / lit 2 * (Rd.fin a + Rd.fin a))) : Rd A) = Rd.fin v ∧
      |v - meant a T D| ≤ 4 / 10 ^ 5 * meant a T D := by
  have ha0 : 0 < a := by linarith
  have hT0 : 0 < T := by linarith
  have hD0 : 0 < D := lt_of_lt_of_le (by norm_num) d1
  have ra : Rel (Rd.fin a : Rd A) a 0 2 := rel_fin (by rw [abs_of_pos ha0]; norm_num; linarith) (by rw [abs_of_pos ha0]; norm_num; linarith)
  have rT : Rel (Rd.fin T : Rd A) T 0 4 := rel_fin (by rw [abs_of_pos hT0]; norm_num at t1 ⊢; linarith) (by rw [abs_of_pos hT0]; norm_num; linarith)
  have rD : Rel (Rd.fin D : Rd A) D 0 7 := rel_fin (by rw [abs_of_pos hD0]; norm_num at d1 ⊢; linarith) (by rw [abs_of_pos hD0]; norm_num; linarith)
  have rm : Rel (lit (-1) : Rd A) (-1) 1 0 := rel_num 0 (by norm_num) (by norm_num) (by norm_num) (by norm_num)
  have r4 : Rel (lit 4 : Rd A) 4 1 1 := rel_num 1 (by norm_num) (by norm_num) (by norm_num) (by norm_num)
  have r2 : Rel (lit 2 : Rd A) 2 1 1 := rel_num 1 (by norm_num) (by norm_num) (by norm_num) (by norm_num)
  have r15 : Rel (lit (15 / 10) : Rd A) (15 / 10) 1 1 := rel_num 1 (by norm_num) (by norm_num) (by norm_num) (by norm_num)
  have rb := ((rm.mul rT (by norm_num) (by norm_num) (by norm_num)).mul ra (by norm_num) (by norm_num) (by norm_num)).mul ra (by norm_num) (by norm_num) (by norm_num)
  have rp := (r15.div r2 (by norm_num) (by norm_num) (by norm_num)).mul (ra.add ra ha0.le ha0.le (by norm_num) (by norm_num)) (by norm_num) (by norm_num) (by norm_num)
  have rc := (rD.mul ra (by norm_num) (by norm_num) (by norm_num)).mul ra (by norm_num) (by norm_num) (by norm_num)
  have hβ : 0 < T * a ^ 2 := by positivity
  have hβ1 : 1 / 10 ^ 8 ≤ T * a ^ 2 := by
    have : (1 / 100 : ℝ) ^ 2 ≤ a ^ 2 := pow_le_pow_left₀ (by norm_num) a1 2
    have := mul_le_mul t1 this (by norm_num) hT0.le
    norm_num at this ⊢
    linarith
  have hβ2 : T * a ^ 2 ≤ 10 ^ 5 := by
    have : a ^ 2 ≤ 6 ^ 2 := pow_le_pow_left₀ ha0.le a2 2
    have := mul_le_mul t2 this (by positivity) (by norm_num)
    norm_num at this ⊢
    linarith
  have eY : 4 * (15 / 10 / 2 * (a + a)) * (D * a * a) = 6 * D / (a * T ^ 2) * (T * a ^ 2) ^ 2 := by field_simp; ring
  have emeant : meant a T D = T * a ^ 2 * (1 - Real.sqrt (max (1 - 6 * D / (a * T ^ 2)) 0)) / (3 * a) := by
    unfold meant
    field_simp
  rw [emeant]
  -- b * b
  obtain ⟨X, eX, hX, -, -⟩ := rb.mul rb (by norm_num) (by norm_num) (by norm_num)
  obtain ⟨Y, eY', hY, -, -⟩ := (r4.mul rp (by norm_num) (by norm_num) (by norm_num)).mul rc (by norm_num) (by norm_num) (by norm_num)
  obtain ⟨M, eM, hM, -, -⟩ := rm.mul rb (by norm_num) (by norm_num) (by norm_num)
  obtain ⟨N, eN, hN, -, -⟩ := r2.mul rp (by norm_num) (by norm_num) (by norm_num)
  rw [eX, eY', eM, eN]
  have e0 : (lit 0 : Rd A) = Rd.fin 0 := by
    show Rd.round A (.fin ((0 : ℚ) : ℝ)) = _
    rw [Rat.cast_zero, rnd_fin (by norm_num), hz]
  rw [e0]
  rw [show -1 * T * a * a * (-1 * T * a * a) = (T * a ^ 2) ^ 2 by ring, abs_of_pos (show 0 < (T * a ^ 2) ^ 2 by positivity)] at hX
  rw [eY, abs_of_pos (show 0 < 6 * D / (a * T ^ 2) * (T * a ^ 2) ^ 2 by positivity)] at hY
  rw [show -1 * (-1 * T * a * a) = T * a ^ 2 by ring, abs_of_pos hβ] at hM
  rw [show 2 * (15 / 10 / 2 * (a + a)) = 3 * a by ring, abs_of_pos (show 0 < 3 * a by positivity)] at hN
  push_cast at hX hY hM hN
  clear eX eY' eM eN eY rb rp rc rm r4 r2 r15 ra rT rD e0 emeant
  have hκ0 : 0 < 6 * D / (a * T ^ 2) := by positivity
  generalize 6 * D / (a * T ^ 2) = κ at *
  generalize T * a ^ 2 = β at *
  have hB2 : 0 < β ^ 2 := by positivity
  have hB3 : (1 / 10 ^ 16 : ℝ) ≤ β ^ 2 := by
    have := pow_le_pow_left₀ (by norm_num) hβ1 2
    norm_num at this ⊢
    linarith
  have hB4 : β ^ 2 ≤ 10 ^ 10 := by
    have := pow_le_pow_left₀ hβ.le hβ2 2
    norm_num at this ⊢
    linarith
  have hκB : κ * β ^ 2 ≤ (1 + 1 / 10 ^ 12) * β ^ 2 := mul_le_mul_of_nonneg_right k2 hB2.le
  have hκB0 : 0 < κ * β ^ 2 := by positivity
  obtain ⟨x1, x2⟩ := abs_le.1 hX
  obtain ⟨y1, y2⟩ := abs_le.1 hY
  have hXY : |X - Y| ≤ 11 / 10 * β ^ 2 := abs_le.2 ⟨by linarith, by linarith⟩
  have hr := rnd_le (A := A) (X - Y)
  rw [Rd.sub_fin, rnd_fin (by linarith)]
  obtain ⟨r1, r2⟩ := abs_le.1 hr
  generalize A.rnd (X - Y) = x at *
  rw [Rd.fmax_fin]
  have hw : |max x 0 / β ^ 2 - max (1 - κ) 0| ≤ 3 / 10 ^ 15 := by
    have h1 : |x / β ^ 2 - (1 - κ)| ≤ 3 / 10 ^ 15 := by
      rw [show x / β ^ 2 - (1 - κ) = (x - (1 - κ) * β ^ 2) / β ^ 2 by field_simp, abs_div, abs_of_pos hB2, div_le_iff₀ hB2, abs_le]
      constructor <;> linarith
    have e : max x 0 / β ^ 2 = max (x / β ^ 2) 0 := by
      rw [← zero_div (β ^ 2), max_div_div_right hB2.le, zero_div]
    rw [e]
    exact abs_max_sub_max h1 (by norm_num)
  have hw0 : 0 ≤ max x 0 / β ^ 2 := div_nonneg (le_max_right _ _) hB2.le
  obtain ⟨p0, p1, p2, -⟩ := sqrt_near k1 hw0 hw
  have hsq : Real.sqrt (max x 0) = β * Real.sqrt (max x 0 / β ^ 2) := by
    rw [Real.sqrt_div' _ hB2.le, Real.sqrt_sq hβ.le]
    field_simp
  have hs0 := Real.sqrt_nonneg (max (1 - κ) 0)
  have hq0 := Real.sqrt_nonneg (max x 0 / β ^ 2)
  have hq1 : Real.sqrt (max x 0 / β ^ 2) ≤ 11 / 10 := by
    rw [Real.sqrt_le_left (by norm_num)]
    have h3 : max (1 - κ) 0 ≤ 1 := max_le (by linarith) (by norm_num)
    have := (abs_le.1 hw).2
    norm_num at this ⊢
    linarith
  have efs : fsqrt (Rd.fin (max x 0) : Rd A) = Rd.round A (.fin (Real.sqrt (max x 0))) := by
    have : XR.sqrt (.fin (max x 0)) = .fin (Real.sqrt (max x 0)) := if_neg (not_lt.2 (le_max_right _ _))
    exact congrArg (Rd.round A) this
  rw [efs, hsq]
  generalize Real.sqrt (max x 0 / β ^ 2) = q at *
  generalize Real.sqrt (max (1 - κ) 0) = s at *
  have hβq : β * q ≤ β * (11 / 10) := mul_le_mul_of_nonneg_left hq1 hβ.le
  have hβq0 : 0 ≤ β * q := by positivity
  rw [rnd_fin (by rw [abs_of_nonneg hβq0]; linarith), Rd.sub_fin]
  have hS := rnd_le (A := A) (β * q)
  rw [abs_of_nonneg hβq0] at hS
  generalize A.rnd (β * q) = S at *
  obtain ⟨s1, s2⟩ := abs_le.1 hS
  obtain ⟨m1, m2⟩ := abs_le.1 hM
  have hMS : |M - S| ≤ 22 / 10 * β := abs_le.2 ⟨by linarith, by linarith⟩
  rw [rnd_fin (by linarith)]
  have hR := rnd_le (A := A) (M - S)
  generalize A.rnd (M - S) = num at *
  obtain ⟨n1, n2⟩ := abs_le.1 hR
  obtain ⟨q1, q2⟩ := abs_le.1 p2
  have hp : 12 / 10 ^ 16 * β ≤ 1 / 10 ^ 5 * (1 - s) * β := mul_le_mul_of_nonneg_right p1 hβ.le
  have hq3 : β * (q - s) ≤ β * (2 / 10 ^ 5 * (1 - s)) := mul_le_mul_of_nonneg_left q2 hβ.le
  have hq4 : β * -(2 / 10 ^ 5 * (1 - s)) ≤ β * (q - s) := mul_le_mul_of_nonneg_left q1 hβ.le
  have hnum : |num - β * (1 - s)| ≤ 31 / 10 ^ 6 * (β * (1 - s)) := by
    have e3 : β * (q - s) = β * q - β * s := by ring
    have e4 : β * (1 - s) = β - β * s := by ring
    have e5 : β * (2 / 10 ^ 5 * (1 - s)) = 2 / 10 ^ 5 * (β - β * s) := by ring
    have e6 : β * -(2 / 10 ^ 5 * (1 - s)) = -(2 / 10 ^ 5 * (β - β * s)) := by ring
    have e7 : 1 / 10 ^ 5 * (1 - s) * β = 1 / 10 ^ 5 * (β - β * s) := by ring
    rw [e7] at hp
    rw [e3, e5] at hq3
    rw [e3, e6] at hq4
    rw [e4]
    generalize β * s = bs at *
    generalize β * q = bq at *
    rw [abs_le]
    constructor <;> linarith
  have hbp : 0 < β * (1 - s) := mul_pos hβ p0
  have hc1 : β * (1 - s) ≤ 10 ^ 5 := (mul_le_of_le_one_right hβ.le (by linarith)).trans hβ2
  have hc2 : 1 / 10 ^ 8 * (1 / 10 ^ 10) ≤ β * (1 - s) := mul_le_mul hβ1 (by linarith) (by norm_num) hβ.le
  generalize β * (1 - s) = c at hnum hbp hc1 hc2 ⊢
  exact quot_near a1 a2 hbp hc1 hc2 hN hnum

/-- A velocity that is nearly the one that is meant. -/
theorem speed_spec {D a T v : ℝ} (ha : 0 < a) (a2 : a ≤ 6) (d1 : 9 / 10 ^ 7 ≤ D) (d2 : D ≤ 9) (hT : 0 < T) (t2 : T ≤ 450)
    (k2 : 6 * D / (a * T ^ 2) ≤ 1 + 1 / 10 ^ 12) (hv : |v - meant a T D| ≤ 4 / 10 ^ 5 * meant a T D) :
    1 / 10 ^ 9 ≤ v ∧ v ≤ 7 ∧ v ^ 2 ≤ (1 + 1 / 10 ^ 4) * (2 / 3 * a * D) ∧ (1 - 1 / 10 ^ 4) * T ≤ 3 / 2 * v / a + D / v ∧
      3 / 2 * v / a + D / v ≤ (1 + 1 / 10 ^ 4) * T := by
  have hD : 0 < D := lt_of_lt_of_le (by norm_num) d1
  obtain ⟨h0, h1, h2, h3, -⟩ := meant_spec ha hD hT k2
  generalize meant a T D = m at *
  obtain ⟨v1, v2⟩ := abs_le.1 hv
  have hm : D / m ≤ 451 := by
    have : 0 < 3 / 2 * m / a := by positivity
    linarith
  rw [div_le_iff₀ h0] at hm
  have hm2 : m ≤ 6 := by
    have : 2 / 3 * a * D ≤ 2 / 3 * 6 * 9 := by gcongr
    nlinarith
  have hv0 : 0 < v := by linarith
  have e1 : 3 / 2 * v / a = v / m * (3 / 2 * m / a) := by field_simp
  have e2 : D / v = m / v * (D / m) := by field_simp
  have p1 : 0 < 3 / 2 * m / a := by positivity
  have p2 : 0 < D / m := by positivity
  have q1 : v / m ≤ 1 + 5 / 10 ^ 5 := by rw [div_le_iff₀ h0]; linarith
  have q2 : 1 - 5 / 10 ^ 5 ≤ v / m := by rw [le_div_iff₀ h0]; linarith
  have q3 : m / v ≤ 1 + 5 / 10 ^ 5 := by rw [div_le_iff₀ hv0]; linarith
  have q4 : 1 - 5 / 10 ^ 5 ≤ m / v := by rw [le_div_iff₀ hv0]; linarith
  refine ⟨by linarith, by linarith, ?_, ?_, ?_⟩
  · have : v ^ 2 ≤ ((1 + 4 / 10 ^ 5) * m) ^ 2 := pow_le_pow_left₀ hv0.le (by linarith) 2
    rw [mul_pow] at this
    have h5 : ((1 + 4 / 10 ^ 5) ^ 2 : ℝ) ≤ 1 + 1 / 10 ^ 4 := by norm_num
    calc v ^ 2 ≤ _ := this
      _ ≤ (1 + 1 / 10 ^ 4) * m ^ 2 := by gcongr
      _ ≤ _ := by gcongr
  · rw [e1, e2]
    have := mul_le_mul_of_nonneg_right q2 p1.le
    have := mul_le_mul_of_nonneg_right q4 p2.le
    linarith
  · rw [e1, e2]
    have := mul_le_mul_of_nonneg_right q1 p1.le
    have := mul_le_mul_of_nonneg_right q3 p2.le
    linarith

theorem rd_sync (hz : A.rnd 0 = 0) {g : MotionGenerator (Rd A)} {i : Fin 7} {δ a T : ℝ} (hδ : g.delta_q i = Rd.fin δ)
    (hs : g.ddq_max_start i = Rd.fin a) (hg : g.ddq_max_goal i = Rd.fin a) (a1 : 1 / 100 ≤ a) (a2 : a ≤ 6) (d1 : 9 / 10 ^ 7 ≤ |δ|) (d2 : |δ| ≤ 9)
    (t1 : 1 / 10 ^ 4 ≤ T) (t2 : T ≤ 450) (k1 : 5 / 10 ^ 10 ≤ 6 * |δ| / (a * T ^ 2)) (k2 : 6 * |δ| / (a * T ^ 2) ≤ 1 + 1 / 10 ^ 12) :
    ∃ v t1 tf t2 q1 : ℝ, g.sync_joint (Rd.fin T) i = ⟨Rd.fin v, Rd.fin t1, Rd.fin tf, Rd.fin t2, Rd.fin q1⟩ ∧ RoundedSync δ a v t1 tf t2 q1 ∧
      |v - meant a T (|δ|)| ≤ 4 / 10 ^ 5 * meant a T (|δ|) ∧ (1 - 1 / 10 ^ 4) * T ≤ 3 / 2 * v / a + |δ| / v ∧ 3 / 2 * v / a + |δ| / v ≤ (1 + 1 / 10 ^ 4) * T := by
  have ha0 : 0 < a := by linarith
  have hT0 : 0 < T := by linarith
  have hD0 : 0 < |δ| := lt_of_lt_of_le (by norm_num) d1
  obtain ⟨v, ev, hv⟩ := rd_speed (A := A) hz a1 a2 (le_trans (by norm_num) d1) d2 t1 t2 k1 k2
  obtain ⟨v1, v2, v3, v4, v5⟩ := speed_spec ha0 a2 d1 d2 hT0 t2 k2 hv
  have hv0 : 0 < v := lt_of_lt_of_le (by norm_num) v1
  have ra : Rel (Rd.fin a : Rd A) a 0 2 := rel_fin (by rw [abs_of_pos ha0]; norm_num; linarith) (by rw [abs_of_pos ha0]; norm_num; linarith)
  have rv : Rel (Rd.fin v : Rd A) v 0 9 := rel_fin (by rw [abs_of_pos hv0]; norm_num at v1 ⊢; linarith) (by rw [abs_of_pos hv0]; norm_num; linarith)
  have rδ : Rel (Rd.fin δ : Rd A) δ 0 7 := rel_fin (by norm_num at d1 ⊢; linarith) (by norm_num; linarith)
  have r2 : Rel (lit 2 : Rd A) 2 1 1 := rel_num 1 (by norm_num) (by norm_num) (by norm_num) (by norm_num)
  have r15 : Rel (lit (15 / 10) : Rd A) (15 / 10) 1 1 := rel_num 1 (by norm_num) (by norm_num) (by norm_num) (by norm_num)
  have r5 : Rel (lit (5 / 10) : Rd A) (5 / 10) 1 1 := rel_num 1 (by norm_num) (by norm_num) (by norm_num) (by norm_num)
  have rt := (r15.mul rv (by norm_num) (by norm_num) (by norm_num)).div ra (by norm_num) (by norm_num) (by norm_num)
  have rh := rt.div r2 (by norm_num) (by norm_num) (by norm_num)
  have rd := (rδ.div rv (by norm_num) (by norm_num) (by norm_num)).abs
  have hτ : 0 < 3 / 2 * v / a := by positivity
  have ht2 : 0 < |δ| / v := by positivity
  have rf := ((rh.add rh (by positivity) (by positivity) (by norm_num) (by norm_num)).weaken le_rfl (by norm_num : _ ≤ 16)).add
    (rd.weaken (by norm_num) (by norm_num)) (by positivity) (abs_nonneg _) (by norm_num) (by norm_num)
  have rq := (rv.mul (rel_dir δ) (by norm_num) (by norm_num) (by norm_num)).mul (r5.mul rt (by norm_num) (by norm_num) (by norm_num)) (by norm_num) (by norm_num) (by norm_num)
  obtain ⟨x1, ex1, hx1, -, -⟩ := rt
  obtain ⟨xf, exf, hxf, -, -⟩ := rf
  obtain ⟨xq, exq, hxq, -, -⟩ := rq
  have eτ : 15 / 10 * v / a = 3 / 2 * v / a := by ring
  have ef : 15 / 10 * v / a / 2 + 15 / 10 * v / a / 2 + |δ / v| = 3 / 2 * v / a + |δ| / v := by
    rw [abs_div, abs_of_pos hv0]
    ring
  have eq : v * dir δ * (5 / 10 * (15 / 10 * v / a)) = v * dir δ * (3 / 2 * v / a / 2) := by ring
  rw [eτ, abs_of_pos hτ] at hx1
  rw [ef, abs_of_pos (add_pos hτ ht2)] at hxf
  rw [eq] at hxq
  have hdir : |dir δ| = 1 := by rcases dir_cases δ with h | h <;> rw [h] <;> norm_num
  rw [abs_mul, abs_mul, hdir, mul_one, abs_of_pos hv0, abs_of_pos (half_pos hτ)] at hxq
  have hway : v * (3 / 2 * v / a / 2) ≤ 9 := by
    have e3 : v * (3 / 2 * v / a / 2) = 3 / 4 * v ^ 2 / a := by ring
    rw [e3, div_le_iff₀ ha0]
    nlinarith
  push_cast at hx1 hxf hxq
  rw [ex1] at exf exq
  have hdiff : |xf - x1| ≤ 1000 := by
    obtain ⟨_, _⟩ := abs_le.1 hxf
    obtain ⟨_, _⟩ := abs_le.1 hx1
    exact abs_le.2 ⟨by linarith, by linarith⟩
  have e2f : (Rd.fin xf - Rd.fin x1 : Rd A) = Rd.fin (A.rnd (xf - x1)) := by
    rw [Rd.sub_fin, rnd_fin (by linarith)]
  refine ⟨v, x1, xf, A.rnd (xf - x1), xq, ?_, ⟨v1, v2, v3, by linarith, by linarith, ?_, by linarith, ?_⟩, hv, v4, v5⟩
  · unfold sync_joint
    simp only [hs, hg, hδ, Rd.fabs_fin, Rd.signum_fin, ev, ex1, exf, exq, e2f]
  · have hr := rnd_le (A := A) (xf - x1)
    obtain ⟨_, _⟩ := abs_le.1 hxf
    obtain ⟨_, _⟩ := abs_le.1 hx1
    obtain ⟨_, _⟩ := abs_le.1 hr
    exact abs_le.2 ⟨by linarith, by linarith⟩
  · linarith

end MotionGenerator
end Verif
