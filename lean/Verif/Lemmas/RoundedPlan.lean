import Verif.Lemmas.Relative
import Verif.Lemmas.Plan
/-!
What the motion generator plans if every operation is rounded.
-/
set_option linter.unusedSectionVars false
namespace Verif
open Spec Fl
variable {A : Rounding}

theorem rnd_fin {z : ℝ} (h : |z| ≤ 10 ^ 50) : Rd.round A (.fin z) = Rd.fin (A.rnd z) := by
  have h0 := rnd_error (A := A) z
  have h1 := abs_sub_abs_le_abs_sub (A.rnd z) z
  have h2 := max_huge (A := A) le_rfl
  exact if_pos (by nlinarith)

theorem rnd_le (z : ℝ) : |A.rnd z - z| ≤ 12 / 10 ^ 17 * |z| + 1 / 10 ^ 70 := by
  refine (A.error z).trans (add_le_add (mul_le_mul_of_nonneg_right (by norm_num) (abs_nonneg z)) ?_)
  exact (pow_le_pow_of_le_one (by norm_num) (by norm_num) (by norm_num : 250 ≤ 1075)).trans (by norm_num)

theorem Rel.near {x : Rd A} {r r' : ℝ} {k l n m : ℕ} (h : Rel x r k n) (hr : |r - r'| ≤ l * (12 / 10 ^ 17) * |r'|) (hk : k ≤ 100) (hl : l ≤ 100)
    (h1 : (1 / 10) ^ m ≤ |r'|) (h2 : |r'| ≤ 10 ^ m) : Rel x r' (k + l + 1) m := by
  obtain ⟨y, rfl, h3, -, -⟩ := h
  refine ⟨y, rfl, ?_, h1, h2⟩
  have hk' : (k : ℝ) ≤ 100 := by exact_mod_cast hk
  have hl' : (l : ℝ) ≤ 100 := by exact_mod_cast hl
  have hk0 : (0 : ℝ) ≤ k := k.cast_nonneg
  have hl0 : (0 : ℝ) ≤ l := l.cast_nonneg
  have hr0 := abs_nonneg r'
  have h4 := abs_sub_le y r r'
  have h5 := abs_sub_abs_le_abs_sub r r'
  have h6 : |y - r| ≤ k * (12 / 10 ^ 17) * ((1 + l * (12 / 10 ^ 17)) * |r'|) := h3.trans (mul_le_mul_of_nonneg_left (by linarith) (by positivity))
  have h7 : (k : ℝ) * l * |r'| ≤ 10000 * |r'| := mul_le_mul_of_nonneg_right (by nlinarith) hr0
  push_cast
  nlinarith

theorem Rel.congr {x : Rd A} {r r' : ℝ} {k n : ℕ} (h : Rel x r k n) (e : r = r') : Rel x r' k n := e ▸ h

theorem Rd.signum_fin (x : ℝ) : signum (Rd.fin x : Rd A) = Rd.fin (dir x) := by
  show (if x < 0 then XR.fin (-1) else XR.fin 1) = XR.fin (if x < 0 then -1 else 1)
  split <;> rfl

theorem Rd.fabs_fin (x : ℝ) : fabs (Rd.fin x : Rd A) = Rd.fin |x| := rfl
theorem Rd.flt_fin (x y : ℝ) : flt (Rd.fin x : Rd A) (Rd.fin y) = decide (x < y) := XR.flt_fin x y
theorem Rd.fle_fin (x y : ℝ) : fle (Rd.fin x : Rd A) (Rd.fin y) = decide (x ≤ y) := XR.fle_fin x y

theorem rel_dir (δ : ℝ) : Rel (Rd.fin (dir δ) : Rd A) (dir δ) 0 0 := rel_fin (by rcases dir_cases δ with h | h <;> rw [h] <;> norm_num) (by rcases dir_cases δ with h | h <;> rw [h] <;> norm_num)

theorem rel_num {q : ℚ} {r : ℝ} (n : ℕ) (hq : (q : ℝ) = r) (hn : n ≤ 50) (h1 : (1 / 10) ^ n ≤ |r|) (h2 : |r| ≤ 10 ^ n) : Rel (lit q : Rd A) r 1 n := by
  subst hq
  exact rel_lit hn h1 h2

section
variable {V a D T : ℝ}

/-- Both ways to compute the velocity that is reached give nearly the same where the code changes from one to the other. -/
theorem reach_near (hV : 0 < V) (ha : 0 < a) (hD : 0 < D) {l : ℕ} (hl : l ≤ 100) {thr : ℝ}
    (ht : |thr - (3 / 4 * (V ^ 2 / a) + 3 / 4 * (V ^ 2 / a))| ≤ (l : ℝ) * (12 / 10 ^ 17) * |3 / 4 * (V ^ 2 / a) + 3 / 4 * (V ^ 2 / a)|) :
    (D < thr → |Real.sqrt (4 / 3 * D * (a * a) / (a + a)) - reach V a D| ≤ (l : ℝ) * (12 / 10 ^ 17) * |reach V a D|) ∧
      (¬ D < thr → |V - reach V a D| ≤ ((l + 1 : ℕ) : ℝ) * (12 / 10 ^ 17) * |reach V a D|) := by
  have hl' : (l : ℝ) ≤ 100 := by exact_mod_cast hl
  have hl0 : (0 : ℝ) ≤ l := l.cast_nonneg
  have e1 : 3 / 4 * (V ^ 2 / a) + 3 / 4 * (V ^ 2 / a) = 3 / 2 * V ^ 2 / a := by ring
  have e2 : 4 / 3 * D * (a * a) / (a + a) = 2 / 3 * a * D := by field_simp; ring
  have hp : 0 < 3 / 2 * V ^ 2 / a := by positivity
  rw [e1, abs_of_pos hp] at ht
  unfold reach
  rw [e1, e2]
  set r := Real.sqrt (2 / 3 * a * D) with hr
  have hr0 : 0 < r := Real.sqrt_pos.2 (by positivity)
  have hr2 : r * r = 2 / 3 * a * D := Real.mul_self_sqrt (by positivity)
  obtain ⟨t1, t2⟩ := abs_le.1 ht
  have eD : D = 3 / 2 * (r * r) / a := by rw [hr2]; field_simp
  set c : ℝ := l * (12 / 10 ^ 17) with hc
  have hc0 : 0 ≤ c := by positivity
  have hc1 : c ≤ 1 / 10 ^ 13 := by rw [hc]; nlinarith
  refine ⟨fun h => ?_, fun h => ?_⟩
  · by_cases h1 : D < 3 / 2 * V ^ 2 / a
    · rw [if_pos h1, sub_self, abs_zero]
      positivity
    · rw [if_neg h1, abs_of_pos hV]
      have h2 : D < (1 + c) * (3 / 2 * V ^ 2 / a) := by linarith
      rw [eD] at h1 h2
      have h3 : V ^ 2 ≤ r * r := by
        rw [not_lt, div_le_div_iff_of_pos_right ha] at h1
        linarith
      have h4 : r * r ≤ (1 + c) * V ^ 2 := by
        rw [← mul_div_assoc, div_lt_div_iff_of_pos_right ha] at h2
        linarith
      have h5 : V ≤ r := by nlinarith
      rw [abs_of_nonneg (by linarith)]
      nlinarith
  · by_cases h1 : D < 3 / 2 * V ^ 2 / a
    · rw [if_pos h1, abs_of_pos hr0]
      have h2 : (1 - c) * (3 / 2 * V ^ 2 / a) ≤ D := by linarith [not_lt.1 h]
      rw [eD] at h1 h2
      have h3 : r * r < V ^ 2 := by
        rw [div_lt_div_iff_of_pos_right ha] at h1
        linarith
      have h4 : (1 - c) * V ^ 2 ≤ r * r := by
        rw [← mul_div_assoc, div_le_div_iff_of_pos_right ha] at h2
        linarith
      have h5 : r ≤ V := by nlinarith
      rw [abs_of_nonneg (by linarith)]
      push_cast
      have h6 : V * V * (1 - c) ≤ V * r := by nlinarith
      have h7 : V * (1 - c) ≤ r := by nlinarith
      have e3 : ((l : ℝ) + 1) * (12 / 10 ^ 17) = c + 12 / 10 ^ 17 := by rw [hc]; ring
      rw [e3]
      have h8 : V ≤ r + c * V := by linarith
      have h9 : V ≤ 2 * r := by nlinarith
      have h10 : c * V ≤ c * (r + c * V) := mul_le_mul_of_nonneg_left h8 hc0
      have h11 : c * (c * V) ≤ 1 / 10 ^ 13 * (1 / 10 ^ 13 * (2 * r)) := by gcongr
      have h12 : (1 : ℝ) / 10 ^ 13 * (1 / 10 ^ 13 * (2 * r)) ≤ 12 / 10 ^ 17 * r := by linarith
      linarith
    · rw [if_neg h1, sub_self, abs_zero]
      positivity

end

namespace MotionGenerator

theorem rd_unsync {g : MotionGenerator (Rd A)} {i : Fin 7} {δ V a : ℝ} (hδ : g.delta_q i = Rd.fin δ) (hV : g.dq_max i = Rd.fin V)
    (hs : g.ddq_max_start i = Rd.fin a) (hg : g.ddq_max_goal i = Rd.fin a) (v1 : 1 / 100 ≤ V) (v2 : V ≤ 100) (a1 : 1 / 100 ≤ a) (a2 : a ≤ 100)
    (d1 : 1 / 10 ^ 7 ≤ |δ|) (d2 : |δ| ≤ 10 ^ 7) (hn : flt (DELTA_Q_MOTION_FINISHED : Rd A) (fabs (g.delta_q i)) = true) :
    Rel (g.unsync_t_f i) (leastTime V a |δ|) 30 30 := by
  have hV0 : 0 < V := by linarith
  have ha0 : 0 < a := by linarith
  have hD0 : 0 < |δ| := lt_of_lt_of_le (by positivity) d1
  have rV : Rel (Rd.fin V : Rd A) V 0 2 := rel_fin (by rw [abs_of_pos hV0]; norm_num; linarith) (by rw [abs_of_pos hV0]; norm_num; linarith)
  have ra : Rel (Rd.fin a : Rd A) a 0 2 := rel_fin (by rw [abs_of_pos ha0]; norm_num; linarith) (by rw [abs_of_pos ha0]; norm_num; linarith)
  have rδ : Rel (Rd.fin δ : Rd A) δ 0 7 := rel_fin (by norm_num at d1 ⊢; linarith) d2
  have r3 : Rel (lit 3 : Rd A) 3 1 1 := rel_num 1 (by norm_num) (by norm_num) (by norm_num) (by norm_num)
  have r4 : Rel (lit 4 : Rd A) 4 1 1 := rel_num 1 (by norm_num) (by norm_num) (by norm_num) (by norm_num)
  have r2 : Rel (lit 2 : Rd A) 2 1 1 := rel_num 1 (by norm_num) (by norm_num) (by norm_num) (by norm_num)
  have r15 : Rel (lit (15 / 10) : Rd A) (15 / 10) 1 1 := rel_num 1 (by norm_num) (by norm_num) (by norm_num) (by norm_num)
  have hq : Rel (lit 3 / lit 4 * (powi (Rd.fin V) 2 / Rd.fin a) : Rd A) (3 / 4 * (V ^ 2 / a)) 6 8 :=
    (r3.div r4 (by norm_num) (by norm_num) (by norm_num)).mul ((rV.square (by norm_num) (by norm_num)).div ra (by norm_num) (by norm_num) (by norm_num)) (by norm_num) (by norm_num) (by norm_num)
  have hthr := hq.add hq (by positivity) (by positivity) (by norm_num) (by norm_num)
  obtain ⟨thr, et, ht, -, -⟩ := hthr
  have hroot : Rel (fsqrt (lit 4 / lit 3 * Rd.fin δ * Rd.fin (dir δ) * (Rd.fin a * Rd.fin a) / (Rd.fin a + Rd.fin a)) : Rd A) (Real.sqrt (4 / 3 * |δ| * (a * a) / (a + a))) 10 16 := by
    have e : 4 / 3 * |δ| * (a * a) / (a + a) = 4 / 3 * δ * dir δ * (a * a) / (a + a) := by
      rw [← mul_dir]
      ring
    rw [e]
    exact (((((r4.div r3 (by norm_num) (by norm_num) (by norm_num)).mul rδ (by norm_num) (by norm_num) (by norm_num)).mul (rel_dir δ) (by norm_num) (by norm_num) (by norm_num)).mul
      (ra.mul ra (by norm_num) (by norm_num) (by norm_num)) (by norm_num) (by norm_num) (by norm_num)).div (ra.add ra ha0.le ha0.le (by norm_num) (by norm_num))
      (by norm_num) (by norm_num) (by norm_num)).sqrt (by rw [← e]; positivity) (by norm_num) (by norm_num)
  obtain ⟨n1, n2⟩ := reach_near hV0 ha0 hD0 (by norm_num) ht
  have hr0 := reach_pos hV0 ha0 hD0
  have hr2 := reach_le hV0 ha0 hD0
  have hr1 : (1 / 10) ^ 6 ≤ reach V a |δ| := by
    unfold reach
    split
    · refine Real.le_sqrt_of_sq_le ?_
      have e2 : 4 / 3 * |δ| * (a * a) / (a + a) = 2 / 3 * (a * |δ|) := by field_simp; ring
      rw [e2]
      have : 1 / 100 * (1 / 10 ^ 7) ≤ a * |δ| := mul_le_mul a1 d1 (by norm_num) ha0.le
      norm_num at this ⊢
      linarith
    · norm_num
      linarith
  have hreach : Rel (A := A) (if flt (fabs (Rd.fin δ : Rd A)) (lit 3 / lit 4 * (powi (Rd.fin V) 2 / Rd.fin a) + lit 3 / lit 4 * (powi (Rd.fin V) 2 / Rd.fin a)) then
      fsqrt (lit 4 / lit 3 * Rd.fin δ * signum (Rd.fin δ) * (Rd.fin a * Rd.fin a) / (Rd.fin a + Rd.fin a)) else Rd.fin V) (reach V a |δ|) 18 6 := by
    rw [et, Rd.signum_fin, Rd.fabs_fin, Rd.flt_fin]
    by_cases hc : |δ| < thr
    · rw [if_pos (decide_eq_true hc)]
      exact hroot.near (n1 hc) (by norm_num) (by norm_num) (by rw [abs_of_pos hr0]; exact hr1) (by rw [abs_of_pos hr0]; norm_num; linarith)
    · rw [if_neg (by rw [decide_eq_true_eq]; exact hc)]
      exact (rV.near (n2 hc) (by norm_num) (by norm_num) (by rw [abs_of_pos hr0]; exact hr1) (by rw [abs_of_pos hr0]; norm_num; linarith)).weaken (by norm_num) (by norm_num)
  unfold unsync_t_f leastTime
  rw [if_pos hn]
  simp only [hδ, hV, hs, hg]
  have h1 := ((r15.mul hreach (by norm_num) (by norm_num) (by norm_num)).div ra (by norm_num) (by norm_num) (by norm_num)).div r2 (by norm_num) (by norm_num) (by norm_num)
  have h2 := rδ.abs.div hreach (by norm_num) (by norm_num) (by norm_num)
  exact ((((h1.add h1 (by positivity) (by positivity) (by norm_num) (by norm_num)).weaken (by norm_num : _ ≤ 25) (by norm_num : _ ≤ 20))).add
    (h2.weaken (by norm_num) (by norm_num)) (by positivity) (by positivity) (by norm_num) (by norm_num)).weaken (by norm_num) (by norm_num)

end MotionGenerator
end Verif
