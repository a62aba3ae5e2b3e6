import Verif.Lemmas.RoundedSync
import Verif.Props.PoseFilter
import Verif.Lemmas.Smooth
/-!
The low-pass filter with rounded doubles: its gain, one step, and the accumulated error.
-/
namespace Verif
open Spec Fl
variable {A : Rounding}

theorem rel_pi : Rel (Fl.pi : Rd A) Real.pi 1 1 := by
  have h1 := Real.pi_gt_three
  have h2 := Real.pi_le_four
  refine rel_round (z := Real.pi) (c := 0) (by simp) (by norm_num) (by norm_num) (by norm_num) ?_ ?_ <;> rw [abs_of_pos Real.pi_pos] <;> norm_num <;> linarith

theorem rd_gain {f : ℝ} (h0 : 1 / 100 ≤ f) (h1 : f ≤ 1000) : Rel (filter_gain DELTA_T (Rd.fin f) : Rd A) (share f) 9 9 := by
  have hp := Real.pi_pos
  have hf : 0 < f := by linarith
  have r2 : Rel (lit 2 : Rd A) 2 1 1 := rel_num 1 (by norm_num) (by norm_num) (by norm_num) (by norm_num)
  have r1 : Rel (lit 1 : Rd A) 1 1 0 := rel_num 0 (by norm_num) (by norm_num) (by norm_num) (by norm_num)
  have rt : Rel (DELTA_T : Rd A) (1 / 1000) 1 3 := rel_num 3 (by norm_num) (by norm_num) (by norm_num [abs_of_pos]) (by norm_num [abs_of_pos])
  have rf : Rel (Rd.fin f : Rd A) f 0 3 := rel_fin (by rw [abs_of_pos hf]; norm_num; linarith) (by rw [abs_of_pos hf]; norm_num; linarith)
  have ra := (r2.mul rel_pi (by norm_num) (by norm_num) (by norm_num)).mul rf (by norm_num) (by norm_num) (by norm_num)
  have rb := r1.div ra (by norm_num) (by norm_num) (by norm_num)
  have rc := (rt.weaken (k' := 6) (n' := 5) (by norm_num) (by norm_num)).add (rb.weaken (k' := 6) (n' := 5) (by norm_num) (by norm_num)) (by norm_num) (by positivity)
    (by norm_num) (by norm_num)
  refine ((rt.div rc (by norm_num) (by norm_num) (by norm_num)).weaken (by norm_num) (by norm_num)).congr ?_
  unfold share
  field_simp
  ring

theorem share_lower {f : ℝ} (h0 : 1 / 100 ≤ f) : 6 / 10 ^ 5 ≤ share f := by
  have h1 := Real.pi_gt_d2
  have hp := Real.pi_pos
  unfold share
  rw [le_div_iff₀ (by positivity)]
  have h2 : 2 * 3.14 * (1 / 100) ≤ 2 * Real.pi * f := by
    have : (3.14 : ℝ) * (1 / 100) ≤ Real.pi * f := mul_le_mul h1.le h0 (by norm_num) hp.le
    linarith
  norm_num at *
  linarith

/-- One step of the filter with rounding. -/
theorem rd_filter {f y l B : ℝ} (h0 : 1 / 100 ≤ f) (h1 : f ≤ 1000) (b0 : 1 / 10 ^ 50 ≤ B) (b1 : B ≤ 10 ^ 40) (hy : |y| ≤ B) (hl : |l| ≤ B) :
    ∃ r, low_pass_filter DELTA_T (Rd.fin y) (Rd.fin l) (Rd.fin f) = (.ok (Rd.fin r) : P (Rd A)) ∧ |r - (l + share f * (y - l))| ≤ 4 / 10 ^ 15 * B := by
  have hf : 0 < f := by linarith
  have s0 := share_pos hf
  have s1 := share_lt_one hf
  obtain ⟨g, hg, eg, -, -⟩ := rd_gain (A := A) h0 h1
  rw [abs_of_pos s0] at eg
  have hB : 0 < B := lt_of_lt_of_le (by norm_num) b0
  have eg' : |g - share f| ≤ 108 / 10 ^ 17 := by
    refine eg.trans ?_
    push_cast
    nlinarith
  obtain ⟨eg1, eg2⟩ := abs_le.1 eg'
  have tiny : (1 : ℝ) / 10 ^ 70 ≤ 1 / 10 ^ 20 * B := by
    refine le_trans ?_ (mul_le_mul_of_nonneg_left b0 (by norm_num))
    norm_num
  -- one
  have ho : (lit 1 : Rd A) = Rd.fin (A.rnd 1) := by
    have h : (lit 1 : Rd A) = Rd.round A (.fin ((1 : ℚ) : ℝ)) := rfl
    rw [h, rnd_fin (by norm_num)]
    norm_num
  have eo := rnd_le (A := A) 1
  rw [abs_one] at eo
  generalize A.rnd 1 = o at ho eo
  have eo' : |o - 1| ≤ 13 / 10 ^ 17 := eo.trans (by norm_num)
  obtain ⟨eo1, eo2⟩ := abs_le.1 eo'
  -- one minus the gain
  have hog : |o - g| ≤ 101 / 100 := abs_le.2 ⟨by linarith, by linarith⟩
  have hh : (lit 1 - Rd.fin g : Rd A) = Rd.fin (A.rnd (o - g)) := by
    rw [ho, Rd.sub_fin, rnd_fin (hog.trans (by norm_num))]
  have eh := rnd_le (A := A) (o - g)
  generalize A.rnd (o - g) = h at hh eh
  have eh' : |h - (1 - share f)| ≤ 135 / 10 ^ 17 := by
    have e1 : |h - (o - g)| ≤ 122 / 10 ^ 18 := by
      refine eh.trans ?_
      have := mul_le_mul_of_nonneg_left hog (by norm_num : (0 : ℝ) ≤ 12 / 10 ^ 17)
      have h7 : (1 : ℝ) / 10 ^ 70 ≤ 1 / 10 ^ 19 := by norm_num
      linarith
    obtain ⟨a1, a2⟩ := abs_le.1 e1
    exact abs_le.2 ⟨by linarith, by linarith⟩
  obtain ⟨eh1, eh2⟩ := abs_le.1 eh'
  have hgb : |g| ≤ 101 / 100 := abs_le.2 ⟨by linarith, by linarith⟩
  have hhb : |h| ≤ 101 / 100 := abs_le.2 ⟨by linarith, by linarith⟩
  -- the products
  have prod : ∀ {a x : ℝ}, |a| ≤ 101 / 100 → |x| ≤ B → (Rd.fin a * Rd.fin x : Rd A) = Rd.fin (A.rnd (a * x)) ∧ |A.rnd (a * x) - a * x| ≤ 122 / 10 ^ 18 * B ∧ |a * x| ≤ 101 / 100 * B := by
    intro a x ha hx
    have h3 : |a * x| ≤ 101 / 100 * B := abs_mul_le ha hx
    refine ⟨rnd_fin (h3.trans ?_), (rnd_le _).trans ?_, h3⟩
    · have : (101 : ℝ) / 100 * 10 ^ 40 ≤ 10 ^ 50 := by norm_num
      nlinarith
    · nlinarith
  obtain ⟨p1, p2, p3⟩ := prod hgb hy
  obtain ⟨q1, q2, q3⟩ := prod hhb hl
  generalize A.rnd (g * y) = p at p1 p2
  generalize A.rnd (h * l) = q at q1 q2
  have hpq : |p + q| ≤ 203 / 100 * B := by
    have a1 := abs_le.1 p2; have a2 := abs_le.1 q2; have a3 := abs_le.1 p3; have a4 := abs_le.1 q3
    exact abs_le.2 ⟨by nlinarith, by nlinarith⟩
  have hr : (Rd.fin p + Rd.fin q : Rd A) = Rd.fin (A.rnd (p + q)) := rnd_fin (hpq.trans (by
    have : (203 : ℝ) / 100 * 10 ^ 40 ≤ 10 ^ 50 := by norm_num
    nlinarith))
  have er : |A.rnd (p + q) - (p + q)| ≤ 25 / 10 ^ 17 * B := (rnd_le _).trans (by nlinarith)
  generalize A.rnd (p + q) = r at hr er
  refine ⟨r, ?_, ?_⟩
  · obtain ⟨d, hd, ed⟩ := near_DELTA_T (A := A)
    have hd0 : 0 ≤ d := by have := (abs_le.1 ed).1; norm_num at this; linarith
    have s1 : (isSignPositive (DELTA_T : Rd A) && isFinite (DELTA_T : Rd A)) = true := by
      rw [hd]
      have : isSignPositive (Rd.fin d : Rd A) = true := decide_eq_true hd0
      rw [this]; rfl
    have s2 : (isSignPositive (Rd.fin f : Rd A) && isFinite (Rd.fin f : Rd A)) = true := by
      have : isSignPositive (Rd.fin f : Rd A) = true := decide_eq_true hf.le
      rw [this]; rfl
    unfold low_pass_filter
    rw [s1, s2]
    change (Except.ok (filter_gain DELTA_T (Rd.fin f) * Rd.fin y + (lit 1 - filter_gain DELTA_T (Rd.fin f)) * Rd.fin l) : P (Rd A)) = _
    rw [hg, hh, p1, q1, hr]
  · have e1 : r - (l + share f * (y - l)) = (r - (p + q)) + (p - g * y) + (q - h * l) + (g - share f) * y + (h - (1 - share f)) * l := by ring
    rw [e1]
    have a4 := abs_mul_le eg' hy
    have a5 := abs_mul_le eh' hl
    refine (abs_add_le _ _).trans ((add_le_add ((abs_add_le _ _).trans (add_le_add (abs_add_three _ _ _) le_rfl)) le_rfl).trans ?_)
    linarith

/-- The error does not grow for ever. -/
theorem filter_error {f B : ℝ} (h0 : 1 / 100 ≤ f) (hB : 0 < B) {N : ℕ} {u x z : ℕ → ℝ} (hx : LowPassedFor N f u x) (hu : ∀ n < N, |u n| ≤ B) (h2 : |x 0| ≤ B) (h3 : z 0 = x 0)
    (step : ∀ n < N, |z n| ≤ 1001 / 1000 * B → |z (n + 1) - (z n + share f * (u n - z n))| ≤ 5 / 10 ^ 15 * B) :
    ∀ n ≤ N, |z n - x n| ≤ 5 / 10 ^ 15 * B / share f ∧ |x n| ≤ B ∧ |z n| ≤ 1001 / 1000 * B := by
  have hf : 0 < f := by linarith
  have s0 := share_pos hf
  have s1 := share_lt_one hf
  have s2 := share_lower h0
  have hE : 5 / 10 ^ 15 * B / share f ≤ 1 / 1000 * B := by
    rw [div_le_iff₀ s0]
    have : 1 / 1000 * B * (6 / 10 ^ 5) ≤ 1 / 1000 * B * share f := mul_le_mul_of_nonneg_left s2 (by positivity)
    nlinarith
  have hE0 : 0 ≤ 5 / 10 ^ 15 * B / share f := by positivity
  have hE1 : 5 / 10 ^ 15 * B / share f * share f = 5 / 10 ^ 15 * B := div_mul_cancel₀ _ s0.ne'
  generalize 5 / 10 ^ 15 * B / share f = E at *
  intro n
  induction n with
  | zero =>
    intro _
    rw [h3]
    refine ⟨by simpa using hE0, h2, ?_⟩
    linarith
  | succ n ih =>
    intro hn
    obtain ⟨i1, i2, i3⟩ := ih (by omega)
    have hs := step n (by omega) i3
    have hx' := (gain_eq hf).1 (hx n (by omega))
    rw [← share_gain f hf] at hx'
    have hxn : |x (n + 1)| ≤ B := by
      rw [hx']
      have a1 := abs_mul_le (abs_of_pos s0).le (hu n (by omega))
      have a2 := abs_mul_le (abs_of_pos (by linarith : 0 < 1 - share f)).le i2
      refine (abs_add_le _ _).trans ?_
      linarith
    have hzx : |z (n + 1) - x (n + 1)| ≤ E := by
      have e : z (n + 1) - x (n + 1) = (z (n + 1) - (z n + share f * (u n - z n))) + (1 - share f) * (z n - x n) := by rw [hx']; ring
      rw [e]
      have a2 := abs_mul_le (abs_of_pos (by linarith : 0 < 1 - share f)).le i1
      refine (abs_add_le _ _).trans ?_
      linarith
    refine ⟨hzx, hxn, ?_⟩
    have := abs_sub_abs_le_abs_sub (z (n + 1)) (x (n + 1))
    linarith

end Verif
