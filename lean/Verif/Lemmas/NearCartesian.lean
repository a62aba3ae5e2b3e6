import Verif.Spec.SmoothCartesian
import Verif.Lemmas.PlannedJoints
import Verif.Props.Cartesian
/-!
Lemmas: Cartesian velocities that respect the limits pass the rate limiting nearly unchanged, also after a low pass.
-/
set_option linter.unusedSectionVars false
namespace Verif
open Spec

/-! ## Vectors -/

theorem len_neg (v : Fin 3 → ℝ) : len (fun i => -v i) = len v := by
  have := len_smul (-1) v
  rw [abs_neg, abs_one, one_mul] at this
  rw [← this]
  congr 1
  funext i
  ring

theorem len_zero : len (fun _ => 0) = 0 := by simp [len]

theorem len_scale {c : ℝ} (hc : 0 ≤ c) (v : Fin 3 → ℝ) : len (fun i => c * v i) = c * len v := by rw [len_smul, abs_of_nonneg hc]

/-- The triangle inequality. -/
theorem len_shift {v w : Fin 3 → ℝ} {a b : ℝ} (h : len v ≤ a) (hd : len (fun i => w i - v i) ≤ b) : len w ≤ a + b := by
  have := len_add_le v fun i => w i - v i
  simp only [add_sub_cancel] at this
  linarith

theorem len_sum {v w : Fin 3 → ℝ} {a b : ℝ} (h : len v ≤ a) (h' : len w ≤ b) : len (fun i => v i + w i) ≤ a + b := (len_add_le v w).trans (add_le_add h h')

theorem len_diff {v w : Fin 3 → ℝ} {a b : ℝ} (h : len v ≤ a) (h' : len w ≤ b) : len (fun i => v i - w i) ≤ a + b := by
  have := len_sum h ((len_neg w).le.trans h')
  simpa only [← sub_eq_add_neg] using this

theorem len_mix {v w : Fin 3 → ℝ} {a g : ℝ} (h0 : 0 ≤ g) (h1 : g ≤ 1) (h : len v ≤ a) (h' : len w ≤ a) : len (fun i => g * v i + (1 - g) * w i) ≤ a := by
  have := len_sum (len_scale h0 v).le (len_scale (by linarith : 0 ≤ 1 - g) w).le
  refine this.trans ?_
  nlinarith

theorem div_milli (x : ℝ) : x / 0.001 = 1000 * x := by norm_num; ring

/-! ## One step -/

/-- A command that respects the limits with room `s` for the acceleration and the velocity. -/
structure Room (L : Limits) (s : ℝ) (u v a : Fin 3 → ℝ) : Prop where
  jerk : len (fun i => ((u i - v i) / 0.001 - a i) / 0.001) ≤ L.jerk
  acceleration : len (fun i => (u i - v i) / 0.001) + s ≤ L.acceleration
  margin : len (fun i => v i + L.acceleration / L.jerk * ((u i - v i) / 0.001)) + L.acceleration / L.jerk * s ≤ L.velocity

theorem cOut_of_acc {L : Limits} {u v a : Fin 3 → ℝ} : cOut L (fun i => v i + cAcc L.jerk u v a i / 1000) v (cAcc L.jerk u v a) = cOut L u v a := by
  generalize h : cAcc L.jerk u v a = a'
  have hj : cJerk (fun i => v i + a' i / 1000) v a' = fun _ => 0 := by
    funext i
    unfold cJerk
    ring
  have e : cAcc L.jerk (fun i => v i + a' i / 1000) v a' = a' := by
    unfold cAcc
    rw [hj, len_zero, if_neg (not_lt.2 tiny_pos.le)]
  unfold cOut
  rw [e, h]

/-- A command with a little room is nearly unchanged. -/
theorem cOut_near {L : Limits} (hL : CartesianOk L) {u v a : Fin 3 → ℝ} (hv : len v ≤ L.velocity) (h : Room L (tiny / 1000) u v a) :
    len (fun i => cOut L u v a i - u i) ≤ tiny / 1000 + tiny / 1000000 := by
  have ht := tiny_pos
  have hw : ∀ i, (u i - v i) / 0.001 = 1000 * (u i - v i) := fun i => div_milli _
  have hq : 0 < L.acceleration / L.jerk := div_pos hL.acceleration hL.jerk
  obtain ⟨hj, ha, hm⟩ := h
  simp only [hw] at hj ha hm
  -- the acceleration after the jerk limit
  have hacc : len (fun i => cAcc L.jerk u v a i - 1000 * (u i - v i)) ≤ tiny / 1000 := by
    unfold cAcc
    have hJ : len (cJerk u v a) ≤ L.jerk := by
      have : cJerk u v a = fun i => (1000 * (u i - v i) - a i) / 0.001 := by funext i; unfold cJerk; rw [div_milli]
      rw [this]
      exact hj
    by_cases h1 : tiny < len (cJerk u v a)
    · rw [if_pos h1, min_eq_left hJ]
      have e : (fun i => a i + cJerk u v a i / len (cJerk u v a) * len (cJerk u v a) / 1000 - 1000 * (u i - v i)) = fun _ => 0 := by
        funext i
        rw [div_mul_cancel₀ _ (tiny_pos.trans h1).ne']
        unfold cJerk
        ring
      rw [e, len_zero]
      positivity
    · rw [if_neg h1]
      have e : (fun i => a i - 1000 * (u i - v i)) = fun i => -((1 / 1000) * cJerk u v a i) := by
        funext i
        unfold cJerk
        ring
      rw [e, len_neg, len_scale (by norm_num)]
      linarith
  rw [← cOut_of_acc]
  generalize cAcc L.jerk u v a = a' at hacc ⊢
  have hback : ∀ i, 1000 * ((v i + a' i / 1000) - v i) = a' i := fun i => by ring
  have hall : CartesianAllowed L (fun i => v i + a' i / 1000) v a' := by
    refine ⟨?_, ?_, ?_⟩
    · simp only [div_milli, hback, sub_self, mul_zero]
      rw [len_zero]
      exact hL.jerk.le
    · simp only [div_milli, hback]
      exact (len_shift le_rfl hacc).trans ha
    · simp only [div_milli, hback]
      refine (len_shift le_rfl ?_).trans hm
      have e : (fun i => v i + L.acceleration / L.jerk * a' i - (v i + L.acceleration / L.jerk * (1000 * (u i - v i)))) =
          fun i => L.acceleration / L.jerk * (a' i - 1000 * (u i - v i)) := by
        funext i
        ring
      rw [e, len_scale hq.le]
      exact mul_le_mul_of_nonneg_left hacc hq.le
  by_cases h2 : tiny < len a'
  · rw [cOut_transparent hL.jerk hL.acceleration hv hall (.inl fun i => by unfold cJerk; rw [hback]; ring) (.inr (by simp only [hback]; exact h2))]
    have e : (fun i => v i + a' i / 1000 - u i) = fun i => (1 / 1000) * (a' i - 1000 * (u i - v i)) := by
      funext i
      ring
    rw [e, len_scale (by norm_num)]
    linarith
  · have e : cOut L (fun i => v i + a' i / 1000) v a' = v := by
      have hj : cJerk (fun i => v i + a' i / 1000) v a' = fun _ => 0 := by
        funext i
        unfold cJerk
        ring
      have e : cAcc L.jerk (fun i => v i + a' i / 1000) v a' = a' := by
        unfold cAcc
        rw [hj, len_zero, if_neg (not_lt.2 tiny_pos.le)]
      unfold cOut
      rw [e]
      exact if_neg h2
    rw [e]
    have e : (fun i => v i - u i) = fun i => (1 / 1000) * ((a' i - 1000 * (u i - v i)) - a' i) := by
      funext i
      ring
    rw [e, len_scale (by norm_num)]
    have := len_diff hacc (not_lt.1 h2)
    linarith

/-! ## Limits with room -/

/-- The limits `L'` are a little below the limits `L`. -/
structure Under (L' L : Limits) : Prop where
  ok : CartesianOk L
  ok' : CartesianOk L'
  jerk : L'.jerk + 0.0005 ≤ L.jerk
  acceleration : L'.acceleration + 0.0005 ≤ L.acceleration
  velocity : L'.velocity + 0.0005 ≤ L.velocity
  ratio : |L.acceleration / L.jerk - L'.acceleration / L'.jerk| * L'.acceleration ≤ 0.0001
  small : L.acceleration / L.jerk ≤ 0.01

theorem under_translation : Under (below (below translationLimits)) codeTranslation := by
  refine ⟨codeTranslation_ok, ⟨?_, ?_, ?_⟩, ?_, ?_, ?_, ?_, ?_⟩ <;> norm_num [below, translationLimits, codeTranslation, abs_le]
theorem under_rotation : Under (below (below rotationLimits)) codeRotation := by
  refine ⟨codeRotation_ok, ⟨?_, ?_, ?_⟩, ?_, ?_, ?_, ?_, ?_⟩ <;> norm_num [below, rotationLimits, codeRotation, abs_le]

/-- Small errors do not matter. -/
theorem room_of_near {L' L : Limits} (hL : Under L' L) {u v a u' v' a' : Fin 3 → ℝ} (h : CartesianAllowed L' u v a) (hu : len (fun i => u' i - u i) ≤ 1 / 10 ^ 12)
    (hv : len (fun i => v' i - v i) ≤ 1 / 10 ^ 12) (ha : len (fun i => a' i - a i) ≤ 1 / 10 ^ 9) : Room L (tiny / 1000) u' v' a' := by
  obtain ⟨hj, hacc, hm⟩ := h
  simp only [div_milli] at hj hacc hm
  have hr := hL.ratio
  have hsm := hL.small
  have hq : 0 < L.acceleration / L.jerk := div_pos hL.ok.acceleration hL.ok.jerk
  have ht : tiny / 1000 ≤ 1 / 10 ^ 9 := by unfold tiny; norm_num
  have hd : len (fun i => 1000 * (u' i - v' i) - 1000 * (u i - v i)) ≤ 2 / 10 ^ 9 := by
    have e : (fun i => 1000 * (u' i - v' i) - 1000 * (u i - v i)) = fun i => 1000 * ((u' i - u i) - (v' i - v i)) := by funext i; ring
    rw [e, len_scale (by norm_num)]
    have := len_diff hu hv
    linarith
  refine ⟨?_, ?_, ?_⟩
  · simp only [div_milli]
    refine (len_shift hj (b := 3 / 10 ^ 6) ?_).trans (by have := hL.jerk; linarith)
    have e : (fun i => 1000 * (1000 * (u' i - v' i) - a' i) - 1000 * (1000 * (u i - v i) - a i)) =
        fun i => 1000 * ((1000 * (u' i - v' i) - 1000 * (u i - v i)) - (a' i - a i)) := by funext i; ring
    rw [e, len_scale (by norm_num)]
    have := len_diff hd ha
    linarith
  · simp only [div_milli]
    have := len_shift hacc hd
    have := hL.acceleration
    linarith
  · simp only [div_milli]
    have hx : len (fun i => v i + L.acceleration / L.jerk * (1000 * (u i - v i))) ≤ L'.velocity + 0.0001 := by
      refine len_shift hm ?_
      have e : (fun i => v i + L.acceleration / L.jerk * (1000 * (u i - v i)) - (v i + L'.acceleration / L'.jerk * (1000 * (u i - v i)))) =
          fun i => (L.acceleration / L.jerk - L'.acceleration / L'.jerk) * (1000 * (u i - v i)) := by funext i; ring
      rw [e, len_smul]
      exact (mul_le_mul_of_nonneg_left hacc (abs_nonneg _)).trans hr
    have hy : len (fun i => v' i + L.acceleration / L.jerk * (1000 * (u' i - v' i))) ≤ L'.velocity + 0.0001 + (1 / 10 ^ 12 + L.acceleration / L.jerk * (2 / 10 ^ 9)) := by
      refine len_shift hx ?_
      have e : (fun i => v' i + L.acceleration / L.jerk * (1000 * (u' i - v' i)) - (v i + L.acceleration / L.jerk * (1000 * (u i - v i)))) =
          fun i => (v' i - v i) + L.acceleration / L.jerk * (1000 * (u' i - v' i) - 1000 * (u i - v i)) := by funext i; ring
      rw [e]
      refine len_sum hv ?_
      rw [len_scale hq.le]
      exact mul_le_mul_of_nonneg_left hd hq.le
    have := mul_le_mul_of_nonneg_left ht hq.le
    have := hL.velocity
    have : L.acceleration / L.jerk * (2 / 10 ^ 9) ≤ 0.01 * (2 / 10 ^ 9) := mul_le_mul_of_nonneg_right hsm (by norm_num)
    have : L.acceleration / L.jerk * (1 / 10 ^ 9) ≤ 0.01 * (1 / 10 ^ 9) := mul_le_mul_of_nonneg_right hsm (by norm_num)
    linarith

/-! ## Low passed signals -/

theorem Spec.CartesianAllowed.mix {L : Limits} {u v a u' v' a' : Fin 3 → ℝ} {g : ℝ} (h : CartesianAllowed L u v a) (h' : CartesianAllowed L u' v' a') (h0 : 0 ≤ g) (h1 : g ≤ 1) :
    CartesianAllowed L (fun i => g * u i + (1 - g) * u' i) (fun i => g * v i + (1 - g) * v' i) (fun i => g * a i + (1 - g) * a' i) := by
  refine ⟨?_, ?_, ?_⟩
  · refine le_of_eq_of_le (congrArg len (funext fun i => ?_)) (len_mix h0 h1 h.jerk h'.jerk)
    ring
  · refine le_of_eq_of_le (congrArg len (funext fun i => ?_)) (len_mix h0 h1 h.acceleration h'.acceleration)
    ring
  · refine le_of_eq_of_le (congrArg len (funext fun i => ?_)) (len_mix h0 h1 h.margin h'.margin)
    ring

theorem cartesian_rest {L : Limits} (hL : CartesianOk L) {v : Fin 3 → ℝ} (hv : len v ≤ L.velocity) : CartesianAllowed L v v fun _ => 0 := by
  constructor <;> simp only [sub_self, zero_div, mul_zero, add_zero, len_zero]
  · exact hL.jerk.le
  · exact hL.acceleration.le
  · exact hv

/-- The next value of a low passed velocity. -/
theorem cartesian_next {L : Limits} (hL : CartesianOk L) {g : ℝ} (h0 : 0 ≤ g) (h1 : g ≤ 1) {N : ℕ} {v w : Fin 3 → ℕ → ℝ} (hv : len (sample v 0) ≤ L.velocity)
    (hw : ∀ i, w i 0 = v i 0) (ha : ∀ n < N, CartesianAllowed L (sample v (n + 1)) (sample v n) (fun i => rate (v i) n)) :
    ∀ n < N, (∀ j < n, ∀ i, w i (j + 1) = g * v i (j + 1) + (1 - g) * w i j) →
      CartesianAllowed L (fun i => g * v i (n + 1) + (1 - g) * w i n) (sample w n) (fun i => rate (w i) n) := by
  intro n
  induction n with
  | zero =>
    intro hn hj
    have := (ha 0 hn).mix (cartesian_rest hL hv) h0 h1
    have e : sample w 0 = sample v 0 := funext hw
    rw [show (fun i => g * sample v 0 i + (1 - g) * sample v 0 i) = sample v 0 by funext i; ring] at this
    rw [e]
    refine Eq.mp ?_ this
    congr 1
    · funext i
      rw [hw]
      rfl
    · funext i
      simp [rate]
  | succ n ih =>
    intro hn hj
    have e2 : ∀ i, w i (n + 1) = g * v i (n + 1) + (1 - g) * w i n := hj n (by omega)
    have h2 := ih (by omega) fun j h => hj j (by omega)
    rw [show (fun i => g * v i (n + 1) + (1 - g) * w i n) = sample w (n + 1) from funext fun i => (e2 i).symm] at h2
    have h2 := (ha (n + 1) hn).mix h2 h0 h1
    have e3 : ∀ i, rate (w i) (n + 1) = g * rate (v i) (n + 1) + (1 - g) * rate (w i) n := by
      intro i
      cases n with
      | zero =>
        simp only [rate]
        rw [e2, hw]
        ring
      | succ n =>
        have e4 : w i (n + 1) = g * v i (n + 1) + (1 - g) * w i n := hj n (by omega) i
        simp only [rate]
        rw [e2]
        nth_rewrite 2 [e4]
        ring
    refine Eq.mp ?_ h2
    congr 1
    · exact funext fun i => (e2 i).symm
    · exact funext fun i => (e3 i).symm

/-- A velocity that is always allowed. -/
theorem cartesian_within {L : Limits} (hL : CartesianOk L) {w : Fin 3 → ℕ → ℝ} {N : ℕ} (h0 : len (sample w 0) ≤ L.velocity)
    (h : ∀ n < N, CartesianAllowed L (sample w (n + 1)) (sample w n) (fun i => rate (w i) n)) : ∀ n ≤ N, len (sample w n) ≤ L.velocity := by
  intro n
  induction n with
  | zero => intro _; exact h0
  | succ n ih =>
    intro hn
    have hm := (h n hn).margin
    have hA := hL.acceleration
    have hJ := hL.jerk
    have hq : L.jerk / (1000 * L.acceleration) ≤ 1 := (div_le_one (by positivity)).2 hL.ratio
    refine le_of_eq_of_le (congrArg len (funext fun i => ?_)) (len_mix (by positivity : 0 ≤ L.jerk / (1000 * L.acceleration)) hq hm (ih (by omega)))
    rw [div_milli]
    field_simp
    ring

/-! ## Low passed signals with errors -/

/-- The error that the rate limiting makes in one step. -/
noncomputable def slip : ℝ := tiny / 1000 + tiny / 1000000

theorem slip_pos : 0 < slip := by have := tiny_pos; unfold slip; positivity
theorem slip_le : slip ≤ 3 / 10 ^ 19 := by unfold slip tiny; norm_num

/-- The gain of a filter that is not extremely slow. -/
theorem gain_big {f : ℝ} (hf : 0.001 ≤ f) : 6 / 10 ^ 6 ≤ gain (1 / 1000) f := by
  have hp := Real.pi_gt_three
  unfold gain
  have h1 : 6 / 10 ^ 6 ≤ 2 * Real.pi * f * (1 / 1000) / 1.001 := by
    rw [le_div_iff₀ (by norm_num)]
    have h2 : 3.14 * 0.001 ≤ Real.pi * f := mul_le_mul Real.pi_gt_d2.le hf (by norm_num) (by linarith)
    linarith
  set x := 2 * Real.pi * f * (1 / 1000) with hx
  have hx0 : 6.006 / 10 ^ 6 ≤ x := by
    rw [le_div_iff₀ (by norm_num)] at h1
    linarith
  rw [le_div_iff₀ (by linarith)]
  linarith

/-- The difference to the exactly low passed signal. -/
theorem noise_bound {f e : ℝ} (hf : 0 < f) {n : ℕ} {u y : Fin 3 → ℕ → ℝ} (he : 0 ≤ e)
    (h : ∀ j < n, len (fun i => y i (j + 1) - (gain (1 / 1000) f * u i j + (1 - gain (1 / 1000) f) * y i j)) ≤ e) :
    ∀ j ≤ n, gain (1 / 1000) f * len (fun i => y i j - lowPass f (y i 0) (u i) j) ≤ e := by
  have g0 := gain_pos (dt := 1 / 1000) (by norm_num) hf
  have g1 := (gain_lt_one (dt := 1 / 1000) (by norm_num) hf.le).le
  intro j
  induction j with
  | zero =>
    intro _
    simp only [lowPass, sub_self, len_zero, mul_zero]
    exact he
  | succ j ih =>
    intro hj
    have h1 := ih (by omega)
    have h2 := h j (by omega)
    simp only [lowPass]
    generalize gain (1 / 1000) f = g at *
    have e1 : (fun i => y i (j + 1) - (g * u i j + (1 - g) * lowPass f (y i 0) (u i) j)) =
        fun i => (y i (j + 1) - (g * u i j + (1 - g) * y i j)) + (1 - g) * (y i j - lowPass f (y i 0) (u i) j) := by
      funext i
      ring
    rw [e1]
    have h3 := len_sum h2 (len_scale (by linarith : 0 ≤ 1 - g) fun i => y i j - lowPass f (y i 0) (u i) j).le
    have := mul_le_mul_of_nonneg_left h3 g0.le
    nlinarith

/-- The next command of a motion with low passed velocities. -/
theorem noisy_next {L' L : Limits} (hL : Under L' L) {f : ℝ} (hf : 0.001 ≤ f) {N n : ℕ} (hn : n < N) {u y : Fin 3 → ℕ → ℝ} (hv : len (sample y 0) ≤ L'.velocity)
    (ha : ∀ n < N, CartesianAllowed L' (sample (fun i => starting (y i 0) (u i)) (n + 1)) (sample (fun i => starting (y i 0) (u i)) n) (fun i => rate (starting (y i 0) (u i)) n))
    (h : ∀ j < n, len (fun i => y i (j + 1) - (gain (1 / 1000) f * u i j + (1 - gain (1 / 1000) f) * y i j)) ≤ slip) :
    Room L (tiny / 1000) (fun i => gain (1 / 1000) f * u i n + (1 - gain (1 / 1000) f) * y i n) (sample y n) (fun i => rate (y i) n) ∧ len (sample y n) ≤ L.velocity ∧
      len (fun i => (gain (1 / 1000) f * u i n + (1 - gain (1 / 1000) f) * y i n - y i n) / 0.001) ≤ L'.acceleration + 1 / 10 ^ 9 := by
  have hf0 : 0 < f := by linarith
  have g0 := gain_pos (dt := 1 / 1000) (by norm_num) hf0
  have g1 := (gain_lt_one (dt := 1 / 1000) (by norm_num) hf0.le).le
  have hg := gain_big hf
  have hb := noise_bound hf0 slip_pos.le h
  set z : Fin 3 → ℕ → ℝ := fun i => lowPass f (y i 0) (u i) with hz
  have hd : ∀ j ≤ n, len (fun i => y i j - z i j) ≤ 5 / 10 ^ 14 := by
    intro j hj
    have h1 := hb j hj
    have h2 := len_nonneg fun i => y i j - z i j
    have h3 : 6 / 10 ^ 6 * len (fun i => y i j - z i j) ≤ 3 / 10 ^ 19 := (mul_le_mul_of_nonneg_right hg h2).trans (h1.trans slip_le)
    linarith
  have hza : ∀ m < n + 1, CartesianAllowed L' (sample z (m + 1)) (sample z m) (fun i => rate (z i) m) := fun m hm =>
    cartesian_next hL.ok' g0.le g1 (v := fun i => starting (y i 0) (u i)) (w := z) hv (fun _ => rfl) ha m (by omega) fun _ _ _ => rfl
  have hzn := hza n (by omega)
  have hzv := cartesian_within hL.ok' (w := z) hv hza n (by omega)
  have hdn := hd n le_rfl
  have hu : len (fun i => gain (1 / 1000) f * u i n + (1 - gain (1 / 1000) f) * y i n - sample z (n + 1) i) ≤ 1 / 10 ^ 12 := by
    have e : (fun i => gain (1 / 1000) f * u i n + (1 - gain (1 / 1000) f) * y i n - sample z (n + 1) i) = fun i => (1 - gain (1 / 1000) f) * (y i n - z i n) := by
      funext i
      show _ - (gain (1 / 1000) f * u i n + (1 - gain (1 / 1000) f) * z i n) = _
      ring
    rw [e, len_scale (by linarith)]
    have := mul_le_mul (by linarith : 1 - gain (1 / 1000) f ≤ 1) hdn (len_nonneg _) (by norm_num)
    linarith
  have hvn : len (fun i => sample y n i - sample z n i) ≤ 1 / 10 ^ 12 := hdn.trans (by norm_num)
  refine ⟨room_of_near hL hzn hu hvn ?_, ?_, ?_⟩
  · cases n with
    | zero =>
      simp only [rate, sub_self, len_zero]
      norm_num
    | succ n =>
      have e : (fun i => rate (y i) (n + 1) - rate (z i) (n + 1)) = fun i => 1000 * ((y i (n + 1) - z i (n + 1)) - (y i n - z i n)) := by
        funext i
        simp only [rate, div_milli]
        ring
      rw [e, len_scale (by norm_num)]
      have := len_diff hdn (hd n (by omega))
      linarith
  · have := len_shift hzv hvn
    have := hL.velocity
    linarith
  · have := hzn.acceleration
    simp only [div_milli] at this ⊢
    refine len_shift this ?_
    have e : (fun i => 1000 * (gain (1 / 1000) f * u i n + (1 - gain (1 / 1000) f) * y i n - y i n) - 1000 * (sample z (n + 1) i - sample z n i)) =
        fun i => 1000 * ((gain (1 / 1000) f * u i n + (1 - gain (1 / 1000) f) * y i n - sample z (n + 1) i) - (sample y n i - sample z n i)) := by
      funext i
      simp only [sample]
      ring
    rw [e, len_scale (by norm_num)]
    have h1 : len (fun i => gain (1 / 1000) f * u i n + (1 - gain (1 / 1000) f) * y i n - sample z (n + 1) i) ≤ 5 / 10 ^ 14 := by
      have e : (fun i => gain (1 / 1000) f * u i n + (1 - gain (1 / 1000) f) * y i n - sample z (n + 1) i) = fun i => (1 - gain (1 / 1000) f) * (y i n - z i n) := by
        funext i
        show _ - (gain (1 / 1000) f * u i n + (1 - gain (1 / 1000) f) * z i n) = _
        ring
      rw [e, len_scale (by linarith)]
      have := mul_le_mul (by linarith : 1 - gain (1 / 1000) f ≤ 1) hdn (len_nonneg _) (by norm_num)
      linarith
    have := len_diff h1 hdn
    simp only [sample] at this ⊢
    linarith

/-- The error of a step is an error of the low pass. -/
theorem near_low {f : ℝ} (hf : 0.001 ≤ f) {u y z : Fin 3 → ℝ} (h : len (fun i => y i - (gain (1 / 1000) f * u i + (1 - gain (1 / 1000) f) * z i)) ≤ slip) :
    len (fun i => y i + (y i - z i) / 0.001 / (2 * Real.pi * f) - u i) ≤ 1 / 10 ^ 13 := by
  have hf0 : 0 < f := by linarith
  have g0 := gain_pos (dt := 1 / 1000) (by norm_num) hf0
  have hg := gain_big hf
  have hp : 0 < 2 * Real.pi * f := by have := Real.pi_pos; positivity
  have hgain : gain (1 / 1000) f * (1 + 1 / 0.001 / (2 * Real.pi * f)) = 1 := by
    unfold gain
    generalize 2 * Real.pi * f = b at *
    field_simp
    ring
  have e : (fun i => y i + (y i - z i) / 0.001 / (2 * Real.pi * f) - u i) =
      fun i => (1 + 1 / 0.001 / (2 * Real.pi * f)) * (y i - (gain (1 / 1000) f * u i + (1 - gain (1 / 1000) f) * z i)) := by
    funext i
    have : (1 + 1 / 0.001 / (2 * Real.pi * f)) * (y i - (gain (1 / 1000) f * u i + (1 - gain (1 / 1000) f) * z i)) =
      (1 + 1 / 0.001 / (2 * Real.pi * f)) * (y i - z i) - gain (1 / 1000) f * (1 + 1 / 0.001 / (2 * Real.pi * f)) * (u i - z i) := by ring
    rw [this, hgain]
    ring
  have hq : 0 ≤ 1 + 1 / 0.001 / (2 * Real.pi * f) := by positivity
  rw [e, len_scale hq]
  have h1 := mul_le_mul_of_nonneg_left (h.trans slip_le) hq
  have h2 : 6 / 10 ^ 6 * (1 + 1 / 0.001 / (2 * Real.pi * f)) ≤ 1 := (mul_le_mul_of_nonneg_right hg hq).trans_eq hgain
  refine h1.trans ?_
  generalize 1 + 1 / 0.001 / (2 * Real.pi * f) = q at *
  linarith

/-- The lag of a nearly low passed signal. -/
theorem near_lag {L' : Limits} {f A : ℝ} (hf : 0.001 ≤ f) (hA : L'.acceleration + 0.001 ≤ A) {u y z : Fin 3 → ℝ}
    (h : len (fun i => y i + (y i - z i) / 0.001 / (2 * Real.pi * f) - u i) ≤ 1 / 10 ^ 13)
    (ha : len (fun i => (gain (1 / 1000) f * u i + (1 - gain (1 / 1000) f) * z i - z i) / 0.001) ≤ L'.acceleration + 1 / 10 ^ 9)
    (hs : len (fun i => y i - (gain (1 / 1000) f * u i + (1 - gain (1 / 1000) f) * z i)) ≤ slip) :
    len (fun i => y i - u i) ≤ A / (2 * Real.pi * f) + 1 / 10 ^ 13 := by
  have hf0 : 0 < f := by linarith
  have hp : 0 < 2 * Real.pi * f := by have := Real.pi_pos; positivity
  have hy : len (fun i => (y i - z i) / 0.001) ≤ A := by
    simp only [div_milli] at ha ⊢
    have := len_shift (w := fun i => 1000 * (y i - z i)) ha (b := 3 / 10 ^ 16) (by
      have e : (fun i => 1000 * (y i - z i) - 1000 * (gain (1 / 1000) f * u i + (1 - gain (1 / 1000) f) * z i - z i)) =
          fun i => 1000 * (y i - (gain (1 / 1000) f * u i + (1 - gain (1 / 1000) f) * z i)) := by
        funext i
        ring
      rw [e, len_scale (by norm_num)]
      have := slip_le
      linarith)
    linarith
  have e : (fun i => y i - u i) = fun i => (y i + (y i - z i) / 0.001 / (2 * Real.pi * f) - u i) - 1 / (2 * Real.pi * f) * ((y i - z i) / 0.001) := by
    funext i
    ring
  rw [e]
  have h2 : len (fun i => 1 / (2 * Real.pi * f) * ((y i - z i) / 0.001)) ≤ A / (2 * Real.pi * f) := by
    rw [len_scale (by positivity), div_mul_eq_mul_div, one_mul]
    exact div_le_div_of_nonneg_right hy hp.le
  have := len_diff h h2
  linarith

end Verif
