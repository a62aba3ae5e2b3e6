import Verif.Lemmas.Jerk
import Verif.Props.JointMotion
import Verif.Props.Limits
/-!
# The samples of a planned joint motion respect the limits
-/
namespace Verif
open Fl Spec

/-- The position before the first command and in every command, if the path `x` starts at `a` and is sampled every millisecond. -/
noncomputable def samples (a : ℝ) (x : ℝ → ℝ) : ℕ → ℝ
  | 0 => a
  | n + 1 => x (n / 1000)

/-- The rates of samples of a path that rests before. -/
theorem rate_samples {a : ℝ} {x : ℝ → ℝ} (hx : ∀ t ≤ 0, x t = a) : ∀ n, samples a x n = x (((n : ℝ) - 1) / 1000) ∧
    rate (samples a x) n = (x (((n : ℝ) - 1) / 1000) - x (((n : ℝ) - 1) / 1000 - 0.001)) / 0.001 ∧
    rate (rate (samples a x)) n = (x (((n : ℝ) - 1) / 1000) - 2 * x (((n : ℝ) - 1) / 1000 - 0.001) + x (((n : ℝ) - 1) / 1000 - 2 * 0.001)) / 0.001 / 0.001 := by
  have h0 : ∀ n, samples a x n = x (((n : ℝ) - 1) / 1000) := by
    intro n
    cases n with
    | zero => rw [hx _ (by norm_num)]; rfl
    | succ n => show x _ = _; push_cast; congr 1; ring
  have h1 : ∀ n, rate (samples a x) n = (x (((n : ℝ) - 1) / 1000) - x (((n : ℝ) - 1) / 1000 - 0.001)) / 0.001 := by
    intro n
    cases n with
    | zero => rw [hx _ (by norm_num), hx _ (by norm_num)]; simp [rate]
    | succ n =>
      show (samples a x (n + 1) - samples a x n) / 0.001 = _
      rw [h0, h0]
      have : ((n + 1 : ℕ) : ℝ) / 1000 - 1 / 1000 - 0.001 = ((n : ℝ) - 1) / 1000 := by push_cast; ring
      rw [sub_div ((n + 1 : ℕ) : ℝ), this]
  refine fun n => ⟨h0 n, h1 n, ?_⟩
  cases n with
  | zero => rw [hx _ (by norm_num), hx _ (by norm_num), hx _ (by norm_num)]; simp only [rate]; ring
  | succ n =>
    show (rate (samples a x) (n + 1) - rate (samples a x) n) / 0.001 = _
    rw [h1, h1]
    have e : ((n : ℝ) - 1) / 1000 = (((n + 1 : ℕ) : ℝ) - 1) / 1000 - 0.001 := by push_cast; ring
    have e' : (((n + 1 : ℕ) : ℝ) - 1) / 1000 - 0.001 - 0.001 = (((n + 1 : ℕ) : ℝ) - 1) / 1000 - 2 * 0.001 := by ring
    rw [e, e']
    ring

/-- Bounds that suffice for every joint. -/
theorem allowed_of (i : Fin 7) {u v a : ℝ} (hv : |v| ≤ jointSpeed i) (hacc : |(u - v) / 0.001| ≤ 5) (hj : |((u - v) / 0.001 - a) / 0.001| ≤ 3749.9) :
    Allowed (codeLimits i) u v a := by
  rw [abs_le] at hv
  have hacc' := abs_le.1 hacc
  constructor
  · refine hacc.trans ?_
    fin_cases i <;> simp [codeLimits, jointLimits] <;> norm_num
  · refine hj.trans ?_
    fin_cases i <;> simp [codeLimits, jointLimits] <;> norm_num
  · refine hacc'.2.trans ?_
    revert hv
    fin_cases i <;> simp [codeLimits, jointLimits, jointSpeed] <;> intros <;> norm_num at * <;> linarith
  · refine le_trans ?_ hacc'.1
    revert hv
    fin_cases i <;> simp [codeLimits, jointLimits, jointSpeed] <;> intros <;> norm_num at * <;> linarith

/-- The jerk of a planned path, as the robot sees it. -/
theorem planned_third {a d v τ t2 sf T V : ℝ} {x : ℝ → ℝ} (hd : d = 1 ∨ d = -1) (hx : x = profile a d v τ t2) (hv : 0 < v) (hτ : 0 < τ) (ht2 : τ ≤ t2) (hT : T = t2 + τ)
    (hA : 3 / 2 * v / τ = sf * 5) {b : ℝ} (hm : Move a b V (sf * 5) T x) (hsf : 0 < sf) (hsf1 : sf ≤ 1) (hg : sf ≤ 0.37 ∨ 0.0137 ≤ T) (t : ℝ) :
    |x t - 3 * x (t - 0.001) + 3 * x (t - 2 * 0.001) - x (t - 3 * 0.001)| ≤ 3749.9 * 0.001 ^ 3 := by
  rcases hg with hg | hg
  · obtain ⟨w, h1, -, -, h2⟩ := hm.velocity
    have e1 := second_diff h1 h2 (show (0 : ℝ) ≤ 0.001 by norm_num) t
    have e2 := second_diff h1 h2 (show (0 : ℝ) ≤ 0.001 by norm_num) (t - 0.001)
    rw [show t - 0.001 - 0.001 = t - 2 * 0.001 by ring, show t - 0.001 - 2 * 0.001 = t - 3 * 0.001 by ring] at e2
    rw [abs_le] at e1 e2 ⊢
    constructor <;> nlinarith
  · have hvA : v = 2 / 3 * (sf * 5) * τ := by
      rw [← hA]
      field_simp
    by_cases hJ : 6 * v / τ ^ 2 ≤ 3749.9
    · subst hx
      refine (profile_third hd hv hτ ht2 (show (0 : ℝ) < 0.001 by norm_num) t).trans ?_
      exact mul_le_mul_of_nonneg_right hJ (by norm_num)
    · have h1 : 3749.9 * τ < 20 * sf := by
        have : 3749.9 < 6 * v / τ ^ 2 := not_le.1 hJ
        rw [lt_div_iff₀ (by positivity)] at this
        rw [hvA] at this
        nlinarith
      have h2 : τ < 0.0053336 := by norm_num at *; linarith
      subst hx
      refine (profile_third_short hd hv hτ (show (0 : ℝ) < 0.001 by norm_num) (by norm_num at *; linarith) (by norm_num at *; linarith) t).trans ?_
      have e : 1.1244 * v / τ = 1.1244 * (2 / 3 * (sf * 5)) := by
        rw [hvA]
        field_simp
      rw [e]
      norm_num
      linarith

/-- Every sample of a planned path respects the limits after the ones before. -/
theorem planned_allowed {i : Fin 7} {a δ sf T b b' : ℝ} {x : ℝ → ℝ} (hsf : 0 < sf) (hsf1 : sf ≤ 1) (hg : sf ≤ 0.37 ∨ 0.0137 ≤ T)
    (hp : PlannedJoint a δ (sf * jointAcceleration) T x) (hm : Move b b' (sf * jointSpeed i) (sf * jointAcceleration) T x) (hb : 1 / 1000000 < |δ| → b = a) (n : ℕ) :
    Allowed (codeLimits i) ((samples a x (n + 1) - samples a x n) / 0.001) (rate (samples a x) n) (rate (rate (samples a x)) n) := by
  have hV := jointSpeed_pos i
  by_cases hδ : 1 / 1000000 < |δ|
  · obtain ⟨v, τ, t2, hx, h1, h2, h3, h4, h5, h6⟩ := hp.1 hδ
    rw [hb hδ] at hm
    have hA : jointAcceleration = 5 := rfl
    rw [hA] at hm h6
    have hr := rate_samples hm.before
    obtain ⟨w, g1, -, g2, g3⟩ := hm.velocity
    obtain ⟨-, r1, r2⟩ := hr n
    have e1 : (samples a x (n + 1) - samples a x n) / 0.001 = (x ((n : ℝ) / 1000) - x ((n : ℝ) / 1000 - 0.001)) / 0.001 := by
      rw [(hr (n + 1)).1, (hr n).1]
      push_cast
      congr 3 <;> ring
    have e2 : ((n : ℝ) - 1) / 1000 = (n : ℝ) / 1000 - 0.001 := by ring
    rw [e2] at r1 r2
    rw [show (n : ℝ) / 1000 - 0.001 - 0.001 = (n : ℝ) / 1000 - 2 * 0.001 by ring] at r1 r2
    rw [show (n : ℝ) / 1000 - 0.001 - 2 * 0.001 = (n : ℝ) / 1000 - 3 * 0.001 by ring] at r2
    have q1 := lip_of_deriv g1 g2 ((n : ℝ) / 1000 - 2 * 0.001) ((n : ℝ) / 1000 - 0.001)
    have q2 := second_diff g1 g3 (show (0 : ℝ) ≤ 0.001 by norm_num) ((n : ℝ) / 1000)
    have q3 := planned_third (dir_cases δ) hx h1 h2 h3 h5 h6 hm hsf hsf1 hg ((n : ℝ) / 1000)
    rw [e1, r1, r2]
    generalize x ((n : ℝ) / 1000) = x0 at *
    generalize x ((n : ℝ) / 1000 - 0.001) = x1 at *
    generalize x ((n : ℝ) / 1000 - 2 * 0.001) = x2 at *
    generalize x ((n : ℝ) / 1000 - 3 * 0.001) = x3 at *
    have p001 : (0 : ℝ) < 0.001 := by norm_num
    refine allowed_of i ?_ ?_ ?_
    · rw [abs_div, abs_of_pos p001, div_le_iff₀ p001]
      refine q1.trans ?_
      rw [show (n : ℝ) / 1000 - 0.001 - ((n : ℝ) / 1000 - 2 * 0.001) = 0.001 by ring, abs_of_pos p001]
      nlinarith
    · rw [show ((x0 - x1) / 0.001 - (x1 - x2) / 0.001) / 0.001 = (x0 - 2 * x1 + x2) / 0.001 ^ 2 by ring, abs_div, abs_of_pos (by norm_num : (0 : ℝ) < 0.001 ^ 2),
        div_le_iff₀ (by norm_num)]
      refine q2.trans ?_
      nlinarith
    · rw [show (((x0 - x1) / 0.001 - (x1 - x2) / 0.001) / 0.001 - (x1 - 2 * x2 + x3) / 0.001 / 0.001) / 0.001 = (x0 - 3 * x1 + 3 * x2 - x3) / 0.001 ^ 3 by ring,
        abs_div, abs_of_pos (by norm_num : (0 : ℝ) < 0.001 ^ 3), div_le_iff₀ (by norm_num)]
      exact q3
  · obtain ⟨c, rfl, hc⟩ := hp.2 hδ
    rw [abs_le] at hc
    have s1 : ∀ n, samples a (fun _ => c) (n + 1) = c := fun _ => rfl
    have r1 : rate (samples a fun _ => c) 1 = (c - a) / 0.001 := rfl
    have r2 : ∀ n, rate (samples a fun _ => c) (n + 2) = 0 := fun n => by show (c - c) / 0.001 = 0; norm_num
    have hV : (2 : ℝ) ≤ jointSpeed i := by unfold jointSpeed; fin_cases i <;> norm_num
    match n with
    | 0 =>
      show Allowed _ ((c - a) / 0.001) 0 0
      refine allowed_of i ?_ ?_ ?_
      · rw [abs_zero]; linarith
      · rw [abs_le]; constructor <;> norm_num at * <;> linarith
      · rw [abs_le]; constructor <;> norm_num at * <;> linarith
    | 1 =>
      show Allowed _ ((c - c) / 0.001) ((c - a) / 0.001) (((c - a) / 0.001 - 0) / 0.001)
      refine allowed_of i ?_ ?_ ?_
      · rw [abs_le]; constructor <;> norm_num at * <;> linarith
      · rw [abs_le]; constructor <;> norm_num at * <;> linarith
      · rw [abs_le]; constructor <;> norm_num at * <;> linarith
    | 2 =>
      show Allowed _ ((c - c) / 0.001) ((c - c) / 0.001) (((c - c) / 0.001 - (c - a) / 0.001) / 0.001)
      refine allowed_of i ?_ ?_ ?_
      · norm_num; linarith
      · norm_num
      · rw [abs_le]; constructor <;> norm_num at * <;> linarith
    | n + 3 =>
      show Allowed _ ((c - c) / 0.001) ((c - c) / 0.001) (((c - c) / 0.001 - (c - c) / 0.001) / 0.001)
      refine allowed_of i ?_ ?_ ?_
      · norm_num; linarith
      · norm_num
      · norm_num

/-- A way of 0.0002 rad takes some time. -/
theorem planned_time {a δ sf T : ℝ} {x : ℝ → ℝ} (hsf : 0 < sf) (hsf1 : sf ≤ 1) (hp : PlannedJoint a δ (sf * jointAcceleration) T x) (hδ : 0.0002 ≤ |δ|) : 0.0137 ≤ T := by
  obtain ⟨v, τ, t2, -, h1, h2, h3, h4, h5, h6⟩ := hp.1 (lt_of_lt_of_le (by norm_num) hδ)
  have hA : jointAcceleration = 5 := rfl
  rw [hA] at h6
  have hvA : v = 2 / 3 * (sf * 5) * τ := by
    rw [← h6]
    field_simp
  rw [h4, hvA] at hδ
  have : 0.0002 ≤ 10 / 3 * (τ * t2) := by
    have h7 : 0 ≤ τ * t2 := by nlinarith
    nlinarith
  rw [h5]
  by_contra h
  have h8 : t2 + τ < 0.0137 := not_le.1 h
  nlinarith [sq_nonneg (t2 - τ)]

end Verif
