import Verif.Lemmas.RoundedTwist
import Verif.Props.RoundedVelocity
/-!
# The Cartesian velocity example in spite of rounding: C110

Doubles have every operation rounded here (`Spec/Rounding.lean`), but the integers are doubles.
-/
set_option linter.unusedSectionVars false
namespace Verif
open Prog Spec Fl

variable {A : Rounding}

namespace RoundedTwist
open CartesianVelocityExample (target speed)

/-- The control call. -/
noncomputable def call : ControlCall (Rd A) (Rd A) .CartesianVelocities :=
  { motion := Examples.cartesian_velocity_callback, torque := none, controller := requestedController none, limit_rate := (none : Option Bool).getD true,
    cutoff := (none : Option (Rd A)).getD (lit 100) }

theorem isControl : IsControl (roundedTwistExample A) call (lit 0) := .motion _ _ _ _ _ _ _

/-- The cutoff frequency. -/
theorem cutoff_near : ∃ f : ℝ, (call (A := A)).cutoff = Rd.fin f ∧ |f - 100| ≤ 1 / 10 ^ 13 ∧ GoesBy (call (A := A)).cutoff f (share f) := RoundedVelocity.cutoff_near (A := A) 1 1

theorem speed_last : speed 8000 = 0 := by
  unfold speed
  rw [VelocityExample.wave, show (8000 : ℕ) = 2 * 4000 from rfl, VelocityExample.base_zero (by norm_num), mul_zero]

/-- The last values. -/
theorem target_last (i : Fin 6) : target i 8000 = 0 ∧ |target i 8001| ≤ 0.00008 := by
  have h : target i 8000 = 0 := by unfold target; rw [speed_last, mul_zero]
  refine ⟨h, ?_⟩
  have := target_step i 8001
  rw [show Spec.starting 0 (target i) 8001 = target i 8000 from rfl, h, sub_zero] at this
  exact this

theorem target_sum (i : Fin 6) : ∑ n ∈ Finset.range 8001, target i n = 0 := by
  unfold target
  rw [← Finset.mul_sum, show ∑ n ∈ Finset.range 8001, speed n = 0 from VelocityExample.wave_sum (K := 4000) (by norm_num), mul_zero]

theorem lag (i : Fin 6) (n : ℕ) : |lowPass 100 0 (target i) (n + 1) - target i n| ≤ 0.00012735 := by
  refine (lowPass_lag (by norm_num) (target_step i) n).trans ?_
  have h1 := Real.pi_gt_d4
  rw [div_le_iff₀ (by positivity)]
  nlinarith

theorem no_turn {i : Fin 6} (hi : 3 ≤ i) (n : ℕ) : lowPass 100 0 (target i) n = 0 := by
  have h : join CartesianVelocityExample.dir (fun _ => 0) i = 0 := by
    revert hi
    fin_cases i <;> intro hi
    · exact absurd hi (by decide)
    · exact absurd hi (by decide)
    · exact absurd hi (by decide)
    all_goals rfl
  have := lowPass_mul 100 (join CartesianVelocityExample.dir (fun _ => 0) i) speed n
  rw [h, zero_mul] at this
  rw [show target i = fun n => 0 * speed n from funext fun n => by unfold target; rw [h]]
  exact this

end RoundedTwist
open RoundedTwist
open RoundedVelocity (TimeAt)
open CartesianVelocityExample (target target_eq speed)
open VelocityExample (low_sum)

section
variable [Wire (Rd A)] [Geo (Rd A)] {w : World (Rd A)} (hw : RobotReachable w)
include hw

/-- **C110**: with a robot that rests and follows the commands, the control call of the Cartesian velocity example moves the end effector forth and back, although every
operation is rounded. The commands are, up to 10⁻⁸ m/s, those intended after the low pass with the default cutoff frequency, and they are within 0.00013 m/s of the intended
velocities; they turn the end effector by at most 10⁻⁸ rad/s and say nothing about the elbow. The motion ends with the command after eight seconds or with the next one, which
is almost zero. If the call returns Ok, then the last command ended the motion, and the end effector is back where it started, but for a thousandth of a millimetre. -/
theorem C110_cartesian_velocity_example (hA : KeepsIntegers A) {v : Fin 6 → ℕ → ℝ}
    (follows : FollowsTwistsRounded v (exchanges (newEvents w ((roundedTwistExample A).run w).2))) : ∃ (y : Fin 6 → ℕ → ℝ) (z : ℕ → Fin 6 → ℝ),
    (∀ i, y i 0 = 0 ∧ LowPassedFor 8001 100 (fun n => downAndBack i ((n : ℝ) / 1000)) (y i)) ∧
    (∀ n st x, Exchange w (roundedTwistExample A) n st x → x.motion.O_dP_EE_c = Arr.rd (z n) ∧ x.motion.valid_elbow = false ∧ n ≤ 8001 ∧
      (∀ i, n ≤ 8000 → |z n i - y i (n + 1)| ≤ 1 / 10 ^ 8 ∧ |z n i - downAndBack i ((n : ℝ) / 1000)| ≤ 0.00013) ∧
      (∀ i, n = 8001 → |z n i| ≤ 0.00021) ∧ (∀ i, 3 ≤ i → |z n i| ≤ 1 / 10 ^ 8) ∧
      (x.motion.motion_generation_finished = true → 8000 ≤ n ∧ n + 1 = answered w (roundedTwistExample A)) ∧
      (n = 8001 → x.motion.motion_generation_finished = true) ∧
      (((roundedTwistExample A).run w).1 = .ok () → n + 1 = answered w (roundedTwistExample A) → x.motion.motion_generation_finished = true)) ∧
    (((roundedTwistExample A).run w).1 = .ok () → ∀ i, |∑ n ∈ Finset.range (answered w (roundedTwistExample A)), z n i * 0.001| ≤ 0.000001) := by
  have hctl := isControl (A := A)
  generalize hc : roundedTwistExample A = c at follows hctl ⊢
  clear hc
  have hlt : ∀ {n st x}, Exchange w c n st x → n < answered w c := fun hx => (List.getElem?_eq_some_iff.1 hx).1
  have key := calls_called (F := Rd A) (k := .CartesianVelocities) (I := TimeAt 4) (O := TwistAt) (R := fun _ _ => True) rfl rfl
    (fun n c st hc _ => goes hA n c st hc) hw hctl (fun _ _ _ _ => trivial)
    (fun n st x st' x' hx hx' => (follows.next n st x st' x' hx hx').2)
  have early : ∀ n st x, Exchange w c n st x → n ≤ 8001 := by
    intro n st x hx
    obtain ⟨out, -, -, -, -, hbefore, -⟩ := key n st x hx
    by_contra hn
    obtain ⟨out', -, o1, o2⟩ := hbefore 8001 (by omega)
    have := (o1 le_rfl).2.2.1 (by omega)
    rw [show CartesianVelocities.motion_finished out' = false from o2] at this
    cases this
  have hu : ∀ n : ℕ, ∃ u : Fin 6 → ℝ, n < answered w c →
      (∀ out, (motionOutputs .CartesianVelocities (newEvents w (c.run w).2))[n]? = some out → CartesianVelocities.O_dP_EE out = Arr.rd u) ∧
      ∀ i, |u i - target i n| ≤ 6 / 10 ^ 9 := by
    intro n
    by_cases hn : n < answered w c
    · obtain ⟨st, x, hx⟩ := exchange_exists hn
      obtain ⟨out, o1, o2, -⟩ := key n st x hx
      choose u u1 u2 using (o2 (early n st x hx)).1
      refine ⟨u, fun _ => ⟨fun out' ho => ?_, u2⟩⟩
      rw [o1] at ho
      cases ho
      exact funext u1
    · exact ⟨0, fun h => absurd h hn⟩
  choose u hu using hu
  obtain ⟨f, -, hf2, hf3⟩ := cutoff_near (A := A)
  have hg := RoundedExample.share_close hf2
  obtain ⟨f1, f2⟩ := abs_le.1 hf2
  have f0 : 0 < f := by norm_num1 at f1; linarith
  have hub : ∀ n < answered w c, ∀ i, |u n i| ≤ 2 := fun n hn i => by
    have := abs_le_of_close ((hu n hn).2 i) (target_abs i n)
    norm_num1 at this
    linarith
  obtain ⟨z, z1, z2⟩ := twist_commands_follow hw hctl rfl hf3 follows
    (fun n st x hx => by
      obtain ⟨out, -, o2, ⟨m, m', h1, h2⟩, -⟩ := key n st x hx
      obtain ⟨z, h3⟩ := (rd_twists_finite (o2 (early n st x hx)).2.2.2 h1).1
      refine ⟨z, ?_⟩
      rw [h2]
      split <;> exact h3)
    u (fun n hn => (hu n hn).1) (inside fun n hn => (hu n hn).2).1 (inside fun n hn => (hu n hn).2).2 (fun i => lowPass f 0 fun n => u n i)
    (fun i => ⟨rfl, fun n _ => by rw [share_gain f f0]; rfl⟩)
  have hsh : share 100 = gain (1 / 1000) 100 := share_gain 100 (by norm_num)
  have hb : 0.3 ≤ share 100 ∧ share 100 ≤ 1 := by
    unfold share
    have h1 := Real.pi_gt_d2
    norm_num1 at h1 ⊢
    constructor
    · rw [le_div_iff₀ (by positivity)]; linarith
    · rw [div_le_one (by positivity)]; linarith
  have hfb : 6 / 10 ^ 4 ≤ share f ∧ share f ≤ 1 := hf3.bounds
  have hfl : 0.29 ≤ share f := by
    have := (abs_le.1 hg).1
    have := hb.1
    norm_num1 at *
    linarith
  have close : ∀ i, ∀ n ≤ answered w c, |lowPass f 0 (fun n => u n i) n - lowPass 100 0 (target i) n| ≤ 7 / 10 ^ 9 := by
    intro i
    refine RoundedExample.means_close (g := share f) (h := share 100) (e := 6 / 10 ^ 9) (B := 4) (u := fun n => u n i) (w := target i) (by norm_num1 at hb; linarith) hb.2 hg
      (fun n _ => by rw [share_gain f f0]; rfl) (fun n _ => by rw [hsh]; rfl) rfl (fun n hn => (hu n hn).2 i) (fun n hn => ?_) (by norm_num) (by norm_num1 at hb ⊢; linarith)
    have h1 := mean_bounded (B := 2) (N := answered w c) (u := fun n => u n i) (x := lowPass f 0 fun n => u n i) (lt_of_lt_of_le (by norm_num) hfb.1) hfb.2
      (fun n _ => by rw [share_gain f f0]; rfl) (by show |(0 : ℝ)| ≤ 2; norm_num) (fun n hn => hub n hn i) n (by omega)
    have h2 := hub n hn i
    have h3 := abs_sub (u n i) (lowPass f 0 (fun n => u n i) n)
    linarith
  have hnear : ∀ n < answered w c, ∀ i, |z n i - lowPass 100 0 (target i) (n + 1)| ≤ 1 / 10 ^ 8 := fun n hn i => by
    have h1 := z2 i n hn
    have h2 := close i (n + 1) hn
    have h3 := abs_sub_le (z n i) (lowPass f 0 (fun n => u n i) (n + 1)) (lowPass 100 0 (target i) (n + 1))
    have h4 : (16 / 10 ^ 15 + 1 / 10 ^ 15) / share f ≤ 1 / 10 ^ 11 := by
      rw [div_le_iff₀ (by norm_num1 at hfl; linarith)]
      norm_num1 at hfl ⊢
      linarith
    norm_num1 at *
    linarith
  have hlow : ∀ i, LowPassedFor 8001 100 (fun n => downAndBack i ((n : ℝ) / 1000)) (lowPass 100 0 (target i)) := by
    intro i n hn
    have := lowPass_is (a := 0) (by norm_num : (0 : ℝ) < 100) (target i) _ n hn
    rw [target_eq i (by omega)] at this
    exact this
  refine ⟨fun i => lowPass 100 0 (target i), z, fun i => ⟨rfl, hlow i⟩, fun n st x hx => ?_, fun hok i => ?_⟩
  · have hn := hlt hx
    obtain ⟨out, o1, o2, ⟨m, m', c1, c2⟩, oflag, -, olast⟩ := key n st x hx
    have hle := early n st x hx
    refine ⟨z1 n st x hx, ?_, by omega, fun i hn2 => ⟨hnear n hn i, ?_⟩, fun i h => ?_, fun i hi => ?_, fun hfin => ⟨?_, ?_⟩, fun h => ?_, fun hok hl => ?_⟩
    · have := (rd_twists_finite (o2 hle).2.2.2 c1).2
      rw [c2]
      split <;> exact this
    · have h0 := target_eq i hn2
      have h1 := lag i n
      rw [h0] at h1
      have h2 := hnear n hn i
      have h3 := abs_sub_le (z n i) (lowPass 100 0 (target i) (n + 1)) (downAndBack i ((n : ℝ) / 1000))
      norm_num1 at h1 h2 ⊢
      linarith
    · have h1 := lag i n
      have h2 := hnear n hn i
      have h4 := (target_last i).2
      rw [← h] at h4
      have h3 := abs_sub_le (z n i) (lowPass 100 0 (target i) (n + 1)) (target i n)
      have h5 := abs_sub_le (z n i) (target i n) 0
      rw [sub_zero, sub_zero] at h5
      norm_num1 at h1 h2 h4 ⊢
      linarith
    · have h2 := hnear n hn i
      rwa [no_turn hi, sub_zero] at h2
    · by_contra hlt
      have := (o2 hle).2.1 (by omega)
      rw [oflag, show out.is_finished = false from this] at hfin
      cases hfin
    · by_contra hne
      obtain ⟨st', x', hx'⟩ := exchange_exists (show n + 1 < answered w c by omega)
      obtain ⟨-, -, -, -, -, hbefore, -⟩ := key (n + 1) st' x' hx'
      obtain ⟨out', g1, -, g2⟩ := hbefore n (by omega)
      rw [o1] at g1
      injection g1 with g1
      rw [oflag, g1, g2] at hfin
      cases hfin
    · rw [oflag]
      exact (o2 hle).2.2.1 (by omega)
    · rw [oflag]
      exact olast hok hl
  · -- the way
    rcases Nat.eq_zero_or_pos (answered w c) with ha | ha
    · rw [ha, Finset.sum_range_zero, abs_zero]
      norm_num
    obtain ⟨st, x, hx⟩ := exchange_exists (show answered w c - 1 < answered w c by omega)
    obtain ⟨out, -, o2, -, -, -, olast⟩ := key _ st x hx
    have hle := early _ st x hx
    have hge : 8000 ≤ answered w c - 1 := by
      by_contra hlt
      have h1 := (o2 hle).2.1 (by omega)
      have h2 : CartesianVelocities.motion_finished out = true := olast hok (by omega)
      rw [h1] at h2
      cases h2
    obtain ⟨N, hN⟩ : ∃ N, answered w c = N := ⟨_, rfl⟩
    rw [hN] at hnear hle hge ⊢
    have hN1 : (N : ℝ) ≤ 8002 := by exact_mod_cast (by omega : N ≤ 8002)
    have hsum : |∑ n ∈ Finset.range N, target i n| ≤ 0.00008 := by
      have h0 := target_sum i
      rcases (show N = 8001 ∨ N = 8002 by omega) with h | h
      · rw [h, h0]; norm_num
      · rw [h, Finset.sum_range_succ, h0, zero_add]
        exact (target_last i).2
    have hl := low_sum (by norm_num) (lowPass_is (a := 0) (by norm_num : (0 : ℝ) < 100) (target i) N)
    have hlast : |target i (N - 1)| ≤ 0.00008 := by
      rcases (show N - 1 = 8000 ∨ N - 1 = 8001 by omega) with h | h
      · rw [h, (target_last i).1]; norm_num
      · rw [h]
        exact (target_last i).2
    have hend : |lowPass 100 0 (target i) N| ≤ 0.00021 := by
      have h1 := lag i (N - 1)
      rw [show N - 1 + 1 = N by omega] at h1
      have h3 := abs_sub_le (lowPass 100 0 (target i) N) (target i (N - 1)) 0
      rw [sub_zero, sub_zero] at h3
      norm_num1 at *
      linarith
    have hq : |lowPass 100 0 (target i) N / (2 * Real.pi * 100)| ≤ 0.0000004 := by
      have hp3 := Real.pi_gt_three
      rw [abs_div, abs_of_pos (by positivity : 0 < 2 * Real.pi * 100), div_le_iff₀ (by positivity)]
      norm_num1 at hend ⊢
      linarith
    have hd : |∑ n ∈ Finset.range N, z n i * 0.001 - ∑ n ∈ Finset.range N, lowPass 100 0 (target i) (n + 1) * 0.001| ≤ 0.0000001 := by
      rw [← Finset.sum_sub_distrib]
      refine (Finset.abs_sum_le_sum_abs _ _).trans ((Finset.sum_le_card_nsmul _ _ (1 / 10 ^ 11) fun n hn => ?_).trans ?_)
      · rw [← sub_mul, abs_mul, abs_of_pos (by norm_num : (0 : ℝ) < 0.001)]
        have := hnear n (Finset.mem_range.1 hn) i
        norm_num1 at this ⊢
        linarith
      · rw [Finset.card_range, nsmul_eq_mul]
        norm_num1
        linarith
    rw [hl, show lowPass 100 0 (target i) 0 = 0 from rfl, sub_zero] at hd
    rw [abs_le] at hd hq hsum ⊢
    norm_num1 at hd hq hsum ⊢
    constructor <;> linarith [hd.1, hd.2, hq.1, hq.2, hsum.1, hsum.2]

end
end Verif
