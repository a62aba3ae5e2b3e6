import Verif.Lemmas.RoundedVelocity
/-!
# The joint velocity examples in spite of rounding: C109

Doubles have every operation rounded here (`Spec/Rounding.lean`), but the integers are doubles.
-/
set_option linter.unusedSectionVars false
namespace Verif
open Prog Spec Fl

variable {A : Rounding}

namespace RoundedVelocity

/-- The control call. -/
noncomputable def call (ω : ℚ) (T : ℕ) : ControlCall (Rd A) (Rd A) .JointVelocities :=
  { motion := Examples.velocity_callback (lit ω) (lit (T : ℚ)), torque := none, controller := requestedController none, limit_rate := (none : Option Bool).getD true,
    cutoff := (none : Option (Rd A)).getD (lit 100) }

theorem isControl (ω : ℚ) (T : ℕ) : IsControl (roundedVelocityExample A ω T) (call ω T) (lit 0) := .motion _ _ _ _ _ _ _

/-- The cutoff frequency. -/
theorem cutoff_near (ω : ℚ) (T : ℕ) : ∃ f : ℝ, (call (A := A) ω T).cutoff = Rd.fin f ∧ |f - 100| ≤ 1 / 10 ^ 13 ∧ GoesBy (call (A := A) ω T).cutoff f (share f) := by
  obtain ⟨f, h1, h2⟩ : Near (lit 100 : Rd A) ((100 : ℚ) : ℝ) (13 / 10 ^ 17 * 100) := near_lit (by norm_num) (by norm_num) (by norm_num)
  have h3 : |f - 100| ≤ 1 / 10 ^ 13 := by
    push_cast at h2
    exact h2.trans (by norm_num)
  obtain ⟨h4, h5⟩ := abs_le.1 h3
  norm_num1 at h4 h5
  exact ⟨f, h1, h3, .inr ⟨h1, by norm_num1; linarith, by linarith, rfl⟩⟩

open VelocityExample (target wave wave_half base_zero wave_sum sign_abs half_nonneg size) in
/-- The last values. -/
theorem target_last {ω : ℚ} (h0 : 0 ≤ ω) (h1 : ω ≤ 1) {K : ℕ} (hK : 1000 ≤ K) (i : Fin 7) : |target ω K i (2 * K + 1)| ≤ 0.00005 := by
  unfold target
  split
  · have hh := half_nonneg h0
    rw [wave_half (m := 2) (by omega) (by omega) (by omega), sign_abs]
    have := sampledWave_symm (A := (ω : ℝ) / 2) (θ := 2 * Real.pi / K) (m := 2 * K) (j := 2) (by
      have : (0 : ℝ) < K := by exact_mod_cast (by omega : 0 < K)
      push_cast; field_simp) 1
    rw [this]
    refine (sampledWave_first hh).trans ?_
    have := (size h0 h1 hK).2
    norm_num1 at *
    linarith
  · norm_num

open VelocityExample (target wave_sum) in
theorem target_sum (ω : ℚ) {K : ℕ} (hK : 0 < K) (i : Fin 7) : ∑ n ∈ Finset.range (2 * K + 1), target ω K i n = 0 := by
  unfold target
  split
  · exact wave_sum hK
  · exact Finset.sum_const_zero

end RoundedVelocity
open RoundedVelocity
open VelocityExample (target target_eq whole_step low_sum)

section
variable [Wire (Rd A)] [Geo (Rd A)] {w : World (Rd A)} (hw : RobotReachable w)
include hw

/-- **C109**: with a robot that rests and follows the commands, the control call of the joint velocity examples turns the joints forth and back, although every operation is
rounded. The commands are, up to 10⁻⁸ rad/s, those intended after the low pass with the default cutoff frequency, and they are within `0.005 ω / T` of the intended velocities.
The motion ends with the command after twice the time `T` or with the next one, which is almost zero. If the call returns Ok, then the last command ended the motion, and
the robot is back where it started, but for 0.00002 rad. -/
theorem C109_velocity_example (hA : KeepsIntegers A) {ω : ℚ} (hω : 0 ≤ ω ∧ ω ≤ 1) {T : ℕ} (hT : 1 ≤ T ∧ T ≤ 4) {v : Fin 7 → ℕ → ℝ}
    (follows : FollowsVelocitiesRounded v (exchanges (newEvents w ((roundedVelocityExample A ω T).run w).2))) : ∃ (y : Fin 7 → ℕ → ℝ) (z : ℕ → Fin 7 → ℝ),
    (∀ i, y i 0 = 0 ∧ LowPassedFor (2000 * T + 1) 100 (fun n => forthAndBack ω T i ((n : ℝ) / 1000)) (y i)) ∧
    (∀ n st x, Exchange w (roundedVelocityExample A ω T) n st x → x.motion.dq_c = Arr.rd (z n) ∧ n ≤ 2000 * T + 1 ∧
      (∀ i, n ≤ 2000 * T → |z n i - y i (n + 1)| ≤ 1 / 10 ^ 8 ∧ |z n i - forthAndBack ω T i ((n : ℝ) / 1000)| ≤ 0.005 * ω / T + 1 / 10 ^ 8) ∧
      (∀ i, n = 2000 * T + 1 → |z n i| ≤ 0.005 * ω / T + 0.00006) ∧
      (x.motion.motion_generation_finished = true → 2000 * T ≤ n ∧ n + 1 = answered w (roundedVelocityExample A ω T)) ∧
      (n = 2000 * T + 1 → x.motion.motion_generation_finished = true) ∧
      (((roundedVelocityExample A ω T).run w).1 = .ok () → n + 1 = answered w (roundedVelocityExample A ω T) → x.motion.motion_generation_finished = true)) ∧
    (((roundedVelocityExample A ω T).run w).1 = .ok () → ∀ i, |∑ n ∈ Finset.range (answered w (roundedVelocityExample A ω T)), z n i * 0.001| ≤ 0.00002) := by
  have hctl := isControl (A := A) ω T
  generalize hc : roundedVelocityExample A ω T = c at follows hctl ⊢
  clear hc
  have hK : 1000 ≤ 1000 * T := by omega
  have hKT : ((T : ℚ) : ℝ) = ((1000 * T : ℕ) : ℝ) / 1000 := by push_cast; ring
  have T1 : (1 : ℝ) ≤ T := by exact_mod_cast hT.1
  have ω0 : (0 : ℝ) ≤ ω := by exact_mod_cast hω.1
  have ω1 : (ω : ℝ) ≤ 1 := by exact_mod_cast hω.2
  have hlt : ∀ {n st x}, Exchange w c n st x → n < answered w c := fun hx => (List.getElem?_eq_some_iff.1 hx).1
  have key := calls_called (F := Rd A) (k := .JointVelocities) (I := TimeAt T) (O := VelocityAt ω T) (R := fun _ _ => True) rfl rfl
    (fun n c st hc _ => goes hA hT.1 hT.2 hω.1 hω.2 n c st hc) hw hctl (fun _ _ _ _ => trivial)
    (fun n st x st' x' hx hx' => (follows.next n st x st' x' hx hx').2)
  have early : ∀ n st x, Exchange w c n st x → n ≤ 2 * (1000 * T) + 1 := by
    intro n st x hx
    obtain ⟨out, -, -, -, -, hbefore, -⟩ := key n st x hx
    by_contra hn
    obtain ⟨out', -, o1, o2⟩ := hbefore (2 * (1000 * T) + 1) (by omega)
    have := (o1 le_rfl).2.2 (by omega)
    rw [show JointVelocities.motion_finished out' = false from o2] at this
    cases this
  have hu : ∀ n : ℕ, ∃ u : Fin 7 → ℝ, n < answered w c → (∀ out, (motionOutputs .JointVelocities (newEvents w (c.run w).2))[n]? = some out → JointVelocities.dq out = Arr.rd u) ∧
      ∀ i, |u i - target ω (1000 * T) i n| ≤ 6 / 10 ^ 9 := by
    intro n
    by_cases hn : n < answered w c
    · obtain ⟨st, x, hx⟩ := exchange_exists hn
      obtain ⟨out, o1, o2, -⟩ := key n st x hx
      choose u u1 u2 using (o2 (early n st x hx)).1
      refine ⟨u, fun _ => ⟨fun out' ho => ?_, u2⟩⟩
      rw [o1] at ho
      cases ho
      exact funext u1
    · exact ⟨0, fun h => absurd h hn⟩
  choose u hu using hu
  obtain ⟨f, -, hf2, hf3⟩ := cutoff_near (A := A) ω T
  have hg := RoundedExample.share_close hf2
  obtain ⟨f1, f2⟩ := abs_le.1 hf2
  have f0 : 0 < f := by norm_num1 at f1; linarith
  have hub : ∀ n < answered w c, ∀ i, |u n i| ≤ 2 := fun n hn i => by
    have := abs_le_of_close ((hu n hn).2 i) (target_abs hω.1 hω.2 (1000 * T) i n)
    norm_num1 at this
    linarith
  obtain ⟨z, z1, z2⟩ := velocity_commands_follow hw hctl rfl hf3 follows
    (fun n st x hx => by
      obtain ⟨out, -, -, ⟨m, m', h1, h2⟩, -⟩ := key n st x hx
      obtain ⟨z, h3⟩ := rd_velocities_finite h1
      refine ⟨z, ?_⟩
      rw [h2]
      split <;> exact h3)
    u (fun n hn => (hu n hn).1) (fun i => wave_inside hω.1 hω.2 hK i fun n hn => (hu n hn).2 i) (fun i => lowPass f 0 fun n => u n i)
    (fun i => ⟨rfl, fun n _ => by rw [share_gain f f0]; rfl⟩)
  have hsh : share 100 = gain (1 / 1000) 100 := share_gain 100 (by norm_num)
  have hb : 0.3 ≤ share 100 ∧ share 100 ≤ 1 := by
    unfold share
    have h1 := Real.pi_gt_d2
    norm_num1 at h1 ⊢
    constructor
    · rw [le_div_iff₀ (by positivity)]; linarith
    · rw [div_le_one (by positivity)]; linarith
  have hfb : 6 / 10 ^ 4 ≤ share f ∧ share f ≤ 1 := hf3.bounds
  have hfl : 0.29 ≤ share f := by
    have := (abs_le.1 hg).1
    have := hb.1
    norm_num1 at *
    linarith
  have close : ∀ i, ∀ n ≤ answered w c, |lowPass f 0 (fun n => u n i) n - lowPass 100 0 (target ω (1000 * T) i) n| ≤ 7 / 10 ^ 9 := by
    intro i
    refine RoundedExample.means_close (g := share f) (h := share 100) (e := 6 / 10 ^ 9) (B := 4) (u := fun n => u n i) (w := target ω (1000 * T) i) (by norm_num1 at hb; linarith) hb.2 hg
      (fun n _ => by rw [share_gain f f0]; rfl) (fun n _ => by rw [hsh]; rfl) rfl (fun n hn => (hu n hn).2 i) (fun n hn => ?_) (by norm_num) (by norm_num1 at hb ⊢; linarith)
    have h1 := mean_bounded (B := 2) (N := answered w c) (u := fun n => u n i) (x := lowPass f 0 fun n => u n i) (lt_of_lt_of_le (by norm_num) hfb.1) hfb.2
      (fun n _ => by rw [share_gain f f0]; rfl) (by show |(0 : ℝ)| ≤ 2; norm_num) (fun n hn => hub n hn i) n (by omega)
    have h2 := hub n hn i
    have h3 := abs_sub (u n i) (lowPass f 0 (fun n => u n i) n)
    linarith
  have hnear : ∀ n < answered w c, ∀ i, |z n i - lowPass 100 0 (target ω (1000 * T) i) (n + 1)| ≤ 1 / 10 ^ 8 := fun n hn i => by
    have h1 := z2 i n hn
    have h2 := close i (n + 1) hn
    have h3 := abs_sub_le (z n i) (lowPass f 0 (fun n => u n i) (n + 1)) (lowPass 100 0 (target ω (1000 * T) i) (n + 1))
    have h4 : (2 / 10 ^ 14 + 2 / 10 ^ 12) / share f ≤ 1 / 10 ^ 11 := by
      rw [div_le_iff₀ (by norm_num1 at hfl; linarith)]
      norm_num1 at hfl ⊢
      linarith
    norm_num1 at *
    linarith
  have hlag : ∀ i n, |lowPass 100 0 (target ω (1000 * T) i) (n + 1) - target ω (1000 * T) i n| ≤ 0.005 * ω / T := by
    intro i n
    refine (lowPass_lag (by norm_num) (whole_step hω.1 hK i) n).trans (le_of_eq ?_)
    have := Real.pi_pos
    push_cast
    field_simp
    norm_num
    ring
  have hlow : ∀ i, LowPassedFor (2000 * T + 1) 100 (fun n => forthAndBack ω T i ((n : ℝ) / 1000)) (lowPass 100 0 (target ω (1000 * T) i)) := by
    intro i n hn
    have := lowPass_is (a := 0) (by norm_num : (0 : ℝ) < 100) (target ω (1000 * T) i) _ n hn
    rw [target_eq hK hKT i (by omega)] at this
    exact_mod_cast this
  refine ⟨fun i => lowPass 100 0 (target ω (1000 * T) i), z, fun i => ⟨rfl, hlow i⟩, fun n st x hx => ?_, fun hok i => ?_⟩
  · have hn := hlt hx
    obtain ⟨out, o1, o2, -, oflag, -, olast⟩ := key n st x hx
    have hle := early n st x hx
    refine ⟨z1 n st x hx, by omega, fun i hn2 => ⟨hnear n hn i, ?_⟩, fun i h => ?_, fun hfin => ⟨?_, ?_⟩, fun h => ?_, fun hok hl => ?_⟩
    · have h0 := target_eq (ω := ω) hK hKT i (show n ≤ 2 * (1000 * T) by omega)
      have h1 := hlag i n
      rw [h0] at h1
      have h1 : |lowPass 100 0 (target ω (1000 * T) i) (n + 1) - forthAndBack ω T i ((n : ℝ) / 1000)| ≤ 0.005 * ω / T := by exact_mod_cast h1
      have h2 := hnear n hn i
      have h3 := abs_sub_le (z n i) (lowPass 100 0 (target ω (1000 * T) i) (n + 1)) (forthAndBack ω T i ((n : ℝ) / 1000))
      linarith
    · have h1 := hlag i n
      have h2 := hnear n hn i
      have h4 := target_last hω.1 hω.2 hK i
      rw [show 2 * (1000 * T) + 1 = n by omega] at h4
      have h3 := abs_sub_le (z n i) (lowPass 100 0 (target ω (1000 * T) i) (n + 1)) (target ω (1000 * T) i n)
      have h5 := abs_sub_le (z n i) (target ω (1000 * T) i n) 0
      rw [sub_zero, sub_zero] at h5
      generalize 0.005 * (ω : ℝ) / T = b at *
      norm_num1 at h2 h4 ⊢
      linarith
    · by_contra hlt
      have := (o2 hle).2.1 (by omega)
      rw [oflag, show out.is_finished = false from this] at hfin
      cases hfin
    · by_contra hne
      obtain ⟨st', x', hx'⟩ := exchange_exists (show n + 1 < answered w c by omega)
      obtain ⟨-, -, -, -, -, hbefore, -⟩ := key (n + 1) st' x' hx'
      obtain ⟨out', g1, -, g2⟩ := hbefore n (by omega)
      rw [o1] at g1
      injection g1 with g1
      rw [oflag, g1, g2] at hfin
      cases hfin
    · rw [oflag]
      exact (o2 hle).2.2 (by omega)
    · rw [oflag]
      exact olast hok hl
  · -- the way
    rcases Nat.eq_zero_or_pos (answered w c) with ha | ha
    · rw [ha, Finset.sum_range_zero, abs_zero]
      norm_num
    obtain ⟨st, x, hx⟩ := exchange_exists (show answered w c - 1 < answered w c by omega)
    obtain ⟨out, -, o2, -, -, -, olast⟩ := key _ st x hx
    have hle := early _ st x hx
    have hge : 2 * (1000 * T) ≤ answered w c - 1 := by
      by_contra hlt
      have h1 := (o2 hle).2.1 (by omega)
      have h2 : JointVelocities.motion_finished out = true := olast hok (by omega)
      rw [h1] at h2
      cases h2
    obtain ⟨N, hN⟩ : ∃ N, answered w c = N := ⟨_, rfl⟩
    rw [hN] at hnear hle hge ⊢
    have hN1 : (N : ℝ) ≤ 8002 := by exact_mod_cast (by omega : N ≤ 8002)
    have hsum : |∑ n ∈ Finset.range N, target ω (1000 * T) i n| ≤ 0.00005 := by
      have h0 := target_sum ω (show 0 < 1000 * T by omega) i
      rcases (show N = 2 * (1000 * T) + 1 ∨ N = 2 * (1000 * T) + 2 by omega) with h | h
      · rw [h, h0]; norm_num
      · rw [h, Finset.sum_range_succ, h0, zero_add]
        exact target_last hω.1 hω.2 hK i
    have hl := low_sum (by norm_num) (lowPass_is (a := 0) (by norm_num : (0 : ℝ) < 100) (target ω (1000 * T) i) N)
    have hlast : |target ω (1000 * T) i (N - 1)| ≤ 0.00005 := by
      rcases (show N - 1 = 2 * (1000 * T) ∨ N - 1 = 2 * (1000 * T) + 1 by omega) with h | h
      · rw [h]
        unfold target
        split
        · rw [VelocityExample.wave, VelocityExample.base_zero (by omega), mul_zero]; norm_num
        · norm_num
      · rw [h]
        exact target_last hω.1 hω.2 hK i
    have hend : |lowPass 100 0 (target ω (1000 * T) i) N| ≤ 0.00506 := by
      have h1 := hlag i (N - 1)
      rw [show N - 1 + 1 = N by omega] at h1
      have h2 : 0.005 * (ω : ℝ) / T ≤ 0.005 := by
        rw [div_le_iff₀ (by linarith)]
        norm_num1
        nlinarith
      have h3 := abs_sub_le (lowPass 100 0 (target ω (1000 * T) i) N) (target ω (1000 * T) i (N - 1)) 0
      rw [sub_zero, sub_zero] at h3
      generalize 0.005 * (ω : ℝ) / T = b at *
      norm_num1 at *
      linarith
    have hq : |lowPass 100 0 (target ω (1000 * T) i) N / (2 * Real.pi * 100)| ≤ 0.000009 := by
      have hp3 := Real.pi_gt_three
      rw [abs_div, abs_of_pos (by positivity : 0 < 2 * Real.pi * 100), div_le_iff₀ (by positivity)]
      norm_num1 at hend ⊢
      linarith
    have hd : |∑ n ∈ Finset.range N, z n i * 0.001 - ∑ n ∈ Finset.range N, lowPass 100 0 (target ω (1000 * T) i) (n + 1) * 0.001| ≤ 0.0000001 := by
      rw [← Finset.sum_sub_distrib]
      refine (Finset.abs_sum_le_sum_abs _ _).trans ((Finset.sum_le_card_nsmul _ _ (1 / 10 ^ 11) fun n hn => ?_).trans ?_)
      · rw [← sub_mul, abs_mul, abs_of_pos (by norm_num : (0 : ℝ) < 0.001)]
        have := hnear n (Finset.mem_range.1 hn) i
        norm_num1 at this ⊢
        linarith
      · rw [Finset.card_range, nsmul_eq_mul]
        norm_num1
        linarith
    rw [hl, show lowPass 100 0 (target ω (1000 * T) i) 0 = 0 from rfl, sub_zero] at hd
    rw [abs_le] at hd hq hsum ⊢
    norm_num1 at hd hq hsum ⊢
    constructor <;> linarith [hd.1, hd.2, hq.1, hq.2, hsum.1, hsum.2]

end
end Verif
