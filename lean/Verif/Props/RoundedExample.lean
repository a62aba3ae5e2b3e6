import Verif.Lemmas.RoundedExample
/-!
# The joint position example in spite of rounding: C108

Doubles have every operation rounded here (`Spec/Rounding.lean`).
-/
set_option linter.unusedSectionVars false
namespace Verif
open Prog Spec Fl

variable {A : Rounding}

namespace RoundedExample
open PositionExample (target target_zero target_step target_second target_first size whole_step)

/-- The control call. -/
noncomputable def call : ControlCall (Rd A) (Examples.PositionState (Rd A)) .JointPositions :=
  { motion := Examples.position_callback, torque := none, controller := requestedController none, limit_rate := (none : Option Bool).getD true,
    cutoff := (none : Option (Rd A)).getD (lit 100) }

theorem isControl : IsControl (roundedPositionExample A) call Examples.PositionState.new := .motion _ _ _ _ _ _ _

/-- The cutoff frequency. -/
theorem cutoff_near : ∃ f : ℝ, (call (A := A)).cutoff = Rd.fin f ∧ |f - 100| ≤ 1 / 10 ^ 13 ∧ GoesBy (call (A := A)).cutoff f (share f) := by
  obtain ⟨f, h1, h2⟩ : Near (lit 100 : Rd A) ((100 : ℚ) : ℝ) (13 / 10 ^ 17 * 100) := near_lit (by norm_num) (by norm_num) (by norm_num)
  have h3 : |f - 100| ≤ 1 / 10 ^ 13 := by
    push_cast at h2
    exact h2.trans (by norm_num)
  obtain ⟨h4, h5⟩ := abs_le.1 h3
  norm_num1 at h4 h5
  exact ⟨f, h1, h3, .inr ⟨h1, by norm_num1; linarith, by linarith, rfl⟩⟩

theorem target_bounded {start : Fin 7 → ℝ} (hs : ∀ i, |start i| ≤ 8) (i : Fin 7) (n : ℕ) : |target start i n| ≤ 8.9 := by
  unfold target swing
  have h1 := hs i
  split
  · have h2 := Real.abs_cos_le_one (2 * Real.pi * ((n : ℝ) / 1000) / 5)
    have h3 := Real.pi_lt_d2
    have h4 := Real.pi_pos
    rw [abs_le] at h1 h2 ⊢
    norm_num1 at h3 ⊢
    constructor <;> nlinarith
  · rw [add_zero]
    exact h1.trans (by norm_num)

end RoundedExample
open RoundedExample
open PositionExample (target target_zero target_step size whole_step)

section
variable [Wire (Rd A)] [Geo (Rd A)] {w : World (Rd A)} (hw : RobotReachable w)
include hw

/-- **C108**: with a robot that rests at `start` and follows the commands, the control call of the joint position example swings the joints as intended, whatever the roundings.
The commands are, up to 10⁻⁸ rad, those intended after the low pass with the default cutoff frequency, and they are within 0.00081 rad of the intended positions. The motion
ends with the 5001st or the 5002nd command. If the call returns Ok, then the last command ended the motion. -/
theorem C108_position_example (hz : A.rnd 0 = 0) {start : Fin 7 → ℝ} (hs : ∀ i, |start i| ≤ 8) {q : Fin 7 → ℕ → ℝ}
    (follows : FollowsRounded start q (exchanges (newEvents w ((roundedPositionExample A).run w).2))) : ∃ y : Fin 7 → ℕ → ℝ,
    (∀ i, y i 0 = start i ∧ LowPassedFor (answered w (roundedPositionExample A)) 100 (fun n => start i + swing i ((n : ℝ) / 1000)) (y i)) ∧
    ∀ n st x, Exchange w (roundedPositionExample A) n st x →
      (∃ z : Fin 7 → ℝ, x.motion.q_c = Arr.rd z ∧ ∀ i, |z i - y i (n + 1)| ≤ 1 / 10 ^ 8 ∧ |z i - (start i + swing i ((n : ℝ) / 1000))| ≤ 0.00081) ∧
      n ≤ 5001 ∧ (x.motion.motion_generation_finished = true → 5000 ≤ n ∧ n + 1 = answered w (roundedPositionExample A)) ∧
      (n = 5001 → x.motion.motion_generation_finished = true) ∧
      (((roundedPositionExample A).run w).1 = .ok () → n + 1 = answered w (roundedPositionExample A) → x.motion.motion_generation_finished = true) := by
  have hctl := isControl (A := A)
  generalize hc : roundedPositionExample A = c at follows hctl ⊢
  clear hc
  have hlt : ∀ {n st x}, Exchange w c n st x → n < answered w c := fun hx => (List.getElem?_eq_some_iff.1 hx).1
  have key := calls_called (F := Rd A) (k := .JointPositions) (I := CapturedAt start) (O := AnsweredAt start) (R := fun n st => n = 0 → st.q_d = Arr.rd start) rfl rfl (goes hz hs) hw hctl
    (fun n st x hx h => by
      subst h
      rw [follows.position 0 st x hx]
      congr 1
      exact funext follows.first)
    (fun n st x st' x' hx hx' => (follows.next n st x st' x' hx hx').2)
  have early : ∀ n st x, Exchange w c n st x → n ≤ 5001 := by
    intro n st x hx
    obtain ⟨out, -, -, -, -, hbefore, -⟩ := key n st x hx
    by_contra hn
    obtain ⟨out', -, o1, o2⟩ := hbefore 5001 (by omega)
    have := (o1 le_rfl).2.2 (by norm_num)
    rw [show JointPositions.motion_finished out' = false from o2] at this
    cases this
  have hu : ∀ n : ℕ, ∃ u : Fin 7 → ℝ, n < answered w c → (∀ out, (motionOutputs .JointPositions (newEvents w (c.run w).2))[n]? = some out → JointPositions.q out = Arr.rd u) ∧
      ∀ i, |u i - target start i n| ≤ 1 / 10 ^ 9 := by
    intro n
    by_cases hn : n < answered w c
    · obtain ⟨st, x, hx⟩ := exchange_exists hn
      obtain ⟨out, o1, o2, -⟩ := key n st x hx
      choose u u1 u2 using (o2 (early n st x hx)).1
      refine ⟨u, fun _ => ⟨fun out' ho => ?_, u2⟩⟩
      rw [o1] at ho
      cases ho
      exact funext u1
    · exact ⟨0, fun h => absurd h hn⟩
  choose u hu using hu
  obtain ⟨f, -, hf2, hf3⟩ := cutoff_near (A := A)
  have hg := share_close hf2
  obtain ⟨f1, f2⟩ := abs_le.1 hf2
  have f0 : 0 < f := by norm_num1 at f1; linarith
  have hub : ∀ n < answered w c, ∀ i, |u n i| ≤ 9 := fun n hn i => by
    have := abs_le_of_close ((hu n hn).2 i) (target_bounded hs i n)
    norm_num1 at this
    linarith
  obtain ⟨z, z1, z2⟩ := commands_follow hw hctl rfl hf3 (fun i => (hs i).trans (by norm_num)) follows
    (fun n st x hx => by
      obtain ⟨out, -, -, ⟨m, m', h1, h2⟩, -⟩ := key n st x hx
      obtain ⟨z, h3⟩ := rd_positions_finite h1
      refine ⟨z, ?_⟩
      rw [h2]
      split <;> exact h3)
    u (fun n hn => ⟨(hu n hn).1, hub n hn⟩) (fun i => swing_inside i fun n hn => (hu n hn).2 i) (fun i => lowPass f (start i) fun n => u n i)
    (fun i => ⟨rfl, fun n _ => by rw [share_gain f f0]; rfl⟩)
  have hsh : share 100 = gain (1 / 1000) 100 := share_gain 100 (by norm_num)
  have hb : 0.3 ≤ share 100 ∧ share 100 ≤ 1 := by
    unfold share
    have h1 := Real.pi_gt_d2
    norm_num1 at h1 ⊢
    constructor
    · rw [le_div_iff₀ (by positivity)]; linarith
    · rw [div_le_one (by positivity)]; linarith
  have hfb : 6 / 10 ^ 4 ≤ share f ∧ share f ≤ 1 := hf3.bounds
  have hfl : 0.29 ≤ share f := by
    have := (abs_le.1 hg).1
    have := hb.1
    norm_num1 at *
    linarith
  have close : ∀ i, ∀ n ≤ answered w c, |lowPass f (start i) (fun n => u n i) n - lowPass 100 (start i) (target start i) n| ≤ 2 / 10 ^ 9 := by
    intro i
    refine means_close (g := share f) (h := share 100) (e := 1 / 10 ^ 9) (B := 18) (u := fun n => u n i) (w := target start i) (by norm_num1 at hb; linarith) hb.2 hg
      (fun n _ => by rw [share_gain f f0]; rfl) (fun n _ => by rw [hsh]; rfl) rfl (fun n hn => (hu n hn).2 i) (fun n hn => ?_) (by norm_num) (by norm_num1 at hb ⊢; linarith)
    have h1 := mean_bounded (B := 9) (N := answered w c) (u := fun n => u n i) (x := lowPass f (start i) fun n => u n i) (lt_of_lt_of_le (by norm_num) hfb.1) hfb.2
      (fun n _ => by rw [share_gain f f0]; rfl) (by show |start i| ≤ 9; exact (hs i).trans (by norm_num)) (fun n hn => hub n hn i) n (by omega)
    have h2 := hub n hn i
    have h3 := abs_sub (u n i) (lowPass f (start i) (fun n => u n i) n)
    linarith
  refine ⟨fun i => lowPass 100 (start i) (target start i), fun i => ⟨rfl, lowPass_is (by norm_num) _ _⟩, fun n st x hx => ?_⟩
  have hn := hlt hx
  obtain ⟨out, o1, o2, -, oflag, -, olast⟩ := key n st x hx
  have hle := early n st x hx
  have hnear : ∀ i, |z n i - lowPass 100 (start i) (target start i) (n + 1)| ≤ 1 / 10 ^ 8 := fun i => by
    have h1 := z2 i n hn
    have h2 := close i (n + 1) hn
    have h3 := abs_sub_le (z n i) (lowPass f (start i) (fun n => u n i) (n + 1)) (lowPass 100 (start i) (target start i) (n + 1))
    have h4 : (4 / 10 ^ 14 + 1 / 10 ^ 14) / share f ≤ 1 / 10 ^ 12 := by
      rw [div_le_iff₀ (by norm_num1 at hfl; linarith)]
      norm_num1 at hfl ⊢
      linarith
    norm_num1 at *
    linarith
  refine ⟨⟨z n, z1 n st x hx, fun i => ⟨hnear i, ?_⟩⟩, hle, fun hfin => ⟨?_, ?_⟩, fun h => ?_, fun hok hl => ?_⟩
  · have h1 := (lowPass_lag (f := 100) (by norm_num) (whole_step start i) n).trans size.2.2
    have h2 := hnear i
    have h3 := abs_sub_le (z n i) (lowPass 100 (start i) (target start i) (n + 1)) (target start i n)
    show |z n i - target start i n| ≤ _
    norm_num1 at *
    linarith
  · by_contra hlt
    have := (o2 hle).2.1 (by omega)
    rw [oflag, show out.is_finished = false from this] at hfin
    cases hfin
  · by_contra hne
    obtain ⟨st', x', hx'⟩ := exchange_exists (show n + 1 < answered w c by omega)
    obtain ⟨-, -, -, -, -, hbefore, -⟩ := key (n + 1) st' x' hx'
    obtain ⟨out', g1, -, g2⟩ := hbefore n (by omega)
    rw [o1] at g1
    injection g1 with g1
    rw [oflag, g1, g2] at hfin
    cases hfin
  · rw [oflag]
    exact (o2 hle).2.2 (by omega)
  · rw [oflag]
    exact olast hok hl

end
end Verif
