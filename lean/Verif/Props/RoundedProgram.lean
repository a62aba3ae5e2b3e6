import Verif.Spec.RoundedProgram
import Verif.Props.ProgramMotions
import Verif.Props.CartesianVelocityProgram
import Verif.Props.RoundedFollows
import Verif.Props.RoundedExample
import Verif.Props.RoundedVelocity
import Verif.Props.RoundedTwist
/-!
# How the robot moves in whole example programs, with rounded numbers: C111
-/
set_option linter.unusedSectionVars false
namespace Verif
open Prog Spec Fl

variable {A : Rounding}

/-! ## To the start position -/

theorem near_pi : Near (pi : Rd A) Real.pi (1 / 10 ^ 14) := by
  have h1 := Real.pi_lt_d2
  have h2 := Real.pi_pos
  have := near_round (A := A) (z := Real.pi) (r := Real.pi) (e := 0) (B := 4) (by simp) (by rw [abs_of_pos h2]; norm_num1 at h1; linarith) (by norm_num) (by norm_num)
  exact this.weaken (by rw [sub_self, abs_zero]; norm_num)

theorem near_home (i : Fin 7) : Near ((startPosition : Arr (Rd A) 7) i) (home i) (1 / 10 ^ 12) := by
  have h1 := Real.pi_lt_d2
  have h2 := Real.pi_pos
  norm_num1 at h1
  have hp := near_pi (A := A)
  have l0 : Near (lit 0 : Rd A) 0 (1 / 10 ^ 12) := by
    have := near_lit (A := A) (q := 0) (B := 1 / 10 ^ 10) (by norm_num) (by norm_num) (by norm_num)
    exact this.weaken (by norm_num)
  have l2 : Near (lit 2 : Rd A) 2 (1 / 10 ^ 14) := by
    have := near_lit (A := A) (q := 2) (B := 2) (by norm_num) (by norm_num) (by norm_num)
    exact this.weaken (by norm_num)
  have l3 : Near (lit 3 : Rd A) 3 (1 / 10 ^ 14) := by
    have := near_lit (A := A) (q := 3) (B := 3) (by norm_num) (by norm_num) (by norm_num)
    exact this.weaken (by norm_num)
  have l4 : Near (lit 4 : Rd A) 4 (1 / 10 ^ 14) := by
    have := near_lit (A := A) (q := 4) (B := 4) (by norm_num) (by norm_num) (by norm_num)
    exact this.weaken (by norm_num)
  have q : ∀ {x y : Rd A} {r c : ℝ}, Near x r (1 / 10 ^ 13) → Near y c (1 / 10 ^ 14) → |r| ≤ 10 → 2 ≤ c → Near (x / y) (r / c) (1 / 10 ^ 12) := by
    intro x y r c hx hy hr hc
    have hm : |r / c| ≤ 10 := by
      rw [abs_div, abs_of_pos (by linarith : 0 < c), div_le_iff₀ (by linarith)]
      linarith
    refine (hx.div hy (m := 10) (B := 11) (by norm_num1; linarith) hm (by norm_num1; linarith) (by norm_num) (by norm_num)).weaken ?_
    rw [sub_self, abs_zero]
    norm_num
  have p1 : Near (-pi : Rd A) (-Real.pi) (1 / 10 ^ 13) := hp.neg.weaken (by rw [sub_self, abs_zero]; norm_num)
  have p2 : Near (pi : Rd A) Real.pi (1 / 10 ^ 13) := hp.weaken (by rw [sub_self, abs_zero]; norm_num)
  have p3 : Near (-lit 3 * pi : Rd A) (-3 * Real.pi) (1 / 10 ^ 13) := by
    refine (l3.neg.mul hp (m := 4) (m' := 4) (B := 10) (by norm_num) (by rw [abs_of_pos h2]; linarith) ?_ (by norm_num) (by norm_num)).weaken (by rw [sub_self, abs_zero]; norm_num)
    rw [neg_mul, abs_neg, abs_of_pos (by positivity)]
    norm_num1
    linarith
  have b1 : |-Real.pi| ≤ 10 := by rw [abs_neg, abs_of_pos h2]; linarith
  have b2 : |Real.pi| ≤ 10 := by rw [abs_of_pos h2]; linarith
  have b3 : |-3 * Real.pi| ≤ 10 := by rw [neg_mul, abs_neg, abs_of_pos (by positivity)]; linarith
  unfold startPosition home
  fin_cases i
  · exact l0
  · exact q p1 l4 b1 (by norm_num)
  · exact l0
  · exact q p3 l4 b3 (by norm_num)
  · exact l0
  · exact q p2 l2 b2 (by norm_num)
  · exact q p2 l4 b2 (by norm_num)

theorem near_half : Near (lit (1 / 2) : Rd A) (1 / 2) (1 / 10 ^ 15) := by
  have := near_lit (A := A) (q := 1 / 2) (B := 1) (by norm_num [abs_of_pos]) (by norm_num) (by norm_num)
  exact this.weaken (by norm_num)

theorem home_bounded (i : Fin 7) : |home i| ≤ 3 := by
  have h1 := Real.pi_lt_d2
  have h2 := Real.pi_pos
  norm_num1 at h1
  unfold home
  rw [abs_le]
  fin_cases i <;> simp <;> constructor <;> linarith

theorem goal_bounded {i : Fin 7} {g : ℝ} (h : |g - home i| ≤ 1 / 10 ^ 12) : |g| ≤ 4 := by
  have := abs_le_of_close h (home_bounded i)
  norm_num1 at this
  linarith

theorem starts_gently {sf : ℝ} {start goal : Fin 7 → ℝ} (hs : StartsAway start) (hg : ∀ i, |goal i - home i| ≤ 1 / 10 ^ 12) : Gentle sf start goal := by
  obtain ⟨i, hi⟩ := hs.2
  refine .inr ⟨i, ?_⟩
  have := hg i
  have t := abs_sub_abs_le_abs_sub (home i - start i) (goal i - start i)
  rw [sub_sub_sub_cancel_right, abs_sub_comm (home i) (goal i)] at t
  norm_num1 at hi this ⊢
  linarith

section
variable [Wire (Rd A)] [Geo (Rd A)]

/-- The first motion. -/
theorem leads_home_rounded (hz : A.rnd 0 = 0) {w w' : World (Rd A)} (hw : RobotReachable w) (h : (RobotCall.joint_motion (lit (1 / 2)) startPosition).run w = (.ok (), w'))
    {start : Fin 7 → ℝ} {q : Fin 7 → ℕ → ℝ} (hs : StartsAway start) (hf : FollowsRounded start q (exchanges (newEvents w w'))) :
    ∃ rest, LeadsHomeRounded start (exchanges (newEvents w w')) rest := by
  obtain ⟨sf, e1, s1⟩ := near_half (A := A)
  choose goal e2 g1 using near_home (A := A)
  have e2 : (startPosition : Arr (Rd A) 7) = Arr.rd goal := funext e2
  rw [e1, e2] at h
  obtain ⟨s2, s3⟩ := abs_le.1 s1
  norm_num1 at s2 s3
  have hgoal : ∀ i, |goal i| ≤ 4 := fun i => goal_bounded (g1 i)
  have hg : Gentle sf start goal := starts_gently hs g1
  have hc := IsControl.jointMotion (F := Rd A) (Rd.fin sf) (Arr.rd goal)
  obtain ⟨-, pre, z, hl, hlast, hpre⟩ := control_motion_ok hw hc (by rw [h])
  have hE : newEvents w ((RobotCall.joint_motion (Rd.fin sf) (Arr.rd goal)).run w).2 = newEvents w w' := by rw [h]
  rw [← hE] at hf
  obtain ⟨L, T, path, -, -, -, hp, hx⟩ := C106_joint_motion hz (sf := sf) (by linarith) (by norm_num1; linarith) goal start hgoal hs.1 hg hw hf
  unfold Exchange at hx
  rw [hE] at hl hx
  rw [hl] at hx ⊢
  obtain ⟨⟨rest, r1, -, r3⟩, r4, -⟩ := hx pre.length z.1 z.2 (by simp)
  have hlen : (pre ++ [z]).length - 1 = pre.length := by simp
  refine ⟨rest, ⟨sf, L, goal, T, path, s1, g1, hp, ?_, fun n p hp => ?_⟩, fun p hp => ?_, fun i => ?_⟩
  · rw [hlen]
    exact (r4 hlast).2
  · obtain ⟨⟨y, y1, y2, -⟩, -⟩ := hx n p.1 p.2 hp
    exact ⟨y, y1, y2⟩
  · rw [List.getLast?_concat] at hp
    cases hp
    exact r1
  · obtain ⟨r5, r6⟩ := r3 hlast i
    have k := g1 i
    have t := abs_sub_le (rest i) (goal i) (home i)
    refine ⟨by norm_num1 at k r5 ⊢; linarith, fun hi => ?_⟩
    have t' := abs_sub_abs_le_abs_sub (home i - start i) (goal i - start i)
    rw [sub_sub_sub_cancel_right, abs_sub_comm (home i) (goal i)] at t'
    have := r6 (by norm_num1 at hi k ⊢; linarith)
    norm_num1 at k this ⊢
    linarith

/-- Both motions of a program. -/
theorem two_motions_of {F : Type} [Fl F] [Wire F] [Geo F] {w1 w2 w3 : World F} {c : RobotCall F} (hr1 : RobotReachable w1) (hr2 : RobotReachable w2)
    (h1 : (RobotCall.joint_motion (lit (1 / 2)) startPosition).run w1 = (.ok (), w2)) (h2 : c.run w2 = (.ok (), w3))
    (h4 : ∀ e ∈ visible w1.trace, (∃ r, e = .robotReq r) ∨ ∃ s, e = .accepted s) {σ : Type} {k : MotionKind} {call : ControlCall F σ k} {c0 : σ} (hc2 : IsControl c call c0) :
    exchanges (visible w3.trace) = exchanges (newEvents w1 w2) ++ exchanges (newEvents w2 w3) ∧ OneMotion (exchanges (newEvents w1 w2)) ∧
      OneMotion (exchanges (newEvents w2 w3)) := by
  have hc1 := IsControl.jointMotion (F := F) (lit (1 / 2)) startPosition
  obtain ⟨g1, g2⟩ := control_motion_ok hr1 hc1 (by rw [h1])
  rw [h1] at g1 g2
  obtain ⟨g3, g4⟩ := control_motion_ok hr2 hc2 (by rw [h2])
  rw [h2] at g3 g4
  have e1 := newEvents_of_grows (call_grows (RobotCall.joint_motion (lit (1 / 2)) startPosition) w1)
  have e2 := newEvents_of_grows (call_grows c w2)
  rw [h1] at e1
  rw [h2] at e2
  obtain ⟨k1, k2⟩ := no_exchange h4
  obtain ⟨k3, k4⟩ := NonePending.append k1 g1
  obtain ⟨-, k5⟩ := NonePending.append k3 g3
  refine ⟨?_, g2, g4⟩
  rw [e2, e1, k5, k4, k2, List.nil_append]

/-- The last exchange of one motion. -/
theorem last_of {F : Type} {l : List (RobotState F × RobotCommand F)} (h : OneMotion l) : ∃ n p, l[n]? = some p ∧ n + 1 = l.length ∧ p.2.motion.motion_generation_finished = true := by
  obtain ⟨pre, p, rfl, hp, -⟩ := h
  exact ⟨pre.length, p, by simp, by simp, hp⟩

/-- **C111** for the joint position example: wherever the joints are at first, if the robot follows in both motions and rests in between, then the first motion leads to the start position
and the second one is the swing around it, with an accuracy of 0.82 millirad, although all numbers are rounded. -/
theorem C111_position_program (hz : A.rnd 0 = 0) {w : World (Rd A)} (hw : Fresh w) (hok : (Examples.generate_joint_position_motion w).1 = .ok ()) :
    ∃ a b, exchanges (visible (Examples.generate_joint_position_motion w).2.trace) = a ++ b ∧ OneMotion a ∧ OneMotion b ∧
      ∀ start q, StartsAway start → FollowsRounded start q a → ∃ rest, LeadsHomeRounded start a rest ∧ ∀ q', FollowsRounded rest q' b →
        (b.length = 5001 ∨ b.length = 5002) ∧
        ∀ (n : ℕ) p, b[n]? = some p → ∃ z, p.2.motion.q_c = Arr.rd z ∧ ∀ i, |z i - (home i + swing i ((n : ℝ) / 1000))| ≤ 0.00082 := by
  obtain ⟨w1, w2, -, hr1, hr2, h1, h2, es, rfl, h4⟩ := usual_ok Example.jointPosition hw hok
  have h2' : (roundedPositionExample A).run w2 = (.ok (), (Examples.generate_joint_position_motion w).2) := h2
  obtain ⟨m1, m2, m3⟩ := two_motions_of hr1 hr2 h1 h2' h4 (RoundedExample.isControl (A := A))
  refine ⟨_, _, m1, m2, m3, fun start q hs hf => ?_⟩
  obtain ⟨rest, hr⟩ := leads_home_rounded hz hr1 h1 hs hf
  refine ⟨rest, hr, fun q' hf' => ?_⟩
  have hrest : ∀ i, |rest i| ≤ 8 := fun i => by
    have := abs_le_of_close (hr.near i).1 (home_bounded i)
    norm_num1 at this
    linarith
  obtain ⟨b, hb⟩ : ∃ b, b = exchanges (newEvents w2 (Examples.generate_joint_position_motion w).2) := ⟨_, rfl⟩
  have hE : b = exchanges (newEvents w2 ((roundedPositionExample A).run w2).2) := by rw [h2', hb]
  rw [← hb] at hf' m3 ⊢
  rw [hE] at hf'
  obtain ⟨y, -, k2⟩ := C108_position_example hr2 hz hrest hf'
  refine ⟨?_, fun n p hp => ?_⟩
  · obtain ⟨n, p, hp, hn, hfin⟩ := last_of m3
    obtain ⟨-, j1, j2, -⟩ := k2 n p.1 p.2 (by unfold Exchange; rw [← hE]; exact hp)
    have := (j2 hfin).1
    omega
  · obtain ⟨⟨z, z1, z2⟩, -⟩ := k2 n p.1 p.2 (by unfold Exchange; rw [← hE]; exact hp)
    refine ⟨z, z1, fun i => ?_⟩
    have e1 := abs_le.1 (z2 i).2
    have e2 := abs_le.1 (hr.near i).1
    norm_num1 at e1 e2 ⊢
    rw [abs_le]
    constructor <;> linarith [e1.1, e1.2, e2.1, e2.2]

/-- **C111** for the joint velocity example: the second motion turns the joints 4 to 7 forth and back, and the arm ends at the start position, but for 0.000022 rad. -/
theorem C111_velocity_program (hA : KeepsIntegers A) {w : World (Rd A)} (hw : Fresh w) (hok : (Examples.generate_joint_velocity_motion w).1 = .ok ()) :
    ∃ a b, exchanges (visible (Examples.generate_joint_velocity_motion w).2.trace) = a ++ b ∧ OneMotion a ∧ OneMotion b ∧
      ∀ start q, StartsAway start → FollowsRounded start q a → ∃ rest, LeadsHomeRounded start a rest ∧ ∀ v, FollowsVelocitiesRounded v b →
        (b.length = 2001 ∨ b.length = 2002) ∧ ∃ z : ℕ → Fin 7 → ℝ,
        (∀ (n : ℕ) p, b[n]? = some p → p.2.motion.dq_c = Arr.rd (z n) ∧ (∀ i, n ≤ 2000 → |z n i - forthAndBack 1 1 i ((n : ℝ) / 1000)| ≤ 0.0051) ∧ (∀ i, n = 2001 → |z n i| ≤ 0.0051)) ∧
        ∀ i, |rest i + ∑ n ∈ Finset.range b.length, z n i * 0.001 - home i| ≤ 0.000022 := by
  obtain ⟨w1, w2, -, hr1, hr2, h1, h2, es, rfl, h4⟩ := usual_ok Example.jointVelocity hw hok
  have h2' : (roundedVelocityExample A 1 1).run w2 = (.ok (), (Examples.generate_joint_velocity_motion w).2) := by
    rw [← h2]
    unfold roundedVelocityExample
    rw [Nat.cast_one]
  obtain ⟨m1, m2, m3⟩ := two_motions_of hr1 hr2 h1 h2' h4 (RoundedVelocity.isControl (A := A) 1 1)
  refine ⟨_, _, m1, m2, m3, fun start q hs hf => ?_⟩
  have hz : A.rnd 0 = 0 := by simpa using hA 0 (by norm_num)
  obtain ⟨rest, hr⟩ := leads_home_rounded hz hr1 h1 hs hf
  refine ⟨rest, hr, fun v hf' => ?_⟩
  obtain ⟨b, hb⟩ : ∃ b, b = exchanges (newEvents w2 (Examples.generate_joint_velocity_motion w).2) := ⟨_, rfl⟩
  have hE : b = exchanges (newEvents w2 ((roundedVelocityExample A 1 1).run w2).2) := by rw [h2', hb]
  rw [← hb] at hf' m3 ⊢
  rw [hE] at hf'
  obtain ⟨y, z, -, k2, k3⟩ := C109_velocity_example hr2 hA (ω := 1) (by norm_num) (T := 1) (by norm_num) hf'
  have hlen : b.length = answered w2 (roundedVelocityExample A 1 1) := by rw [hE]; rfl
  refine ⟨?_, z, fun n p hp => ?_, fun i => ?_⟩
  · obtain ⟨n, p, hp, hn, hfin⟩ := last_of m3
    obtain ⟨-, j1, -, -, j2, -⟩ := k2 n p.1 p.2 (by unfold Exchange; rw [← hE]; exact hp)
    have := (j2 hfin).1
    omega
  · obtain ⟨j1, -, j2, j3, -⟩ := k2 n p.1 p.2 (by unfold Exchange; rw [← hE]; exact hp)
    refine ⟨j1, fun i hn => ?_, fun i hn => ?_⟩
    · have := (j2 i (by omega)).2
      rw [Rat.cast_one, Nat.cast_one] at this
      norm_num1 at this ⊢
      linarith
    · have := j3 i (by omega)
      rw [Rat.cast_one, Nat.cast_one] at this
      norm_num1 at this ⊢
      linarith
  · rw [hlen]
    have e1 := abs_le.1 (k3 (by rw [h2']) i)
    have e2 := abs_le.1 (hr.near i).1
    norm_num1 at e1 e2 ⊢
    rw [abs_le]
    constructor <;> linarith [e1.1, e1.2, e2.1, e2.2]

/-- **C111** for the Cartesian velocity example: the first motion leads to the start position, and the second one moves the end effector forward and down and back, without turning it, up to
10⁻⁸ rad/s, and it is back within 0.001 mm in each direction. -/
theorem C111_cartesian_velocity_program (hA : KeepsIntegers A) {w : World (Rd A)} (hw : Fresh w) (hok : (Examples.generate_cartesian_velocity_motion w).1 = .ok ()) :
    ∃ a b, exchanges (visible (Examples.generate_cartesian_velocity_motion w).2.trace) = a ++ b ∧ OneMotion a ∧ OneMotion b ∧
      (∀ start q, StartsAway start → FollowsRounded start q a → ∃ rest, LeadsHomeRounded start a rest) ∧
      ∀ v, FollowsTwistsRounded v b → (b.length = 8001 ∨ b.length = 8002) ∧ ∃ z : ℕ → Fin 6 → ℝ,
        (∀ (n : ℕ) p, b[n]? = some p → p.2.motion.O_dP_EE_c = Arr.rd (z n) ∧ p.2.motion.valid_elbow = false ∧
          (∀ i, n ≤ 8000 → |z n i - downAndBack i ((n : ℝ) / 1000)| ≤ 0.00013) ∧ (∀ i, n = 8001 → |z n i| ≤ 0.00021) ∧ ∀ i, 3 ≤ i → |z n i| ≤ 1 / 10 ^ 8) ∧
        ∀ i, |∑ n ∈ Finset.range b.length, z n i * 0.001| ≤ 0.000001 := by
  obtain ⟨w1, w2, -, hr1, hr2, h1, h2, es, rfl, h4⟩ := TwistProgram.ok hw hok
  have h2' : (roundedTwistExample A).run w2 = (.ok (), (Examples.generate_cartesian_velocity_motion w).2) := h2
  obtain ⟨m1, m2, m3⟩ := two_motions_of hr1 hr2 h1 h2' h4 (RoundedTwist.isControl (A := A))
  have hz : A.rnd 0 = 0 := by simpa using hA 0 (by norm_num)
  refine ⟨_, _, m1, m2, m3, fun start q hs hf => leads_home_rounded hz hr1 h1 hs hf, fun v hf' => ?_⟩
  obtain ⟨b, hb⟩ : ∃ b, b = exchanges (newEvents w2 (Examples.generate_cartesian_velocity_motion w).2) := ⟨_, rfl⟩
  have hE : b = exchanges (newEvents w2 ((roundedTwistExample A).run w2).2) := by rw [h2', hb]
  rw [← hb] at hf' m3 ⊢
  rw [hE] at hf'
  obtain ⟨y, z, -, k2, k3⟩ := C110_cartesian_velocity_example hr2 hA hf'
  have hlen : b.length = answered w2 (roundedTwistExample A) := by rw [hE]; rfl
  refine ⟨?_, z, fun n p hp => ?_, fun i => ?_⟩
  · obtain ⟨n, p, hp, hn, hfin⟩ := last_of m3
    obtain ⟨-, -, j1, -, -, -, j2, -⟩ := k2 n p.1 p.2 (by unfold Exchange; rw [← hE]; exact hp)
    have := (j2 hfin).1
    omega
  · obtain ⟨j1, j2, -, j3, j4, j5, -⟩ := k2 n p.1 p.2 (by unfold Exchange; rw [← hE]; exact hp)
    exact ⟨j1, j2, fun i hn => (j3 i hn).2, j4, j5⟩
  · rw [hlen]
    exact k3 (by rw [h2']) i

end
end Verif
