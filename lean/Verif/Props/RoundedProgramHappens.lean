import Verif.Props.RoundedProgram
import Verif.Props.RoundedFollowsHappen
import Verif.Props.RoundedExampleHappens
import Verif.Props.RoundedVelocityHappens
import Verif.Props.RoundedTwistHappens
import Verif.Props.ProgramMotionsHappen
/-!
# The programs of C111 happen

For every start there is a robot that follows in both motions, and then the program returns Ok. This shows that the hypotheses of C111 are met.
-/
set_option linter.unusedSectionVars false
namespace Verif
open Prog Spec Fl

variable {A : Rounding}

namespace TwoRounded

noncomputable def zeros : Arr (Rd A) 7 := fun _ => lit 0

noncomputable def starts (M : ℕ) (k : MotionKind) : RobotStateIntern (Rd A) := plainState (UInt64.ofNat (M + 1)) zeros zeros zeros (generatorOf k) .JointImpedance .Move

noncomputable def reports (M : ℕ) (k : MotionKind) (q dq ddq : ℕ → Arr (Rd A) 7) (n : ℕ) : RobotStateIntern (Rd A) :=
  plainState (UInt64.ofNat (M + 2 + n)) (q n) (dq n) (ddq n) (generatorOf k) .JointImpedance .Move

noncomputable def rests (M : ℕ) : RobotStateIntern (Rd A) := plainState (UInt64.ofNat M) zeros zeros zeros .Idle .Other .Idle

theorem rests_id {M : ℕ} (h : M ≤ 2 ^ 41) : (rests (A := A) M).message_id.toNat = M := by
  show (UInt64.ofNat M).toNat = M
  rw [UInt64.toNat_ofNat', Nat.mod_eq_of_lt (by omega)]

theorem rests_still (M : ℕ) : ¬ Running (rests (A := A) M) := by rintro (h | h) <;> first | exact h rfl | cases h

/-- A robot that reports these values. -/
theorem robot_from [Wire (Rd A)] {σ : Type} {k : MotionKind} {call : ControlCall (Rd A) σ k} (hm : call.controller = .JointImpedance) {R : ℕ → RobotState (Rd A) → Prop} {N M : ℕ}
    {s0 : RobotStateIntern (Rd A)} (hs0 : ¬ Running s0) (hM : s0.message_id.toNat = M) (hN : M + N ≤ 2 ^ 40) {q dq ddq : ℕ → Arr (Rd A) 7}
    (k0 : Wire.ofBits (Wire.toBits (lit 0 : Rd A)) = (lit 0 : Rd A)) (kp : ∀ n ≤ N, Kept (q n) ∧ Kept (dq n) ∧ Kept (ddq n))
    (hR : ∀ n st, n ≤ N → st.q_d = q n → st.dq_d = dq n → st.ddq_d = ddq n → R n st) :
    RobotFrom call R s0 N (starts M k) (reports M k q dq ddq) (rests (M + N + 3)) where
  idle := hs0
  id2 := by
    show (UInt64.ofNat (M + 1)).toNat = _
    rw [UInt64.toNat_ofNat', Nat.mod_eq_of_lt (by omega), hM]
  modes2 := by rw [hm]; exact ⟨rfl, rfl⟩
  ids n hn := by
    show (UInt64.ofNat (M + 2 + n)).toNat = _
    rw [UInt64.toNat_ofNat', Nat.mod_eq_of_lt (by omega), hM]
  healthy _ _ := by rw [hm]; exact ⟨rfl, rfl, rfl⟩
  planned n hn := hR n _ hn rfl rfl rfl
  idE := by rw [rests_id (by omega), hM]
  still := rests_still _
  data2 := plainState_holds k0 (fun _ => k0) (fun _ => k0) (fun _ => k0)
  data n hn := plainState_holds k0 (kp n hn).1 (kp n hn).2.1 (kp n hn).2.2
  dataE := plainState_holds k0 (fun _ => k0) (fun _ => k0) (fun _ => k0)

/-- The call of the first motion. -/
noncomputable def firstCall (A : Rounding) : ControlCall (Rd A) (MotionGenerator (Rd A)) .JointPositions := ⟨MotionGenerator.generate_motion, none, .JointImpedance, true, lit 1000⟩

/-- The first motion. -/
theorem first [Geo (Rd A)] (hz : A.rnd 0 = 0) {start : Fin 7 → ℝ} (hs : StartsAway start) :
    ∃ (c0 : MotionGenerator (Rd A)) (gs : ℕ → MotionGenerator (Rd A)) (o : ℕ → Motion (Rd A) .JointPositions) (q : Fin 7 → ℕ → ℝ) (N : ℕ), N ≤ 502000 ∧ (∀ i, q i 0 = start i) ∧
      (∀ n < N, (o n).is_finished = false) ∧ (o N).is_finished = true ∧
      IsPlanOf (firstCall A) c0 gs o (positionCommands q) (fun n st => n ≤ N ∧ ReportedRounded q n st) ∧
      IsControl (.joint_motion (lit (1 / 2) : Rd A) startPosition) (firstCall A) c0 ∧ ∀ i, |q i (N + 1)| ≤ 8 := by
  obtain ⟨sf, e1, s1⟩ := near_half (A := A)
  choose goal e2 g1 using near_home (A := A)
  have e2 : (startPosition : Arr (Rd A) 7) = Arr.rd goal := funext e2
  obtain ⟨s2, s3⟩ := abs_le.1 s1
  norm_num1 at s2 s3
  have hgoal : ∀ i, |goal i| ≤ 4 := fun i => goal_bounded (g1 i)
  have hg : Gentle sf start goal := starts_gently hs g1
  obtain ⟨gs, o, q, N, hN, h0, hmin, hend, hplan⟩ := joint_plan_rounded (A := A) hz (sf := sf) (by linarith) (by norm_num1; linarith) goal start hgoal hs.1 hg
  have hends := joint_plan_ends hz (sf := sf) (by linarith) (by norm_num1; linarith) hgoal hs.1 hg hN h0 hmin hend hplan
  refine ⟨_, gs, o, q, N, hN, h0, hmin, hend, hplan, ?_, fun i => ?_⟩
  · rw [e1, e2]
    exact .jointMotion _ _
  · have := abs_le_of_close (hends i) (hgoal i)
    norm_num1 at this
    linarith

/-- Both sequences of values can be sent. -/
theorem kept_both {N N' : ℕ} (f g h f' g' h' : ℕ → Arr (Rd A) 7) (hN : N + 1 + N' ≤ 1000000000) : ∃ _ : Wire (Rd A), Wire.ofBits (Wire.toBits (lit 0 : Rd A)) = (lit 0 : Rd A) ∧
    (∀ n ≤ N, Kept (f n) ∧ Kept (g n) ∧ Kept (h n)) ∧ ∀ n ≤ N', Kept (f' n) ∧ Kept (g' n) ∧ Kept (h' n) := by
  obtain ⟨l, hl⟩ : ∃ l : ℕ → Fin 3 → Arr (Rd A) 7, l = fun n => if n ≤ N then ![f n, g n, h n] else ![f' (n - (N + 1)), g' (n - (N + 1)), h' (n - (N + 1))] := ⟨_, rfl⟩
  obtain ⟨wire, k0, kp⟩ := wire_for_arrays (F := Rd A) l hN
  refine ⟨wire, k0, fun n hn => ?_, fun n hn => ?_⟩
  · have e : l n = ![f n, g n, h n] := by rw [hl]; exact if_pos hn
    have h1 := kp n (by omega) 0
    have h2 := kp n (by omega) 1
    have h3 := kp n (by omega) 2
    rw [e] at h1 h2 h3
    exact ⟨h1, h2, h3⟩
  · have e : l (N + 1 + n) = ![f' n, g' n, h' n] := by
      rw [hl]
      show (if N + 1 + n ≤ N then _ else _) = _
      rw [if_neg (by omega), Nat.add_sub_cancel_left]
    have h1 := kp (N + 1 + n) (by omega) 0
    have h2 := kp (N + 1 + n) (by omega) 1
    have h3 := kp (N + 1 + n) (by omega) 2
    rw [e] at h1 h2 h3
    exact ⟨h1, h2, h3⟩

/-- Where the first motion ends. -/
theorem ends_at {start rest : Fin 7 → ℝ} {q : Fin 7 → ℕ → ℝ} {o : ℕ → Motion (Rd A) .JointPositions} {s : ℕ → RobotStateIntern (Rd A)} {N : ℕ}
    (hr : LeadsHomeRounded start (RobotFrom.pairs o (positionCommands q) s N) rest) : rest = fun i => q i (N + 1) := by
  have hlast : (RobotFrom.pairs o (positionCommands q) s N).getLast? = some (RobotState.ofIntern (s N), ⟨(s N).message_id, sentCmd o (positionCommands q) N, noTorques⟩) := by
    unfold RobotFrom.pairs
    rw [List.range_succ, List.map_append, List.map_singleton, List.getLast?_concat]
  have h1 := hr.arrives _ hlast
  have h2 : (sentCmd o (positionCommands q) N).q_c = Arr.rd fun i => q i (N + 1) := by
    unfold sentCmd
    split <;> rfl
  funext i
  exact Rd.fin_inj (congrFun (h1.symm.trans h2) i)

end TwoRounded
open TwoRounded

/-- **C111**, without hypotheses on the robot: for every start there is a robot with which the joint position program returns Ok, that follows in both motions and that rests in between. -/
theorem C111_position_program_happens [Geo (Rd A)] (hz : A.rnd 0 = 0) {start : Fin 7 → ℝ} (hs : StartsAway start) :
    ∃ (_ : Wire (Rd A)) (w : World (Rd A)) (a b : List (RobotState (Rd A) × RobotCommand (Rd A))) (rest : Fin 7 → ℝ), Fresh w ∧
      (Examples.generate_joint_position_motion w).1 = .ok () ∧ exchanges (visible (Examples.generate_joint_position_motion w).2.trace) = a ++ b ∧ OneMotion a ∧ OneMotion b ∧
      (∃ q, FollowsRounded start q a) ∧ LeadsHomeRounded start a rest ∧ ∃ q, FollowsRounded rest q b := by
  obtain ⟨c0, gs, o, q, N, hN, h0, hmin, hend, hplan, hctl, hr8⟩ := first (A := A) hz hs
  obtain ⟨cs, o', q', N', hN', h0', hmin', hend', hplan'⟩ := position_plan_rounded (A := A) hz (fun i => q i (N + 1)) hr8
  obtain ⟨wire, k0, kp, kp'⟩ := kept_both (A := A) (N := N) (N' := N') (fun n => Arr.rd fun i => q i n) (fun n => Arr.rd fun i => rate (q i) n)
    (fun n => Arr.rd fun i => rate (rate (q i)) n) (fun n => Arr.rd fun i => q' i n) (fun n => Arr.rd fun i => rate (q' i) n) (fun n => Arr.rd fun i => rate (rate (q' i)) n) (by omega)
  have r1 := robot_from (A := A) (call := firstCall A) (R := fun n st => n ≤ N ∧ ReportedRounded q n st) rfl (N := N) (M := 1) Realize.s1_idle
    (congrArg UInt64.toNat (Realize.s1_id (F := Rd A))) (by omega) k0 kp fun n st hn a b c => ⟨hn, a, b, c⟩
  have r2 := robot_from (A := A) (call := RoundedExample.call (A := A)) (R := fun n st => n ≤ N' ∧ ReportedRounded q' n st) rfl (N := N') (M := 1 + N + 3) (rests_still _)
    (rests_id (by omega)) (by omega) k0 kp' fun n st hn a b c => ⟨hn, a, b, c⟩
  obtain ⟨w, w1, w2, k1, k2, k3, k4, k5, k6⟩ := usual_happens Example.jointPosition hplan r1 hmin hend hctl hplan' r2 hmin' hend' (RoundedExample.isControl (A := A))
  obtain ⟨v1, v2, j1, hr1, hr2, j2, j3, es, rfl, j4⟩ := usual_ok Example.jointPosition k1 k2
  obtain ⟨rfl, rfl⟩ := k3.unique j1
  obtain ⟨m1, m2, m3⟩ := two_motions_of hr1 hr2 j2 j3 j4 (RoundedExample.isControl (A := A))
  have f1 : FollowsRounded start q (exchanges (newEvents w1 w2)) := by
    rw [k5]
    exact reports_follow h0 (by omega) rfl
  obtain ⟨rest, hr⟩ := leads_home_rounded hz hr1 j2 hs f1
  have e := hr
  rw [k5] at e
  have e := ends_at e
  subst e
  refine ⟨wire, w, _, _, _, k1, k2, m1, m2, m3, ⟨q, f1⟩, hr, q', ?_⟩
  rw [k6]
  exact reports_follow h0' (by omega) rfl

/-- **C111**, without hypotheses on the robot, for the joint velocity program. -/
theorem C111_velocity_program_happens [Geo (Rd A)] (hA : KeepsIntegers A) {start : Fin 7 → ℝ} (hs : StartsAway start) :
    ∃ (_ : Wire (Rd A)) (w : World (Rd A)) (a b : List (RobotState (Rd A) × RobotCommand (Rd A))) (rest : Fin 7 → ℝ), Fresh w ∧
      (Examples.generate_joint_velocity_motion w).1 = .ok () ∧ exchanges (visible (Examples.generate_joint_velocity_motion w).2.trace) = a ++ b ∧ OneMotion a ∧ OneMotion b ∧
      (∃ q, FollowsRounded start q a) ∧ LeadsHomeRounded start a rest ∧ ∃ v, FollowsVelocitiesRounded v b := by
  have hz : A.rnd 0 = 0 := by simpa using hA 0 (by norm_num)
  obtain ⟨c0, gs, o, q, N, hN, h0, hmin, hend, hplan, hctl, -⟩ := first (A := A) hz hs
  obtain ⟨cs, o', v, N', hN', h0', hmin', hend', hplan'⟩ := velocity_plan_rounded (A := A) hA (ω := 1) (by norm_num) (T := 1) (by norm_num)
  obtain ⟨wire, k0, kp, kp'⟩ := kept_both (A := A) (N := N) (N' := N') (fun n => Arr.rd fun i => q i n) (fun n => Arr.rd fun i => rate (q i) n)
    (fun n => Arr.rd fun i => rate (rate (q i)) n) (fun _ _ => lit 0) (fun n => Arr.rd fun i => v i n) (fun n => Arr.rd fun i => rate (v i) n) (by omega)
  have r1 := robot_from (A := A) (call := firstCall A) (R := fun n st => n ≤ N ∧ ReportedRounded q n st) rfl (N := N) (M := 1) Realize.s1_idle
    (congrArg UInt64.toNat (Realize.s1_id (F := Rd A))) (by omega) k0 kp fun n st hn a b c => ⟨hn, a, b, c⟩
  have r2 := robot_from (A := A) (call := RoundedVelocity.call (A := A) 1 1) (R := fun n st => n ≤ N' ∧ VelocityReported v n st) rfl (N := N') (M := 1 + N + 3) (rests_still _)
    (rests_id (by omega)) (by omega) k0 kp' fun n st hn a b c => ⟨hn, b, c⟩
  have hc2 : IsControl (.control_motion _ .JointVelocities (Examples.velocity_callback (lit 1 : Rd A) (lit 1)) none none none (lit 0)) (RoundedVelocity.call (A := A) 1 1) (lit 0) := by
    have := RoundedVelocity.isControl (A := A) 1 1
    unfold roundedVelocityExample at this
    rw [Nat.cast_one] at this
    exact this
  obtain ⟨w, w1, w2, k1, k2, k3, k4, k5, k6⟩ := usual_happens Example.jointVelocity hplan r1 hmin hend hctl hplan' r2 hmin' hend' hc2
  obtain ⟨v1, v2, j1, hr1, hr2, j2, j3, es, rfl, j4⟩ := usual_ok Example.jointVelocity k1 k2
  obtain ⟨rfl, rfl⟩ := k3.unique j1
  obtain ⟨m1, m2, m3⟩ := two_motions_of hr1 hr2 j2 j3 j4 hc2
  have f1 : FollowsRounded start q (exchanges (newEvents w1 w2)) := by
    rw [k5]
    exact reports_follow h0 (by omega) rfl
  obtain ⟨rest, hr⟩ := leads_home_rounded hz hr1 j2 hs f1
  refine ⟨wire, w, _, _, rest, k1, k2, m1, m2, m3, ⟨q, f1⟩, hr, v, ?_⟩
  rw [k6]
  exact velocity_reports_follow h0' (by omega) rfl

/-- **C111**, without hypotheses on the robot, for the Cartesian velocity program. -/
theorem C111_cartesian_velocity_program_happens [Geo (Rd A)] (hA : KeepsIntegers A) {start : Fin 7 → ℝ} (hs : StartsAway start) :
    ∃ (_ : Wire (Rd A)) (w : World (Rd A)) (a b : List (RobotState (Rd A) × RobotCommand (Rd A))), Fresh w ∧
      (Examples.generate_cartesian_velocity_motion w).1 = .ok () ∧ exchanges (visible (Examples.generate_cartesian_velocity_motion w).2.trace) = a ++ b ∧ OneMotion a ∧ OneMotion b ∧
      (∃ q, FollowsRounded start q a) ∧ ∃ v, FollowsTwistsRounded v b := by
  have hz : A.rnd 0 = 0 := by simpa using hA 0 (by norm_num)
  obtain ⟨c0, gs, o, q, N, hN, h0, hmin, hend, hplan, hctl, -⟩ := first (A := A) hz hs
  obtain ⟨cs, o', v, N', hN', h0', hmin', hend', hplan'⟩ := twist_plan_rounded (A := A) hA
  obtain ⟨wire, k0, kp, kp'⟩ := kept_both (A := A) (N := N) (N' := N') (fun n => Arr.rd fun i => q i n) (fun n => Arr.rd fun i => rate (q i) n)
    (fun n => Arr.rd fun i => rate (rate (q i)) n) (fun _ _ => lit 0) (fun n i => if h : i.val < 6 then Rd.fin (v ⟨i, h⟩ n) else lit 0)
    (fun n i => if h : i.val < 6 then Rd.fin (rate (v ⟨i, h⟩) n) else lit 0) (by omega)
  have kz : ∀ m, Kept (fun _ => lit 0 : Arr (Rd A) m) := fun _ _ => k0
  have r1 := robot_from (A := A) (call := firstCall A) (R := fun n st => n ≤ N ∧ ReportedRounded q n st) rfl (N := N) (M := 1) Realize.s1_idle
    (congrArg UInt64.toNat (Realize.s1_id (F := Rd A))) (by omega) k0 kp fun n st hn a b c => ⟨hn, a, b, c⟩
  have r2 : RobotFrom (RoundedTwist.call (A := A)) (fun n st => n ≤ N' ∧ TwistReported v n st) (rests (1 + N + 3)) N' (starts (1 + N + 3) .CartesianVelocities) (reportTwist (1 + N + 3) v)
      (rests (1 + N + 3 + N' + 3)) := by
    refine ⟨rests_still _, ?_, ⟨rfl, rfl⟩, fun n hn => ?_, fun n _ => ⟨rfl, rfl, rfl⟩, fun n hn => ⟨hn, rfl, rfl⟩, ?_, rests_still _, plainState_holds k0 (kz 7) (kz 7) (kz 7), fun n hn => ?_,
      plainState_holds k0 (kz 7) (kz 7) (kz 7)⟩
    · show (UInt64.ofNat (1 + N + 3 + 1)).toNat = _
      rw [UInt64.toNat_ofNat', Nat.mod_eq_of_lt (by omega), rests_id (by omega)]
    · show (UInt64.ofNat (1 + N + 3 + 2 + n)).toNat = _
      rw [UInt64.toNat_ofNat', Nat.mod_eq_of_lt (by omega), rests_id (by omega)]
    · rw [rests_id (by omega), rests_id (by omega)]
    · obtain ⟨-, h1, h2⟩ := kp' n hn
      refine cartesianState_holds k0 (kz 16) (fun i => ?_) (fun i => ?_) (kz 2) (kz 2) (kz 2)
      · have := h1 ⟨i, by omega⟩
        simp only [Fin.is_lt, dite_true, Fin.eta] at this
        exact this
      · have := h2 ⟨i, by omega⟩
        simp only [Fin.is_lt, dite_true, Fin.eta] at this
        exact this
  obtain ⟨w, w1, w2, k1, k2, k3, k5, k6⟩ := TwistProgram.happens hplan r1 hmin hend hctl hplan' r2 hmin' hend' (RoundedTwist.isControl (A := A))
  obtain ⟨v1, v2, j1, hr1, hr2, j2, j3, es, rfl, j4⟩ := TwistProgram.ok k1 k2
  obtain ⟨rfl, rfl⟩ := k3.unique j1
  obtain ⟨m1, m2, m3⟩ := two_motions_of hr1 hr2 j2 j3 j4 (RoundedTwist.isControl (A := A))
  refine ⟨wire, w, _, _, k1, k2, m1, m2, m3, ⟨q, ?_⟩, v, ?_⟩
  · rw [k5]
    exact reports_follow h0 (by omega) rfl
  · rw [k6]
    exact twist_reports_follow h0' (by omega) rfl

/-- For example with the rounding of `f64` when all joints are stretched out at first: then the program swings the joints as intended. -/
example [Geo (Rd binary64)] : ∃ (_ : Wire (Rd binary64)) (w : World (Rd binary64)) (a b : List (RobotState (Rd binary64) × RobotCommand (Rd binary64))), Fresh w ∧
    (Examples.generate_joint_position_motion w).1 = .ok () ∧ exchanges (visible (Examples.generate_joint_position_motion w).2.trace) = a ++ b ∧
    (b.length = 5001 ∨ b.length = 5002) ∧
    ∀ (n : ℕ) p, b[n]? = some p → ∃ z, p.2.motion.q_c = Arr.rd z ∧ ∀ i, |z i - (home i + swing i ((n : ℝ) / 1000))| ≤ 0.00082 := by
  have hs : StartsAway fun _ => 0 := ⟨fun _ => by norm_num, 5, by
    show _ ≤ |Real.pi / 2 - 0|
    rw [sub_zero, abs_of_pos (by positivity)]
    linarith [Real.pi_gt_three]⟩
  obtain ⟨wire, w, a, b, rest, h1, h2, h3, h4, h5, ⟨q, h6⟩, h7, q', h8⟩ := C111_position_program_happens (A := binary64) binary64_zero hs
  obtain ⟨a', b', g1, g2, g3, g4⟩ := C111_position_program binary64_zero h1 h2
  obtain ⟨rfl, rfl⟩ := h4.unique g2 (h3.symm.trans g1)
  obtain ⟨rest', k1, k2⟩ := g4 _ q hs h6
  have : rest = rest' := by
    obtain ⟨pre, p, rfl, -⟩ := h4
    have e1 := h7.arrives p (by simp)
    have e2 := k1.arrives p (by simp)
    funext i
    exact Rd.fin_inj (congrFun (e1.symm.trans e2) i)
  subst this
  obtain ⟨k3, k4⟩ := k2 q' h8
  exact ⟨wire, w, a, b, h1, h2, h3, k3, k4⟩

/-- In the same way, the arm ends where the joint velocity program has started its second motion, but for 0.000022 rad. -/
example [Geo (Rd binary64)] : ∃ (_ : Wire (Rd binary64)) (w : World (Rd binary64)) (a b : List (RobotState (Rd binary64) × RobotCommand (Rd binary64))) (rest : Fin 7 → ℝ)
    (z : ℕ → Fin 7 → ℝ), Fresh w ∧ (Examples.generate_joint_velocity_motion w).1 = .ok () ∧
    exchanges (visible (Examples.generate_joint_velocity_motion w).2.trace) = a ++ b ∧ LeadsHomeRounded (fun _ => 0) a rest ∧ (b.length = 2001 ∨ b.length = 2002) ∧
    (∀ (n : ℕ) p, b[n]? = some p → p.2.motion.dq_c = Arr.rd (z n)) ∧ ∀ i, |rest i + ∑ n ∈ Finset.range b.length, z n i * 0.001 - home i| ≤ 0.000022 := by
  have hs : StartsAway fun _ => 0 := ⟨fun _ => by norm_num, 5, by
    show _ ≤ |Real.pi / 2 - 0|
    rw [sub_zero, abs_of_pos (by positivity)]
    linarith [Real.pi_gt_three]⟩
  obtain ⟨wire, w, a, b, -, h1, h2, h3, h4, h5, ⟨q, h6⟩, -, v, h8⟩ := C111_velocity_program_happens (A := binary64) binary64_integers hs
  obtain ⟨a', b', g1, g2, g3, g4⟩ := C111_velocity_program binary64_integers h1 h2
  obtain ⟨rfl, rfl⟩ := h4.unique g2 (h3.symm.trans g1)
  obtain ⟨rest, k1, k2⟩ := g4 _ q hs h6
  obtain ⟨k3, z, k4, k5⟩ := k2 v h8
  exact ⟨wire, w, a, b, rest, z, h1, h2, h3, k1, k3, fun n p h => (k4 n p h).1, k5⟩

/-- And the Cartesian velocity program brings the end effector back within 0.001 mm. -/
example [Geo (Rd binary64)] : ∃ (_ : Wire (Rd binary64)) (w : World (Rd binary64)) (a b : List (RobotState (Rd binary64) × RobotCommand (Rd binary64))) (rest : Fin 7 → ℝ)
    (z : ℕ → Fin 6 → ℝ), Fresh w ∧ (Examples.generate_cartesian_velocity_motion w).1 = .ok () ∧
    exchanges (visible (Examples.generate_cartesian_velocity_motion w).2.trace) = a ++ b ∧ LeadsHomeRounded (fun _ => 0) a rest ∧ (b.length = 8001 ∨ b.length = 8002) ∧
    (∀ (n : ℕ) p, b[n]? = some p → p.2.motion.O_dP_EE_c = Arr.rd (z n)) ∧ ∀ i, |∑ n ∈ Finset.range b.length, z n i * 0.001| ≤ 0.000001 := by
  have hs : StartsAway fun _ => 0 := ⟨fun _ => by norm_num, 5, by
    show _ ≤ |Real.pi / 2 - 0|
    rw [sub_zero, abs_of_pos (by positivity)]
    linarith [Real.pi_gt_three]⟩
  obtain ⟨wire, w, a, b, h1, h2, h3, h4, h5, ⟨q, h6⟩, v, h8⟩ := C111_cartesian_velocity_program_happens (A := binary64) binary64_integers hs
  obtain ⟨a', b', g1, g2, g3, g4, g5⟩ := C111_cartesian_velocity_program binary64_integers h1 h2
  obtain ⟨rfl, rfl⟩ := h4.unique g2 (h3.symm.trans g1)
  obtain ⟨rest, k1⟩ := g4 _ q hs h6
  obtain ⟨k3, z, k4, k5⟩ := g5 v h8
  exact ⟨wire, w, a, b, rest, z, h1, h2, h3, k1, k3, fun n p h => (k4 n p h).1, k5⟩

end Verif
