import Verif.Props.ConsecutiveProgram
/-!
# The example with several motions happens: C103
-/
set_option linter.unusedSectionVars false
namespace Verif
open Prog Spec Fl TwoMotions

namespace Consecutive
open Toy (asking response)

/-- The velocities of one motion. -/
noncomputable def velocities (K : ℕ) (i : Fin 7) (n : ℕ) : ℝ := lowPass 100 0 (VelocityExample.target (1 / 5) K i) n

section
variable [Wire XR] [Geo XR]

/-- `n` motions with a robot that follows. -/
theorem happens {K : ℕ} (hK : K = 4000) (k0 : Wire.ofBits (Wire.toBits (lit 0 : XR)) = (lit 0 : XR))
    (kp : ∀ n ≤ 2 * K, Kept (Arr.fin fun i => velocities K i n) ∧ Kept (Arr.fin fun i => velocities K i n) ∧ Kept (Arr.fin fun i => rate (velocities K i) n)) :
    ∀ (n : ℕ) (id : UInt32) (M : ℕ) (s0 : RobotStateIntern XR), id.toNat + n < 1000 → M + n * 10000 ≤ 2 ^ 40 → s0.message_id.toNat = M → ¬ Running s0 →
      ∃ ts0, ∀ {w0 w : World XR} {cs0 : List (RobotCall XR)} (ts : List Tick), Fresh w0 → RealTimeGranted none w0 → robotSession none none cs0 w0 = (.ok (), w) →
        Between id s0 [] (ts0 ++ ts) w → ∃ (w' : World XR) (ps : List (List (Ev XR))), Examples.consecutive n w = (.ok (), w') ∧ ps.length = n ∧ visible w'.trace = visible w.trace ++ ps.flatten ∧
          ∀ m ∈ ps, Part m ∧ ¬ Recovers m ∧ FollowsVelocities (exchanges m)
  | 0, id, M, s0, _, _, _, _ => ⟨[], fun {w0 w cs0} ts _ _ _ _ => ⟨w, [], rfl, rfl, by simp, by simp⟩⟩
  | n + 1, id, M, s0, hid, hM, hs0, hstill => by
    have hp := VelocityExample.plan (ω := 1 / 5) (T := 4) (K := K) (by norm_num) (by norm_num) (by omega) (by rw [hK]; norm_num)
    have r := robot_from (call := VelocityExample.call (1 / 5) 4) (R := VelocitiesReported (velocities K)) (N := 2 * K) (M := M) hstill hs0 (by omega) _ _ _ k0 kp
      fun n st _ e1 e2 e3 => ⟨e2, e3⟩
    have hfin : ∀ n < 2 * K, (velocityOut (VelocityExample.target (1 / 5) K) (VelocityExample.ends K) n).is_finished = false :=
      fun n hn => decide_eq_false (by omega : ¬ 2 * K ≤ n)
    have hend : (velocityOut (VelocityExample.target (1 / 5) K) (VelocityExample.ends K) (2 * K)).is_finished = true := decide_eq_true le_rfl
    have hid' : id ≠ 0xffffffff := by rintro rfl; exact absurd hid (by show ¬ 4294967295 + _ < _; omega)
    obtain ⟨ts1, m1⟩ := planned_did hp r hfin hend (VelocityExample.isControl (1 / 5) 4) hid'
    have hnext : (id + 1).toNat = id.toNat + 1 := by
      rw [UInt32.toNat_add, Nat.mod_eq_of_lt]
      · rfl
      · show id.toNat + 1 < _
        omega
    obtain ⟨ts2, m2⟩ := happens hK k0 kp n (id + 1) (M + 2 * K + 3) (rests (M + 2 * K + 3)) (by omega) (by omega) (rests_id (by omega)) (rests_still _)
    refine ⟨ts1 ++ ts2, fun {w0 w cs0} ts hw0 hrt hs hb => ?_⟩
    obtain ⟨w1, d1, d2, es, d3, d4⟩ := did_eq (m1 (ts2 ++ ts) hw0 hrt hs (by rw [← List.append_assoc]; exact hb))
    have hrw : RobotReachable w := ⟨none, none, cs0, w0, hw0, hs⟩
    have hs1 := session_snoc hs (velocityExample (1 / 5) 4) (.inl (by rw [d1]))
    rw [d1] at hs1
    obtain ⟨w', ps, g1, g2, g3, g4⟩ := m2 ts hw0 hrt hs1 d2
    have e := newEvents_of_grows (call_grows (velocityExample (1 / 5) 4) w)
    rw [d1] at e
    have hpart : Part (newEvents w w1) := .fine hrw d1 rfl
    refine ⟨w', newEvents w w1 :: ps, ?_, by rw [List.length_cons, g2], by rw [g3, e]; simp, ?_⟩
    · have hrun : Examples.consecutive (n + 1) w = Examples.consecutive n w1 := bind_ok_eq (attempt_eq d1)
      rw [hrun, g1]
    · intro m hm
      rcases List.mem_cons.1 hm with rfl | hm
      · obtain ⟨σ, k, call, c0, hc⟩ := isControl (F := XR)
        obtain ⟨-, -, -, -, -, hr⟩ := control_part hrw hc (.inl (by
          have : consecutiveMotion.run w = (.ok (), w1) := d1
          rw [this]))
        have d1' : consecutiveMotion.run w = (.ok (), w1) := d1
        rw [d1'] at hr
        refine ⟨hpart, hr, ?_⟩
        rw [d3] at e
        rw [← List.append_cancel_left e, ← exchanges_alike d4, RobotFrom.motion_pairs hfin hend]
        refine follows_velocities (by omega) (fun i => rfl) fun n => ?_
        unfold sentCmd
        split <;> rfl
      · exact g4 m hm

end
end Consecutive
open Consecutive Toy

/-- **C103**, without hypotheses on the robot: for every start (that is not less than a fifth of a millirad and not more than some hundred thousand rad away) there is a robot with
which the program returns Ok, that follows in all six motions and needs no recovery. -/
theorem C103_consecutive_motions_happens [Geo XR] {start : Fin 7 → ℝ} (hg : Gentle (1 / 2) start home) (hnear : ∀ i, |home i - start i| ≤ 400000) :
    ∃ (_ : Wire XR) (w : World XR) (before a : List (Ev XR)) (bs : List (List (Ev XR))), Fresh w ∧ (Examples.generate_consecutive_motions w).1 = .ok () ∧
      Divided (visible (Examples.generate_consecutive_motions w).2.trace) before (a :: bs) ∧ bs.length = 5 ∧
      FollowsJoints start (exchanges a) ∧ ∀ b ∈ bs, ¬ Recovers b ∧ FollowsVelocities (exchanges b) := by
  obtain ⟨g0, T, path, N, hN, hp, hfin, hend⟩ := first hg hnear
  obtain ⟨x, hx⟩ : ∃ x, x = fun i => samples (start i) (path i) := ⟨_, rfl⟩
  rw [← hx] at hp
  obtain ⟨wire, k0, k1, k2⟩ := kept_both (N := N) (N' := 2 * 4000) (fun n => Arr.fin fun i => x i n) (fun n => Arr.fin fun i => rate (x i) n) (fun n => Arr.fin fun i => rate (rate (x i)) n)
    (fun n => Arr.fin fun i => velocities 4000 i n) (fun n => Arr.fin fun i => velocities 4000 i n) (fun n => Arr.fin fun i => rate (velocities 4000 i) n) (by omega)
  have r1 := robot_from (call := jointCall) (R := PositionsReported x) (N := N) (M := 1) Realize.s1_idle idle_id (by omega) _ _ _ k0 k1 fun n st _ e1 e2 e3 => ⟨e1, e2, e3⟩
  obtain ⟨ts1, m1⟩ := planned_did hp r1 hfin hend TwoMotions.isControl (id := 5) (by decide)
  obtain ⟨ts2, m2⟩ := Consecutive.happens rfl k0 k2 5 6 (1 + N + 3) (rests (1 + N + 3)) (by decide) (by omega) (rests_id (by omega)) (rests_still _)
  obtain ⟨tr1, g1⟩ := setup_setting (F := XR)
  obtain ⟨b, hb⟩ : ∃ b, setterRequest (Consecutive.start (F := XR)) = some b := ⟨_, rfl⟩
  obtain ⟨tr2, g2⟩ := thresholds_setting (F := XR) b (by cases hb; rfl)
  let ts := setupTicks ++ (((asking (response 2 4 0)).script ++ []) ++ (ts1 ++ (ts2 ++ [])))
  have hfresh := Realize.fresh (F := XR) (Toy.handshake ++ ts)
  have hrt : RealTimeGranted none (Realize.world (F := XR) (Toy.handshake ++ ts)) := .inr ⟨rfl, rfl, rfl, rfl⟩
  have hs0 := Realize.robot_session (F := XR) ts
  have hb0 := Realize.robot_between (F := XR) ts
  have hnt : ∀ {cs0 : List (RobotCall XR)} {w : World XR}, robotSession none none cs0 (Realize.world (F := XR) (Toy.handshake ++ ts)) = (.ok (), w) → w.cfg.network_type = .Robot :=
    fun {cs0 w} hs => (RobotReachable.alive (show RobotReachable w from ⟨none, none, cs0, _, hfresh, hs⟩)).1.type
  have A : Post (RobotCall.run .set_default_behavior) (Realize.robot (F := XR) ts) (Did (.ok ()) tr1 4 (Realize.s1 XR) []
      (((asking (response 2 4 0)).script ++ []) ++ (ts1 ++ (ts2 ++ []))) (Realize.robot (F := XR) ts)) := by
    have := setters_did g1 hb0 (hnt hs0)
    rw [← set_default_behavior_eq] at this
    exact this
  obtain ⟨wa, a1, a2, -⟩ := did_eq A
  have hsa := session_snoc hs0 .set_default_behavior (.inl (by rw [a1]))
  rw [a1] at hsa
  have B : Post (RobotCall.run Consecutive.start) wa (Did (.ok ()) tr2 5 (Realize.s1 XR) [] (ts1 ++ (ts2 ++ [])) wa) := by
    have := setters_did g2 a2 (hnt hsa)
    unfold setters setters at this
    rw [bind_pure_unit, ← setter_run hb] at this
    exact this
  obtain ⟨wb, b1, b2, -⟩ := did_eq B
  have hsb := session_snoc hsa Consecutive.start (.inl (by rw [b1]))
  rw [b1] at hsb
  obtain ⟨wc, d1, d2, es1, d3, d4⟩ := did_eq (m1 (ts2 ++ []) hfresh hrt hsb b2)
  have hsc := session_snoc hsb (.joint_motion (Fl.lit (1 / 2)) startPosition) (.inl (by rw [d1]))
  rw [d1] at hsc
  obtain ⟨wd, ps, e1, e2, e3, e4⟩ := m2 [] hfresh hrt hsc d2
  have hnew : (Robot.new none none : Prog XR Unit) (Realize.world (Toy.handshake ++ ts)) = (.ok (), Realize.robot ts) := by
    have e : robotSession none none [] = (Robot.new none none : Prog XR Unit) := by
      unfold robotSession robotCalls
      exact bind_pure_unit _
    rw [← e]
    exact hs0
  have hprog : (Examples.generate_consecutive_motions : Prog XR Unit) =
      (Robot.new none none >>= fun _ => inTurn [.set_default_behavior, Consecutive.start, .joint_motion (lit (1 / 2)) startPosition] >>= fun _ => Examples.consecutive 5) := by
    unfold Examples.generate_consecutive_motions inTurn inTurn inTurn inTurn
    simp only [Prog.bind_assoc']
    rfl
  have hturn : inTurn [.set_default_behavior, Consecutive.start, .joint_motion (lit (1 / 2)) startPosition] (Realize.robot (F := XR) ts) = (.ok (), wc) := by
    unfold inTurn
    rw [bind_ok_eq a1]
    unfold inTurn
    rw [bind_ok_eq b1]
    unfold inTurn
    rw [bind_ok_eq d1]
    rfl
  have hfull : Examples.generate_consecutive_motions (Realize.world (F := XR) (Toy.handshake ++ ts)) = (.ok (), wd) := by
    rw [hprog, bind_ok_eq hnew, bind_ok_eq hturn, e1]
  have hrb : RobotReachable wb := ⟨none, none, _, _, hfresh, hsb⟩
  obtain ⟨e, rest, p1, p2, p3, -⟩ := control_part hrb (.jointMotion (F := XR) (lit (1 / 2)) startPosition) (.inl (by rw [d1]))
  have e0 := newEvents_of_grows (call_grows (RobotCall.joint_motion (lit (1 / 2)) startPosition) wb)
  rw [d1] at p1 e0
  refine ⟨wire, _, visible wb.trace, newEvents wb wc, ps, hfresh, by rw [hfull], ⟨?_, no_move_before hfresh hnew a1 b1, ?_⟩, e2, ?_, fun b hb => (e4 b hb).2⟩
  · rw [hfull, e3, e0, List.flatten_cons, List.append_assoc]
  · intro m hm
    rcases List.mem_cons.1 hm with rfl | hm
    · exact ⟨e, rest, p1, p2, p3⟩
    · exact (e4 m hm).1.divided
  · rw [d3] at e0
    rw [← List.append_cancel_left e0, ← exchanges_alike d4, RobotFrom.motion_pairs (k := .JointPositions) (o := outAt T path) hfin hend]
    refine follows (by omega) (fun i => by rw [hx]; rfl) fun n => ?_
    unfold sentCmd
    split <;> (subst hx; rfl)

end Verif
