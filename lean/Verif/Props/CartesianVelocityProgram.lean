import Verif.Props.CartesianPrograms
import Verif.Props.ExampleCartesianVelocity
/-!
# How the robot moves in the whole Cartesian velocity program: C96
-/
set_option linter.unusedSectionVars false
namespace Verif
open Prog Spec Fl TwoMotions

namespace TwistProgram
open Toy (asking response)

section
variable {F : Type} [Fl F] [Wire F] [Geo F]

/-- The setters of this program. -/
def stiffness : RobotCall F := .set_joint_impedance ![lit 3000, lit 3000, lit 3000, lit 2500, lit 2500, lit 2000, lit 2000]
def limits : RobotCall F := .set_collision_behavior ![lit 25, lit 25, lit 22, lit 20, lit 19, lit 17, lit 14] ![lit 35, lit 35, lit 32, lit 30, lit 29, lit 27, lit 24]
          ![lit 25, lit 25, lit 22, lit 20, lit 19, lit 17, lit 14] ![lit 35, lit 35, lit 32, lit 30, lit 29, lit 27, lit 24]
          ![lit 30, lit 30, lit 30, lit 25, lit 25, lit 25] ![lit 40, lit 40, lit 40, lit 35, lit 35, lit 35]
          ![lit 30, lit 30, lit 30, lit 25, lit 25, lit 25] ![lit 40, lit 40, lit 40, lit 35, lit 35, lit 35]

/-- The beginning of the program, if all goes well: `w1` is before the motion to the start position, `w2` is after it. -/
def Begun (w w1 w2 : World F) : Prop := ∃ wa wb wc, (Robot.new none none : Prog F Unit) w = (.ok (), wa) ∧ RobotCall.set_default_behavior.run wa = (.ok (), wb) ∧
  stiffness.run wb = (.ok (), wc) ∧ limits.run wc = (.ok (), w1) ∧ (RobotCall.joint_motion (lit (1 / 2)) startPosition).run w1 = (.ok (), w2)

theorem Begun.unique {w w1 w2 w1' w2' : World F} (h : Begun w w1 w2) (h' : Begun w w1' w2') : w1 = w1' ∧ w2 = w2' := by
  obtain ⟨wa, wb, wc, h1, h2, h3, h4, h5⟩ := h
  obtain ⟨wa', wb', wc', h1', h2', h3', h4', h5'⟩ := h'
  rw [h1] at h1'
  cases h1'
  rw [h2] at h2'
  cases h2'
  rw [h3] at h3'
  cases h3'
  rw [h4] at h4'
  cases h4'
  rw [h5] at h5'
  cases h5'
  exact ⟨rfl, rfl⟩

/-- The second motion. -/
def twist [FlExtra F] : RobotCall F := .control_motion _ .CartesianVelocities Examples.cartesian_velocity_callback none none none (lit 0)

/-- What the program does when it returns Ok. -/
theorem ok [FlExtra F] {w : World F} (hw : Fresh w)
    (hok : (Examples.generate_cartesian_velocity_motion w).1 = .ok ()) : ∃ w1 w2, Begun w w1 w2 ∧ RobotReachable w1 ∧ RobotReachable w2 ∧
      (RobotCall.joint_motion (lit (1 / 2)) startPosition).run w1 = (.ok (), w2) ∧ twist.run w2 = (.ok (), (Examples.generate_cartesian_velocity_motion w).2) ∧
      ∃ es, visible w1.trace = es ∧ ∀ e ∈ es, (∃ r, e = .robotReq r) ∨ ∃ s, e = .accepted s := by
  have hc := C95_calls Example.cartesianVelocity w
  unfold Connects at hc
  split at hc
  · next u wa ha =>
    rw [hok] at hc
    have hra := new_reachable hw ha
    obtain ⟨hd, -, hnew⟩ := C17_robot_new none none w hw
    rw [ha] at hnew
    obtain ⟨s, m, v, hva, -⟩ := hnew
    cases hc with
    | last _ h => exact absurd rfl h
    | @next _ _ _ wb _ _ hb hc =>
    have hrb := hra.after .set_default_behavior (.inl (by rw [hb]))
    rw [hb] at hrb
    have hsb := C19_set_default_behavior wa hra
    have hb' : (Robot.set_default_behavior : Prog F Unit) wa = (.ok (), wb) := hb
    rw [hb'] at hsb
    obtain ⟨es, hes1, hes2⟩ := SetterSequence.quiet hsb
    cases hc with
    | last _ h => exact absurd rfl h
    | @next _ _ _ wx _ _ hxx hc =>
    have hrx := hrb.after stiffness (.inl (by unfold stiffness; rw [hxx]))
    have hxx' : stiffness.run wb = (.ok (), wx) := hxx
    rw [hxx'] at hrx
    obtain ⟨hd1, -, hx2⟩ := C18_setter stiffness _ rfl wb hrb
    rw [hxx'] at hx2
    cases hc with
    | last _ h => exact absurd rfl h
    | @next _ _ _ wc _ _ hcc hc =>
    have hcc' : limits.run wx = (.ok (), wc) := hcc
    have hrc := hrx.after limits (.inl (by rw [hcc']))
    rw [hcc'] at hrc
    obtain ⟨hd2, -, h2⟩ := C18_setter limits _ rfl wx hrx
    rw [hcc'] at h2
    cases hc with
    | last _ h => exact absurd rfl h
    | @next _ _ _ wd _ _ hdd hc =>
    have hrd := hrc.after (RobotCall.joint_motion (lit (1 / 2)) startPosition) (.inl (by rw [hdd]))
    rw [hdd] at hrd
    cases hc with
    | last _ h => exact absurd rfl h
    | @next _ _ _ we _ _ hee hc =>
    cases hc
    refine ⟨wc, wd, ⟨_, _, _, ha, hb, hxx', hcc', hdd⟩, hrc, hrd, hdd, hee, _, rfl, fun e he => ?_⟩
    rw [h2.1, hx2.1, hes1, hva] at he
    simp only [List.mem_append, List.mem_cons, List.not_mem_nil, or_false] at he
    rcases he with (((rfl | rfl) | he) | rfl) | rfl
    · exact .inl ⟨_, rfl⟩
    · exact .inr ⟨_, rfl⟩
    · exact .inl (hes2 e he)
    · exact .inl ⟨_, rfl⟩
    · exact .inl ⟨_, rfl⟩
  · next r w1 hr h1 =>
    rw [hc] at hok
    exact absurd hok (hr ())

end

section
variable [Wire XR] [Geo XR]

/-- Both motions. -/
theorem motions {w : World XR} (hw : Fresh w) (hok : (Examples.generate_cartesian_velocity_motion w).1 = .ok ()) : ∃ w1 w2, Begun w w1 w2 ∧
      exchanges (visible (Examples.generate_cartesian_velocity_motion w).2.trace) =
        exchanges (newEvents w1 w2) ++ exchanges (newEvents w2 (Examples.generate_cartesian_velocity_motion w).2) ∧
      OneMotion (exchanges (newEvents w1 w2)) ∧ OneMotion (exchanges (newEvents w2 (Examples.generate_cartesian_velocity_motion w).2)) ∧
      (RobotReachable w2 ∧ twist.run w2 = (.ok (), (Examples.generate_cartesian_velocity_motion w).2)) ∧
      ∀ start, Gentle (1 / 2) start home → FollowsJoints start (exchanges (newEvents w1 w2)) → ∃ rest, LeadsHome start (exchanges (newEvents w1 w2)) rest := by
  obtain ⟨w1, w2, hprep, hr1, hr2, h1, h2, es, h3, h4⟩ := ok hw hok
  have hc1 := IsControl.jointMotion (F := XR) (lit (1 / 2)) startPosition
  obtain ⟨g1, g2⟩ := control_motion_ok hr1 hc1 (by rw [h1])
  rw [h1] at g1 g2
  obtain ⟨σ, k, call, c0, hc2⟩ : ∃ (σ : Type) (k : MotionKind) (call : ControlCall XR σ k) (c0 : σ), IsControl (F := XR) twist call c0 := ⟨_, _, _, _, .motion _ _ _ _ _ _ _⟩
  obtain ⟨g3, g4⟩ := control_motion_ok hr2 hc2 (by rw [h2])
  rw [h2] at g3 g4
  have e1 := newEvents_of_grows (call_grows (RobotCall.joint_motion (lit (1 / 2)) startPosition) w1)
  have e2 := newEvents_of_grows (call_grows twist w2)
  rw [h1] at e1
  rw [h2] at e2
  obtain ⟨k1, k2⟩ := no_exchange h4
  obtain ⟨k3, k4⟩ := NonePending.append k1 g1
  obtain ⟨-, k5⟩ := NonePending.append k3 g3
  refine ⟨w1, w2, hprep, ?_, g2, g4, ⟨hr2, h2⟩, fun start hg hf => leads_home hr1 h1 hg hf⟩
  rw [e2, e1, h3, k5, k4, k2, List.nil_append]

end
end TwistProgram
open TwistProgram

/-- **C96** for the Cartesian velocity example: wherever the joints are at first, if the robot follows in both motions and rests in between, then the first one leads to the start
position, and the second one moves the end effector forward and down and back, without turning it, and it is back within a thousandth of a millimetre. -/
theorem C96_cartesian_velocity_program [Wire XR] [Geo XR] {w : World XR} (hw : Fresh w) (hok : (Examples.generate_cartesian_velocity_motion w).1 = .ok ()) :
    ∃ a b, exchanges (visible (Examples.generate_cartesian_velocity_motion w).2.trace) = a ++ b ∧ OneMotion a ∧ OneMotion b ∧
      (∀ start, Gentle (1 / 2) start home → FollowsJoints start a → ∃ rest, LeadsHome start a rest) ∧
      (FollowsTwists b → b.length = 8001 ∧ ∃ v : ℕ → Fin 6 → ℝ,
        (∀ (n : ℕ) p, b[n]? = some p → p.2.motion.O_dP_EE_c = Arr.fin (v n) ∧ p.2.motion.valid_elbow = false ∧
          len (fun i => linear (v n) i - linear (fun i => downAndBack i ((n : ℝ) / 1000)) i) ≤ 0.00013 ∧ angular (v n) = fun _ => 0) ∧
        len (fun i => ∑ n ∈ Finset.range b.length, linear (v n) i * 0.001) ≤ 0.000001) := by
  obtain ⟨w1, w2, -, h1, h2, h3, ⟨h4, h5⟩, h7⟩ := motions hw hok
  refine ⟨_, _, h1, h2, h3, h7, fun hf => ?_⟩
  have h5' : cartesianVelocityExample.run w2 = (.ok (), (Examples.generate_cartesian_velocity_motion w).2) := h5
  obtain ⟨b, hb⟩ : ∃ b, b = exchanges (newEvents w2 (Examples.generate_cartesian_velocity_motion w).2) := ⟨_, rfl⟩
  rw [← hb] at hf ⊢
  have hE : b = exchanges (newEvents w2 (cartesianVelocityExample.run w2).2) := by rw [h5', hb]
  rw [hE] at hf
  obtain ⟨y, -, -, k2, k3⟩ := C89_cartesian_velocity_example h4 hf
  obtain ⟨k4, k5⟩ := k3 (by rw [h5'])
  have hlen : b.length = answered w2 cartesianVelocityExample := by rw [hE]; rfl
  refine ⟨by rw [hlen, k4], fun n => sample y (n + 1), fun n p hp => ?_, ?_⟩
  · obtain ⟨m1, m2, m3, m4, -⟩ := k2 n p.1 p.2 (by unfold Exchange; rw [← hE]; exact hp)
    exact ⟨m1, m4, m2, funext m3⟩
  · rw [hlen]
    exact k5

/-! ## This program happens -/

namespace TwistProgram
open Toy (asking response)

section
variable {F : Type} [Fl F] [Wire F] [Geo F] {σ : Type} {k : MotionKind}
variable {call : ControlCall F σ k} {c0 : σ} {cs : ℕ → σ} {o : ℕ → Motion F k} {ms : ℕ → MotionGeneratorCommand F} {R : ℕ → RobotState F → Prop}

theorem setting (b b' : RobotBody F) (hb : kind b = .SetJointImpedance) (hb' : kind b' = .SetCollisionBehavior) :
    (∃ tr, Setting (F := F) 4 [b] ((asking (response 3 4 0)).script ++ []) (.ok ()) tr 5) ∧
    ∃ tr, Setting (F := F) 5 [b'] ((asking (response 2 5 0)).script ++ []) (.ok ()) tr 6 :=
  ⟨⟨_, .next (m := response 3 4 0) _ ⟨.SetJointImpedance, 4, 0⟩ (by decide) hb.symm ⟨⟨by decide, rfl, rfl⟩, rfl, by decide⟩ rfl (Toy.asking_brings (response 3 4 0)) <| .nil 5⟩,
    _, .next (m := response 2 5 0) _ ⟨.SetCollisionBehavior, 5, 0⟩ (by decide) hb'.symm ⟨⟨by decide, rfl, rfl⟩, rfl, by decide⟩ rfl (Toy.asking_brings (response 2 5 0)) <| .nil 6⟩

/-- The program with planned motions happens. -/
theorem happens [FlExtra F] (hp : IsPlanOf call c0 cs o ms R) {s2 sE : RobotStateIntern F} {s : ℕ → RobotStateIntern F} {N : ℕ} (hr : RobotFrom call R (Realize.s1 F) N s2 s sE)
    (hfin : ∀ n < N, (o n).is_finished = false) (hend : (o N).is_finished = true) (hc : IsControl (.joint_motion (Fl.lit (1 / 2)) startPosition) call c0)
    {σ' : Type} {k' : MotionKind} {call' : ControlCall F σ' k'} {c0' : σ'} {cs' : ℕ → σ'} {o' : ℕ → Motion F k'} {ms' : ℕ → MotionGeneratorCommand F}
    {R' : ℕ → RobotState F → Prop} (hp' : IsPlanOf call' c0' cs' o' ms' R') {s2' sE' : RobotStateIntern F} {s' : ℕ → RobotStateIntern F} {N' : ℕ}
    (hr' : RobotFrom call' R' sE N' s2' s' sE') (hfin' : ∀ n < N', (o' n).is_finished = false) (hend' : (o' N').is_finished = true) (hc' : IsControl twist call' c0') :
    ∃ w w1 w2, Fresh w ∧ (Examples.generate_cartesian_velocity_motion w).1 = .ok () ∧ Begun w w1 w2 ∧ exchanges (newEvents w1 w2) = RobotFrom.pairs o ms s N ∧
      exchanges (newEvents w2 (Examples.generate_cartesian_velocity_motion w).2) = RobotFrom.pairs o' ms' s' N' := by
  obtain ⟨ts1, m1⟩ := planned_did hp hr hfin hend hc (id := 6) (by decide)
  obtain ⟨ts2, m2⟩ := planned_did hp' hr' hfin' hend' hc' (id := 7) (by decide)
  obtain ⟨tr1, g1⟩ := setup_setting (F := F)
  obtain ⟨b, hb⟩ : ∃ b, setterRequest (stiffness (F := F)) = some b := ⟨_, rfl⟩
  obtain ⟨b', hb'⟩ : ∃ b, setterRequest (limits (F := F)) = some b := ⟨_, rfl⟩
  obtain ⟨⟨tr2, g2⟩, tr3, g3⟩ := setting b b' (by cases hb; rfl) (by cases hb'; rfl)
  let ts := setupTicks ++ (((asking (response 3 4 0)).script ++ []) ++ (((asking (response 2 5 0)).script ++ []) ++ (ts1 ++ (ts2 ++ []))))
  have hfresh := Realize.fresh (F := F) (Toy.handshake ++ ts)
  have hrt : RealTimeGranted none (Realize.world (F := F) (Toy.handshake ++ ts)) := .inr ⟨rfl, rfl, rfl, rfl⟩
  have hs0 := Realize.robot_session (F := F) ts
  have hb0 := Realize.robot_between (F := F) ts
  have hnt : ∀ {cs0 : List (RobotCall F)} {w : World F}, robotSession none none cs0 (Realize.world (F := F) (Toy.handshake ++ ts)) = (.ok (), w) → w.cfg.network_type = .Robot :=
    fun {cs0 w} hs => (RobotReachable.alive (show RobotReachable w from ⟨none, none, cs0, _, hfresh, hs⟩)).1.type
  have A : Post (RobotCall.run .set_default_behavior) (Realize.robot (F := F) ts) (Did (.ok ()) tr1 4 (Realize.s1 F) []
      (((asking (response 3 4 0)).script ++ []) ++ (((asking (response 2 5 0)).script ++ []) ++ (ts1 ++ (ts2 ++ [])))) (Realize.robot (F := F) ts)) := by
    have := setters_did g1 hb0 (hnt hs0)
    rw [← set_default_behavior_eq] at this
    exact this
  obtain ⟨wa, a1, a2, -⟩ := did_eq A
  have hsa := session_snoc hs0 .set_default_behavior (.inl (by rw [a1]))
  rw [a1] at hsa
  have B : Post (RobotCall.run stiffness) wa (Did (.ok ()) tr2 5 (Realize.s1 F) [] (((asking (response 2 5 0)).script ++ []) ++ (ts1 ++ (ts2 ++ []))) wa) := by
    have := setters_did g2 a2 (hnt hsa)
    unfold setters setters at this
    rw [bind_pure_unit, ← setter_run hb] at this
    exact this
  obtain ⟨wx, x1, x2, -⟩ := did_eq B
  have hsx := session_snoc hsa stiffness (.inl (by rw [x1]))
  rw [x1] at hsx
  have C : Post (RobotCall.run limits) wx (Did (.ok ()) tr3 6 (Realize.s1 F) [] (ts1 ++ (ts2 ++ [])) wx) := by
    have := setters_did g3 x2 (hnt hsx)
    unfold setters setters at this
    rw [bind_pure_unit, ← setter_run hb'] at this
    exact this
  obtain ⟨wb, b1, b2, -⟩ := did_eq C
  have hsb := session_snoc hsx limits (.inl (by rw [b1]))
  rw [b1] at hsb
  obtain ⟨wc, d1, d2, es1, d3, d4⟩ := did_eq (m1 (ts2 ++ []) hfresh hrt hsb b2)
  have hsc := session_snoc hsb (.joint_motion (Fl.lit (1 / 2)) startPosition) (.inl (by rw [d1]))
  rw [d1] at hsc
  obtain ⟨wd, e1, e2, es2, e3, e4⟩ := did_eq (m2 [] hfresh hrt hsc d2)
  obtain ⟨hpe, -⟩ := example_eq (Example.cartesianVelocity (F := F))
  have hnew : (Robot.new none none : Prog F Unit) (Realize.world (Toy.handshake ++ ts)) = (.ok (), Realize.robot ts) := by
    have e : robotSession none none [] = (Robot.new none none : Prog F Unit) := by
      unfold robotSession robotCalls
      exact bind_pure_unit _
    rw [← e]
    exact hs0
  have hfull : Examples.generate_cartesian_velocity_motion (Realize.world (Toy.handshake ++ ts)) = (.ok (), wd) := by
    rw [hpe, bind_ok_eq hnew]
    show inTurn [.set_default_behavior, stiffness, limits, .joint_motion (lit (1 / 2)) startPosition, twist] _ = _
    unfold inTurn
    rw [bind_ok_eq a1]
    unfold inTurn
    rw [bind_ok_eq x1]
    unfold inTurn
    rw [bind_ok_eq b1]
    unfold inTurn
    rw [bind_ok_eq d1]
    unfold inTurn
    rw [bind_ok_eq e1]
    rfl
  refine ⟨_, wb, wc, hfresh, by rw [hfull], ⟨_, _, _, hnew, a1, x1, b1, d1⟩, ?_, ?_⟩
  · have := newEvents_of_grows (call_grows (RobotCall.joint_motion (Fl.lit (1 / 2)) startPosition) wb)
    rw [d1, d3] at this
    rw [← List.append_cancel_left this, ← exchanges_alike d4, RobotFrom.motion_pairs hfin hend]
  · rw [hfull]
    have := newEvents_of_grows (call_grows twist wc)
    rw [e1, e3] at this
    rw [← List.append_cancel_left this, ← exchanges_alike e4, RobotFrom.motion_pairs hfin' hend']

end

/-- A robot that reports these velocities follows them. -/
theorem follows_twists {k : MotionKind} {g : ControllerMode} {o : ℕ → Motion XR k} {ms : ℕ → MotionGeneratorCommand XR} {y : Fin 6 → ℕ → ℝ} {T : ℕ → Arr XR 16}
    {e de dde : ℕ → Arr XR 2} {M N : ℕ} (hN : M + N ≤ 2 ^ 40) (h0 : ∀ i, y i 0 = 0) (hq : ∀ n, (sentCmd o ms n).O_dP_EE_c = Arr.fin (sample y (n + 1))) :
    FollowsTwists (RobotFrom.pairs o ms (cartesianReports M k g T (fun n => Arr.fin (sample y n)) (fun n => Arr.fin fun i => rate (y i) n) e de dde) N) := by
  refine ⟨?_, ?_⟩
  · intro p hp
    unfold RobotFrom.pairs at hp
    rw [List.range_succ_eq_map] at hp
    cases hp
    exact ⟨congrArg Arr.fin (funext h0), rfl⟩
  · unfold RobotFrom.pairs
    rw [List.isChain_iff_getElem]
    intro j hj
    simp only [List.length_map, List.length_range] at hj
    simp only [List.getElem_map, List.getElem_range]
    refine ⟨?_, (hq j).symm, ?_⟩
    · show (UInt64.ofNat (M + 2 + (j + 1))).toNat = (UInt64.ofNat (M + 2 + j)).toNat + 1
      rw [UInt64.toNat_ofNat', UInt64.toNat_ofNat', Nat.mod_eq_of_lt (by omega), Nat.mod_eq_of_lt (by omega)]
      rfl
    · intro i
      show XR.fin (rate (y i) (j + 1)) = (XR.fin _ - XR.fin _) / _
      rw [XR.fin_sub, XR.fin_div _ _ (by norm_num)]
      rfl

end TwistProgram

/-- **C96**, without hypotheses on the robot, for the Cartesian velocity program. -/
theorem C96_cartesian_velocity_program_happens [Geo XR] {start : Fin 7 → ℝ} (hg : Gentle (1 / 2) start home) (hnear : ∀ i, |home i - start i| ≤ 400000) :
    ∃ (_ : Wire XR) (w : World XR) (a b : List (RobotState XR × RobotCommand XR)), Fresh w ∧ (Examples.generate_cartesian_velocity_motion w).1 = .ok () ∧
      exchanges (visible (Examples.generate_cartesian_velocity_motion w).2.trace) = a ++ b ∧ OneMotion a ∧ OneMotion b ∧
      FollowsJoints start a ∧ FollowsTwists b := by
  obtain ⟨g0, T, path, N, hN, hp, hfin, hend⟩ := first hg hnear
  have hp' := CartesianVelocityExample.plan
  obtain ⟨x, hx⟩ : ∃ x, x = fun i => samples (start i) (path i) := ⟨_, rfl⟩
  obtain ⟨y, hy⟩ : ∃ y, y = limitedTwist 100 CartesianVelocityExample.target := ⟨_, rfl⟩
  rw [← hx] at hp
  rw [← hy] at hp'
  obtain ⟨wire, k0, k1, k2⟩ := kept_mixed (N := N) (N' := 8000) (fun n => Arr.fin fun i => x i n) (fun n => Arr.fin fun i => rate (x i) n) (fun n => Arr.fin fun i => rate (rate (x i)) n)
    (fun _ _ => lit 0) (fun n => Arr.fin (sample y n)) (fun n => Arr.fin fun i => rate (y i) n) (fun _ _ => lit 0) (fun _ _ => lit 0) (fun _ _ => lit 0) (by omega) (by omega)
  have r1 := robot_from (call := jointCall) (R := PositionsReported x) (N := N) (M := 1) Realize.s1_idle idle_id (by omega) _ _ _ k0 k1 fun n st _ e1 e2 e3 => ⟨e1, e2, e3⟩
  have r2 := cartesian_robot_from (call := CartesianVelocityExample.call) (R := TwistsReported y) (N := 8000) (M := 1 + N + 3) (rests_still _) (rests_id (by omega)) (by omega) _ _ _ _ _ _ k0 k2
    fun n st _ _ e2 e3 _ _ _ => ⟨e2, e3⟩
  obtain ⟨w, w1, w2, h1, h2, h3, h5, h6⟩ := TwistProgram.happens hp r1 hfin hend TwoMotions.isControl hp' r2
    (fun n hn => decide_eq_false (by omega : ¬ 8000 ≤ n)) (by show decide (8000 ≤ 8000) = true; simp) CartesianVelocityExample.isControl
  obtain ⟨w1', w2', g1, g2, g3, g4, -, -⟩ := motions h1 h2
  obtain ⟨rfl, rfl⟩ := h3.unique g1
  have f1 : FollowsJoints start (exchanges (newEvents w1 w2)) := by
    rw [h5]
    refine follows (by omega) (fun i => by rw [hx]; rfl) fun n => ?_
    unfold sentCmd
    split <;> (subst hx; rfl)
  refine ⟨wire, w, _, _, h1, h2, g2, g3, g4, f1, ?_⟩
  rw [h6]
  refine follows_twists (by omega) (fun i => by rw [hy]; exact CartesianVelocityExample.y_zero i) fun n => ?_
  unfold sentCmd
  split <;> rfl

end Verif
