import Verif.Spec.ProgramMotions
import Verif.Props.Programs
import Verif.Props.FollowHappens
import Verif.Lemmas.PlannedSession
import Verif.Props.ExamplePosition
import Verif.Props.ExampleVelocity
/-!
# How the robot moves in whole example programs: C96
-/
set_option linter.unusedSectionVars false
namespace Verif
open Prog Spec Fl

section
variable {F : Type} [Fl F] [Wire F] [Geo F]

/-! ## The motions of a program -/

theorem fold_from (l : List (RobotState F × RobotCommand F)) : ∀ (tr : List (Ev F)) (p : Option (RobotState F)) (l' : List (RobotState F × RobotCommand F)),
    tr.foldl exchangeStep (p, l ++ l') = ((tr.foldl exchangeStep (p, l')).1, l ++ (tr.foldl exchangeStep (p, l')).2)
  | [], _, _ => rfl
  | e :: tr, p, l' => by
    have : exchangeStep (p, l ++ l') e = ((exchangeStep (p, l') e).1, l ++ (exchangeStep (p, l') e).2) := by
      cases e <;> cases p <;> simp [exchangeStep]
    rw [List.foldl_cons, List.foldl_cons, this]
    exact fold_from l tr _ _

/-- No state is left unanswered. -/
def NonePending (tr : List (Ev F)) : Prop := (tr.foldl exchangeStep (none, [])).1 = none

theorem NonePending.append {a b : List (Ev F)} (ha : NonePending a) (hb : NonePending b) : NonePending (a ++ b) ∧ exchanges (a ++ b) = exchanges a ++ exchanges b := by
  unfold NonePending exchanges at *
  have e : (a ++ b).foldl exchangeStep (none, []) = (none, (a.foldl exchangeStep (none, [])).2 ++ (b.foldl exchangeStep (none, [])).2) := by
    rw [List.foldl_append, show a.foldl exchangeStep (none, []) = (none, (a.foldl exchangeStep (none, [])).2 ++ []) from Prod.ext ha (by simp), fold_from]
    exact Prod.ext hb (by simp)
  rw [e]
  exact ⟨rfl, rfl⟩

theorem no_exchange {tr : List (Ev F)} (h : ∀ e ∈ tr, (∃ r, e = .robotReq r) ∨ ∃ s, e = .accepted s) : NonePending tr ∧ exchanges tr = [] := by
  have : tr.foldl exchangeStep (none, []) = (none, []) := by
    induction tr with
    | nil => rfl
    | cons e tr ih =>
      rw [List.foldl_cons]
      rcases h e (List.mem_cons_self ..) with ⟨r, rfl⟩ | ⟨s, rfl⟩ <;> exact ih fun e he => h e (List.mem_cons_of_mem _ he)
  unfold NonePending exchanges
  rw [this]
  exact ⟨rfl, rfl⟩

theorem turns_unflagged {σ : Type} {k : MotionKind} {call : ControlCall F σ k} {c0 : σ} {l : List (Turn F σ k)} (hg : GoodTurns call c0 l) :
    ∀ x ∈ l, MotionOk k x.m := by
  induction l using List.reverseRecOn with
  | nil => intro x hx; cases hx
  | append_singleton l y ih =>
    have hl : ∀ x ∈ l, MotionOk k x.m := ih fun pre x post e => hg pre x (post ++ [y]) (by rw [e]; simp)
    intro x hx
    rcases List.mem_append.1 hx with hx | hx
    · exact hl x hx
    · rw [List.mem_singleton.1 hx]
      refine (convert_motion_ok (hg l y [] rfl).moved.conv ?_).ok
      unfold mBefore
      cases h : l.getLast? with
      | none => exact motionOk_none k
      | some z => exact hl z (List.mem_of_getLast? h)

/-- A control call that returns Ok makes one motion. -/
theorem control_motion_ok {w : World F} (hw : RobotReachable w) {c : RobotCall F} {σ : Type} {k : MotionKind} {call : ControlCall F σ k} {c0 : σ}
    (hc : IsControl c call c0) (hok : (c.run w).1 = .ok ()) : NonePending (newEvents w (c.run w).2) ∧ OneMotion (exchanges (newEvents w (c.run w).2)) := by
  obtain ⟨s0, ph, -, -, hr, -, hres⟩ := control_events hw hc
  rw [hok] at hres
  obtain ⟨-, s, m, t, rfl, hfin⟩ := hres
  rcases run_turns hr with ⟨-, h, -⟩ | ⟨hp, l, x, h, he⟩
  · exact absurd h hfin.still
  · refine ⟨hp, ?_⟩
    have hpairs := h.pairs
    unfold Pairs at hpairs
    rw [List.map_append] at hpairs
    obtain ⟨pre, q, h1, h2, h3⟩ := List.map_eq_append_iff.1 hpairs
    rw [List.map_singleton] at h3
    obtain ⟨p, rfl, h4⟩ := List.map_eq_singleton_iff.1 h3
    simp only [Prod.mk.injEq] at h4
    have hlast := h.good l x [] rfl
    refine ⟨pre, p, h1, by rw [h4.2.1]; unfold Turn.cmd; rw [he]; rfl, fun z hz => ?_⟩
    have : (z.1, z.2.motion, z.2.control) ∈ l.map fun x => (x.st, x.cmd, x.t) := by rw [← h2]; exact List.mem_map_of_mem hz
    obtain ⟨y, hy, e⟩ := List.mem_map.1 this
    simp only [Prod.mk.injEq] at e
    rw [← e.2.1]
    unfold Turn.cmd
    rw [hlast.moved.earlier y hy]
    exact (turns_unflagged h.good y (List.mem_append_left _ hy)).flag

/-- Requests only. -/
theorem SetterSequence.quiet : ∀ {bs : List (RobotBody F)} {w w' : World F}, SetterSequence bs w (.ok ()) w' →
    ∃ es, visible w'.trace = visible w.trace ++ es ∧ ∀ e ∈ es, ∃ r, e = .robotReq r
  | [], w, w', h => by
    obtain ⟨-, rfl⟩ := h
    exact ⟨[], by simp, by simp⟩
  | b :: bs, w, w', h => by
    obtain ⟨r1, w1, ⟨hd, -, h1⟩, h⟩ := h
    cases r1 with
    | ok v =>
      obtain ⟨es, h2, h3⟩ := SetterSequence.quiet h
      refine ⟨.robotReq ⟨hd, b⟩ :: es, by rw [h2, h1.1]; simp, fun e he => ?_⟩
      rcases List.mem_cons.1 he with rfl | he
      · exact ⟨_, rfl⟩
      · exact h3 e he
    | err e => cases h.1
    | panic m => cases h.1
    | blocked => cases h.1

/-- What a program with the usual beginning does when it returns Ok. -/
theorem usual_ok [FlExtra F] {p : Prog F Unit} {c : RobotCall F} {bs : List (RobotBody F)} (h : Example p (usual c) bs) {w : World F} (hw : Fresh w)
    (hok : (p w).1 = .ok ()) : ∃ w1 w2, Prepared w w1 w2 ∧ RobotReachable w1 ∧ RobotReachable w2 ∧
      (RobotCall.joint_motion (lit (1 / 2)) startPosition).run w1 = (.ok (), w2) ∧ c.run w2 = (.ok (), (p w).2) ∧ ∃ es, visible w1.trace = es ∧ ∀ e ∈ es, (∃ r, e = .robotReq r) ∨ ∃ s, e = .accepted s := by
  have hc := C95_calls h w
  unfold Connects at hc
  split at hc
  · next u wa ha =>
    rw [hok] at hc
    have hra := new_reachable hw ha
    obtain ⟨hd, -, hnew⟩ := C17_robot_new none none w hw
    rw [ha] at hnew
    obtain ⟨s, m, v, hva, -⟩ := hnew
    cases hc with
    | last _ h => exact absurd rfl h
    | @next _ _ _ wb _ _ hb hc =>
    have hrb := hra.after .set_default_behavior (.inl (by rw [hb]))
    rw [hb] at hrb
    have hsb := C19_set_default_behavior wa hra
    have hb' : (Robot.set_default_behavior : Prog F Unit) wa = (.ok (), wb) := hb
    rw [hb'] at hsb
    obtain ⟨es, hes1, hes2⟩ := SetterSequence.quiet hsb
    cases hc with
    | last _ h => exact absurd rfl h
    | @next _ _ _ wc _ _ hcc hc =>
    have hrc := hrb.after (thresholds usualTorques usualForces) (.inl (by rw [hcc]))
    rw [hcc] at hrc
    obtain ⟨hd2, -, h2⟩ := C18_setter (thresholds usualTorques usualForces) _ rfl wb hrb
    rw [hcc] at h2
    cases hc with
    | last _ h => exact absurd rfl h
    | @next _ _ _ wd _ _ hdd hc =>
    have hrd := hrc.after (RobotCall.joint_motion (lit (1 / 2)) startPosition) (.inl (by rw [hdd]))
    rw [hdd] at hrd
    cases hc with
    | last _ h => exact absurd rfl h
    | @next _ _ _ we _ _ hee hc =>
    cases hc
    refine ⟨wc, wd, ⟨_, _, ha, hb, hcc, hdd⟩, hrc, hrd, hdd, hee, _, rfl, fun e he => ?_⟩
    rw [h2.1, hes1, hva] at he
    simp only [List.mem_append, List.mem_cons, List.not_mem_nil, or_false] at he
    rcases he with ((rfl | rfl) | he) | rfl
    · exact .inl ⟨_, rfl⟩
    · exact .inr ⟨_, rfl⟩
    · exact .inl (hes2 e he)
    · exact .inl ⟨_, rfl⟩
  · next r w1 hr h1 =>
    rw [hc] at hok
    exact absurd hok (hr ())

end

/-! ## To the start position -/

theorem startPosition_eq : (startPosition : Arr XR 7) = Arr.fin home := by
  have h4 : ((4 : ℚ) : ℝ) ≠ 0 := by norm_num
  have h2 : ((2 : ℚ) : ℝ) ≠ 0 := by norm_num
  funext i
  unfold startPosition home
  simp only [XR.lit_fin, XR.pi_fin, XR.fin_neg, XR.fin_mul, XR.fin_div _ _ h4, XR.fin_div _ _ h2]
  fin_cases i <;> simp [Arr.fin]

theorem half_eq : (lit (1 / 2) : XR) = .fin (1 / 2) := by
  rw [XR.lit_fin]
  norm_num

section
variable [Wire XR] [Geo XR]

/-- The first motion. -/
theorem leads_home {w w' : World XR} (hw : RobotReachable w) (h : (RobotCall.joint_motion (lit (1 / 2)) startPosition).run w = (.ok (), w')) {start : Fin 7 → ℝ}
    (hg : Gentle (1 / 2) start home) (hf : FollowsJoints start (exchanges (newEvents w w'))) : ∃ rest, LeadsHome start (exchanges (newEvents w w')) rest := by
  rw [half_eq, startPosition_eq] at h
  have hc := IsControl.jointMotion (F := XR) (.fin (1 / 2)) (Arr.fin home)
  obtain ⟨-, pre, z, hl, hz, hpre⟩ := control_motion_ok hw hc (by rw [h])
  obtain ⟨T, path, h0, h1, h2⟩ := C75_joint_motion_goes_as_planned (sf := 1 / 2) (start := start) (goal := home) (by norm_num) (by norm_num) hg
  have hE : newEvents w ((RobotCall.joint_motion (.fin (1 / 2)) (Arr.fin home)).run w).2 = newEvents w w' := by rw [h]
  rw [hE] at hl
  obtain ⟨h3, h4⟩ := h2 w hw (by rw [hE]; exact hf)
  unfold Exchange at h3
  unfold answered at h4
  rw [hE] at h3 h4
  rw [hl] at h3 h4 hf ⊢
  choose a b j1 j2 j3 j4 using h1
  have hlen : (pre ++ [z]).length - 1 = pre.length := by simp
  have hend : T ≤ (pre.length : ℝ) / 1000 := by
    obtain ⟨-, e⟩ := h3 pre.length z.1 z.2 (by simp)
    rw [hz] at e
    exact of_decide_eq_true e.symm
  refine ⟨b, ⟨T, path, h0, by rw [hlen]; exact hend, ?_, fun i => ⟨a i, j1 i, fun h => (j3 i h).1, ?_⟩, fun n p hp => (h3 n p.1 p.2 hp).1⟩, ?_, fun i => ⟨j2 i, fun h => (j3 i h).2⟩⟩
  · rw [hlen]
    rcases Nat.eq_zero_or_pos pre.length with e | e
    · rw [e]
      norm_num
      linarith
    · have := h4 (pre.length - 1) (by simp; omega)
      rw [Nat.cast_sub e] at this
      push_cast at this
      linarith
  · have := j4 i
    rwa [one_div_mul_eq_div, one_div_mul_eq_div] at this
  · intro p hp
    rw [List.getLast?_concat] at hp
    cases hp
    rw [(h3 pre.length z.1 z.2 (by simp)).1]
    congr 1
    funext i
    exact (j4 i).after _ hend

/-- Both motions. -/
theorem two_motions {p : Prog XR Unit} {c : RobotCall XR} {bs : List (RobotBody XR)} (h : Example p (usual c) bs) {w : World XR} (hw : Fresh w)
    (hok : (p w).1 = .ok ()) : ∃ w1 w2, Prepared w w1 w2 ∧ exchanges (visible (p w).2.trace) = exchanges (newEvents w1 w2) ++ exchanges (newEvents w2 (p w).2) ∧
      OneMotion (exchanges (newEvents w1 w2)) ∧ OneMotion (exchanges (newEvents w2 (p w).2)) ∧
      (RobotReachable w2 ∧ c.run w2 = (.ok (), (p w).2) ∧ exchanges (newEvents w2 (p w).2) = exchanges (newEvents w2 (p w).2)) ∧
      ∀ start, Gentle (1 / 2) start home → FollowsJoints start (exchanges (newEvents w1 w2)) → ∃ rest, LeadsHome start (exchanges (newEvents w1 w2)) rest := by
  obtain ⟨w1, w2, hprep, hr1, hr2, h1, h2, es, h3, h4⟩ := usual_ok h hw hok
  have hc1 := IsControl.jointMotion (F := XR) (lit (1 / 2)) startPosition
  obtain ⟨g1, g2⟩ := control_motion_ok hr1 hc1 (by rw [h1])
  rw [h1] at g1 g2
  obtain ⟨σ, k, call, c0, hc2⟩ : ∃ (σ : Type) (k : MotionKind) (call : ControlCall XR σ k) (c0 : σ), IsControl c call c0 := by
    have := (example_eq h).2
    cases h <;> first | exact ⟨_, _, _, _, .motion _ _ _ _ _ _ _⟩ | exact ⟨_, _, _, _, .torques _ _ _ _ _⟩
  obtain ⟨g3, g4⟩ := control_motion_ok hr2 hc2 (by rw [h2])
  rw [h2] at g3 g4
  have e1 := newEvents_of_grows (call_grows (RobotCall.joint_motion (lit (1 / 2)) startPosition) w1)
  have e2 := newEvents_of_grows (call_grows c w2)
  rw [h1] at e1
  rw [h2] at e2
  obtain ⟨k1, k2⟩ := no_exchange h4
  obtain ⟨k3, k4⟩ := NonePending.append k1 g1
  obtain ⟨-, k5⟩ := NonePending.append k3 g3
  refine ⟨w1, w2, hprep, ?_, g2, g4, ⟨hr2, h2, rfl⟩, fun start hg hf => leads_home hr1 h1 hg hf⟩
  rw [e2, e1, h3, k5, k4, k2, List.nil_append]

/-- **C96**: an example with the usual beginning that returns Ok makes two motions. The first one brings the joints, wherever they are at first, to the start position
with half the speed; the second one is that of its control call `c`. (Joints that start less than a fifth of a millirad from there are left out here, see `Gentle`.) -/
theorem C96_two_motions {p : Prog XR Unit} {c : RobotCall XR} {bs : List (RobotBody XR)} (h : Example p (usual c) bs) {w : World XR} (hw : Fresh w)
    (hok : (p w).1 = .ok ()) : ∃ a b w', exchanges (visible (p w).2.trace) = a ++ b ∧ OneMotion a ∧ OneMotion b ∧
      (RobotReachable w' ∧ c.run w' = (.ok (), (p w).2) ∧ b = exchanges (newEvents w' (p w).2)) ∧
      ∀ start, Gentle (1 / 2) start home → FollowsJoints start a → ∃ rest, LeadsHome start a rest := by
  obtain ⟨w1, w2, -, h1, h2, h3, h4, h5⟩ := two_motions h hw hok
  exact ⟨_, _, w2, h1, h2, h3, h4, h5⟩

/-- **C96** for the joint position example: wherever the joints are at first, if the robot follows in both motions and rests in between, then the second motion is the swing around the
start position, with an accuracy of a millirad. -/
theorem C96_position_program {w : World XR} (hw : Fresh w) (hok : (Examples.generate_joint_position_motion w).1 = .ok ()) :
    ∃ a b, exchanges (visible (Examples.generate_joint_position_motion w).2.trace) = a ++ b ∧ OneMotion a ∧ OneMotion b ∧
      ∀ start, Gentle (1 / 2) start home → FollowsJoints start a → ∃ rest, LeadsHome start a rest ∧ (FollowsJoints rest b → b.length = 5001 ∧
        ∀ (n : ℕ) p, b[n]? = some p → ∃ q, p.2.motion.q_c = Arr.fin q ∧ ∀ i, |q i - (home i + swing i ((n : ℝ) / 1000))| ≤ 0.001) := by
  obtain ⟨a, b, w', h1, h2, h3, ⟨h4, h5, h6⟩, h7⟩ := C96_two_motions Example.jointPosition hw hok
  refine ⟨a, b, h1, h2, h3, fun start hg hf => ?_⟩
  obtain ⟨rest, hr⟩ := h7 start hg hf
  refine ⟨rest, hr, fun hf' => ?_⟩
  have h5' : positionExample.run w' = (.ok (), (Examples.generate_joint_position_motion w).2) := h5
  have hE : b = exchanges (newEvents w' (positionExample.run w').2) := by rw [h5', h6]
  rw [hE] at hf'
  obtain ⟨y, -, k2, k3⟩ := C81_position_example h4 hf'
  refine ⟨by rw [hE]; exact k3 (by rw [h5']), fun n p hp => ?_⟩
  obtain ⟨m1, m2, -⟩ := k2 n p.1 p.2 (by unfold Exchange; rw [← hE]; exact hp)
  refine ⟨_, m1, fun i => ?_⟩
  have e1 := abs_le.1 (m2 i)
  have e2 := abs_le.1 (hr.near i).1
  rw [abs_le]
  constructor <;> linarith [e1.1, e1.2, e2.1, e2.2]

/-- **C96** for the joint velocity example: the second motion turns the joints 4 to 7 forth and back, and the arm ends at the start position, but for a hundredth of a millirad. -/
theorem C96_velocity_program {w : World XR} (hw : Fresh w) (hok : (Examples.generate_joint_velocity_motion w).1 = .ok ()) :
    ∃ a b, exchanges (visible (Examples.generate_joint_velocity_motion w).2.trace) = a ++ b ∧ OneMotion a ∧ OneMotion b ∧
      ∀ start, Gentle (1 / 2) start home → FollowsJoints start a → ∃ rest, LeadsHome start a rest ∧ (FollowsVelocities b → b.length = 2001 ∧
        ∃ v : Fin 7 → ℕ → ℝ, (∀ (n : ℕ) p, b[n]? = some p → p.2.motion.dq_c = Arr.fin (fun i => v i n) ∧
          ∀ i, |v i n - forthAndBack 1 1 i ((n : ℝ) / 1000)| ≤ 0.005) ∧
        ∀ i, |rest i + ∑ n ∈ Finset.range b.length, v i n * 0.001 - home i| ≤ 0.000011) := by
  obtain ⟨a, b, w', h1, h2, h3, ⟨h4, h5, h6⟩, h7⟩ := C96_two_motions Example.jointVelocity hw hok
  refine ⟨a, b, h1, h2, h3, fun start hg hf => ?_⟩
  obtain ⟨rest, hr⟩ := h7 start hg hf
  refine ⟨rest, hr, fun hf' => ?_⟩
  have h5' : (velocityExample 1 1).run w' = (.ok (), (Examples.generate_joint_velocity_motion w).2) := h5
  have hE : b = exchanges (newEvents w' ((velocityExample 1 1).run w').2) := by rw [h5', h6]
  rw [hE] at hf'
  obtain ⟨y, -, k2, k3⟩ := C82_velocity_example (K := 1000) (by norm_num) (by norm_num) (by norm_num) h4 hf'
  obtain ⟨k4, k5⟩ := k3 (by rw [h5'])
  have hlen : b.length = answered w' (velocityExample 1 1) := by rw [hE]; rfl
  refine ⟨by rw [hlen, k4], fun i n => y i (n + 1), fun n p hp => ?_, fun i => ?_⟩
  · obtain ⟨m1, m2, -⟩ := k2 n p.1 p.2 (by unfold Exchange; rw [← hE]; exact hp)
    refine ⟨m1, fun i => ?_⟩
    have := m2 i
    norm_num at this ⊢
    exact this
  · rw [hlen]
    have e1 := abs_le.1 (k5 i)
    have e2 := abs_le.1 (hr.near i).1
    rw [abs_le]
    constructor <;> linarith [e1.1, e1.2, e2.1, e2.2]

end
end Verif
