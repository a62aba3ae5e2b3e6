import Verif.Spec.ConsecutiveMotions
import Verif.Props.ProgramMotionsHappen
/-!
# How the robot moves in the example with several motions: C103
-/
set_option linter.unusedSectionVars false
namespace Verif
open Prog Spec Fl

namespace Consecutive

section
variable {F : Type} [Fl F] [Wire F] [Geo F]

theorem move_asked {tr : List (Ev F)} {e : Ev F} (he : e ∈ tr) (hm : IsMove e) : ∃ m, .Move m ∈ asked tr := by
  obtain ⟨h, m, rfl⟩ := hm
  refine ⟨m, List.mem_map.2 ⟨⟨h, .Move m⟩, ?_, rfl⟩⟩
  unfold requests
  exact List.mem_filterMap.2 ⟨_, he, rfl⟩

theorem exchanges_request (tr : List (Ev F)) (r : RobotReq F) : exchanges (tr ++ [.robotReq r]) = exchanges tr := by
  unfold exchanges
  rw [List.foldl_append]
  rfl

/-- A control call that returns Ok or a ControlException starts with its Move request, and sends no other one. -/
theorem control_part {w : World F} (hw : RobotReachable w) {c : RobotCall F} {σ : Type} {k : MotionKind} {call : ControlCall F σ k} {c0 : σ} (hc : IsControl c call c0)
    (hr : (c.run w).1 = .ok () ∨ ∃ l m, (c.run w).1 = .err (.ControlException l m)) :
    ∃ e rest, newEvents w (c.run w).2 = e :: rest ∧ IsMove e ∧ (∀ e' ∈ rest, ¬ IsMove e') ∧ ¬ Recovers (newEvents w (c.run w).2) := by
  obtain ⟨s0, ph, -, -, hrun, -, hres⟩ := control_events hw hc
  rcases run_move hrun with ⟨h, hph⟩ | ⟨hd, tr, h, -, hmove, -, -⟩
  · exfalso
    rcases hr with hok | ⟨l, m, he⟩
    · rw [hok] at hres
      obtain ⟨-, s, m, t, h1, -⟩ := hres
      rw [hph] at h1
      cases h1
    · rw [he] at hres
      obtain ⟨-, ⟨-, -, m, h1⟩ | ⟨s, h1, -⟩ | ⟨s, h1, -⟩⟩ := hres
      · cases h1
      · rw [hph] at h1; cases h1
      · rw [hph] at h1; cases h1
  · refine ⟨_, tr, h, ⟨_, _, rfl⟩, hmove, ?_⟩
    rintro ⟨hd', hin⟩
    rcases run_requests hrun hin with ⟨_, _, h1⟩ | ⟨_, h1⟩ <;> cases h1

variable [FlExtra F]

/-- One of the motions: the call, and the request to recover, if it failed. -/
inductive Part (m : List (Ev F)) : Prop where
  | fine {w w' : World F} : RobotReachable w → consecutiveMotion.run w = (.ok (), w') → m = newEvents w w' → Part m
  | recovered {w w' : World F} (l msg h) : RobotReachable w → consecutiveMotion.run w = (.err (.ControlException l msg), w') →
      m = newEvents w w' ++ [.robotReq ⟨h, .AutomaticErrorRecovery⟩] → Part m

theorem isControl : ∃ (σ : Type) (k : MotionKind) (call : ControlCall F σ k) (c0 : σ), IsControl (F := F) consecutiveMotion call c0 :=
  ⟨_, _, _, _, .motion _ .JointVelocities (Examples.velocity_callback (F := F) (lit (1 / 5)) (lit 4)) none none none (lit 0)⟩

theorem Part.divided {m : List (Ev F)} (h : Part m) : ∃ e rest, m = e :: rest ∧ IsMove e ∧ ∀ e' ∈ rest, ¬ IsMove e' := by
  obtain ⟨σ, k, call, c0, hc⟩ := isControl (F := F)
  cases h with
  | @fine w w' hw h1 h2 =>
    obtain ⟨e, rest, g1, g2, g3, -⟩ := control_part hw hc (.inl (by rw [h1]))
    rw [h1] at g1
    exact ⟨e, rest, h2.trans g1, g2, g3⟩
  | @recovered w w' l msg hd hw h1 h2 =>
    obtain ⟨e, rest, g1, g2, g3, -⟩ := control_part hw hc (.inr ⟨l, msg, by rw [h1]⟩)
    rw [h1] at g1
    refine ⟨e, rest ++ [.robotReq ⟨hd, .AutomaticErrorRecovery⟩], by rw [h2, g1]; rfl, g2, fun e' he => ?_⟩
    rcases List.mem_append.1 he with he | he
    · exact g3 e' he
    · rw [List.mem_singleton.1 he]
      rintro ⟨_, _, h⟩
      cases h

theorem Part.one {m : List (Ev F)} (h : Part m) (hr : ¬ Recovers m) : OneMotion (exchanges m) := by
  obtain ⟨σ, k, call, c0, hc⟩ := isControl (F := F)
  cases h with
  | @fine w w' hw h1 h2 =>
    have := (control_motion_ok hw hc (by rw [h1])).2
    rw [h1] at this
    rw [h2]
    exact this
  | recovered l msg hd hw h1 h2 => exact absurd ⟨hd, by rw [h2]; simp⟩ hr

/-- What happens in `n` motions that end well. -/
theorem parts {n : ℕ} {w w' : World F} {r : Res F Unit} (h : Motions n w r w') : r = .ok () → RobotReachable w →
    ∃ ps : List (List (Ev F)), ps.length = n ∧ visible w'.trace = visible w.trace ++ ps.flatten ∧ ∀ m ∈ ps, Part m := by
  induction h with
  | done w => exact fun _ _ => ⟨[], rfl, by simp, by simp⟩
  | @fine n w w1 r w2 h1 h2 ih =>
    intro hr hw
    have hw1 := hw.after consecutiveMotion (.inl (by rw [h1]))
    have e := newEvents_of_grows (call_grows consecutiveMotion w)
    rw [h1] at hw1 e
    obtain ⟨ps, g1, g2, g3⟩ := ih hr hw1
    refine ⟨newEvents w w1 :: ps, by rw [List.length_cons, g1], by rw [g2, e]; simp, ?_⟩
    intro m hm
    rcases List.mem_cons.1 hm with rfl | hm
    · exact .fine hw h1 rfl
    · exact g3 m hm
  | @recovered n w l msg w1 w2 r w3 h1 h2 h3 ih =>
    intro hr hw
    have hw1 := hw.after consecutiveMotion (.inr ⟨_, by rw [h1]⟩)
    have e := newEvents_of_grows (call_grows consecutiveMotion w)
    rw [h1] at hw1 e
    have hw2 := hw1.after .automatic_error_recovery (.inl (by rw [h2]))
    obtain ⟨hd, -, hx⟩ := C20_automatic_error_recovery w1 hw1
    have h2' : Robot.automatic_error_recovery w1 = (.ok (), w2) := h2
    rw [h2'] at hx
    rw [h2] at hw2
    obtain ⟨ps, g1, g2, g3⟩ := ih hr hw2
    refine ⟨(newEvents w w1 ++ [.robotReq ⟨hd, .AutomaticErrorRecovery⟩]) :: ps, by rw [List.length_cons, g1], by rw [g2, hx.1, e]; simp, ?_⟩
    intro m hm
    rcases List.mem_cons.1 hm with rfl | hm
    · exact .recovered _ _ _ hw h1 rfl
    · exact g3 m hm
  | lost _ _ hr => exact fun h => absurd h hr
  | failed _ hr => exact fun h => absurd h hr

/-- The beginning of the program. -/
def start : RobotCall F := thresholds ![lit 10, lit 10, lit 9, lit 9, lit 6, lit 7, lit 6] ![lit 10, lit 10, lit 10, lit (25 / 2), lit (25 / 2), lit (25 / 2)]

theorem no_move_before {w wa wb wc : World F} (hw : Fresh w) (ha : (Robot.new none none : Prog F Unit) w = (.ok (), wa)) (hb : RobotCall.set_default_behavior.run wa = (.ok (), wb))
    (hc : start.run wb = (.ok (), wc)) : ∀ e ∈ visible wc.trace, ¬ IsMove e := by
  intro e he hmv
  have hnew := new_asks w hw
  have hra := new_reachable hw ha
  rw [ha] at hnew
  have q0 := hnew.all rfl
  have hrb := hra.after .set_default_behavior (.inl (by rw [hb]))
  have q1 := (AsksFor.default (F := F)).call hra
  rw [hb] at hrb q1
  have q2 := (AsksFor.setter (c := start) rfl).call hrb
  rw [hc] at q2
  obtain ⟨m, hin⟩ := move_asked he hmv
  rw [asked_visible, q2.all rfl, q1.all rfl, q0] at hin
  simp [robotHello, defaultBehavior] at hin

/-- What the program does when it returns Ok: `w1` is before the motion to the start position and `w2` is after it. -/
theorem ok {w : World F} (hw : Fresh w) (hok : (Examples.generate_consecutive_motions w).1 = .ok ()) :
    ∃ w1 w2, RobotReachable w1 ∧ RobotReachable w2 ∧ (∀ e ∈ visible w1.trace, ¬ IsMove e) ∧ (RobotCall.joint_motion (lit (1 / 2)) startPosition).run w1 = (.ok (), w2) ∧
      Motions 5 w2 (.ok ()) (Examples.generate_consecutive_motions w).2 := by
  have hc := C95_consecutive w
  unfold Connects at hc
  split at hc
  · next u wa ha =>
    rw [hok] at hc
    obtain ⟨r1, w2, h1, h2, h3⟩ := hc
    have hr : r1 = .ok () := by
      by_contra h
      exact h (h3 h).1.symm
    subst hr
    have hm := h2 rfl
    have hra := new_reachable hw ha
    cases h1 with
    | last _ h => exact absurd rfl h
    | @next _ _ _ wb _ _ hb hc =>
    have hrb := hra.after .set_default_behavior (.inl (by rw [hb]))
    rw [hb] at hrb
    cases hc with
    | last _ h => exact absurd rfl h
    | @next _ _ _ wc _ _ hcc hc =>
    have hcc' : start.run wb = (.ok (), wc) := hcc
    have hrc := hrb.after start (.inl (by rw [hcc']))
    rw [hcc'] at hrc
    cases hc with
    | last _ h => exact absurd rfl h
    | @next _ _ _ wd _ _ hdd hc =>
    have hrd := hrc.after (RobotCall.joint_motion (lit (1 / 2)) startPosition) (.inl (by rw [hdd]))
    rw [hdd] at hrd
    cases hc
    exact ⟨wc, _, hrc, hrd, no_move_before hw ha hb hcc', hdd, hm⟩
  · next r w1 hr h1 =>
    rw [hc] at hok
    exact absurd hok (hr ())

end

section
variable [Wire XR] [Geo XR]

/-- One motion of a robot that follows. -/
theorem Part.turns {m : List (Ev XR)} (h : Part m) (hf : FollowsVelocities (exchanges m)) : TurnsForthAndBack (exchanges m) := by
  obtain ⟨w, w', r, hw, h1, h2⟩ : ∃ (w w' : World XR) (r : Res XR Unit), RobotReachable w ∧ consecutiveMotion.run w = (r, w') ∧ exchanges m = exchanges (newEvents w w') := by
    cases h with
    | fine hw h1 h2 => exact ⟨_, _, _, hw, h1, by rw [h2]⟩
    | recovered l msg hd hw h1 h2 => exact ⟨_, _, _, hw, h1, by rw [h2, exchanges_request]⟩
  have h1' : (velocityExample (1 / 5) 4).run w = (r, w') := h1
  obtain ⟨l, hl⟩ : ∃ l, l = exchanges m := ⟨_, rfl⟩
  rw [← hl] at hf ⊢
  have hE : l = exchanges (newEvents w ((velocityExample (1 / 5) 4).run w).2) := by rw [h1', hl, h2]
  have hf' := hf
  rw [hE] at hf'
  obtain ⟨y, k1, k2, -⟩ := C82_velocity_example (K := 4000) (by norm_num) (by norm_num) (by norm_num) hw hf'
  have hx : ∀ (n : ℕ) p, l[n]? = some p → Exchange w (velocityExample (1 / 5) 4) n p.1 p.2 := fun n p hp => by unfold Exchange; rw [← hE]; exact hp
  have hans : answered w (velocityExample (1 / 5) 4) = l.length := by rw [hE]; rfl
  have hclose : ∀ (n : ℕ) p, l[n]? = some p → p.2.motion.dq_c = Arr.fin (fun i => y i (n + 1)) ∧ ∀ i, |y i (n + 1) - forthAndBack (1 / 5) 4 i ((n : ℝ) / 1000)| ≤ 0.00025 := by
    intro n p hp
    obtain ⟨m1, m2, -⟩ := k2 n p.1 p.2 (hx n p hp)
    refine ⟨m1, fun i => ?_⟩
    have := m2 i
    norm_num at this ⊢
    exact this
  have hle : l.length ≤ 8001 := by
    by_contra hlt
    obtain ⟨p, hp⟩ : ∃ p, l[8001]? = some p := ⟨_, List.getElem?_eq_getElem (by omega)⟩
    have := (k2 8001 p.1 p.2 (hx _ p hp)).2.2.2
    omega
  have hlen : OneMotion l → l.length = 8001 := by
    rintro ⟨pre, z, e, hz, -⟩
    have := (k2 pre.length z.1 z.2 (hx _ z (by rw [e]; simp))).2.2.1
    rw [hz] at this
    have := of_decide_eq_true this.symm
    rw [e, List.length_append, this]
    rfl
  refine ⟨⟨fun i n => y i (n + 1), hclose, fun ho i => ?_⟩, hle, hlen⟩
  have hlen := hlen ho
  obtain ⟨hy0, hlow⟩ := k1 i
  rw [hans, hlen] at hlow
  have ht : ∀ n ≤ 2 * 4000, VelocityExample.target (1 / 5) 4000 i n = forthAndBack (1 / 5) 4 i ((n : ℝ) / 1000) := fun n hn => by
    have := VelocityExample.target_eq (ω := 1 / 5) (T := 4) (K := 4000) (by norm_num) (by norm_num) i hn
    rw [this]
    norm_num
  have hsum : ∑ n ∈ Finset.range (2 * 4000 + 1), VelocityExample.target (1 / 5) 4000 i n = 0 := by
    unfold VelocityExample.target
    split
    · exact VelocityExample.wave_sum (by omega)
    · exact Finset.sum_const_zero
  have hlast : VelocityExample.target (1 / 5) 4000 i (2 * 4000) = 0 := by
    unfold VelocityExample.target
    split
    · rw [VelocityExample.wave, VelocityExample.base_zero (by omega), mul_zero]
    · rfl
  rw [hlen, VelocityExample.low_sum (by norm_num) hlow, hy0]
  have hs : ∑ n ∈ Finset.range 8001, forthAndBack ((1 / 5 : ℚ) : ℝ) ((4 : ℚ) : ℝ) i ((n : ℝ) / 1000) = 0 := by
    rw [← hsum]
    refine Finset.sum_congr rfl fun n hn => ?_
    rw [ht n (by have := Finset.mem_range.1 hn; omega)]
    norm_num
  rw [hs, zero_mul, zero_sub, sub_zero, abs_neg, abs_div]
  obtain ⟨p, hp⟩ : ∃ p, l[8000]? = some p := ⟨_, List.getElem?_eq_getElem (by omega)⟩
  have h8 := (hclose 8000 p hp).2 i
  have e8 := ht 8000 (by norm_num)
  rw [hlast] at e8
  rw [← e8, sub_zero] at h8
  have hp3 := Real.pi_gt_three
  rw [abs_of_pos (by positivity : 0 < 2 * Real.pi * 100), div_le_iff₀ (by positivity)]
  norm_num at h8 ⊢
  linarith

end
end Consecutive
open Consecutive

/-- **C103** for generate_consecutive_motions: if the program returns Ok, then after the setup it has made one motion to the start position and then five motions. Each of the five
during which the robot follows turns the joints 4 to 7 forth and back, from the beginning, whatever happened to the motions before it; and each that did not need a recovery was made
to its end, so that the arm is back where it was, but for a hundredth of a millirad. -/
theorem C103_consecutive_motions [Wire XR] [Geo XR] {w : World XR} (hw : Fresh w) (hok : (Examples.generate_consecutive_motions w).1 = .ok ()) :
    ∃ before a bs, Divided (visible (Examples.generate_consecutive_motions w).2.trace) before (a :: bs) ∧ bs.length = 5 ∧
      OneMotion (exchanges a) ∧ (∀ start, Gentle (1 / 2) start home → FollowsJoints start (exchanges a) → ∃ rest, LeadsHome start (exchanges a) rest) ∧
      ∀ b ∈ bs, (¬ Recovers b → OneMotion (exchanges b)) ∧ (FollowsVelocities (exchanges b) → TurnsForthAndBack (exchanges b)) := by
  obtain ⟨w1, w2, hr1, hr2, h1, h2, h3⟩ := ok hw hok
  have hc1 := IsControl.jointMotion (F := XR) (lit (1 / 2)) startPosition
  obtain ⟨-, g2⟩ := control_motion_ok hr1 hc1 (by rw [h2])
  obtain ⟨e, rest, p1, p2, p3, -⟩ := control_part hr1 hc1 (.inl (by rw [h2]))
  have e1 := newEvents_of_grows (call_grows (RobotCall.joint_motion (lit (1 / 2)) startPosition) w1)
  rw [h2] at g2 p1 e1
  obtain ⟨ps, q1, q2, q3⟩ := parts h3 rfl hr2
  refine ⟨visible w1.trace, newEvents w1 w2, ps, ⟨?_, h1, ?_⟩, q1, g2, fun start hg hf => leads_home hr1 h2 hg hf, fun b hb => ⟨(q3 b hb).one, (q3 b hb).turns⟩⟩
  · rw [q2, e1, List.flatten_cons, List.append_assoc]
  · intro m hm
    rcases List.mem_cons.1 hm with rfl | hm
    · exact ⟨e, rest, p1, p2, p3⟩
    · exact (q3 m hm).divided

end Verif
