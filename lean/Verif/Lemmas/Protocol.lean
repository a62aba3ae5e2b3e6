import Verif.Lemmas.Commands
import Mathlib.Data.List.Chain
/-!
The order of the events of a control call.
-/
set_option linter.unusedSectionVars false
namespace Verif
open Prog Spec
variable {F : Type} [Fl F] [Wire F] [Geo F] {σ : Type} {k : MotionKind} {call : ControlCall F σ k} {c0 : σ}
variable {s0 : RobotStateIntern F} {tr : List (Ev F)} {ph : Phase F σ}

theorem not_move_accepted (s : RobotStateIntern F) : ¬ IsMove (.accepted s : Ev F) := by rintro ⟨h, m, he⟩; cases he
theorem not_move_send (a : Addr) (c : RobotCommand F) : ¬ IsMove (.udpSend a c : Ev F) := by rintro ⟨h, m, he⟩; cases he
theorem not_move_motion (s : RobotState F) (dt : Nat) (o : Motion F k) : ¬ IsMove (.motionCb k s dt o : Ev F) := by rintro ⟨h, m, he⟩; cases he
theorem not_move_control (s : RobotState F) (dt : Nat) (o : Torques F) : ¬ IsMove (.controlCb s dt o : Ev F) := by rintro ⟨h, m, he⟩; cases he
theorem not_move_stop (h : RobotCommandHeader) : ¬ IsMove (.robotReq ⟨h, .StopMove⟩ : Ev F) := by rintro ⟨h, m, he⟩; cases he
theorem not_stop_accepted (s : RobotStateIntern F) : ¬ IsStop (.accepted s : Ev F) := by rintro ⟨h, he⟩; cases he
theorem not_stop_send (a : Addr) (c : RobotCommand F) : ¬ IsStop (.udpSend a c : Ev F) := by rintro ⟨h, he⟩; cases he
theorem not_stop_motion (s : RobotState F) (dt : Nat) (o : Motion F k) : ¬ IsStop (.motionCb k s dt o : Ev F) := by rintro ⟨h, he⟩; cases he
theorem not_stop_control (s : RobotState F) (dt : Nat) (o : Torques F) : ¬ IsStop (.controlCb s dt o : Ev F) := by rintro ⟨h, he⟩; cases he
theorem not_stop_move (h : RobotCommandHeader) (c : MoveControllerMode) : ¬ IsStop (.robotReq ⟨h, moveBody k c⟩ : Ev F) := by rintro ⟨h, he⟩; cases he

/-- The Move request is the first event, and the only one of its kind. -/
theorem run_move (h : Run call c0 (.before s0) tr ph) :
    (tr = [] ∧ ph = .before s0) ∨ (∃ hd tr', tr = .robotReq ⟨hd, moveBody k call.controller⟩ :: tr' ∧ hd.command = .Move ∧ (∀ e ∈ tr', ¬ IsMove e) ∧
      ¬ Running s0 ∧ ∀ s, ph ≠ .before s) := by
  induction h with
  | nil => exact .inl ⟨rfl, rfl⟩
  | snoc h1 h2 ih =>
    right
    rcases ih with ⟨rfl, rfl⟩ | ⟨hd, tr', rfl, g1, g2, g3, g4⟩
    · cases h2 with
      | move s hd hr hc => exact ⟨hd, [], rfl, hc, by simp, hr, by simp⟩
      | stop _ hd hm hc => exact hm.elim
    · have hsnoc : ∀ e : Ev F, ¬ IsMove e → ∀ e' ∈ tr' ++ [e], ¬ IsMove e' := by
        intro e he e' he'
        rcases List.mem_append.1 he' with h | h
        · exact g2 e' h
        · rw [List.mem_singleton.1 h]; exact he
      cases h2
      case move => exact absurd rfl (g4 _)
      all_goals first
        | exact ⟨hd, _, rfl, g1, hsnoc _ (not_move_accepted _), g3, by simp⟩
        | exact ⟨hd, _, rfl, g1, hsnoc _ (not_move_send _ _), g3, by simp⟩
        | exact ⟨hd, _, rfl, g1, hsnoc _ (not_move_motion _ _ _), g3, by simp⟩
        | exact ⟨hd, _, rfl, g1, hsnoc _ (not_move_control _ _ _), g3, by simp⟩
        | exact ⟨hd, _, rfl, g1, hsnoc _ (not_move_stop _), g3, by simp⟩

/-- The only requests are Move and StopMove. -/
theorem run_requests (h : Run call c0 (.before s0) tr ph) {r : RobotReq F} (hr : .robotReq r ∈ tr) : IsMove (.robotReq r : Ev F) ∨ IsStop (.robotReq r : Ev F) := by
  induction h with
  | nil => simp at hr
  | snoc h1 h2 ih =>
    rcases List.mem_append.1 hr with h | h
    · exact ih h
    · have h := List.mem_singleton.1 h
      cases h2 <;> cases h
      · exact .inl ⟨_, _, rfl⟩
      · exact .inr ⟨_, rfl⟩

/-- Nothing but the Move request and states until the motion has started. -/
def Calm (tr : List (Ev F)) : Phase F σ → Prop
  | .before _ => tr = []
  | .starting _ => ∀ e ∈ tr, ¬ IsCommand e ∧ ¬ IsCallback e ∧ ¬ IsStop e
  | .stopping _ => True
  | _ => ∀ e ∈ tr, ¬ IsStop e

theorem all_snoc {P : Ev F → Prop} {tr : List (Ev F)} {e : Ev F} (h : ∀ e ∈ tr, P e) (he : P e) : ∀ e' ∈ tr ++ [e], P e' := by
  intro e' he'
  rcases List.mem_append.1 he' with h' | h'
  · exact h e' h'
  · rw [List.mem_singleton.1 h']; exact he

theorem run_calm (h : Run call c0 (.before s0) tr ph) : Calm tr ph := by
  induction h with
  | nil => rfl
  | @snoc tr ph1 e ph2 h1 h2 ih =>
    cases h2 <;> unfold Calm at ih ⊢ <;> try trivial
    case move => subst ih; intro e he; simp only [List.nil_append, List.mem_singleton] at he; subst he; exact ⟨fun h => h, fun h => h, not_stop_move _ _⟩
    case wait => exact all_snoc ih ⟨fun h => h, fun h => h, not_stop_accepted _⟩
    case first => exact all_snoc (fun e he => (ih e he).2.2) (not_stop_accepted _)
    case firstBroken => exact all_snoc (fun e he => (ih e he).2.2) (not_stop_accepted _)
    all_goals first
      | exact all_snoc ih (not_stop_accepted _)
      | exact all_snoc ih (not_stop_send _ _)
      | exact all_snoc ih (not_stop_motion _ _ _)
      | exact all_snoc ih (not_stop_control _ _ _)

/-- After StopMove only states are received. -/
theorem run_from_stopping {s : RobotStateIntern F} (h : Run call c0 (.stopping s) tr ph) :
    (∃ s', ph = .stopping s') ∧ ∀ e ∈ tr, ∃ s', e = .accepted s' := by
  induction h with
  | nil => exact ⟨⟨s, rfl⟩, by simp⟩
  | snoc h1 h2 ih =>
    obtain ⟨⟨s1, rfl⟩, ih⟩ := ih
    cases h2 with
    | stopped _ s' _ => exact ⟨⟨s', rfl⟩, all_snoc ih ⟨s', rfl⟩⟩
    | stop _ _ hm _ => exact hm.elim

theorem step_stop {ph1 ph2 : Phase F σ} {hd : RobotCommandHeader} (h : Step call c0 ph1 (.robotReq ⟨hd, .StopMove⟩) ph2) :
    ph1.MayStop ∧ hd.command = .StopMove ∧ ph2 = .stopping ph1.last := by
  cases h with
  | stop _ _ h1 h2 => exact ⟨h1, h2, rfl⟩

/-- A StopMove request in a run: the motion was going on before, and only states come after. -/
theorem run_stop {hd : RobotCommandHeader} {pre post : List (Ev F)} (h : Run call c0 (.before s0) (pre ++ .robotReq ⟨hd, .StopMove⟩ :: post) ph) :
    (∀ e ∈ pre, ¬ IsStop e) ∧ (∃ s, ph = .stopping s) ∧ ∀ e ∈ post, ∃ s, e = .accepted s := by
  obtain ⟨ph1, h1, h2⟩ := h.split
  obtain ⟨ph2, h3, h4⟩ := h2.step_of_cons
  obtain ⟨g1, -, rfl⟩ := step_stop h3
  obtain ⟨g3, g4⟩ := run_from_stopping h4
  refine ⟨?_, g3, g4⟩
  have := run_calm h1
  cases ph1 <;> unfold Calm at this <;> first | exact this | exact fun e he => (this e he).2.2 | exact g1.elim

/-- The states a callback gets. -/
def Health (call : ControlCall F σ k) (tr : List (Ev F)) : Phase F σ → Prop
  | .ready _ s _ _ _ => lastAccepted tr = some s ∧ Healthy k call.controller s
  | .moved _ s _ _ _ => lastAccepted tr = some s ∧ Healthy k call.controller s
  | .decided _ s _ _ => lastAccepted tr = some s ∧ Healthy k call.controller s
  | .sent _ s _ _ => lastAccepted tr = some s ∧ Healthy k call.controller s
  | .finishing s _ _ => lastAccepted tr = some s
  | .finishSent s _ _ => lastAccepted tr = some s
  | _ => True

theorem run_health (h : Run call c0 (.before s0) tr ph) : Health call tr ph := by
  induction h with
  | nil => trivial
  | snoc h1 h2 ih =>
    cases h2 <;> unfold Health at ih ⊢ <;> try trivial
    case first => exact ⟨lastAccepted_snoc _ _, ‹_›⟩
    case next => exact ⟨lastAccepted_snoc _ _, ‹_›⟩
    case finishNext => exact lastAccepted_snoc _ _
    case motionEnd => exact (lastAccepted_other _ _ rfl).trans ih.1
    case torqueEnd => exact (lastAccepted_other _ _ rfl).trans ih.1
    case finish => exact (lastAccepted_other _ _ rfl).trans ih
    all_goals exact ⟨(lastAccepted_other _ _ rfl).trans ih.1, ih.2⟩

/-- What the last state shows when an error may occur. -/
def Moving (call : ControlCall F σ k) : Phase F σ → Prop
  | .ready _ s _ _ _ => Healthy k call.controller s
  | .moved _ s _ _ _ => Healthy k call.controller s
  | .decided _ s _ _ => Healthy k call.controller s
  | .sent _ s _ _ => Healthy k call.controller s
  | .broken s => ¬ Healthy k call.controller s
  | .finishSent s _ _ => Running s
  | _ => True

theorem run_moving (h : Run call c0 (.before s0) tr ph) : Moving call ph := by
  induction h with
  | nil => trivial
  | snoc h1 h2 ih => cases h2 <;> unfold Moving at ih ⊢ <;> trivial

/-! ## Timing -/

theorem motionCalls_append (a b : List (Ev F)) : motionCalls (a ++ b) = motionCalls a ++ motionCalls b := by simp [motionCalls]
theorem torqueCalls_append (a b : List (Ev F)) : torqueCalls (a ++ b) = torqueCalls a ++ torqueCalls b := by simp [torqueCalls]

theorem Spec.Timed.nil : Timed ([] : List (RobotState F × Nat)) := ⟨by simp, List.IsChain.nil⟩

theorem Spec.Timed.first (s : RobotState F) : Timed [(s, 0)] := ⟨by simp, List.IsChain.singleton _⟩

theorem Spec.Timed.snoc {l : List (RobotState F × Nat)} {a b : RobotState F × Nat} (h : Timed l) (ha : l.getLast? = some a) (h1 : a.1.time < b.1.time)
    (h2 : b.2 = b.1.time - a.1.time) : Timed (l ++ [b]) := by
  refine ⟨?_, List.IsChain.append h.2 (List.IsChain.singleton _) ?_⟩
  · intro x hx
    cases l with
    | nil => simp at ha
    | cons y ys => exact h.1 x (by simpa using hx)
  · intro x hx y hy
    rw [ha] at hx
    cases hx
    cases hy
    exact ⟨h1, h2⟩

theorem Spec.Timed.prefix {a b : List (RobotState F × Nat)} (h : Timed (a ++ b)) : Timed a := by
  refine ⟨?_, h.2.left_of_append⟩
  intro x hx
  cases a with
  | nil => simp at hx
  | cons y ys => exact h.1 x (by simpa using hx)

/-- The calls of the motion callback in a phase. -/
def Clock (tr : List (Ev F)) : Phase F σ → Prop
  | .before _ => motionCalls tr = []
  | .starting _ => motionCalls tr = []
  | .ready _ s prev _ _ => Timed (motionCalls tr) ∧ ((motionCalls tr = [] ∧ prev = (RobotState.ofIntern s).time) ∨
      ∃ x, (motionCalls tr).getLast? = some x ∧ x.1.time = prev ∧ prev < (RobotState.ofIntern s).time)
  | .moved _ s _ _ _ => Timed (motionCalls tr) ∧ ∃ dt, (motionCalls tr).getLast? = some (RobotState.ofIntern s, dt)
  | .decided _ s _ _ => Timed (motionCalls tr) ∧ ∃ dt, (motionCalls tr).getLast? = some (RobotState.ofIntern s, dt)
  | .sent _ s _ _ => Timed (motionCalls tr) ∧ ∃ dt, (motionCalls tr).getLast? = some (RobotState.ofIntern s, dt)
  | _ => Timed (motionCalls tr)

theorem clock_call {tr : List (Ev F)} {s : RobotStateIntern F} {prev : Nat} {out : Motion F k} {c : σ} {m : MotionGeneratorCommand F} {t : ControllerCommand F}
    (h : Clock tr (.ready c s prev m t)) :
    Timed (motionCalls (tr ++ [.motionCb k (RobotState.ofIntern s) ((RobotState.ofIntern s).time - prev) out])) ∧
      (motionCalls (tr ++ [.motionCb k (RobotState.ofIntern s) ((RobotState.ofIntern s).time - prev) out])).getLast? =
        some (RobotState.ofIntern s, (RobotState.ofIntern s).time - prev) := by
  obtain ⟨h1, h2⟩ := h
  have he : motionCalls [.motionCb k (RobotState.ofIntern s) ((RobotState.ofIntern s).time - prev) out] =
    [(RobotState.ofIntern s, (RobotState.ofIntern s).time - prev)] := rfl
  rw [motionCalls_append, he]
  refine ⟨?_, by simp⟩
  rcases h2 with ⟨g1, g2⟩ | ⟨x, g1, g2, g3⟩
  · rw [g1, g2, Nat.sub_self]; exact Timed.first _
  · exact h1.snoc g1 (by simp only; omega) (by simp only; omega)

theorem time_lt {s s' : RobotStateIntern F} (h : s.message_id < s'.message_id) : (RobotState.ofIntern s).time < (RobotState.ofIntern s').time :=
  UInt64.lt_iff_toNat_lt.1 h

theorem run_clock (h : Run call c0 (.before s0) tr ph) : Clock tr ph := by
  induction h with
  | nil => rfl
  | @snoc tr ph1 e ph2 h1 h2 ih =>
    have hstay : motionCalls [e] = [] → motionCalls (tr ++ [e]) = motionCalls tr := fun h => by rw [motionCalls_append, h, List.append_nil]
    cases h2
    case motion hle hdt _ _ _ => subst hdt; exact ⟨(clock_call ih).1, _, (clock_call ih).2⟩
    case motionFirst hle hdt _ _ _ => subst hdt; exact ⟨(clock_call ih).1, _, (clock_call ih).2⟩
    case motionEnd hle hdt _ _ _ => subst hdt; exact (clock_call ih).1
    case motionRefused hle hdt _ _ => subst hdt; exact (clock_call ih).1
    case stop ph1 hd hm hc =>
      have : Timed (motionCalls tr) := by
        cases ph1 <;> unfold Clock at ih <;> first | exact ih | exact ih.1 | (rw [ih]; exact .nil)
      unfold Clock
      rw [hstay rfl]; exact this
    all_goals
      unfold Clock at ih ⊢
      rw [hstay rfl]
    case first => rw [ih]; exact ⟨.nil, .inl ⟨rfl, rfl⟩⟩
    case firstBroken => rw [ih]; exact .nil
    case next c s m t s' hlt hh => exact ⟨ih.1, .inr ⟨_, ih.2.choose_spec, rfl, time_lt hlt⟩⟩
    all_goals first | exact ih | exact ih.1

/-- The torque callback gets the states and durations the motion callback got. -/
def Both (call : ControlCall F σ k) (tr : List (Ev F)) : Phase F σ → Prop
  | .ready _ _ _ _ _ | .decided _ _ _ _ | .sent _ _ _ _ => call.torque ≠ none → torqueCalls tr = motionCalls tr
  | .moved _ s prev _ _ => motionCalls tr = torqueCalls tr ++ [(RobotState.ofIntern s, (RobotState.ofIntern s).time - prev)]
  | .starting _ | .before _ => torqueCalls tr = [] ∧ motionCalls tr = []
  | _ => True

theorem run_both (h : Run call c0 (.before s0) tr ph) : Both call tr ph ∧ torqueCalls tr <+: motionCalls tr := by
  induction h with
  | nil => exact ⟨⟨rfl, rfl⟩, List.prefix_rfl⟩
  | @snoc tr ph1 e ph2 h1 h2 ih =>
    obtain ⟨ih, ihp⟩ := ih
    rw [motionCalls_append, torqueCalls_append]
    have hsame : torqueCalls [e] = [] → torqueCalls tr ++ torqueCalls [e] <+: motionCalls tr ++ motionCalls [e] := by
      intro h; rw [h, List.append_nil]; exact ihp.trans (List.prefix_append _ _)
    have hnone : call.torque = none → torqueCalls tr = torqueCalls tr := fun _ => rfl
    cases h2
    case torque f c s prev m t dt c' out τ g1 g2 g3 g4 g5 g6 =>
      subst g3
      unfold Both at ih ⊢
      rw [motionCalls_append, torqueCalls_append, ih]
      refine ⟨fun _ => by simp [torqueCalls, motionCalls], ?_⟩
      simp [torqueCalls, motionCalls]
    case torqueEnd f c s prev m t dt c' out τ g1 g2 g3 g4 g5 g6 =>
      subst g3
      unfold Both at ih
      rw [ih]
      refine ⟨trivial, ?_⟩
      simp [torqueCalls, motionCalls]
    case torqueRefused f c s prev m t dt c' out τ g1 g2 g3 g4 g5 =>
      subst g3
      unfold Both at ih
      rw [ih]
      refine ⟨trivial, ?_⟩
      simp [torqueCalls, motionCalls]
    all_goals refine ⟨?_, hsame rfl⟩
    all_goals unfold Both at ih ⊢
    all_goals try trivial
    all_goals rw [motionCalls_append, torqueCalls_append]
    case motion c s prev m t dt c' out m' g1 g2 g3 g4 g5 g6 => intro h; exact absurd g1 h
    case motionFirst c s prev m t dt c' out m' g1 g2 g3 g4 g5 g6 => subst g3; rw [ih g1]; simp [torqueCalls, motionCalls]
    case first => rw [ih.1, ih.2]; intro _; rfl
    case move => rw [ih.1, ih.2]; exact ⟨rfl, rfl⟩
    case wait => rw [ih.1, ih.2]; exact ⟨rfl, rfl⟩
    case send => intro h; rw [ih h]; rfl
    case next => intro h; rw [ih h]; rfl

/-! ## The end of a motion -/

/-- The final command. -/
def FinalCommand (m : MotionGeneratorCommand F) (t : ControllerCommand F) (x : RobotCommand F) : Prop :=
  x.motion = { m with motion_generation_finished := true } ∧ x.control = t

theorem run_from_finishing {s : RobotStateIntern F} {m : MotionGeneratorCommand F} {t : ControllerCommand F} (h : Run call c0 (.finishing s m t) tr ph) :
    ((∃ s', ph = .finishing s' m t) ∨ (∃ s', ph = .finishSent s' m t) ∨ ∃ s', ph = .stopping s') ∧
      ∀ e ∈ tr, (∃ s', e = .accepted s') ∨ IsStop e ∨ ∃ a x, e = .udpSend a x ∧ FinalCommand m t x := by
  induction h with
  | nil => exact ⟨.inl ⟨s, rfl⟩, by simp⟩
  | snoc h1 h2 ih =>
    obtain ⟨ih, ihe⟩ := ih
    rcases ih with ⟨s', rfl⟩ | ⟨s', rfl⟩ | ⟨s', rfl⟩
    · cases h2 with
      | finish _ _ _ a hr => exact ⟨.inr (.inl ⟨s', rfl⟩), all_snoc ihe (.inr (.inr ⟨a, _, rfl, rfl, rfl⟩))⟩
      | stop _ hd hm hc => exact ⟨.inr (.inr ⟨_, rfl⟩), all_snoc ihe (.inr (.inl ⟨hd, rfl⟩))⟩
    · cases h2 with
      | finishNext _ _ _ s'' hlt => exact ⟨.inl ⟨s'', rfl⟩, all_snoc ihe (.inl ⟨s'', rfl⟩)⟩
      | stop _ hd hm hc => exact ⟨.inr (.inr ⟨_, rfl⟩), all_snoc ihe (.inr (.inl ⟨hd, rfl⟩))⟩
    · cases h2 with
      | stopped _ s'' _ => exact ⟨.inr (.inr ⟨s'', rfl⟩), all_snoc ihe (.inl ⟨s'', rfl⟩)⟩
      | stop _ hd hm hc => exact hm.elim

theorem run_from_refused {s : RobotStateIntern F} (h : Run call c0 (.refused s) tr ph) : tr = [] := by
  induction h with
  | nil => rfl
  | snoc h1 h2 ih =>
    subst ih
    rcases run_cases h1 with ⟨-, rfl⟩ | ⟨tr', ph', e, h, -⟩
    · cases h2 with
      | stop _ hd hm hc => exact hm.elim
    · simp at h

/-- A callback has ended the motion, in the phases of finishing and only there. -/
def Ended (tr : List (Ev F)) : Phase F σ → Prop
  | .finishing _ _ _ => ∃ e ∈ tr, EndsMotion e
  | .finishSent _ _ _ => ∃ e ∈ tr, EndsMotion e
  | .stopping _ => True
  | .refused _ => True
  | _ => (∀ e ∈ tr, ¬ EndsMotion e) ∧ ∀ a x, .udpSend a x ∈ tr → x.motion.motion_generation_finished = false

theorem run_ended (h : Run call c0 (.before s0) tr ph) : Ended tr ph := by
  induction h with
  | nil => exact ⟨by simp, by simp⟩
  | @snoc tr ph1 e ph2 h1 h2 ih =>
    have hs : ¬ EndsMotion e → (∀ a x, e = .udpSend a x → x.motion.motion_generation_finished = false) →
        ((∀ e ∈ tr, ¬ EndsMotion e) ∧ ∀ a x, .udpSend a x ∈ tr → x.motion.motion_generation_finished = false) →
        ((∀ e' ∈ tr ++ [e], ¬ EndsMotion e') ∧ ∀ a x, .udpSend a x ∈ tr ++ [e] → x.motion.motion_generation_finished = false) := by
      intro g1 g2 g3
      refine ⟨all_snoc g3.1 g1, fun a x hx => ?_⟩
      rcases List.mem_append.1 hx with hx | hx
      · exact g3.2 a x hx
      · exact g2 a x (List.mem_singleton.1 hx).symm
    have hv := run_values h1
    cases h2 <;> unfold Ended at ih ⊢ <;> try trivial
    case motion hf => exact hs (by unfold EndsMotion; simp [hf]) (by simp) ih
    case motionFirst hf => exact hs (by unfold EndsMotion; simp [hf]) (by simp) ih
    case torque hf => exact hs (by unfold EndsMotion; simp [hf]) (by simp) ih
    case motionEnd hf => exact ⟨_, List.mem_append_right _ (List.mem_singleton.2 rfl), hf⟩
    case torqueEnd hf => exact ⟨_, List.mem_append_right _ (List.mem_singleton.2 rfl), hf⟩
    case send c s m t a =>
      obtain ⟨-, out, -, hm⟩ := hv
      exact hs (fun h => h) (by intro a' x hx; cases hx; exact hm.ok.flag) ih
    case finish => obtain ⟨e, he, h⟩ := ih; exact ⟨e, List.mem_append_left _ he, h⟩
    case finishNext => obtain ⟨e, he, h⟩ := ih; exact ⟨e, List.mem_append_left _ he, h⟩
    all_goals exact hs (fun h => h) (by simp) ih

end Verif
