import Verif.Spec.Exchange
import Verif.Spec.Coop
/-!
Lemmas: every command that answers a state was computed from this state.
-/
namespace Verif
open Spec
set_option linter.unusedSectionVars false
variable {F : Type} [Fl F] [Geo F] {σ : Type} {k : MotionKind}

/-- The motion part of a command was computed from the state and an output of the callback. -/
def MotionFrom (call : ControlCall F σ k) (st : RobotState F) (m : MotionGeneratorCommand F) : Prop :=
  ∃ (out : Motion F k) (m0 m' : MotionGeneratorCommand F), out.convert_motion st m0 call.cutoff call.limit_rate = .ok m' ∧
    (m = m' ∨ m = { m' with motion_generation_finished := true })

/-- The torques were computed from the state and an output of the torque callback. They are the last ones if there is no torque callback, or if the
motion callback ended the motion. -/
def TorquesFrom (call : ControlCall F σ k) (prev : ControllerCommand F) (st : RobotState F) (t : ControllerCommand F) (finished : Bool) : Prop :=
  (call.torque ≠ none ∧ ∃ tau, ControlLoop.convert_torques call.limit_rate call.cutoff st tau = .ok t.tau_J_d) ∨
    (t = prev ∧ (call.torque = none ∨ finished = true))

/-- The torques of the last command. -/
def lastTorques (l : List (RobotState F × RobotCommand F)) : ControllerCommand F := ((l.getLast?).map (·.2.control)).getD noTorques

theorem lastTorques_snoc (l : List (RobotState F × RobotCommand F)) (p) : lastTorques (l ++ [p]) = p.2.control := by
  simp [lastTorques]

/-- Every command in the list was computed from its state. -/
def AllFrom (call : ControlCall F σ k) (l : List (RobotState F × RobotCommand F)) : Prop :=
  ∀ pre p post, l = pre ++ p :: post → MotionFrom call p.1 p.2.motion ∧ TorquesFrom call (lastTorques pre) p.1 p.2.control p.2.motion.motion_generation_finished

theorem AllFrom.snoc {call : ControlCall F σ k} {l : List (RobotState F × RobotCommand F)} {p : RobotState F × RobotCommand F} (h : AllFrom call l)
    (h1 : MotionFrom call p.1 p.2.motion) (h2 : TorquesFrom call (lastTorques l) p.1 p.2.control p.2.motion.motion_generation_finished) : AllFrom call (l ++ [p]) := by
  intro pre q post e
  rcases List.eq_nil_or_concat post with rfl | ⟨post', z, rfl⟩
  · obtain ⟨rfl, h⟩ := List.append_inj' e rfl
    cases h
    exact ⟨h1, h2⟩
  · rw [List.concat_eq_append, ← List.cons_append, ← List.append_assoc] at e
    obtain ⟨rfl, -⟩ := List.append_inj' e rfl
    exact h _ _ _ rfl

/-- The exchanges when a call is in this phase. -/
def Exchanged (call : ControlCall F σ k) (p : Option (RobotState F) × List (RobotState F × RobotCommand F)) : Phase F σ → Prop
  | .before _ | .starting _ => p = (none, [])
  | .ready _ _ _ _ t => p.1 = none ∧ t = lastTorques p.2
  | .moved _ s _ m t => p.1 = some (RobotState.ofIntern s) ∧ MotionFrom call (RobotState.ofIntern s) m ∧ t = lastTorques p.2
  | .decided _ s m t => p.1 = some (RobotState.ofIntern s) ∧ MotionFrom call (RobotState.ofIntern s) m ∧
      TorquesFrom call (lastTorques p.2) (RobotState.ofIntern s) t m.motion_generation_finished
  | .sent _ _ _ t => p.1 = none ∧ t = lastTorques p.2
  | .finishing s m t => p.1 = none ∨ (p.1 = some (RobotState.ofIntern s) ∧ MotionFrom call (RobotState.ofIntern s) { m with motion_generation_finished := true } ∧
      TorquesFrom call (lastTorques p.2) (RobotState.ofIntern s) t true)
  | .finishSent _ _ _ => p.1 = none
  | .broken _ | .stopping _ | .refused _ => True

theorem MotionFrom.finish {call : ControlCall F σ k} {st : RobotState F} {m : MotionGeneratorCommand F} (h : MotionFrom call st m) :
    MotionFrom call st { m with motion_generation_finished := true } := by
  obtain ⟨out, m0, m', h, rfl | rfl⟩ := h
  · exact ⟨out, m0, _, h, .inr rfl⟩
  · exact ⟨out, m0, _, h, .inr rfl⟩

theorem run_exchanged {call : ControlCall F σ k} {c0 : σ} {s0 : RobotStateIntern F} {tr : List (Ev F)} {ph : Phase F σ}
    (h : Run call c0 (.before s0) tr ph) : AllFrom call (exchanges tr) ∧ Exchanged call (tr.foldl exchangeStep (none, [])) ph := by
  induction h with
  | nil => exact ⟨fun _ _ _ e => by simp [exchanges] at e, rfl⟩
  | @snoc tr ph e ph' hr hs ih =>
    obtain ⟨ha, hp⟩ := ih
    unfold exchanges at ha ⊢
    rw [List.foldl_append, List.foldl_cons, List.foldl_nil]
    generalize tr.foldl exchangeStep (none, []) = p at ha hp ⊢
    obtain ⟨p, l⟩ := p
    cases hs with
    | motion _ _ _ _ _ _ _ out _ hn _ _ _ hm => exact ⟨ha, rfl, ⟨out, _, _, hm, .inl rfl⟩, .inr ⟨hp.2, .inl hn⟩⟩
    | motionFirst _ _ _ _ _ _ _ out _ _ _ _ _ hm => exact ⟨ha, rfl, ⟨out, _, _, hm, .inl rfl⟩, hp.2⟩
    | motionEnd _ _ _ _ _ _ _ out _ _ _ _ hm => exact ⟨ha, .inr ⟨rfl, ⟨out, _, _, hm, .inr rfl⟩, .inr ⟨hp.2, .inr rfl⟩⟩⟩
    | torque f _ _ _ _ _ _ _ out τ hf _ _ _ hm => exact ⟨ha, hp.1, hp.2.1, .inl ⟨by rw [hf]; simp, out.tau_J, hm⟩⟩
    | torqueEnd f _ _ _ _ _ _ _ out τ hf _ _ _ hm => exact ⟨ha, .inr ⟨hp.1, hp.2.1.finish, .inl ⟨by rw [hf]; simp, out.tau_J, hm⟩⟩⟩
    | send =>
      obtain ⟨h1, h2, h3⟩ := hp
      subst h1
      exact ⟨ha.snoc h2 h3, rfl, by simp [exchangeStep, lastTorques]⟩
    | finish =>
      rcases hp with h1 | ⟨h1, h2, h3⟩ <;> subst h1
      · exact ⟨ha, rfl⟩
      · exact ⟨ha.snoc h2 h3, rfl⟩
    | finishNext => exact ⟨ha, .inl hp⟩
    | first => cases hp; exact ⟨ha, rfl, rfl⟩
    | next => exact ⟨ha, hp⟩
    | wait => exact ⟨ha, hp⟩
    | move => exact ⟨ha, hp⟩
    | motionRefused => exact ⟨ha, trivial⟩
    | _ => exact ⟨ha, trivial⟩

theorem exchangeStep_alike {e e' : Ev F} (h : Alike e e') (p : Option (RobotState F) × List (RobotState F × RobotCommand F)) :
    exchangeStep p e = exchangeStep p e' := by
  cases e <;> simp only [Alike] at h
  case robotReq => obtain ⟨h, rfl, -⟩ := h; rfl
  case udpSend => obtain ⟨a, rfl⟩ := h; rfl
  all_goals subst h; rfl

theorem exchanges_alike {tr tr' : List (Ev F)} (h : List.Forall₂ Alike tr tr') : exchanges tr = exchanges tr' := by
  unfold exchanges
  congr 1
  generalize (none, []) = p
  induction h generalizing p with
  | nil => rfl
  | cons h1 _ ih => rw [List.foldl_cons, List.foldl_cons, exchangeStep_alike h1, ih]

end Verif
