import Verif.Spec.Turns
import Verif.Spec.Motion
import Verif.Props.Smooth
/-!
Lemmas: what the torque callback has captured in the course of a control call without motion callback.
-/
namespace Verif
open Spec Prog
set_option linter.unusedSectionVars false
variable {F : Type} [Fl F] [Geo F] {σ : Type} {k : MotionKind}

omit [Geo F] in
theorem capturedAfter_snoc {α : Type} (f : σ → RobotState F → Nat → σ × α) (c0 : σ) (l : List (RobotState F × Nat)) (x : RobotState F × Nat) :
    capturedAfter f c0 (l ++ [x]) = (f (capturedAfter f c0 l) x.1 x.2).1 := by
  unfold capturedAfter
  rw [List.foldl_append]
  rfl

/-- Every output is that of the callback with what it has captured then, and only the last one ends the motion. -/
def Threaded (f : σ → RobotState F → Nat → σ × Torques F) (c0 : σ) (l : List ((RobotState F × Nat) × Torques F)) : Prop :=
  ∀ pre x post, l = pre ++ x :: post → x.2 = (f (capturedAfter f c0 (pre.map (·.1))) x.1.1 x.1.2).2 ∧ ∀ z ∈ pre, z.2.is_finished = false

theorem Threaded.snoc {f : σ → RobotState F → Nat → σ × Torques F} {c0 : σ} {l : List ((RobotState F × Nat) × Torques F)} (h : Threaded f c0 l)
    {x : (RobotState F × Nat) × Torques F} (hx : x.2 = (f (capturedAfter f c0 (l.map (·.1))) x.1.1 x.1.2).2) (hl : ∀ z ∈ l, z.2.is_finished = false) : Threaded f c0 (l ++ [x]) := by
  intro pre q post e
  rcases List.eq_nil_or_concat post with rfl | ⟨post', z, rfl⟩
  · obtain ⟨rfl, h⟩ := List.append_inj' e rfl
    cases h
    exact ⟨hx, hl⟩
  · rw [List.concat_eq_append, ← List.cons_append, ← List.append_assoc] at e
    obtain ⟨rfl, -⟩ := List.append_inj' e rfl
    exact h _ _ _ rfl

theorem torqueRecords_snoc (tr : List (Ev F)) (e : Ev F) : torqueRecords (tr ++ [e]) = torqueRecords tr ++ torqueRecords [e] := by
  unfold torqueRecords
  rw [List.filterMap_append]

theorem torqueRecords_calls (tr : List (Ev F)) : (torqueRecords tr).map (·.1) = torqueCalls tr := by
  unfold torqueRecords torqueCalls
  rw [List.map_filterMap]
  congr 1
  funext e
  cases e <;> rfl

def ThreadInv (f : σ → RobotState F → Nat → σ × Torques F) (c0 : σ) (l : List ((RobotState F × Nat) × Torques F)) : Phase F σ → Prop
  | .before _ | .starting _ => l = []
  | .ready c _ _ _ _ | .moved c _ _ _ _ | .decided c _ _ _ | .sent c _ _ _ => Threaded f c0 l ∧ c = capturedAfter f c0 (l.map (·.1)) ∧ ∀ z ∈ l, z.2.is_finished = false
  | .finishing _ _ _ | .finishSent _ _ _ => Threaded f c0 l ∧ ∃ pre x, l = pre ++ [x] ∧ x.2.is_finished = true
  | .broken _ | .stopping _ | .refused _ => Threaded f c0 l

theorem ThreadInv.end {f : σ → RobotState F → Nat → σ × Torques F} {c0 : σ} {l : List ((RobotState F × Nat) × Torques F)} {ph : Phase F σ} (h : ThreadInv f c0 l ph) :
    Threaded f c0 l := by
  have hnil : l = [] → Threaded f c0 l := by
    rintro rfl pre x post e
    simp at e
  cases ph <;> first | exact h | exact h.1 | exact hnil h

/-- In calls whose motion callback only stands still. -/
theorem run_thread {call : ControlCall F σ k} {c0 : σ} {s0 : RobotStateIntern F} {tr : List (Ev F)} {ph : Phase F σ} {f : σ → RobotState F → Nat → σ × Torques F}
    (hf : call.torque = some f) (hm : ∀ c st dt, (call.motion c st dt).1 = c ∧ (call.motion c st dt).2.is_finished = false)
    (h : Run call c0 (.before s0) tr ph) : ThreadInv f c0 (torqueRecords tr) ph := by
  induction h with
  | nil => exact rfl
  | @snoc tr ph e ph' hr hs ih =>
    rw [torqueRecords_snoc]
    have hn : call.torque ≠ none := by rw [hf]; nofun
    cases hs with
    | move => rw [show torqueRecords [_] = [] from rfl, List.append_nil]; exact ih
    | wait => rw [show torqueRecords [_] = [] from rfl, List.append_nil]; exact ih
    | first s s' hid hh =>
      rw [show torqueRecords [_] = [] from rfl, List.append_nil]
      have : torqueRecords tr = [] := ih
      rw [this]
      exact ⟨fun pre x post e => by simp at e, rfl, fun z hz => by cases hz⟩
    | firstBroken => rw [show torqueRecords [_] = [] from rfl, List.append_nil]; exact ih.end
    | motion c s prev m t dt c' out m' hq => exact absurd hq hn
    | motionFirst c s prev m t dt c' out m' hq hle hdt hc =>
      rw [show torqueRecords [_] = [] from rfl, List.append_nil]
      have := (hm c (RobotState.ofIntern s) dt).1
      rw [hc] at this
      subst this
      exact ih
    | motionEnd c s prev m t dt c' out m' hle hdt hc hcv hfin =>
      have := (hm c (RobotState.ofIntern s) dt).2
      rw [hc, hfin] at this
      cases this
    | motionRefused => rw [show torqueRecords [_] = [] from rfl, List.append_nil]; exact ih.end
    | torque f' c s prev m t dt c' out τ hf' hle hdt hc hcv hfin =>
      rw [hf] at hf'
      cases hf'
      obtain ⟨h1, h2, h3⟩ := ih
      rw [h2] at hc
      refine ⟨h1.snoc (congrArg Prod.snd hc).symm h3, ?_, ?_⟩
      · rw [List.map_append, show (torqueRecords [Ev.controlCb (RobotState.ofIntern s) dt out]).map (·.1) = [(RobotState.ofIntern s, dt)] from rfl, capturedAfter_snoc]
        exact (congrArg Prod.fst hc).symm
      · intro z hz
        rcases List.mem_append.1 hz with hz | hz
        · exact h3 z hz
        · rw [List.mem_singleton.1 hz]; exact hfin
    | torqueEnd f' c s prev m t dt c' out τ hf' hle hdt hc hcv hfin =>
      rw [hf] at hf'
      cases hf'
      obtain ⟨h1, h2, h3⟩ := ih
      rw [h2] at hc
      exact ⟨h1.snoc (congrArg Prod.snd hc).symm h3, _, _, rfl, hfin⟩
    | torqueRefused f' c s prev m t dt c' out e hf' hle hdt hc =>
      rw [hf] at hf'
      cases hf'
      obtain ⟨h1, h2, h3⟩ := ih
      rw [h2] at hc
      exact h1.snoc (congrArg Prod.snd hc).symm h3
    | send => rw [show torqueRecords [_] = [] from rfl, List.append_nil]; exact ih
    | next => rw [show torqueRecords [_] = [] from rfl, List.append_nil]; exact ih
    | nextBroken => rw [show torqueRecords [_] = [] from rfl, List.append_nil]; exact ih.end
    | finish => rw [show torqueRecords [_] = [] from rfl, List.append_nil]; exact ih
    | finishNext => rw [show torqueRecords [_] = [] from rfl, List.append_nil]; exact ih
    | stop => rw [show torqueRecords [_] = [] from rfl, List.append_nil]; exact ih.end
    | stopped => rw [show torqueRecords [_] = [] from rfl, List.append_nil]; exact ih

section
variable [Wire F] {w : World F} (hw : RobotReachable w) {c : RobotCall F} {call : ControlCall F σ k} {c0 : σ} (hc : IsControl c call c0)
  {f : σ → RobotState F → Nat → σ × Torques F} (hf : call.torque = some f) (hm : ∀ c st dt, (call.motion c st dt).1 = c ∧ (call.motion c st dt).2.is_finished = false)
include hw hc hf hm

theorem call_thread : Threaded f c0 (torqueRecords (newEvents w (c.run w).2)) := by
  obtain ⟨s0, ph, -, -, hr, -⟩ := control_events hw hc
  exact (run_thread hf hm hr).end

theorem call_thread_ok (hok : (c.run w).1 = .ok ()) : ∃ pre x, torqueRecords (newEvents w (c.run w).2) = pre ++ [x] ∧ x.2.is_finished = true := by
  obtain ⟨s0, ph, -, -, hr, -, hres⟩ := control_events hw hc
  rw [hok] at hres
  obtain ⟨-, s, m, t, rfl, hfin⟩ := hres
  exact (run_thread hf hm hr).2

end
end Verif
