import Verif.Lemmas.Motion
import Verif.Lemmas.Deliver
import Verif.Lemmas.Setup
/-!
The next call after a call: reachability, and the first write of a control call.
-/
set_option linter.unusedSectionVars false
namespace Verif
open Prog Spec
variable {F : Type} [Fl F] [Wire F] [Geo F]

theorem robotCalls_snoc (cs : List (RobotCall F)) (c : RobotCall F) :
    robotCalls (cs ++ [c]) = (robotCalls cs >>= fun _ => attempt c.run >>= fun _ => pure () : Prog F Unit) := by
  induction cs with
  | nil => rfl
  | cons d cs ih => simp only [List.cons_append, robotCalls, ih, Prog.bind_assoc']

/-- One more call. -/
theorem session_snoc {rc : Option RealtimeConfig} {ls : Option Nat} {cs : List (RobotCall F)} {w0 w : World F} (h1 : robotSession rc ls cs w0 = (.ok (), w))
    (c : RobotCall F) (h : (c.run w).1 = .ok () ∨ ∃ e, (c.run w).1 = .err e) : robotSession rc ls (cs ++ [c]) w0 = (.ok (), (c.run w).2) := by
  have : robotSession rc ls (cs ++ [c]) = (robotSession rc ls cs >>= fun _ => attempt c.run >>= fun _ => pure () : Prog F Unit) := by
    unfold robotSession
    rw [robotCalls_snoc, Prog.bind_assoc']
  rw [this]
  apply Post.eq
  rw [post_bind]
  have h2 : Post (robotSession rc ls cs) w0 fun r w1 => r = .ok () ∧ w1 = w := by unfold Post; rw [h1]; exact ⟨rfl, rfl⟩
  refine h2.mono ?_
  rintro r w1 ⟨rfl, rfl⟩
  rw [after_ok, post_bind, post_attempt]
  show Tried _ (c.run w1).1 (c.run w1).2
  rcases h with h | ⟨e, h⟩ <;> rw [h] <;> exact ⟨rfl, rfl⟩

/-- After a call that returned, the robot can be used further. -/
theorem Spec.RobotReachable.after {w : World F} (hw : RobotReachable w) (c : RobotCall F) (h : (c.run w).1 = .ok () ∨ ∃ e, (c.run w).1 = .err e) :
    RobotReachable (c.run w).2 := by
  obtain ⟨rc, ls, cs, w0, h0, h1⟩ := hw
  exact ⟨rc, ls, cs ++ [c], w0, h0, session_snoc h1 c h⟩

/-- A control call on an idle robot writes its Move request. -/
theorem control_starts {w : World F} {c : RobotCall F} {σ : Type} {k : MotionKind} {call : ControlCall F σ k} {c0 : σ} (h : IsControl c call c0)
    (s : RobotStateIntern F) (hs : LastState w s) (hidle : ¬ Running s) (hrt : ¬ RealTimeMissing w) (t : Tick) (ts : List Tick)
    (hscript : w.script = t :: ts) (hf : t.fail = false) (hid : w.net.command_id ≠ 0xffffffff) :
    Post c.run w fun _ w' => ∃ hd es, w'.trace = w.trace ++ .robotReq ⟨hd, moveBody k call.controller⟩ :: es := by
  obtain ⟨h1, -⟩ := IsControl.run_eq h
  rw [h1]
  unfold controlProgram
  refine (new_intern_view call w).bind ?_
  rintro r w1 ⟨rfl, hr⟩
  cases r with
  | ok l =>
    obtain ⟨rfl, -⟩ := hr
    rw [after_ok]
    unfold start_motion
    simp only [post_bind]
    rw [running_iff s hs]
    refine ⟨fun h => absurd h hidle, fun _ => ?_⟩
    simp only [after_ok, Bool.false_eq_true, if_false, post_bind, post_modify]
    have heq : ∀ b mm (d d' : MoveDeviation F), execute_move_command b mm d d' = (sendRequest (.Move ⟨b, mm, d, d'⟩) >>= fun id =>
      tcp_blocking_receive_response MoveResponse.codec id >>= fun r => ofExcept (handle_command_response_move r) >>= fun _ => pure id : Prog F UInt32) := by
      intro b mm d d'
      unfold execute_move_command sendRequest
      simp only [Prog.bind_assoc']; rfl
    rw [heq, post_bind]
    have hsend := sendRequest_eq (.Move ⟨call.controller, k.get_motion_generator_mode, (loopOf call 0).default_deviation, (loopOf call 0).default_deviation⟩)
      { w1 with rob := { w1.rob with
        current_move_motion_generator_mode := k.get_motion_generator_mode.reported
        current_move_controller_mode := some call.controller.reported } } t ts hscript hf hid
    unfold Post
    rw [hsend]
    rw [after_ok]
    simp only [← post_bind]
    refine (Pres.post (T := Grows) ?_ _).mono ?_
    · pres [pres_tcp_blocking_receive_response _ _, pres_ofExcept _, pres_wait_for_motion_start _, pres_flush_logger, pres_run _ trivial _]
    · rintro r w' ⟨es, hes⟩
      refine ⟨⟨.Move, w1.net.command_id, UInt32.ofNat RobotCommandEnum.Move.size_of_request⟩, es, ?_⟩
      rw [hes]
      simp only [List.append_assoc]
      rfl
  | err e => exact absurd hr.1 hrt
  | panic m => exact hr.elim
  | blocked => exact hr.elim

end Verif
