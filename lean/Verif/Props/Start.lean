import Verif.Props.Control
import Verif.Lemmas.StartAnswer
/-!
# The answers to the request that starts a motion: C63, C64

`w` is a world in which a `Robot` exists, `c` a control method with its arguments. The number of its Move request is
`w.net.command_id`, and that of the StopMove request it may send is the next number. The trace of the world holds everything that
happened on the connection, also the answers (`.response id bytes`) in the order in which they were completed.
-/
set_option linter.unusedSectionVars false
namespace Verif
open Prog Spec

section
variable {F : Type} [Fl F] [Wire F] [Geo F]
variable {w : World F} (hw : RobotReachable w) {c : RobotCall F} {σ : Type} {k : MotionKind} {call : ControlCall F σ k} {c0 : σ}
  (hc : IsControl c call c0)
include hw hc

/-! ## C63 -/

/-- C63: after the Move request, an answer, and nothing else but states, a second answer to the Move request ends the wait for the start of
the motion: the call does not receive two more states in a row. Before the second of them the callback is called or the motion is stopped. -/
theorem C63_second_answer_ends_the_wait {pre post : List (Ev F)} {bs : Bytes} (h : (c.run w).2.trace = w.trace ++ pre ++ .response w.net.command_id bs :: post)
    (hfirst : ∃ b, (w.net.command_id, b) ∈ responses pre) {m : Ev F} {ss : List (RobotStateIntern F)} (hpre : visible pre = m :: ss.map .accepted) :
    ∀ s s' rest, visible post ≠ .accepted s :: .accepted s' :: rest := by
  obtain ⟨es, fs, gs, h1, h2, h3, h4, h5⟩ := call_answers hw hc
  have hs : pre ++ .response w.net.command_id bs :: post = es ++ (fs ++ gs) := by
    rw [h, List.append_assoc, List.append_assoc, List.append_assoc] at h1
    exact List.append_cancel_left h1
  have key : ∀ x, pre = es ++ x → fs ++ gs = x ++ .response w.net.command_id bs :: post → NotTwo (visible post) := by
    intro x h6 h7
    have key2 : ∀ y, x = fs ++ y → gs = y ++ .response w.net.command_id bs :: post → NotTwo (visible post) := by
      intro y h8 h9
      obtain ⟨e, he⟩ := h5.resolve_left (by rw [h9]; simp)
      rw [h6, h8, visible_append, visible_append, he] at hpre
      simp only [List.cons_append, List.nil_append, List.cons.injEq] at hpre
      have hy : ∀ e ∈ visible y, ∃ s, e = .accepted s := by
        intro e he
        have : e ∈ ss.map .accepted := by rw [← hpre.2]; exact List.mem_append_right _ he
        obtain ⟨s, -, rfl⟩ := List.mem_map.1 this
        exact ⟨s, rfl⟩
      have hv : visible gs = visible y ++ visible post := by
        rw [h9, visible_append]; rfl
      rw [hv] at h4
      cases hv : visible y with
      | nil => rw [hv] at h4; exact h4
      | cons a r =>
        rw [hv] at h4 hy
        obtain ⟨s0, rfl⟩ := hy a (by simp)
        intro s s' rest hp
        rw [hp] at h4
        cases r with
        | nil => exact h4 _ _ _ rfl
        | cons b r =>
          obtain ⟨s1, rfl⟩ := hy b (by simp)
          exact h4 _ _ _ rfl
    rcases List.append_eq_append_iff.1 h7 with ⟨y, h8, h9⟩ | ⟨y, h8, h9⟩
    · exact key2 y h8 h9
    · cases y with
      | nil => exact key2 [] (by rw [h8]; simp) (by simpa using h9.symm)
      | cons e y =>
        simp only [List.cons_append, List.cons.injEq] at h9
        obtain ⟨rfl, rfl⟩ := h9
        rw [visible_append, h3 _ _ _ h8]
        exact h4
  obtain ⟨b, hb⟩ := hfirst
  rcases List.append_eq_append_iff.1 hs with ⟨x, h6, h7⟩ | ⟨x, h6, h7⟩
  · cases x with
    | nil => exact key [] (by rw [h6]; simp) (by simpa using h7.symm)
    | cons e x =>
      exfalso
      simp only [List.cons_append, List.cons.injEq] at h7
      obtain ⟨rfl, -⟩ := h7
      rw [h6, answersTo_append, List.length_append] at h2
      have a1 : 0 < (answersTo w.net.command_id pre).length := by
        refine List.length_pos_iff.2 fun h => ?_
        unfold answersTo at h
        exact absurd (List.filter_eq_nil_iff.1 h _ hb) (by simp)
      have a2 : 0 < (answersTo w.net.command_id (.response w.net.command_id bs :: x)).length := by
        simp [answersTo, responses]
      omega
  · exact key x h6 h7

/-! ## C64 -/

/-- C64: a control call returns Ok only after the robot confirmed the end of the motion: the last thing that happened is a positive answer
to the Move request, and a callback that ended the motion was called before. -/
theorem C64_ok_after_the_last_answer (hok : (c.run w).1 = .ok ()) : ∃ pre bs post status rest,
    (c.run w).2.trace = w.trace ++ pre ++ .response w.net.command_id bs :: post ∧ visible post = [] ∧
    MoveResponse.codec.dec bs = some (status, rest) ∧ Positive status.status ∧ ∃ e ∈ pre, EndsMotion e := by
  obtain ⟨es, bs, fs, a, rest, h1, h2, h3, h4⟩ := (call_ends hw hc).1 hok
  refine ⟨es, bs, fs, a, rest, h1, h2, h3, positive_of h4, ?_⟩
  obtain ⟨⟨e, he, he'⟩, -⟩ := C29_ok_means_finished hw hc hok
  rw [newEvents_eq (call_grows c w) (tr := visible es) (by rw [h1, visible_append, visible_append, show visible (.response w.net.command_id bs :: fs) = [] from h2, List.append_nil])] at he
  exact ⟨e, (List.mem_filter.1 he).1, he'⟩

/-- C64: a control call returns an error after a callback was called or a command was sent only if the robot answered a StopMove request of
this call with success. -/
theorem C64_error_after_the_stop (e : FrankaException F) (herr : (c.run w).1 = .err e)
    (hcb : ∃ e ∈ newEvents w (c.run w).2, IsCallback e ∨ IsCommand e) : ∃ h bs status rest, .robotReq ⟨h, .StopMove⟩ ∈ (c.run w).2.trace ∧
      h.command_id = w.net.command_id + 1 ∧ (h.command_id, bs) ∈ responses (c.run w).2.trace ∧
      StopMoveResponse.codec.dec bs = some (status, rest) ∧ status.status = .Success := by
  rcases (call_ends hw hc).2 e herr with ⟨h, bs, a, rest, h1, h2, h3⟩ | ⟨s0, tr, ph, h1, h2, h3⟩
  · exact ⟨h, bs, a, rest, h1, h2, by rw [h2]; exact h3⟩
  · exfalso
    obtain ⟨e', he, h4⟩ := hcb
    rw [newEvents_eq (call_grows c w) h1] at he
    rcases h3 with rfl | ⟨s, rfl⟩
    · cases he
    · have := run_calm h2 e' he
      exact h4.elim this.2.1 this.1

/-- C64: if the robot falls silent after a callback was called - no answer to the Move request after it, and none to a StopMove request -
the call does not return. -/
theorem C64_silent_robot_never_returns {pre post : List (Ev F)} {e : Ev F} (h : (c.run w).2.trace = w.trace ++ pre ++ e :: post) (he : IsCallback e)
    (hmove : ∀ bs, (w.net.command_id, bs) ∉ responses post) (hstop : ∀ bs, (w.net.command_id + 1, bs) ∉ responses (c.run w).2.trace) :
    NeverReturns (c.run w).1 := by
  have hvis : visible (e :: post) = e :: visible post := by
    cases e <;> first | rfl | exact he.elim
  cases hr : (c.run w).1 with
  | ok _ =>
    obtain ⟨es, bs, fs, a, rest, h1, h2, -⟩ := (call_ends hw hc).1 hr
    exfalso
    rw [h, List.append_assoc, List.append_assoc] at h1
    have h1 := List.append_cancel_left h1
    rcases List.append_eq_append_iff.1 h1 with ⟨x, h3, h4⟩ | ⟨x, h3, h4⟩
    · cases x with
      | nil =>
        simp only [List.nil_append, List.cons.injEq] at h4
        rw [h4.1] at he; exact he
      | cons e' x =>
        simp only [List.cons_append, List.cons.injEq] at h4
        exact hmove bs (by rw [h4.2]; simp [responses])
    · cases x with
      | nil =>
        simp only [List.nil_append, List.cons.injEq] at h4
        rw [← h4.1] at he; exact he
      | cons e' x =>
        simp only [List.cons_append, List.cons.injEq] at h4
        rw [h4.2, visible_append, hvis] at h2
        simp at h2
  | err e' =>
    exfalso
    have hmem : e ∈ newEvents w (c.run w).2 := by
      rw [newEvents_eq (call_grows c w) (tr := visible pre ++ e :: visible post) (by rw [h, visible_append, visible_append, hvis, List.append_assoc])]
      simp
    obtain ⟨hd, bs, a, rest, -, g1, g2, -⟩ := C64_error_after_the_stop hw hc e' hr ⟨e, hmem, .inl he⟩
    rw [g1] at g2
    exact hstop bs g2
  | panic m => trivial
  | blocked => trivial

end

/-! ## Examples

`[6, n]` is an answer to the request number `n`; the other events are shown as in `Verif.Props.Control`. -/

section examples
open Toy

namespace Toy
/-- The events of a call with the answers. -/
def show3 (e : Ev UInt64) : Option (List Nat) := match e with
  | .response id _ => some [6, id.toNat]
  | .tcpRecv _ => none
  | .udpRecv _ => none
  | e => some (show1 e)

/-- The run of a call with the answers. -/
def shown3 (c : RobotCall UInt64) (w : World UInt64) : (Nat × String) × List (List Nat) :=
  (show2 (c.run w).1, ((c.run w).2.trace.drop w.trace.length).filterMap show3)

/-- The final answer comes before the motion has started. -/
def early : List Tick := [quiet] ++ ans 1 1 1 ++ [quiet] ++ st 2 0 3 1 ++ ans 1 1 0 ++ st 3 1 0 2 ++ cycle 4 ++ cycle 5 ++ [quiet] ++ st 6 0 3 1

/-- The robot falls silent in the middle of a motion. -/
def silent : List Tick := moving ++ List.replicate 20 quiet
end Toy

/-- C63: the second answer (the fourth event) ends the wait; one state is received, and then the callback is called. The robot does not
answer again, and the call waits forever. -/
theorem C63_early_answer_example : RobotReachable (robot early) ∧ IsControl (call 1) (asked 1) 0 ∧ shown3 (call 1) (robot early) = ((5, ""),
    [[0, 1, 1], [6, 1], [1, 2, 0], [6, 1], [1, 3, 1], [2, 0], [3, 3, 0, 0], [1, 4, 1], [2, 1], [3, 4, 7, 1], [1, 5, 1], [3, 5, 7, 1], [1, 6, 0]]) :=
  ⟨robot_reachable _, call_control 1, by kernel_rfl⟩

/-- C64: the last answer is the last event of a motion that finished. -/
example : RobotReachable (robot finished) ∧ shown3 (call 2) (robot finished) = ((0, ""),
    [[0, 1, 1], [6, 1], [1, 2, 1], [1, 3, 1], [2, 0], [3, 3, 0, 0], [1, 4, 1], [2, 1], [3, 4, 7, 0], [1, 5, 1], [2, 1], [3, 5, 14, 1], [1, 6, 1],
     [3, 6, 14, 1], [1, 7, 0], [6, 1]]) :=
  ⟨robot_reachable _, by kernel_rfl⟩

/-- C64: the StopMove request has number two and is answered. -/
example : RobotReachable (robot lost) ∧ shown3 (call 9) (robot lost) = ((1, "libfranka-rs: UDP receive: timeout"),
    [[0, 1, 1], [6, 1], [1, 2, 1], [1, 3, 1], [2, 0], [3, 3, 0, 0], [1, 4, 1], [2, 1], [3, 4, 7, 0], [1, 5, 1], [2, 1], [3, 5, 14, 0], [0, 2, 2],
     [6, 2], [1, 9, 0]]) :=
  ⟨robot_reachable _, by kernel_rfl⟩

/-- C64: nobody answers the StopMove request. -/
example : RobotReachable (robot silent) ∧ shown3 (call 9) (robot silent) = ((5, ""),
    [[0, 1, 1], [6, 1], [1, 2, 1], [1, 3, 1], [2, 0], [3, 3, 0, 0], [1, 4, 1], [2, 1], [3, 4, 7, 0], [1, 5, 1], [2, 1], [3, 5, 14, 0], [0, 2, 2]]) :=
  ⟨robot_reachable _, by kernel_rfl⟩

end examples
end Verif
