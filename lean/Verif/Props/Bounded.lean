import Verif.Lemmas.Bounded
import Verif.Lemmas.Coop
import Verif.Props.Panic
import Verif.Props.Complete
/-!
# C71: reading a state never hangs
-/
set_option linter.unusedSectionVars false
namespace Verif
open Prog Spec
variable {F : Type} [Fl F] [Wire F]

theorem Paid.calls {n : Nat} {α : Type} {w w' : World F} {r : Res F α} (h : Paid n w r w') : systemCalls w w' ≤ 8 * datagramsRead w w' + n := by
  have h1 := h.cost
  have h2 := h.shorter
  have h3 := h.reads
  unfold value at h1
  unfold systemCalls datagramsRead
  omega

theorem Paid.returns {n : Nat} {α : Type} {w w' : World F} {r : Res F α} (h : Paid n w r w') (hs : 8 * datagramsAhead w + n < w.script.length) : r ≠ .blocked := by
  intro hr
  have h0 := h.ends hr
  have h1 := h.cost
  have h2 := h.all
  unfold value at h1
  unfold allDatagrams at h2
  unfold datagramsAhead at hs
  rw [h0] at h1 h2
  simp only [List.length_nil, udpArrived_nil] at h1 h2
  omega

theorem paid_discard (w : World F) : Post (discard_available : Prog F Unit) w (Paid 4 w) := by
  unfold discard_available
  refine loop_post' (fun _ w' => Paid 0 w (.ok () : Res F Unit) w') consumes_discard_available (.same (es := []) rfl rfl (by simp) rfl (by simp)) ?_
  intro _ w1 h
  rw [post_bind]
  refine (paid_receive _ _ w1).mono ?_
  intro r w2 h2
  cases r with
  | ok o => cases o <;> exact (h.trans h2).fin (by omega) (by nb)
  | err e => exact (h.trans h2).fin (by omega) (by nb)
  | panic m => exact (h.trans h2).fin (by omega) (by nb)
  | blocked => exact (h.trans h2).fin (by omega) (by nb)

theorem paid_read_once (w : World F) : Post (Robot.read_once : Prog F (RobotState F)) w (Paid (11 : Nat) w) := by
  unfold Robot.read_once RobotImpl.read_once
  rw [post_bind]
  refine (paid_discard w).mono ?_
  intro r w1 h
  cases r with
  | ok _ =>
    rw [after_ok, post_bind]
    refine (paid_state w1).mono ?_
    intro r w2 h2
    cases r with
    | ok s => exact (h.trans h2).fin (by omega) (by nb)
    | err e => exact (h.trans h2).fin (by omega) (by nb)
    | panic m => exact (h.trans h2).fin (by omega) (by nb)
    | blocked => exact (h.trans h2).fin (by omega) (by nb)
  | err e => exact h.fin (by omega) (by nb)
  | panic m => exact h.fin (by omega) (by nb)
  | blocked => exact h.fin (by omega) (by nb)

theorem paid_read {σ : Type} (cb : σ → RobotState F → σ × Bool) (c : σ) (w : World F) : Post (Robot.read cb c : Prog F Unit) w (Paid (7 : Nat) w) := by
  unfold Robot.read
  refine loop_post' (fun _ w' => Paid 0 w (.ok () : Res F Unit) w') (consumes_robot_read cb) (.same (es := []) rfl rfl (by simp) rfl (by simp)) ?_
  intro c w1 h
  unfold update send_robot_command
  simp only [Option.isSome_none, Bool.or_self, Bool.false_eq_true, if_false, post_bind, post_gets, after_ok, post_pure]
  refine (paid_state w1).mono ?_
  intro r w2 h2
  cases r with
  | ok s =>
    simp only [after_ok, post_pure, post_bind, post_emit, post_ite]
    have h3 : Paid 0 w (.ok () : Res F Unit) w2 := (h.trans h2).fin (by omega) (by nb)
    exact ⟨fun _ => h3.keep rfl rfl (by simp [datagrams]) (by simp), fun _ => (h3.mono (by omega)).keep rfl rfl (by simp [datagrams]) (by simp)⟩
  | err e => exact (h.trans h2).fin (by omega) (by nb)
  | panic m => exact (h.trans h2).fin (by omega) (by nb)
  | blocked => exact (h.trans h2).fin (by omega) (by nb)

theorem consumes_gripper_discard : Consumes (fun _ : Unit => (do
    match ← udp_receive (Gripper.GripperStateIntern.codec F) Gripper.size_of_GripperStateIntern with
    | some _ => pure (.inl ())
    | none => pure (.inr ()) : Prog F (Unit ⊕ Unit))) := by
  apply consumes_of_eats
  intro _
  refine (eats_udp_receive _ _).bind fun e => ?_
  pres

theorem paid_gripper_read_once (w : World F) : Post (Gripper.read_once : Prog F (Gripper.GripperState F)) w (Paid (7 : Nat) w) := by
  unfold Gripper.read_once
  rw [post_bind]
  have hd : Post (Gripper.discard_available : Prog F Unit) w (Paid 4 w) := by
    unfold Gripper.discard_available
    refine loop_post' (fun _ w' => Paid 0 w (.ok () : Res F Unit) w') consumes_gripper_discard (.same (es := []) rfl rfl (by simp) rfl (by simp)) ?_
    intro _ w1 h
    rw [post_bind]
    refine (paid_receive _ _ w1).mono ?_
    intro r w2 h2
    cases r with
    | ok o => cases o <;> exact (h.trans h2).fin (by omega) (by nb)
    | err e => exact (h.trans h2).fin (by omega) (by nb)
    | panic m => exact (h.trans h2).fin (by omega) (by nb)
    | blocked => exact (h.trans h2).fin (by omega) (by nb)
  refine hd.mono ?_
  intro r w1 h
  cases r with
  | ok _ =>
    rw [after_ok, post_bind]
    refine (paid_blocking_receive _ _ w1).mono ?_
    intro r w2 h2
    cases r with
    | ok s => exact (h.trans h2).fin (by omega) (by nb)
    | err e => exact (h.trans h2).fin (by omega) (by nb)
    | panic m => exact (h.trans h2).fin (by omega) (by nb)
    | blocked => exact (h.trans h2).fin (by omega) (by nb)
  | err e => exact h.fin (by omega) (by nb)
  | panic m => exact h.fin (by omega) (by nb)
  | blocked => exact h.fin (by omega) (by nb)

/-! ## C71 -/

/-- C71: on every schedule, whatever arrives and whichever system calls fail, `read_once` and `read` of a robot and `read_once` of a gripper make at
most eight system calls for each datagram they take from the socket, and a few more. -/
theorem C71_system_calls (w : World F) : systemCalls w (Robot.read_once w).2 ≤ 8 * datagramsRead w (Robot.read_once w).2 + 11 ∧
    (∀ (σ : Type) (cb : σ → RobotState F → σ × Bool) (c : σ), systemCalls w (Robot.read cb c w).2 ≤ 8 * datagramsRead w (Robot.read cb c w).2 + 7) ∧
    systemCalls w (Gripper.read_once w).2 ≤ 8 * datagramsRead w (Gripper.read_once w).2 + 7 :=
  ⟨(paid_read_once w).calls, fun _ cb c => (paid_read cb c w).calls, (paid_gripper_read_once w).calls⟩

/-- C71: hence they do not wait for ever: they have returned (or panicked) before the schedule ends, if it has more system calls than that for all the
datagrams which are there or arrive. `read` returns even if its callback never asks it to. -/
theorem C71_always_returns (w : World F) (h : 8 * datagramsAhead w + 11 < w.script.length) : (Robot.read_once w).1 ≠ .blocked ∧
    (∀ (σ : Type) (cb : σ → RobotState F → σ × Bool) (c : σ), (Robot.read cb c w).1 ≠ .blocked) ∧ (Gripper.read_once w).1 ≠ .blocked :=
  ⟨(paid_read_once w).returns h, fun _ cb c => (paid_read cb c w).returns (by omega), (paid_gripper_read_once w).returns (by omega)⟩

section
variable [LawfulWire F] [Geo F]

theorem Spec.OrderlyRobot.sane {L : Nat} {w : World F} (h : OrderlyRobot L w) : Sane .Robot w := by
  obtain ⟨rc, ls, cs, w0, h0, ho, -, h⟩ := h
  exact (session_sane rc ls cs w0 h0 ho).reach h

/-- C71: in an orderly connection (no system call fails, only whole states arrive as datagrams) `read_once` returns a state or a NetworkException. -/
theorem C71_read_once_outcome {L : Nat} {w : World F} (hw : OrderlyRobot L w) (h : 8 * datagramsAhead w + 11 < w.script.length) :
    (∃ st, (Robot.read_once w).1 = .ok st) ∨ ∃ m, (Robot.read_once w).1 = .err (.NetworkException m) := by
  have h1 := (C71_always_returns w h).1
  have hc : Prog.Calm (Sane .Robot) (fun _ => False) (Robot.read_once : Prog F (RobotState F)) := by
    unfold Robot.read_once RobotImpl.read_once
    calm [calm_discard_available, calm_receive_robot_state]
  obtain ⟨s, -, hs⟩ := (RobotReachable.alive hw.reachable).history
  obtain ⟨r, w', hr⟩ : ∃ r w', Robot.read_once w = (r, w') := ⟨_, _, rfl⟩
  have h2 := (hc w hw.sane).reach hr
  have h3 := Post.reach (read_once_view w s hs) (show RobotImpl.read_once w = (r, w') from hr)
  rw [hr] at h1 ⊢
  cases r with
  | ok st => exact .inl ⟨st, rfl⟩
  | err e =>
    obtain ⟨-, -, m, rfl⟩ := h3
    exact .inr ⟨m, rfl⟩
  | panic m => exact h2.elim
  | blocked => exact absurd rfl h1

/-- C71: a state that is newer than the last one and arrives while `read_once` waits is returned. `t` is the system call that finds the socket
empty. -/
theorem C71_new_state_is_returned {w : World F} {s : RobotStateIntern F} {t : Tick} {ts rest : List Tick} (hq : w.ker.udpRx = []) (hs : w.script = t :: ts ++ rest)
    (ht : t.fail = false ∧ t.eof = false ∧ t.udpIn = []) (ha : StateArrives s [] ts) (hnew : w.rob.message_id < s.message_id) :
    (Robot.read_once w).1 = .ok (RobotState.ofIntern s) := by
  suffices h : Post (Robot.read_once : Prog F (RobotState F)) w fun r _ => r = .ok (RobotState.ofIntern s) from h
  unfold Robot.read_once RobotImpl.read_once
  rw [post_bind]
  have hu : (discard_available : Prog F Unit) = _ := loop_unfold consumes_discard_available ()
  rw [hu, post_bind, post_bind]
  refine (udp_receive_none _ _ (by simpa using hs) ⟨ht.1, ht.2.1⟩ (by rw [hq, ht.2.2]; rfl)).mono ?_
  rintro r w1 ⟨rfl, -, h2, h3, h4⟩
  simp only [after_ok, post_pure, post_bind]
  refine (receive_supplied ha h2 h4 (by simp) (by rw [h3]; exact hnew)).mono ?_
  rintro r w2 ⟨rfl, -⟩
  rfl

end

/-! ## Examples -/

section examples
open Toy

/-- Two states arrive, and then nothing: `read_once` and `read` return. -/
def Toy.thenSilence : List Tick := [quiet, udp (state 2), quiet, quiet, udp (state 3)] ++ List.replicate 40 quiet

example : OrderlyRobot 50 (robotL 50 thenSilence) ∧ 8 * datagramsAhead (robotL 50 thenSilence) + 11 < (robotL 50 thenSilence).script.length ∧
    datagramsAhead (robotL 50 thenSilence) = 2 :=
  have h1 : datagramsAhead (robotL 50 thenSilence) = 2 := by kernel_rfl
  have h2 : (robotL 50 thenSilence).script.length = 45 := by kernel_rfl
  ⟨robotL_orderly _ _ (by kernel_rfl), by rw [h1, h2]; decide, h1⟩

/-- What `read` does there: its callback, which never asks it to stop, sees both states. -/
example : datagramsRead (robotL 50 thenSilence) (Robot.read (fun n _ => (n + 1, true)) 0 (robotL 50 thenSilence)).2 = 2 ∧
    systemCalls (robotL 50 thenSilence) (Robot.read (fun n _ => (n + 1, true)) 0 (robotL 50 thenSilence)).2 = 11 := ⟨by kernel_rfl, by kernel_rfl⟩

/-- A new state arrives in the system call after the one that finds the socket empty. -/
example : RobotReachable (robot (quiet :: st 2 1 0 2 ++ [])) ∧ (robot (quiet :: st 2 1 0 2 ++ [])).ker.udpRx = [] ∧
    (robot (quiet :: st 2 1 0 2 ++ [])).script = quiet :: st 2 1 0 2 ++ [] ∧ (quiet.fail = false ∧ quiet.eof = false ∧ quiet.udpIn = []) ∧
    StateArrives s2 [] (st 2 1 0 2) ∧ (robot (quiet :: st 2 1 0 2 ++ [])).rob.message_id < s2.message_id :=
  have h1 : (robot (quiet :: st 2 1 0 2 ++ [])).rob.message_id = 1 := by kernel_rfl
  have h2 : s2.message_id = 2 := by kernel_rfl
  ⟨robot_reachable _, by kernel_rfl, robot_script _, ⟨rfl, rfl, rfl⟩, st_arrives _ _ _ _ _ e2, by rw [h1, h2]; decide⟩

end examples
end Verif
