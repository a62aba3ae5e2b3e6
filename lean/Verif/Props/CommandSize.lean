import Verif.Props.Network
/-!
# Sending a command: C04

The size of a command and the outcome of sending it, in the program.
-/
set_option linter.unusedSectionVars false
namespace Verif
open Prog Spec
variable {F : Type} [Fl F] [Wire F]

/-- C04: whatever the command is, if the operating system sends it, the call returns Ok: the error about the size is not raised. The command is what was sent, once. -/
theorem C04_sending [LawfulWire F] (c : RobotCommand F) (w : World F) (t : Tick) (ts : List Tick) (hs : w.script = t :: ts) (ht : t.fail = false) :
    (udp_send c w).1 = .ok () ∧ (udp_send c w).2.trace = w.trace ++ [.udpSend w.net.udp_server_address c] := by
  have hl : ¬ ((RobotCommand.codec F).enc c).length ≠ size_of_RobotCommand := fun h => h (RobotCommand.codec_lawful.len c)
  simp [udp_send, sys, emit, gets, Prog.modify, Prog.bind, Bind.bind, hs, ht, hl, Pure.pure, Prog.pure]

/-- C04: the only error is that of the operating system, and then nothing was sent. -/
theorem C04_sending_fails [LawfulWire F] (c : RobotCommand F) (w w' : World F) (e : FrankaException F) (h : udp_send c w = (.err e, w')) :
    e = .NetworkException ioErrorText ∧ w'.trace = w.trace := by
  match hs : w.script with
  | [] => simp [udp_send, sys, Prog.bind, Bind.bind, hs] at h
  | t :: ts =>
    cases ht : t.fail with
    | false =>
      have := (C04_sending c w t ts hs ht).1
      rw [h] at this
      cases this
    | true =>
      simp [udp_send, sys, Prog.bind, Bind.bind, hs, ht, err] at h
      exact ⟨h.1.symm, by rw [← h.2]⟩

/-- Both cases occur. -/
example (w : World UInt64) (c : RobotCommand UInt64) (t : Tick) : (udp_send c { w with script := [{ t with fail := false }] }).1 = .ok () ∧
    (udp_send c { w with script := [{ t with fail := true }] }).1 = .err (.NetworkException ioErrorText) :=
  ⟨(C04_sending c _ _ [] rfl rfl).1, rfl⟩

end Verif
