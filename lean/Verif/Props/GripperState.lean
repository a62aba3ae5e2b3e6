import Verif.Lemmas.GripperRead
import Verif.Lemmas.ToyStream
/-!
# The states of a gripper: C66
-/
set_option linter.unusedSectionVars false
namespace Verif
open Prog Spec

section
variable {F : Type} [Fl F] [Wire F] [LawfulWire F] [Geo F]

/-- **C66.** Let all datagrams of a history have the size of a gripper state, and no system call fail. Then what `read_once` returns is the content of
the last datagram `d` it took from the socket, field by field, and this datagram was not there yet when the method was called: those that
were (`w.ker.udpRx`) are passed over. -/
theorem C66_gripper_state_as_sent {cs : List (GripperCall F)} {w0 w w' : World F} (hw : Fresh w0) (hx : GripperSize (udpArrived w0.script))
    (hn : NoFail w0.script) (h : gripperSession cs w0 = (.ok (), w)) {st : Gripper.GripperState F} (hr : Gripper.read_once w = (.ok st, w')) :
    ∃ ds d, datagrams w'.trace = datagrams w.trace ++ w.ker.udpRx ++ ds ++ [d] ∧ natAt d.data 0 4 = st.time ∧ floatAt d.data 4 st.width ∧
      floatAt d.data 12 st.max_width ∧ boolAt d.data 20 st.is_grasped ∧ natAt d.data 21 2 = st.temperature.toNat := by
  have ho : Open w := by
    have := session_open cs w0 hw hn
    unfold Post at this
    rw [h] at this
    exact this
  have hs : GripperSize (w.ker.udpRx ++ udpArrived w.script) := by
    have := gripper_session_conserve cs w0
    rw [h] at this
    obtain ⟨used, es, c1, -, -, c4⟩ := this
    rw [hw.2] at c4
    intro d hd
    apply hx
    rw [c1, udpArrived_append]
    rcases List.mem_append.1 hd with hd | hd
    · refine List.mem_append_left _ ?_
      have : d ∈ datagrams es ++ w.ker.udpRx := List.mem_append_right _ hd
      rw [← c4] at this
      simpa using this
    · exact List.mem_append_right _ hd
  obtain ⟨ds, d, s, h1, h2, rfl⟩ := gripper_read_new w w' st ho hs hr
  exact ⟨ds, d, h1, h2.message_id, h2.width, h2.max_width, h2.is_grasped, h2.temperature⟩

end

/-! ## Example -/

section examples
open Toy

namespace Toy
/-- A state with a width of 9, a maximal width of 10, a grasped object and a temperature of 30 degrees. -/
def grasped (id : UInt8) : Bytes := [id, 0, 0, 0] ++ [9, 0, 0, 0, 0, 0, 0, 0] ++ [10, 0, 0, 0, 0, 0, 0, 0] ++ [1] ++ [30, 0]

/-- A state arrives while the connection is made, and another one in the call. -/
def twoStates : List Tick := [quiet, quiet, { tcpIn := gripperConnected, udpIn := [⟨7, gripperState 4⟩] }] ++ List.replicate 8 quiet ++
  [udp (grasped 5), quiet, quiet]

/-- What the call returns. -/
def stateShown : Res UInt64 (Gripper.GripperState UInt64) → Option (Nat × UInt64 × UInt64 × Bool × UInt16)
  | .ok s => some (s.time, s.width, s.max_width, s.is_grasped, s.temperature)
  | _ => none

theorem twoStates_ok : (gripperSession [] (world twoStates)).1 = .ok () := by kernel_rfl
theorem twoStates_waiting : (gripperSession [] (world twoStates)).2.ker.udpRx = [⟨7, gripperState 4⟩] := by kernel_rfl
theorem twoStates_shown : stateShown (Gripper.read_once (gripperSession [] (world twoStates)).2).1 = some (5, 9, 10, true, 30) := by kernel_rfl
end Toy

/-- C66: an older state waits when the method is called; the newer one is returned. -/
example : Fresh (world twoStates) ∧ GripperSize (udpArrived twoStates) ∧ NoFail twoStates ∧ gripperSession [] (world twoStates) = (.ok (), (gripperSession [] (world twoStates)).2) ∧
    (gripperSession [] (world twoStates)).2.ker.udpRx = [⟨7, gripperState 4⟩] ∧
    stateShown (Gripper.read_once (gripperSession [] (world twoStates)).2).1 = some (5, 9, 10, true, 30) := by
  refine ⟨fresh _ _ _, ?_, ?_, eq_pair twoStates_ok, twoStates_waiting, twoStates_shown⟩
  · have : udpArrived twoStates = [⟨7, gripperState 4⟩, ⟨7, grasped 5⟩] := by kernel_rfl
    rw [this]
    intro d hd
    simp only [List.mem_cons, List.not_mem_nil, or_false] at hd
    rcases hd with rfl | rfl <;> kernel_rfl
  · intro t ht
    simp only [twoStates, List.mem_append, List.mem_cons, List.mem_replicate, List.not_mem_nil, or_false] at ht
    aesop (add simp [quiet, udp])

end examples
end Verif
