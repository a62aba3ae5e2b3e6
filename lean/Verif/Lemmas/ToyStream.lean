import Verif.Lemmas.ToyMotion
/-!
Concrete state streams for the examples: bursts of datagrams, torn and oversized datagrams, a stream that ends. The computations are left to
the kernel.
-/
namespace Verif
open Spec
namespace Toy

/-- Several datagrams arrive at once. -/
def atOnce (ds : List Datagram) : Tick := { udpIn := ds }

/-- A call of `read_once` with these datagrams arriving at once while it waits. -/
def waiting (ds : List Datagram) : World UInt64 := robot ([quiet, quiet, atOnce ds] ++ List.replicate 5 quiet)

/-- The time of the returned state, whether it shows the Move mode, and the time stamps and sizes of the datagrams received since the
connection was made. -/
def readShown (w : World UInt64) : Option (Nat × Bool) × List (Nat × Nat) :=
  (match (Robot.read_once w).1 with
    | .ok s => some (s.time, s.robot_mode == .Move)
    | _ => none,
   (datagrams (Robot.read_once w).2.trace).map fun d => (stamp d, d.data.length))

theorem reordered_shown : readShown (waiting [⟨7, state 5⟩, ⟨7, state 4⟩]) = (some (4, false), [(1, 2373), (5, 2373), (4, 2373)]) := by
  kernel_rfl
theorem torn_shown : readShown (waiting [⟨7, state 5 0 3 2⟩, ⟨7, [9, 0, 0, 0, 0, 0, 0, 0]⟩]) =
    (some (9, true), [(1, 2373), (5, 2373), (9, 8)]) := by kernel_rfl
theorem oversized_shown : readShown (waiting [⟨7, state 5 ++ [1]⟩]) = (some (5, false), [(1, 2373), (5, 2374)]) := by kernel_rfl
theorem inOrder_shown : readShown (waiting [⟨7, state 4⟩, ⟨7, state 5⟩]) = (some (5, false), [(1, 2373), (4, 2373), (5, 2373)]) := by kernel_rfl

theorem waiting_reachable (ds : List Datagram) : RobotReachable (waiting ds) := robot_reachable _

theorem read_of {w : World UInt64} {t : Nat} {b : Bool} {l : List (Nat × Nat)} (h : readShown w = (some (t, b), l)) :
    ∃ st w', Robot.read_once w = (.ok st, w') ∧ st.time = t ∧ (datagrams w'.trace).map (fun d => (stamp d, d.data.length)) = l := by
  have h1 := congrArg Prod.fst h
  have h2 := congrArg Prod.snd h
  unfold readShown at h1 h2
  simp only at h1 h2
  split at h1
  · rename_i s hs
    simp only [Option.some.injEq, Prod.mk.injEq] at h1
    exact ⟨s, (Robot.read_once w).2, by rw [← hs], h1.1, h2⟩
  · simp at h1

/-- During a motion a datagram of another sender arrives in a burst after one of the robot. -/
def twoSenders : List Tick := started ++ [atOnce [⟨7, state 3 1 0 2⟩, ⟨8, state 4 1 0 2⟩]] ++ List.replicate 6 quiet

/-- The senders of received datagrams and the addresses of commands. -/
def addresses (w : World UInt64) : List (Bool × Addr) := (((call 9).run w).2.trace.drop w.trace.length).filterMap fun
  | .udpRecv d => some (false, d.src)
  | .udpSend a _ => some (true, a)
  | _ => none

theorem twoSenders_shown : addresses (robot twoSenders) = [(false, 7), (false, 7), (false, 8), (true, 7)] := by kernel_rfl

/-- The states stop in the middle of a motion for good; the robot answers the StopMove request. -/
def lostForGood : List Tick := moving ++ [quiet, quiet, quiet] ++ [quiet] ++ ans 2 2 0 ++ List.replicate 20 quiet

theorem lostForGood_shown : shown (call 9) (robot lostForGood) = ((5, ""), movingEvents ++ [[3, 5, 14, 0], [0, 2, 2]]) := by kernel_rfl

/-- The connection request is answered, but no state arrives. -/
def noState : List Tick := [quiet, quiet, tcp connected] ++ List.replicate 4 quiet

theorem noState_shown : show2 (robotSession none none [] (world noState)).1 =
    (4, "called `Result::unwrap()` on an `Err` value: NetworkException") := by kernel_rfl

/-- A gripper state with this message id. -/
def gripperState (id : UInt8) : Bytes := [id, 0, 0, 0] ++ List.replicate 19 0

/-- Two calls of `Gripper::read_once`, each of which receives one state. -/
def gripperReads (a b : UInt8) : World UInt64 :=
  gripper ([quiet, udp (gripperState a), quiet, quiet] ++ [quiet, udp (gripperState b), quiet, quiet])

/-- The time stamps the two calls return. -/
def gripperShown (w : World UInt64) : Option Nat × Option Nat :=
  let time : Res UInt64 (Gripper.GripperState UInt64) → Option Nat := fun
    | .ok s => some s.time
    | _ => none
  (time (Gripper.read_once w).1, time (Gripper.read_once (Gripper.read_once w).2).1)

theorem gripper_of {w : World UInt64} {a b : Nat} (h : gripperShown w = (some a, some b)) :
    ∃ st w1 st' w2, Gripper.read_once w = (.ok st, w1) ∧ Gripper.read_once w1 = (.ok st', w2) ∧ st.time = a ∧ st'.time = b := by
  unfold gripperShown at h
  simp only [Prod.mk.injEq] at h
  obtain ⟨h1, h2⟩ := h
  split at h1
  · split at h2
    · rename_i s hs _ s' hs'
      simp only [Option.some.injEq] at h1 h2
      exact ⟨s, _, s', _, by rw [← hs], by rw [← hs'], h1, h2⟩
    · cases h2
  · cases h1

theorem gripperOld_shown : gripperShown (gripperReads 5 4) = (some 5, some 4) := by kernel_rfl
theorem gripperNew_shown : gripperShown (gripperReads 4 5) = (some 4, some 5) := by kernel_rfl

end Toy
end Verif
