import Verif.Lemmas.ToyRun
import Verif.Spec.Motion
/-!
Concrete motions for the examples: a joint position motion against schedules in which it finishes, is aborted, loses its state stream, and so
on. The computations are left to the kernel.
-/
namespace Verif
open Spec
namespace Toy

/-- A state arrives. -/
def st (id m c md : UInt8) : List Tick := [udp (state id m c md)] ++ List.replicate 4 quiet
/-- An answer arrives. -/
def ans (c id s : UInt8) : List Tick := [tcp (response c id s)] ++ List.replicate 3 quiet

/-- A callback that counts its calls and ends the motion in call number `last` (counted from zero). -/
def cb (last : Nat) : Nat → RobotState UInt64 → Nat → Nat × JointPositions UInt64 :=
  fun n _ _ => (n + 1, { q := fun i => UInt64.ofNat (7 * n + i.val), motion_finished := decide (last ≤ n) })

/-- `control_joint_positions` with this callback, without rate limiting and filtering. -/
def call (last : Nat) : RobotCall UInt64 := .control_motion Nat .JointPositions (cb last) none (some false) (some 1000) 0

/-- What this call asks for. -/
def asked (last : Nat) : ControlCall UInt64 Nat .JointPositions :=
  { motion := cb last, torque := none, controller := .JointImpedance, limit_rate := false, cutoff := 1000 }

theorem call_control (last : Nat) : IsControl (call last) (asked last) 0 := .motion Nat .JointPositions (cb last) none (some false) (some 1000) 0

/-- The Move request is answered and the next state shows the requested modes. -/
def started : List Tick := [quiet] ++ ans 1 1 1 ++ [quiet] ++ st 2 1 0 2
/-- A command is sent and the next state arrives. -/
def cycle (id : UInt8) : List Tick := [quiet] ++ st id 1 0 2
/-- Two cycles. -/
def moving : List Tick := started ++ st 3 1 0 2 ++ cycle 4 ++ cycle 5
/-- The robot finishes the motion. -/
def finished : List Tick := moving ++ cycle 6 ++ [quiet] ++ st 7 0 3 1 ++ ans 1 1 0
/-- The robot accepts the motion, and no state arrives any more. -/
def neverStarted : List Tick := [quiet] ++ ans 1 1 1 ++ [quiet] ++ [quiet, quiet]
/-- The robot answers the StopMove request and stands still. -/
def halted : List Tick := [quiet] ++ ans 2 2 0 ++ st 9 0 3 1 ++ [quiet]
/-- The states stop for a while in the middle of a motion. -/
def lost : List Tick := moving ++ [quiet, quiet, quiet] ++ halted
/-- A reflex stops the robot in the third cycle. -/
def reflex : List Tick := moving ++ [quiet] ++ st 6 0 3 4 ++ ans 1 1 6 ++ halted
/-- A reflex stops the robot, but the Move request is answered with success. -/
def reflexSuccess : List Tick := moving ++ [quiet] ++ st 6 0 3 4 ++ ans 1 1 0
/-- The states stop, and the robot rejects the StopMove request. -/
def stopRejected : List Tick := moving ++ [quiet, quiet, quiet] ++ [quiet] ++ ans 2 2 1

/-- The identity matrix. -/
def one4 : Arr UInt64 16 := fun i => if i.val % 5 = 0 then 1 else 0

/-- `control_cartesian_pose` with an elbow of this sign. -/
def poseCall (sign : UInt64) : RobotCall UInt64 := .control_motion Nat .CartesianPose
  (fun n _ _ => (n + 1, ({ O_T_EE := one4, elbow := some fun i => if i.val = 1 then sign else 5, motion_finished := false } : CartesianPose UInt64)))
  none (some false) (some 1000) 0

/-- What this call asks for. -/
def poseAsked (sign : UInt64) : ControlCall UInt64 Nat .CartesianPose :=
  { motion := fun n _ _ => (n + 1, ({ O_T_EE := one4, elbow := some fun i => if i.val = 1 then sign else 5, motion_finished := false } : CartesianPose UInt64))
    torque := none, controller := .JointImpedance, limit_rate := false, cutoff := 1000 }

theorem pose_control (sign : UInt64) : IsControl (poseCall sign) (poseAsked sign) 0 :=
  .motion Nat .CartesianPose _ none (some false) (some 1000) 0

/-- Two states of a Cartesian motion. -/
def poseStarted : List Tick := [quiet] ++ ans 1 1 1 ++ [quiet] ++ st 2 3 0 2 ++ st 3 3 0 2 ++ [quiet] ++ st 4 3 0 2

/-- `control_torques_and_joint_positions` with a torque callback that never ends the motion. -/
def torqueCall (last : Nat) : RobotCall UInt64 := .control_torques_and_motion Nat .JointPositions
  (fun n _ _ => (n, { tau_J := fun _ => UInt64.ofNat (3 * n), motion_finished := false })) (cb last) (some false) (some 1000) 0

/-- What this call asks for. -/
def torqueAsked (last : Nat) : ControlCall UInt64 Nat .JointPositions :=
  { motion := cb last, torque := some fun n _ _ => (n, { tau_J := fun _ => UInt64.ofNat (3 * n), motion_finished := false })
    controller := .ExternalController, limit_rate := false, cutoff := 1000 }

theorem torque_control (last : Nat) : IsControl (torqueCall last) (torqueAsked last) 0 :=
  .torquesAndMotion Nat .JointPositions _ _ (some false) (some 1000) 0

/-- The robot finishes a motion with torques. -/
def torqueFinished : List Tick := [quiet] ++ ans 1 1 1 ++ [quiet] ++ st 2 1 2 2 ++ st 3 1 2 2 ++ [quiet] ++ st 4 1 2 2 ++ [quiet] ++ st 5 1 2 2 ++
  [quiet] ++ st 6 0 3 1 ++ ans 1 1 0

/-- A machine without a real-time kernel. -/
def slow : Cfg := { cfg with realtime_kernel := false }

/-- The kind of an event and the values that distinguish it. -/
def show1 : Ev UInt64 → List Nat
  | .robotReq r => [0, match r.request with | .Move _ => 1 | .StopMove => 2 | _ => 9, r.header.command_id.toNat]
  | .accepted s => [1, s.message_id.toNat, if s.robot_mode = .Move then 1 else 0]
  | .motionCb _ _ dt _ => [2, dt]
  | .udpSend _ c => [3, c.message_id.toNat, (c.motion.q_c 0).toNat, if c.motion.motion_generation_finished then 1 else 0]
  | .controlCb _ dt _ => [4, dt]
  | _ => [5]

/-- How a call ended. -/
def show2 : Res UInt64 Unit → Nat × String
  | .ok _ => (0, "")
  | .err (.NetworkException m) => (1, m)
  | .err (.ControlException _ m) => (2, m)
  | .err _ => (3, "")
  | .panic m => (4, m)
  | .blocked => (5, "")

/-- The run of a call on a connection with this schedule. -/
def shown (c : RobotCall UInt64) (w : World UInt64) : (Nat × String) × List (List Nat) :=
  (show2 (c.run w).1, (newEvents w (c.run w).2).map show1)

/-- A connected robot whose log has this size. -/
def robotL (ls : Nat) (rest : List Tick) : World UInt64 := (robotSession none (some ls) [] (world (handshake ++ rest))).2

theorem robotL_ok (ls : Nat) (rest : List Tick) : (robotSession none (some ls) [] (world (handshake ++ rest))).1 = .ok () := by kernel_rfl
theorem robotL_reachable (ls : Nat) (rest : List Tick) : RobotReachable (robotL ls rest) :=
  ⟨none, some ls, [], world (handshake ++ rest), fresh _ _ _, by unfold robotL; exact eq_pair (robotL_ok ls rest)⟩

/-- The events of `moving`. -/
def movingEvents : List (List Nat) := [[0, 1, 1], [1, 2, 1], [1, 3, 1], [2, 0], [3, 3, 0, 0], [1, 4, 1], [2, 1], [3, 4, 7, 0], [1, 5, 1], [2, 1]]

theorem finished_shown : shown (call 2) (robot finished) = ((0, ""), movingEvents ++ [[3, 5, 14, 1], [1, 6, 1], [3, 6, 14, 1], [1, 7, 0]]) := by kernel_rfl
theorem neverStarted_shown : shown (call 9) (robot neverStarted) = ((1, "libfranka-rs: UDP receive: timeout"), [[0, 1, 1]]) := by kernel_rfl
theorem lost_shown : shown (call 9) (robot lost) =
    ((1, "libfranka-rs: UDP receive: timeout"), movingEvents ++ [[3, 5, 14, 0], [0, 2, 2], [1, 9, 0]]) := by kernel_rfl
theorem reflex_shown : shown (call 9) (robot reflex) =
    ((2, "\"libfranka-rs: Move command aborted: motion aborted by reflex!\" [\ncontrol_command_success_rate: 0"),
      movingEvents ++ [[3, 5, 14, 0], [1, 6, 0], [0, 2, 2], [1, 9, 0]]) := by kernel_rfl
theorem reflexLog_shown : shown (call 9) (robotL 2 reflex) =
    ((4, "overflow when subtracting durations"), movingEvents ++ [[3, 5, 14, 0], [1, 6, 0]]) := by kernel_rfl
theorem noLog_shown : shown (call 9) (robotL 0 reflex) =
    ((4, "attempt to calculate the remainder with a divisor of zero"), [[0, 1, 1], [1, 2, 1], [1, 3, 1], [2, 0], [3, 3, 0, 0], [1, 4, 1]]) := by kernel_rfl
theorem reflexSuccess_shown : shown (call 9) (robot reflexSuccess) =
    ((4, "Unexpected reply to a Move command"), movingEvents ++ [[3, 5, 14, 0], [1, 6, 0]]) := by kernel_rfl
theorem stopRejected_shown : shown (call 9) (robot stopRejected) =
    ((4, "error while canceling motion"), movingEvents ++ [[3, 5, 14, 0], [0, 2, 2]]) := by kernel_rfl

theorem torque_shown : shown (torqueCall 2) (robot torqueFinished) = ((0, ""), [[0, 1, 1], [1, 2, 1], [1, 3, 1], [2, 0], [4, 0], [3, 3, 0, 0],
    [1, 4, 1], [2, 1], [4, 1], [3, 4, 7, 0], [1, 5, 1], [2, 1], [3, 5, 14, 1], [1, 6, 0]]) := by kernel_rfl
theorem pose_shown : shown (poseCall 1) (robot poseStarted) =
    ((5, ""), [[0, 1, 1], [1, 2, 1], [1, 3, 1], [2, 0], [3, 3, 0, 0], [1, 4, 1], [2, 1]]) := by kernel_rfl
theorem badElbow_shown : shown (poseCall 2) (robot poseStarted) =
    ((4, "assertion failed: CartesianPose::is_valid_elbow(elbow)"), [[0, 1, 1], [1, 2, 1], [1, 3, 1], [2, 0]]) := by kernel_rfl

/-! ### Reading a summary -/

section
variable {r : Res UInt64 Unit} {e : Ev UInt64} {m : String} {i q f n : Nat}

theorem ok_of (h : show2 r = (0, m)) : r = .ok () := by
  unfold show2 at h; split at h <;> simp_all

theorem network_of (h : show2 r = (1, m)) : r = .err (.NetworkException m) := by
  unfold show2 at h; split at h <;> simp_all

theorem control_of (h : show2 r = (2, m)) : ∃ log, r = .err (.ControlException log m) := by
  unfold show2 at h; split at h <;> simp_all

theorem panic_of (h : show2 r = (4, m)) : r = .panic m := by
  unfold show2 at h; split at h <;> simp_all

theorem request_of (h : show1 e = [0, i, n]) : ∃ r, e = .robotReq r ∧ r.header.command_id.toNat = n ∧ (i = 2 → r.request = .StopMove) ∧
    (i = 1 → ∃ m, r.request = .Move m) := by
  unfold show1 at h; split at h <;> simp_all
  constructor <;> intro hi <;> subst hi <;> (obtain ⟨h, -⟩ := h; split at h <;> simp_all)

theorem accepted_of (h : show1 e = [1, i, f]) : ∃ s, e = .accepted s ∧ s.message_id.toNat = i ∧ (s.robot_mode = .Move ↔ f = 1) := by
  unfold show1 at h; split at h <;> simp_all
  obtain ⟨-, h⟩ := h; split at h <;> simp_all; omega

theorem callback_of (h : show1 e = [2, i]) : ∃ k s out, e = .motionCb k s i out := by
  unfold show1 at h; split at h <;> simp_all

theorem send_of (h : show1 e = [3, i, q, f]) : ∃ a x, e = .udpSend a x ∧ x.message_id.toNat = i ∧ (x.motion.q_c 0).toNat = q ∧
    (x.motion.motion_generation_finished = true ↔ f = 1) := by
  unfold show1 at h; split at h <;> simp_all
  obtain ⟨-, -, h⟩ := h; split at h <;> simp_all; omega

theorem split_of {es : List (Ev UInt64)} {a : List (List Nat)} {x : List Nat} {b : List (List Nat)} (h : es.map show1 = a ++ x :: b) :
    ∃ pre e post, es = pre ++ e :: post ∧ pre.map show1 = a ∧ show1 e = x ∧ post.map show1 = b := by
  obtain ⟨pre, t, rfl, h1, h2⟩ := List.map_eq_append_iff.1 h
  obtain ⟨e, post, rfl, h3, h4⟩ := List.map_eq_cons_iff.1 h2
  exact ⟨pre, e, post, rfl, h1, h3, h4⟩

theorem res_of {c : RobotCall UInt64} {w : World UInt64} {a b} (h : shown c w = (a, b)) : show2 (c.run w).1 = a := congrArg Prod.fst h
theorem events_of {c : RobotCall UInt64} {w : World UInt64} {a b} (h : shown c w = (a, b)) :
    (newEvents w (c.run w).2).map show1 = b := congrArg Prod.snd h
end

end Toy
end Verif
