import Verif.Lemmas.Toy
import Verif.Spec.Api
import Lean.Elab.Tactic
/-!
Concrete connections for the examples: a robot and a gripper that answered the handshake, followed by an arbitrary rest of the schedule.
-/
namespace Verif
open Spec

open Lean Elab Tactic Meta in
/-- Close `a = b` by `rfl` and leave the whole computation to the kernel. -/
elab "kernel_rfl" : tactic => do
  let g ← getMainGoal
  let t ← instantiateMVars (← g.getType)
  let some (α, a, _) := t.eq? | throwError "not an equation"
  let u ← getLevel α
  g.assign (mkApp2 (mkConst ``Eq.refl [u]) α a)

theorem eq_pair {α β : Type*} {p : α × β} {a : α} (h : p.1 = a) : p = (a, p.2) := by rw [← h]

namespace Toy

/-- The connection is idle, the next request has id 1, and this is the rest of the schedule. -/
structure Idle (p : Res UInt64 Unit × World UInt64) (rest : List Tick) (nt : NetworkType) : Prop where
  ok : p.1 = .ok ()
  script : p.2.script = rest
  id : p.2.net.command_id = 1
  table : p.2.net.received_responses 1 = none
  rx : p.2.ker.tcpRx = []
  edge : p.2.ker.tcpEdge = false
  pending : p.2.net.pending_response = []
  type : p.2.cfg.network_type = nt

theorem idle_of {p : Res UInt64 Unit × World UInt64} {rest : List Tick} {nt : NetworkType} (h : (p.1, p.2.script, p.2.net.command_id,
    p.2.net.received_responses 1, p.2.ker.tcpRx, p.2.ker.tcpEdge, p.2.net.pending_response, p.2.cfg.network_type) =
    (.ok (), rest, 1, none, [], false, [], nt)) : Idle p rest nt := by
  simp only [Prod.mk.injEq] at h
  obtain ⟨h1, h2, h3, h4, h5, h6, h7, h8⟩ := h
  exact ⟨h1, h2, h3, h4, h5, h6, h7, h8⟩

/-- The schedule of a successful `Robot::new`. -/
def handshake : List Tick := [quiet, quiet, tcp connected] ++ List.replicate 3 quiet ++ [udp (state 1)] ++ List.replicate 2 quiet

/-- A connected robot with this schedule before it. -/
def robot (rest : List Tick) (cfg : Cfg := cfg) : World UInt64 := (robotSession none none [] (world (handshake ++ rest) cfg)).2

section
variable (rest : List Tick)
theorem robot_facts : Idle (robotSession none none [] (world (handshake ++ rest))) rest .Robot := idle_of (by kernel_rfl)
theorem robot_ok : (robotSession none none [] (world (handshake ++ rest))).1 = .ok () := (robot_facts rest).ok
theorem robot_reachable : RobotReachable (robot rest) :=
  ⟨none, none, [], world (handshake ++ rest), fresh _ _ _, by unfold robot; exact eq_pair (robot_ok rest)⟩
theorem robot_script : (robot rest).script = rest := by unfold robot; exact (robot_facts rest).script
theorem robot_id : (robot rest).net.command_id = 1 := by unfold robot; exact (robot_facts rest).id
theorem robot_table : (robot rest).net.received_responses 1 = none := by unfold robot; exact (robot_facts rest).table
theorem robot_rx : (robot rest).ker.tcpRx = [] := by unfold robot; exact (robot_facts rest).rx
theorem robot_edge : (robot rest).ker.tcpEdge = false := by unfold robot; exact (robot_facts rest).edge
theorem robot_pending : (robot rest).net.pending_response = [] := by unfold robot; exact (robot_facts rest).pending
theorem robot_type : (robot rest).cfg.network_type = .Robot := by unfold robot; exact (robot_facts rest).type
end

/-- The gripper's answer to a connection request. -/
def gripperConnected : Bytes := [0, 0, 0, 0, 0, 0, 14, 0, 0, 0, 0, 0, 3, 0]

/-- A gripper answer with this status. -/
def gripperResponse (command id status : UInt8) : Bytes := [command, 0, id, 0, 0, 0, 12, 0, 0, 0, status, 0]

/-- The schedule of a successful `Gripper::new`. -/
def gripperHandshake : List Tick := [quiet, quiet, tcp gripperConnected] ++ List.replicate 3 quiet

/-- A connected gripper with this schedule before it. -/
def gripper (rest : List Tick) : World UInt64 := (gripperSession [] (world (gripperHandshake ++ rest))).2

section
variable (rest : List Tick)
theorem gripper_facts : Idle (gripperSession [] (world (gripperHandshake ++ rest))) rest .Gripper := idle_of (by kernel_rfl)
theorem gripper_ok : (gripperSession [] (world (gripperHandshake ++ rest))).1 = .ok () := (gripper_facts rest).ok
theorem gripper_reachable : GripperReachable (gripper rest) :=
  ⟨[], world (gripperHandshake ++ rest), fresh _ _ _, by unfold gripper; exact eq_pair (gripper_ok rest)⟩
theorem gripper_script : (gripper rest).script = rest := by unfold gripper; exact (gripper_facts rest).script
theorem gripper_id : (gripper rest).net.command_id = 1 := by unfold gripper; exact (gripper_facts rest).id
theorem gripper_table : (gripper rest).net.received_responses 1 = none := by unfold gripper; exact (gripper_facts rest).table
theorem gripper_rx : (gripper rest).ker.tcpRx = [] := by unfold gripper; exact (gripper_facts rest).rx
theorem gripper_edge : (gripper rest).ker.tcpEdge = false := by unfold gripper; exact (gripper_facts rest).edge
theorem gripper_pending : (gripper rest).net.pending_response = [] := by unfold gripper; exact (gripper_facts rest).pending
theorem gripper_type : (gripper rest).cfg.network_type = .Gripper := by unfold gripper; exact (gripper_facts rest).type
end

theorem frame_response (c id s : UInt8) : IsFrame .Robot (UInt32.ofNat id.toNat) (response c id s) := by
  have h : id.toNat < 256 := id.toNat_lt
  refine ⟨by simp [headerLength, response], by simp [sizeAt, natAt, response], ?_⟩
  simp [idAt, natAt, response]

theorem frame_gripperResponse (c id s : UInt8) : IsFrame .Gripper (UInt32.ofNat id.toNat) (gripperResponse c id s) := by
  have h : id.toNat < 256 := id.toNat_lt
  refine ⟨by simp [headerLength, gripperResponse], by simp [sizeAt, natAt, gripperResponse], ?_⟩
  simp [idAt, natAt, gripperResponse]

/-- The answer to the first request arrives in one piece. -/
theorem arrives (c s : UInt8) (hk : KnownCommand .Robot (response c 1 s)) :
    AnswerArrives (robot [quiet, quiet, tcp (response c 1 s), quiet, quiet, quiet]) (response c 1 s) where
  rx := robot_rx _
  edge := robot_edge _
  pending := robot_pending _
  absent := by rw [robot_id]; exact robot_table _
  ids := by rw [robot_id]; decide
  schedule := ⟨[quiet, quiet], tcp (response c 1 s), quiet, quiet, quiet, [], [], robot_script _, by simp,
    by intro t ht; simp only [List.mem_cons, List.not_mem_nil, or_false, or_self] at ht; subst ht; exact ⟨rfl, rfl, rfl⟩,
    by intro t ht; simp only [List.mem_cons, List.not_mem_nil, or_false] at ht; rcases ht with rfl | rfl | rfl | rfl <;> rfl,
    by simp [tcp, response], by simp [tcp, quiet]⟩
  frame := by rw [robot_type, robot_id]; exact frame_response c 1 s
  long := by rw [robot_type]; simp [headerLength, response]
  short := by simp [response]
  known := by rw [robot_type]; exact hk

/-- The same for a gripper. -/
theorem gripper_arrives (c s : UInt8) (hk : KnownCommand .Gripper (gripperResponse c 1 s)) :
    AnswerArrives (gripper [quiet, quiet, tcp (gripperResponse c 1 s), quiet, quiet, quiet]) (gripperResponse c 1 s) where
  rx := gripper_rx _
  edge := gripper_edge _
  pending := gripper_pending _
  absent := by rw [gripper_id]; exact gripper_table _
  ids := by rw [gripper_id]; decide
  schedule := ⟨[quiet, quiet], tcp (gripperResponse c 1 s), quiet, quiet, quiet, [], [], gripper_script _, by simp,
    by intro t ht; simp only [List.mem_cons, List.not_mem_nil, or_false, or_self] at ht; subst ht; exact ⟨rfl, rfl, rfl⟩,
    by intro t ht; simp only [List.mem_cons, List.not_mem_nil, or_false] at ht; rcases ht with rfl | rfl | rfl | rfl <;> rfl,
    by simp [tcp, gripperResponse], by simp [tcp, quiet]⟩
  frame := by rw [gripper_type, gripper_id]; exact frame_gripperResponse c 1 s
  long := by rw [gripper_type]; simp [headerLength, gripperResponse]
  short := by simp [gripperResponse]
  known := by rw [gripper_type]; exact hk

end Toy
end Verif
