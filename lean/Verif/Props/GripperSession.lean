import Verif.Lemmas.GripperSession
import Verif.Props.CoopSession
import Verif.Props.GripperState
/-!
# C77: a whole session with a gripper that does its part
-/
set_option linter.unusedSectionVars false
namespace Verif
open Prog Spec

section
variable {F : Type} [Fl F] [Wire F] [LawfulWire F]

/-- One more call. -/
theorem gripper_step {v : UInt16} {c : GripperCall F} {o : Outcome F (GripperReply F)} {cs : List (GripperCall F × Outcome F (GripperReply F))}
    {reqs0 reqs : List (UInt32 × Gripper.Body F)} {id' : UInt32} {q' : List Datagram} {ts' : List Tick} {w : World F}
    (h : Post c.value w (GripperDid o reqs0 v id' q' ts' w))
    (ih : ∀ {w : World F}, GripperBetween v id' q' ts' w → Post (gripperHistory (cs.map Prod.fst)) w fun r w' => r = .ok (cs.map Prod.snd) ∧
      ∃ es, visible w'.trace = visible w.trace ++ es ∧ List.Forall₂ SentAs reqs es) :
    Post (gripperHistory (((c, o) :: cs).map Prod.fst)) w fun r w' => r = .ok (((c, o) :: cs).map Prod.snd) ∧
      ∃ es, visible w'.trace = visible w.trace ++ es ∧ List.Forall₂ SentAs (reqs0 ++ reqs) es := by
  simp only [List.map_cons, gripperHistory, post_bind, post_attempt]
  obtain ⟨h2, h3, es, h5, h6⟩ := h
  show Tried _ (c.value w).1 (c.value w).2
  have hgo : After (fun o => gripperHistory (cs.map Prod.fst) >>= fun os => pure (o :: os)) (fun r w' => r = .ok (o :: cs.map Prod.snd) ∧
      ∃ es, visible w'.trace = visible w.trace ++ es ∧ List.Forall₂ SentAs (reqs0 ++ reqs) es) (.ok o) (c.value w).2 := by
    rw [after_ok, post_bind]
    refine (ih h3).mono ?_
    rintro r w2 ⟨rfl, es2, g2, g3⟩
    simp only [after_ok, post_pure]
    exact ⟨trivial, es ++ es2, by rw [g2, h5, List.append_assoc], List.rel_append h6 g3⟩
  rw [h2]
  cases o with
  | ok v => exact hgo
  | error e => exact hgo

theorem gripper_goes_history {v : UInt16} {id : UInt32} {q : List Datagram} {ts : List Tick} {cs : List (GripperCall F × Outcome F (GripperReply F))}
    {reqs : List (UInt32 × Gripper.Body F)} (h : GripperGoes v id q ts cs reqs) :
    ∀ {w : World F}, GripperBetween v id q ts w → Post (gripperHistory (cs.map Prod.fst)) w fun r w' => r = .ok (cs.map Prod.snd) ∧
      ∃ es, visible w'.trace = visible w.trace ++ es ∧ List.Forall₂ SentAs reqs es := by
  induction h with
  | done id q ts =>
    intro w hb
    exact ⟨rfl, [], by simp [gripperHistory]; rfl, .nil⟩
  | version _ ih =>
    intro w hb
    refine gripper_step (reqs0 := []) ?_ ih
    show Post (Gripper.server_version >>= fun v => pure (GripperReply.version v)) w _
    rw [post_bind, post_of_eq (show Gripper.server_version w = _ from server_version_eq w _ hb.version)]
    exact ⟨rfl, hb, [], (List.append_nil _).symm, .nil⟩
  | command h1 h2 h3 h4 h5 h6 h7 _ ih =>
    intro w hb
    exact gripper_step (reqs0 := [_]) (command_did h1 h2 h3 h4 h5 h6 h7 hb) ih
  | read_once h1 h2 h3 _ ih =>
    intro w hb
    exact gripper_step (reqs0 := []) (gripper_read_did h1 h2 h3 hb) ih

/-- The connection when the answer to the first request was read. -/
structure Waits (g : Greeting) (rest : List Tick) (w : World F) : Prop where
  script : w.script = rest
  id : w.net.command_id = 1
  rx : w.ker.tcpRx = []
  eof : w.ker.tcpEof = false
  pending : w.net.pending_response = []
  udp : w.ker.udpRx = udpArrived g.script
  ready : w.ker.udpRx ≠ [] → w.ker.udpEdge = true

/-- The world after connecting to a gripper. -/
theorem gripper_connected {w : World F} (hw : Fresh w) {g : Greeting} {a : Gripper.ConnectResponse} {m : Bytes} {rest : List Tick}
    (hs : w.script = g.script ++ rest) (hg : g.Brings m) (hm : GripperAnswer a m) (hok : a.status = .Success) :
    ∃ w1 : World F, Gripper.new w = (.ok (), w1) ∧ w1.rob.ri_version = some a.version ∧ Waits g rest w1 ∧
      (∃ e, SentAs (0, gripperHello w) e ∧ visible w1.trace = [e]) ∧ responses w1.trace = [(0, m)] := by
  suffices h : Post (Gripper.new : Prog F Unit) w fun r w1 => r = .ok () ∧ w1.rob.ri_version = some a.version ∧ Waits g rest w1 ∧
      (∃ e, SentAs (0, gripperHello w) e ∧ visible w1.trace = [e]) ∧ responses w1.trace = [(0, m)] by
    obtain ⟨h1, h2⟩ := h
    exact ⟨_, Prod.ext h1 rfl, h2⟩
  refine gripper_new_greeted hw hs hg hm _ ?_
  intro h w1 w2 k1 k2 hr
  unfold afterGripperConnect
  rw [hok]
  simp only [post_modify]
  obtain ⟨x, y, htr⟩ := hr.trace
  refine ⟨trivial, trivial, ⟨hr.script, hr.id, hr.rx, hr.eof, hr.pending, hr.udp, hr.ready⟩, ⟨_, ⟨h, k1, k2, rfl⟩, by rw [htr]; rfl⟩, by rw [htr]; rfl⟩

/-- The session between two calls after connecting. -/
theorem gripper_connected_between {w : World F} (hw : Fresh w) {g : Greeting} {a : Gripper.ConnectResponse} {m : Bytes} {ts : List Tick}
    (hs : w.script = g.script ++ ts) (hg : g.Brings m) (hm : GripperAnswer a m) (hok : a.status = .Success) :
    ∃ w1 : World F, Gripper.new w = (.ok (), w1) ∧ GripperBetween a.version 1 (udpArrived g.script) ts w1 ∧ ∃ e, SentAs (0, gripperHello w) e ∧ visible w1.trace = [e] := by
  obtain ⟨w1, h1, h2, h3, ⟨e, h4, h5⟩, h7⟩ := gripper_connected hw hs hg hm hok
  have hses : gripperSession [] w = (.ok (), w1) := by
    unfold gripperSession
    show Prog.bind _ _ w = _
    unfold Prog.bind
    rw [h1]
    rfl
  have hk := GripperReachable.tcp (show GripperReachable w1 from ⟨[], w, hw, hses⟩)
  have hb : GripperBetween a.version 1 (udpArrived g.script) ts w1 :=
    { type := hk.type
      version := h2
      number := h3.id
      script := h3.script
      rx := h3.rx
      eof := h3.eof
      pending := h3.pending
      table := fun i hi => by
        cases hx : w1.net.received_responses i with
        | none => rfl
        | some bs =>
          have := hk.table _ _ hx
          rw [h7, List.mem_singleton] at this
          rw [(Prod.mk.inj this).1] at hi
          exact absurd hi (by decide)
      udp := h3.udp
      ready := h3.ready }
  exact ⟨w1, h1, hb, e, h4, h5⟩

/-- **C77.** A whole session with a gripper that does its part. The gripper accepts the connection; after that it does what `GripperGoes` says: it answers the
commands (positively or not) and sends the states that are awaited. Then every call of the session returns, and returns what `GripperGoes` says: for commands
`true`, `false` or the error that belongs to the status in the answer, for `read_once` the state that was sent while the call waited, for `server_version` the
version from the handshake. What happens is the handshake followed by exactly one request for each command, numbered from 1. -/
theorem C77_a_gripper_session_goes_as_the_gripper_says {w : World F} (hw : Fresh w) {g : Greeting} {a : Gripper.ConnectResponse} {m : Bytes} {ts : List Tick}
    {cs : List (GripperCall F × Outcome F (GripperReply F))} {reqs : List (UInt32 × Gripper.Body F)} (hs : w.script = g.script ++ ts) (hg : g.Brings m)
    (hm : GripperAnswer a m) (hok : a.status = .Success) (hgo : GripperGoes a.version 1 (udpArrived g.script) ts cs reqs) :
    ∃ w', gripperStory (cs.map Prod.fst) w = (.ok (cs.map Prod.snd), w') ∧
      ∃ e es, SentAs (0, gripperHello w) e ∧ visible w'.trace = e :: es ∧ List.Forall₂ SentAs reqs es := by
  obtain ⟨w1, h1, hb, e, h4, h5⟩ := gripper_connected_between hw hs hg hm hok
  have : Post (gripperStory (cs.map Prod.fst)) w fun r w' => r = .ok (cs.map Prod.snd) ∧ ∃ es, visible w'.trace = visible w1.trace ++ es ∧ List.Forall₂ SentAs reqs es := by
    unfold gripperStory
    rw [post_bind, post_of_eq h1, after_ok]
    exact gripper_goes_history hgo hb
  obtain ⟨g1, es, g3, g4⟩ := this
  exact ⟨_, Prod.ext g1 rfl, e, es, h4, by rw [g3, h5]; rfl, g4⟩

end

/-! ## Example -/

section example_
open Toy

namespace Toy

/-- The gripper accepts the connection; a state arrives meanwhile. -/
def gripperGreeting : Greeting := ⟨quiet, udp (gripperState 4), [quiet, quiet], tcp (gripperConnected.take 5), tcp (gripperConnected.drop 5), quiet, quiet⟩

theorem gripperGreeting_brings : gripperGreeting.Brings gripperConnected where
  fine t ht := by
    simp only [Greeting.script, gripperGreeting, List.cons_append, List.nil_append, List.mem_cons, List.not_mem_nil, or_false] at ht
    rcases ht with rfl | rfl | rfl | rfl | rfl | rfl | rfl | rfl <;> exact ⟨rfl, rfl⟩
  start := by decide
  bytes := rfl
  silent t ht := by
    simp only [gripperGreeting, List.cons_append, List.nil_append, List.mem_cons, List.not_mem_nil, or_false] at ht
    rcases ht with rfl | rfl | rfl | rfl | rfl | rfl <;> rfl

/-- After the greeting: nothing could be grasped, a state is read, homing fails, stopping succeeds. -/
def gripperAfterwards : List Tick := (asking (gripperResponse 2 1 2)).script ++ (List.replicate 5 quiet ++ ((udp (grasped 5) :: List.replicate 2 quiet) ++
  ((asking (gripperResponse 0 2 1)).script ++ ((asking (gripperResponse 4 3 0)).script ++ []))))

theorem sends_four : SendsGripperState (F := UInt64) ⟨0, 0, false, 0, 4⟩ (gripperState 4) := ⟨rfl, by decide, by unfold floatAt; kernel_rfl, by unfold floatAt; kernel_rfl, by unfold boolAt; decide, by decide⟩
theorem sends_five : SendsGripperState (F := UInt64) ⟨9, 10, true, 30, 5⟩ (grasped 5) := ⟨rfl, by decide, by unfold floatAt; kernel_rfl, by unfold floatAt; kernel_rfl, by unfold boolAt; decide, by decide⟩

theorem fine_udp (b : Bytes) (n : Nat) : Fine (udp b :: List.replicate n quiet) := by
  intro t ht
  rcases List.mem_cons.1 ht with rfl | ht
  · exact ⟨rfl, rfl⟩
  · exact fine_quiet n t ht

theorem none_quiet (n : Nat) : NoDatagram (List.replicate n quiet) := fun t ht => by rw [List.eq_of_mem_replicate ht]; rfl

theorem read_silent : TcpSilent (List.replicate 5 quiet ++ (udp (grasped 5) :: List.replicate 2 quiet)) := by
  intro t ht
  simp only [List.mem_append, List.mem_cons, List.mem_replicate] at ht
  rcases ht with ⟨-, rfl⟩ | rfl | ⟨-, rfl⟩ <;> rfl

theorem gripper_goes : GripperGoes (F := UInt64) 3 1 (udpArrived gripperGreeting.script) gripperAfterwards
    [(.grasp 1 2 3 none none, .ok (.flag false)), (.read_once, .ok (.state ⟨9, 10, true, 30, 5⟩)),
      (.homing, .error (.CommandException "libfranka-rs gripper: Command failed!")), (.server_version, .ok (.version 3)), (.stop, .ok (.flag true))]
    [(1, .Grasp { width := 1, speed := 2, force := 3, epsilon := ⟨Fl.lit (5 / 1000), Fl.lit (5 / 1000)⟩ }), (2, .Homing), (3, .Stop)] := by
  have h4 : GripperGoes (F := UInt64) 3 3 [] ((asking (gripperResponse 4 3 0)).script ++ []) [(.stop, .ok (.flag true))] [(3, .Stop)] :=
    .command (o := .ok true) (m := gripperResponse 4 3 0) (by decide) rfl ⟨by decide, rfl, rfl⟩ rfl (by decide) rfl (asking_brings _) (.done _ _ _)
  have h3 : GripperGoes (F := UInt64) 3 2 [] ((asking (gripperResponse 0 2 1)).script ++ ((asking (gripperResponse 4 3 0)).script ++ []))
      [(.homing, .error (.CommandException "libfranka-rs gripper: Command failed!")), (.server_version, .ok (.version 3)), (.stop, .ok (.flag true))]
      [(2, .Homing), (3, .Stop)] :=
    .command (o := .error (.CommandException "libfranka-rs gripper: Command failed!")) (m := gripperResponse 0 2 1) (by decide) rfl ⟨by decide, rfl, rfl⟩ rfl (by decide) rfl (asking_brings _)
      (.version (by rw [asking_udp]; exact h4))
  have hq : udpArrived gripperGreeting.script = [⟨7, gripperState 4⟩] := by
    simp [udpArrived, Greeting.script, gripperGreeting, quiet, tcp, udp]
  refine .command (o := .ok false) (m := gripperResponse 2 1 2) (by decide) rfl ⟨by decide, rfl, rfl⟩ rfl (by decide) rfl (asking_brings _) ?_
  rw [asking_udp, hq]
  exact .read_once (.all _ [] 7 (gripperState 4) quiet (List.replicate 4 quiet) sends_four rfl (by intro d hd; cases hd) (fine_quiet 5) (none_quiet 4) rfl)
    (.arrives [] 7 (grasped 5) _ _ sends_five rfl (by intro d hd; cases hd) (fine_udp _ _) (none_quiet 2) rfl) read_silent h3

end Toy

/-- C77: a session of this kind with five calls. -/
example : Fresh (world (gripperGreeting.script ++ gripperAfterwards)) ∧ gripperGreeting.Brings gripperConnected ∧
    GripperAnswer ⟨⟨.Connect, 0, 14⟩, .Success, 3⟩ gripperConnected ∧
    GripperGoes (F := UInt64) 3 1 (udpArrived gripperGreeting.script) gripperAfterwards
      [(.grasp 1 2 3 none none, .ok (.flag false)), (.read_once, .ok (.state ⟨9, 10, true, 30, 5⟩)),
        (.homing, .error (.CommandException "libfranka-rs gripper: Command failed!")), (.server_version, .ok (.version 3)), (.stop, .ok (.flag true))]
      [(1, .Grasp { width := 1, speed := 2, force := 3, epsilon := ⟨Fl.lit (5 / 1000), Fl.lit (5 / 1000)⟩ }), (2, .Homing), (3, .Stop)] :=
  ⟨fresh _ _ _, gripperGreeting_brings, ⟨by kernel_rfl, rfl, rfl⟩, gripper_goes⟩

end example_
end Verif
