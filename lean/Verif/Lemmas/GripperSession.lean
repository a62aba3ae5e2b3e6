import Verif.Lemmas.CoopSession
import Verif.Spec.GripperSession
import Verif.Props.Connect
/-!
# Calls in a session with a gripper that does its part
-/
set_option linter.unusedSectionVars false
namespace Verif
open Prog Spec
variable {F : Type} [Fl F] [Wire F] [LawfulWire F]

/-- Between two calls: the version of the server, the number of the next request, the datagrams in the socket and the schedule from now on. -/
structure GripperBetween (v : UInt16) (id : UInt32) (q : List Datagram) (ts : List Tick) (w : World F) : Prop where
  type : w.cfg.network_type = .Gripper
  version : w.rob.ri_version = some v
  number : w.net.command_id = id
  script : w.script = ts
  rx : w.ker.tcpRx = []
  eof : w.ker.tcpEof = false
  pending : w.net.pending_response = []
  table : ∀ i, id ≤ i → w.net.received_responses i = none
  udp : w.ker.udpRx = q
  ready : w.ker.udpRx ≠ [] → w.ker.udpEdge = true

variable {v : UInt16} {id : UInt32} {q : List Datagram} {ts : List Tick} {w : World F}

/-- A request and its answer. -/
theorem askGripper_between {p : Asking} {m : Bytes} {α : Type} {cd : Codec α} {a : α} (hb : GripperBetween v id q (p.script ++ ts) w) (hid : id ≠ 0xffffffff) (b : Gripper.Body F)
    (hp : p.Brings m) (h1 : IsFrame .Gripper id m) (h2 : 10 < m.length ∧ m.length ≤ 70000) (h3 : KnownCommand .Gripper m) (h4 : cd.dec m = some (a, [])) :
    Post (askGripper b cd) w fun r w' => r = .ok a ∧ GripperBetween v (id + 1) (q ++ udpArrived p.script) ts w' ∧
      ∃ e, SentAs (id, b) e ∧ visible w'.trace = visible w.trace ++ [e] := by
  have hs : w.script = p.write :: (p.ask ++ p.a1 :: p.a2 :: p.a3 :: p.a4 :: ts) := by rw [hb.script]; simp [Asking.script]
  have hf := hp.fine
  unfold Asking.script at hf
  have hw := hf p.write (by simp)
  have hsil : p.write.tcpIn = [] := hp.silent _ (by simp)
  unfold askGripper
  rw [post_bind, post_of_eq (sendGripperRequest_eq b w _ _ hs hw.1 (by rw [hb.number]; exact hid)), after_ok, hb.number]
  generalize hw1 : ({ w with script := _, ker := _, net := _, trace := _ } : World F) = w1
  refine (reply_arrives (nt := .Gripper) (q := p.ask) (w := w1) h1 h2 h3 h4 (by rw [← hw1]) (fun x hx => hf x (List.mem_cons_of_mem _ hx))
    (fun x hx => hp.silent x (List.mem_cons_of_mem _ hx)) ?_ (by rw [← hw1]; exact hb.pending) (by rw [← hw1]; exact hb.table _ (UInt32.le_refl _))
    (by rw [← hw1]; exact hb.type) (.inl ⟨?_, hp.bytes⟩)).mono ?_
  · rw [← hw1]
    simp [Kernel.arrive, hb.eof, hw.2]
  · rw [← hw1]
    simp [Kernel.arrive, hb.rx, hsil]
  rintro r w2 ⟨rfl, j0, j1, j2, j3, j4, j5, j6, j7, j8, j9, j10⟩
  refine ⟨rfl, ⟨by rw [j6, ← hw1]; exact hb.type, by rw [j5, ← hw1]; exact hb.version, by rw [j0, ← hw1], j1, j2, j8, j3,
    fun i hi => by rw [j4, ← hw1]; exact hb.table i (le_of_succ_le hid hi), ?_, j10 ?_⟩, _, ⟨⟨gripperKind b, id, UInt32.ofNat (gripperKind b).size_of_request⟩, rfl, rfl, rfl⟩, ?_⟩
  · rw [j9, ← hw1]
    simp [Kernel.arrive, hb.udp, Asking.script, udpArrived]
  · rw [← hw1]
    have h1 := hb.ready
    intro h2
    simp only [Kernel.arrive] at h2 ⊢
    cases hd : p.write.udpIn with
    | nil => rw [hd, List.append_nil] at h2; simp [h1 h2]
    | cons d ds => simp
  · rw [j7, ← hw1, visible_append]
    rfl

/-! ## The meaning of the answers -/

theorem gripperVerdict_lt {m : Bytes} {o : Outcome F Bool} (h : gripperVerdict m o) : natAt m 10 2 < 4 := by
  unfold gripperVerdict at h
  split at h <;> first | omega | exact h.elim

theorem gripperVerdict_eq {m : Bytes} {o o' : Outcome F Bool} (h : gripperVerdict m o) (h' : gripperVerdict m o') : o = o' := by
  unfold gripperVerdict rejects at h h'
  split at h <;> simp_all

theorem toNat_inj64 {a b : UInt64} (h : a.toNat = b.toNat) : a = b := UInt64.toNat_inj.1 h

theorem floatAt_eq {bs : Bytes} {n : Nat} {x y : F} (h : floatAt bs n x) (h' : floatAt bs n y) : x = y := by
  have : Wire.toBits x = Wire.toBits y := toNat_inj64 (h.symm.trans h')
  rw [← LawfulWire.of_to x, this, LawfulWire.of_to]

theorem boolAt_eq {bs : Bytes} {n : Nat} {x y : Bool} (h : boolAt bs n x) (h' : boolAt bs n y) : x = y := by
  unfold boolAt at h h'
  cases x <;> cases y <;> simp_all

/-- The bytes of a state are understood. -/
theorem gripper_state_understood {s : Gripper.GripperState F} {data : Bytes} (h : SendsGripperState s data) :
    ∃ i, (Gripper.GripperStateIntern.codec F).dec data = some (i, []) ∧ Gripper.GripperState.ofIntern i = s := by
  have hd : ∃ i rest, (Gripper.GripperStateIntern.codec F).dec data = some (i, rest) := by
    obtain ⟨h1, -, -, -, h5, -⟩ := h
    match data, h1 with
    | [a0, a1, a2, a3, a4, a5, a6, a7, a8, a9, a10, a11, a12, a13, a14, a15, a16, a17, a18, a19, a20, a21, a22], _ =>
      have hb : a20 = 0 ∨ a20 = 1 := by
        simp only [boolAt, natAt] at h5
        have : a20.toNat = 0 ∨ a20.toNat = 1 := by
          cases hx : s.is_grasped <;> simp [hx] at h5 <;> simp [h5]
        exact this.imp (fun h => UInt8.toNat_inj.1 h) (fun h => UInt8.toNat_inj.1 h)
      rcases hb with rfl | rfl
      · exact ⟨_, _, rfl⟩
      · exact ⟨_, _, rfl⟩
  obtain ⟨i, rest, hi⟩ := hd
  refine ⟨i, dec_all Gripper.GripperStateIntern.codec_lawful hi h.size, ?_⟩
  have hl : GripperStateLayout data i := gripperStateLayout_of_at ⟨[], rest, Gripper.GripperStateIntern.codec_lawful.sound _ _ _ hi, rfl⟩
  obtain ⟨w1, w2, w3, w4, w5⟩ := s
  unfold Gripper.GripperState.ofIntern
  congr 1
  · exact floatAt_eq hl.width h.width
  · exact floatAt_eq hl.max_width h.max_width
  · exact boolAt_eq hl.is_grasped h.is_grasped
  · exact UInt16.toNat_inj.1 (hl.temperature.symm.trans h.temperature)
  · exact hl.message_id.symm.trans h.time

/-! ## The calls -/

/-- A call returned `o`; then the session is between two calls again, and the events were these requests. -/
def GripperDid {β : Type} (o : Outcome F β) (reqs : List (UInt32 × Gripper.Body F)) (v : UInt16) (id : UInt32) (q : List Datagram) (ts : List Tick) (w : World F)
    (r : Res F β) (w' : World F) : Prop :=
  r = returned o ∧ GripperBetween v id q ts w' ∧ ∃ es, visible w'.trace = visible w.trace ++ es ∧ List.Forall₂ SentAs reqs es

theorem command_value {c : GripperCall F} {b : Gripper.Body F} (h : gripperRequest c = some b) :
    c.value = rpcGripper b Gripper.MoveResponse.codec (fun r => gripperOutcome r.status) >>= fun x => pure (.flag x) := by
  cases c <;> simp only [gripperRequest, reduceCtorEq, Option.some.injEq] at h <;> subst h
  · show (Gripper.move_gripper _ _ >>= _) = _
    rw [move_gripper_eq]
  · show (Gripper.homing >>= _) = _
    rw [homing_eq]
  · show (Gripper.stop >>= _) = _
    rw [gripper_stop_eq]
  · show (Gripper.grasp _ _ _ _ _ >>= _) = _
    rw [grasp_eq]

/-- A command that is answered. -/
theorem command_did {c : GripperCall F} {b : Gripper.Body F} {m : Bytes} {o : Outcome F Bool} {p : Asking} (hid : id ≠ 0xffffffff) (hc : gripperRequest c = some b)
    (h1 : IsFrame .Gripper id m) (h2 : m.length = 12) (h3 : KnownCommand .Gripper m) (h4 : gripperVerdict m o) (hp : p.Brings m)
    (hb : GripperBetween v id q (p.script ++ ts) w) :
    Post c.value w (GripperDid (o.map .flag) [(id, b)] v (id + 1) (q ++ udpArrived p.script) ts w) := by
  obtain ⟨a, rest, ha⟩ := gripper_dec m (by omega) h3 (gripperVerdict_lt h4)
  have hg : gripperOutcome a.status = o := gripperVerdict_eq (gripper_verdict m rest a ha) h4
  rw [command_value hc]
  unfold rpcGripper
  rw [post_bind, post_bind]
  refine (askGripper_between hb hid b hp h1 (by omega) h3 (dec_all Gripper.MoveResponse.codec_lawful ha h2)).mono ?_
  rintro r w1 ⟨rfl, k1, e, k2, k3⟩
  rw [after_ok]
  dsimp only
  rw [hg]
  cases o with
  | ok x => exact ⟨rfl, k1, _, k3, .cons k2 .nil⟩
  | error x => exact ⟨rfl, k1, _, k3, .cons k2 .nil⟩

/-- After system calls without requests and without bytes from the server. -/
theorem Moves.gripper {ts0 : List Tick} {seen : List (Ev F)} {w' : World F} (hm : Moves ts0 seen w w') (hb : GripperBetween v id q (ts0 ++ ts) w) (ht : TcpSilent ts0)
    (hr : w'.rob = w.rob) (hq : w'.ker.udpRx = []) : GripperBetween v id [] ts w' where
  type := by rw [hm.cfg]; exact hb.type
  version := by rw [hr]; exact hb.version
  number := hm.id.trans hb.number
  script := (List.append_cancel_left (hb.script.symm.trans hm.script)).symm
  rx := by rw [hm.tcp, hb.rx, tcpArrived_silent ht]; rfl
  eof := hm.eof.trans hb.eof
  pending := hm.pending.trans hb.pending
  table := fun i hi => by rw [hm.table]; exact hb.table i hi
  udp := hq
  ready := fun h => absurd hq h

theorem consumes_discards : Consumes (fun _ : Unit => (do
    match ← udp_receive (Gripper.GripperStateIntern.codec F) Gripper.size_of_GripperStateIntern with
    | some _ => pure (.inl ())
    | none => pure (.inr ()) : Prog F (Unit ⊕ Unit))) := by
  apply consumes_of_eats
  intro _
  refine (eats_udp_receive _ _).bind fun e => ?_
  pres

theorem sized_append {ds : List Datagram} {src : Nat} {data : Bytes} (h : GripperSized ds) (hd : data.length = 23) :
    ∀ x ∈ ds ++ [⟨src, data⟩], x.data.length = Gripper.size_of_GripperStateIntern := by
  intro x hx
  rcases List.mem_append.1 hx with hx | hx
  · exact h x hx
  · rw [List.mem_singleton] at hx
    rw [hx]; exact hd

theorem gripper_discard_between {ts0 : List Tick} (hd : GripperDiscards F q ts0) (ht : TcpSilent ts0) (hb : GripperBetween v id q (ts0 ++ ts) w) :
    Post (Gripper.discard_available : Prog F Unit) w fun r w' => r = .ok () ∧ GripperBetween v id [] ts w' ∧ visible w'.trace = visible w.trace := by
  have hu : (Gripper.discard_available : Prog F _) = _ := loop_unfold consumes_discards ()
  rw [hu]
  simp only [post_bind]
  cases hd with
  | nothing t h1 h2 =>
    refine (udp_receive_none (Gripper.GripperStateIntern.codec F) Gripper.size_of_GripperStateIntern hb.script (h2 t (by simp)) (by rw [hb.udp]; exact h1)).mono ?_
    rintro r w1 ⟨rfl, m1, s1, r1, q1⟩
    simp only [after_ok, post_pure]
    obtain ⟨es, e1, e2⟩ := m1.trace
    exact ⟨trivial, m1.gripper hb ht r1 q1, by rw [e1, visible_append, e2, List.append_nil]⟩
  | all s0 ds src data t ts0 hda h1 h2 h3 h4 h5 =>
    obtain ⟨i, hi, -⟩ := gripper_state_understood hda
    obtain ⟨ts1, tl, rfl⟩ : ∃ ts1 tl, ts0 = ts1 ++ [tl] := by
      rcases List.eq_nil_or_concat ts0 with rfl | ⟨a, b, rfl⟩
      · simp at h5
      · exact ⟨a, b, by simp⟩
    refine (udp_receive_last (Gripper.GripperStateIntern.codec F) Gripper.size_of_GripperStateIntern (t := t) (ts := ts1) (rest := tl :: ts) (ds := ds) (by simpa using hb.script)
      (fun x hx => h3 x (by rcases List.mem_cons.1 hx with hx | hx <;> simp [hx])) (fun x hx => h4 x (by simp [hx])) (by rw [hb.udp]; exact h1)
      hb.ready (by simpa using h5) (sized_append h2 hda.size) hi).mono ?_
    rintro r w1 ⟨rfl, m1, s1, r1, q1⟩
    simp only [after_ok, post_pure]
    have hu2 := loop_unfold consumes_discards (F := F) ()
    rw [hu2]
    simp only [post_bind]
    refine (udp_receive_none (Gripper.GripperStateIntern.codec F) Gripper.size_of_GripperStateIntern s1 (h3 tl (by simp)) (by rw [q1, h4 tl (by simp)]; rfl)).mono ?_
    rintro r w2 ⟨rfl, m2, s2, r2, q2⟩
    simp only [after_ok, post_pure]
    obtain ⟨es, e1, e2⟩ := (m1.trans m2).trace
    exact ⟨trivial, (m1.trans m2).gripper (by simpa using hb) (by simpa using ht) (r2.trans r1) q2, by rw [e1, visible_append, e2]; simp⟩

theorem gripper_read_did {s : Gripper.GripperState F} {ts0 ts1 : List Tick} (hd : GripperDiscards F q ts0) (ha : GripperSends s ts1) (ht : TcpSilent (ts0 ++ ts1))
    (hb : GripperBetween v id q (ts0 ++ (ts1 ++ ts)) w) : Post (GripperCall.value .read_once) w (GripperDid (.ok (.state s)) [] v id [] ts w) := by
  show Post (Gripper.read_once >>= fun s => pure (GripperReply.state s)) w _
  unfold Gripper.read_once
  simp only [Prog.bind_assoc', post_bind]
  refine (gripper_discard_between hd (fun x hx => ht x (List.mem_append_left _ hx)) hb).mono ?_
  rintro r w1 ⟨rfl, b1, t1⟩
  rw [after_ok, post_bind]
  cases ha with
  | arrives ds src data t ts1 hda h1 h2 h3 h4 h5 =>
  obtain ⟨i, hi, rfl⟩ := gripper_state_understood hda
  refine (receive_last (Gripper.GripperStateIntern.codec F) Gripper.size_of_GripperStateIntern (t := t) (ts := ts1) (rest := ts) (ds := ds) b1.script h3 h4
    (by rw [b1.udp]; exact h1) b1.ready h5 (sized_append h2 hda.size) hi).mono ?_
  rintro r w2 ⟨rfl, m2, s2, r2, q2⟩
  simp only [after_ok, post_pure, post_bind]
  obtain ⟨es, e1, e2⟩ := m2.trace
  exact ⟨rfl, m2.gripper b1 (fun x hx => ht x (List.mem_append_right _ hx)) r2 q2, [], by rw [e1, visible_append, e2, t1], .nil⟩

end Verif
