import Verif.Lemmas.AbortCall
import Verif.Lemmas.Next
import Verif.Lemmas.Rpc
import Verif.Lemmas.Progress
import Verif.Spec.CoopSession
/-!
# Calls in a session with a robot that does its part
-/
set_option linter.unusedSectionVars false
namespace Verif
open Prog Spec
variable {F : Type} [Fl F] [Wire F] [Geo F]

/-- Between two calls: the number of the next request, the last known state, the datagrams in the socket and the schedule from now on. -/
structure Between (id : UInt32) (s : RobotStateIntern F) (q : List Datagram) (ts : List Tick) (w : World F) : Prop where
  number : w.net.command_id = id
  last : LastState w s
  script : w.script = ts
  rx : w.ker.tcpRx = []
  eof : w.ker.tcpEof = false
  pending : w.net.pending_response = []
  table : ∀ i, id ≤ i → w.net.received_responses i = none
  udp : w.ker.udpRx = q
  ready : w.ker.udpRx ≠ [] → w.ker.udpEdge = true

theorem le_of_succ_le {id i : UInt32} (hid : id ≠ 0xffffffff) (h : id + 1 ≤ i) : id ≤ i := by
  rw [UInt32.le_iff_toNat_le] at h ⊢
  have h1 : id.toNat ≠ 4294967295 := fun h => hid (UInt32.toNat_inj.1 h)
  have h2 := id.toNat_lt
  rw [UInt32.toNat_add] at h
  simp at h
  omega

variable {id : UInt32} {s : RobotStateIntern F} {q : List Datagram} {ts : List Tick} {w : World F}

theorem Between.resting (h : Between id s q ts w) (hid : id ≠ 0xffffffff) : Resting w :=
  ⟨h.rx, h.eof, h.pending, by rw [h.number]; exact hid, h.ready⟩

theorem Between.absent (h : Between id s q ts w) : w.net.received_responses w.net.command_id = none := h.table _ (by rw [h.number]; exact UInt32.le_refl _)

/-- A request and its answer. -/
theorem ask_between {p : Asking} {m : Bytes} {α : Type} {cd : Codec α} {a : α} (hb : Between id s q (p.script ++ ts) w) (hnt : w.cfg.network_type = .Robot)
    (hid : id ≠ 0xffffffff) (b : RobotBody F) (hp : p.Brings m) (h1 : IsFrame .Robot id m) (h2 : 12 < m.length ∧ m.length ≤ 70000) (h3 : KnownCommand .Robot m)
    (h4 : cd.dec m = some (a, [])) : Post (ask b cd) w fun r w' => r = .ok a ∧ Between (id + 1) s (q ++ udpArrived p.script) ts w' ∧ w'.rob = w.rob ∧ w'.cfg = w.cfg ∧
      ∃ h : RobotCommandHeader, h.command = kind b ∧ visible w'.trace = visible w.trace ++ [.robotReq ⟨h, b⟩] := by
  have hs : w.script = p.write :: (p.ask ++ p.a1 :: p.a2 :: p.a3 :: p.a4 :: ts) := by rw [hb.script]; simp [Asking.script]
  have hf := hp.fine
  unfold Asking.script at hf
  unfold ask
  rw [post_bind]
  refine (request_supplied b hs (hf _ (by simp)) (by rw [hb.number]; exact hid) hb.rx (hp.silent _ (by simp)) hb.eof).mono ?_
  rintro r w1 ⟨rfl, g0, g1, g2, g3, g4, g5, g6, g7, g8, g9, hd, hdc, g10⟩
  rw [after_ok, hb.number]
  refine (reply_supplied h1 h2 h3 h4 g1 (fun x hx => hf x (List.mem_cons_of_mem _ hx)) (fun x hx => hp.silent x (List.mem_cons_of_mem _ hx)) g5 (g6.trans hb.pending)
    (by rw [g7]; exact hb.table _ (UInt32.le_refl _)) (by rw [g3]; exact hnt) (.inl ⟨g4, hp.bytes⟩)).mono ?_
  rintro r w2 ⟨rfl, j0, j1, j2, j3, j4, j5, j6, j7, j8, j9, j10⟩
  refine ⟨rfl, ⟨by rw [j0, g0, hb.number], ?_, j1, j2, j8, j3, fun i hi => by rw [j4, g7]; exact hb.table i (le_of_succ_le hid hi), ?_, j10 (g9 hb.ready)⟩, j5.trans g2, j6.trans g3, hd, hdc, ?_⟩
  · unfold LastState
    rw [j5, g2]
    exact hb.last
  · rw [j9, g8, hb.udp, List.append_assoc]
    simp [Asking.script, udpArrived]
  · rw [j7, g10, visible_append]
    rfl

/-- Request, answer, verdict. -/
theorem rpc_between {p : Asking} {m : Bytes} {α β : Type} {cd : Codec α} {a : α} (f : α → Outcome F β) (hb : Between id s q (p.script ++ ts) w) (hnt : w.cfg.network_type = .Robot)
    (hid : id ≠ 0xffffffff) (b : RobotBody F) (hp : p.Brings m) (h1 : IsFrame .Robot id m) (h2 : 12 < m.length ∧ m.length ≤ 70000) (h3 : KnownCommand .Robot m)
    (h4 : cd.dec m = some (a, [])) : Post (rpc b cd f) w fun r w' => r = returned (f a) ∧ Between (id + 1) s (q ++ udpArrived p.script) ts w' ∧ w'.rob = w.rob ∧ w'.cfg = w.cfg ∧
      ∃ h : RobotCommandHeader, h.command = kind b ∧ visible w'.trace = visible w.trace ++ [.robotReq ⟨h, b⟩] := by
  unfold rpc
  rw [post_bind]
  refine (ask_between hb hnt hid b hp h1 h2 h3 h4).mono ?_
  rintro r w1 ⟨rfl, h⟩
  rw [after_ok]
  cases f a with
  | ok v => exact ⟨rfl, h⟩
  | error e => exact ⟨rfl, h⟩

/-! ## The meaning of the answers -/

theorem setterVerdict_lt {m : Bytes} {o : Outcome F Unit} (h : setterVerdict m o) : natAt m 12 1 < 3 := by
  unfold setterVerdict at h
  split at h <;> first | omega | exact h.elim

theorem setterVerdict_eq {m : Bytes} {o o' : Outcome F Unit} (h : setterVerdict m o) (h' : setterVerdict m o') : o = o' := by
  unfold setterVerdict rejects at h h'
  split at h <;> simp_all

theorem stopVerdict_lt {m : Bytes} {o : Outcome F Unit} (h : stopVerdict m o) : natAt m 12 1 < 5 := by
  unfold stopVerdict at h
  split at h <;> first | omega | exact h.elim

theorem stopVerdict_eq {m : Bytes} {o o' : Outcome F Unit} (h : stopVerdict m o) (h' : stopVerdict m o') : o = o' := by
  unfold stopVerdict rejects at h h'
  split at h <;> simp_all

theorem recoveryVerdict_lt {m : Bytes} {o : Outcome F Unit} (h : recoveryVerdict m o) : natAt m 12 1 < 6 := by
  unfold recoveryVerdict at h
  split at h <;> first | omega | exact h.elim

theorem recoveryVerdict_eq {m : Bytes} {o o' : Outcome F Unit} (h : recoveryVerdict m o) (h' : recoveryVerdict m o') : o = o' := by
  unfold recoveryVerdict rejects at h h'
  split at h <;> simp_all

theorem dec_all {α : Type} {cd : Codec α} {n : Nat} (hc : cd.Lawful n) {m rest : Bytes} {a : α} (h : cd.dec m = some (a, rest)) (hl : m.length = n) :
    cd.dec m = some (a, []) := by
  have h1 := hc.sound _ _ _ h
  have h2 := congrArg List.length h1
  rw [List.length_append, hc.len, hl] at h2
  have : rest = [] := List.length_eq_zero_iff.1 (by omega)
  rw [h, this]

/-- The answer to a setter is understood. -/
theorem setter_answer {m : Bytes} {o : Outcome F Unit} (h : IsAnswer id m) (ho : setterVerdict m o) :
    ∃ a, SetterResponse.codec.dec m = some (a, []) ∧ (setterOutcome a.status : Outcome F Unit) = o := by
  obtain ⟨a, rest, ha⟩ := setter_dec m (by rw [h.size]) h.known (setterVerdict_lt ho)
  exact ⟨a, dec_all SetterResponse.codec_lawful ha h.size, setterVerdict_eq (setter_verdict m rest a ha) ho⟩

variable [LawfulWire F]

theorem wall_answer_frame {a : GetCartesianLimitResponse F} {m : Bytes} (hm : m = (GetCartesianLimitResponse.codec F).enc a) (h1 : a.header.command_id = id)
    (h2 : a.header.size = 166) : IsFrame .Robot id m ∧ m.length = 166 ∧ KnownCommand .Robot m ∧ (GetCartesianLimitResponse.codec F).dec m = some (a, []) := by
  subst hm
  have hl : ((GetCartesianLimitResponse.codec F).enc a).length = 166 := GetCartesianLimitResponse.codec_lawful.len a
  have ha : At ((GetCartesianLimitResponse.codec F).enc a) 0 ((GetCartesianLimitResponse.codec F).enc a) := ⟨[], [], by simp, rfl⟩
  obtain ⟨hh, -⟩ := At.seq ha (m := 12) (RobotCommandHeader.codec_lawful.len _)
  obtain ⟨hc, hh⟩ := At.seq hh (m := 4) (RobotCommandEnum.codec_lawful.len _)
  obtain ⟨hi, hz⟩ := At.seq hh (m := 4) (Codec.u32_lawful.len _)
  refine ⟨⟨by rw [hl]; decide, ?_, ?_⟩, hl, ?_, by simpa using GetCartesianLimitResponse.codec_lawful.rt a []⟩
  · have := At.nat4 hz
    unfold sizeAt
    rw [hl]
    simpa [h2] using this
  · have := At.nat4 hi
    unfold idAt
    simpa [h1] using this
  · have := At.nat4 hc
    unfold KnownCommand
    show natAt _ 0 4 < 14
    rw [this]
    exact (by intro c; cases c <;> decide : ∀ c : RobotCommandEnum, c.toTag.toNat < 14) _

omit [LawfulWire F] in
theorem setter_run {c : RobotCall F} {b : RobotBody F} (h : setterRequest c = some b) :
    c.run = rpc b SetterResponse.codec fun r => setterOutcome r.status := by
  cases c <;> simp only [setterRequest, reduceCtorEq, Option.some.injEq] at h <;> subst h
  · exact set_collision_behavior_eq ..
  · exact set_joint_impedance_eq ..
  · exact set_cartesian_impedance_eq ..
  · exact set_guiding_mode_eq ..
  · exact set_K_eq ..
  · exact set_EE_eq ..
  · exact set_load_eq ..
  · exact set_filters_eq ..

/-- What a call does with the answer. -/
theorem Spec.Told.call {c : RobotCall F} {b : RobotBody F} {m : Bytes} {o : Outcome F Unit} (h : Told id c b m o) :
    ∃ (α : Type) (cd : Codec α) (a : α) (g : α → Outcome F Unit), c.run = rpc b cd g ∧ cd.dec m = some (a, []) ∧ g a = o ∧ IsFrame .Robot id m ∧
      (12 < m.length ∧ m.length ≤ 70000) ∧ KnownCommand .Robot m := by
  cases h with
  | setter h1 h2 h3 =>
    obtain ⟨a, g1, g2⟩ := setter_answer h2 h3
    exact ⟨_, _, a, _, setter_run h1, g1, g2, h2.frame, by rw [h2.size]; omega, h2.known⟩
  | recovery h2 h3 =>
    obtain ⟨a, rest, ha⟩ := recovery_dec m (by rw [h2.size]) h2.known (recoveryVerdict_lt h3)
    exact ⟨_, _, a, _, automatic_error_recovery_eq, dec_all AutomaticErrorRecoveryResponse.codec_lawful ha h2.size, recoveryVerdict_eq (recovery_verdict m rest a ha) h3,
      h2.frame, by rw [h2.size]; omega, h2.known⟩
  | stop h2 h3 =>
    obtain ⟨a, rest, ha⟩ := stop_dec m (by rw [h2.size]) h2.known (stopVerdict_lt h3)
    exact ⟨_, _, a, _, stop_eq, dec_all StopMoveResponse.codec_lawful ha h2.size, stopVerdict_eq (stop_verdict m rest a ha) h3, h2.frame, by rw [h2.size]; omega, h2.known⟩
  | @wall n _ _ a h1 h2 h3 h4 =>
    obtain ⟨g1, g2, g3, g4⟩ := wall_answer_frame h1 h2 h3
    refine ⟨_, _, a, fun r => (wallOutcome n r).map fun _ => (), ?_, g4, ?_, g1, by omega, g3⟩
    · show (Robot.get_virtual_wall n >>= fun _ => pure () : Prog F Unit) = _
      rw [get_virtual_wall_eq]
      unfold rpc
      rw [Prog.bind_assoc']
      congr 1
      funext r
      dsimp only
      cases wallOutcome n r <;> rfl
    · have := wall_verdict n m [] a g4
      unfold wallVerdict at this
      unfold setterVerdict at h4
      split at h4 <;> simp_all [rejects, Except.map]
      obtain ⟨x, hx, -⟩ := this
      rw [hx]

/-! ## The calls -/

/-- A call returned `o`; then the session is between two calls again, and the events were like `tr`. -/
def Did (o : Outcome F Unit) (tr : List (Ev F)) (id : UInt32) (s : RobotStateIntern F) (q : List Datagram) (ts : List Tick) (w : World F) (r : Res F Unit) (w' : World F) : Prop :=
  r = returned o ∧ Between id s q ts w' ∧ ∃ es, visible w'.trace = visible w.trace ++ es ∧ List.Forall₂ Alike tr es

omit [LawfulWire F] in
theorem alike_refl (e : Ev F) : Alike e e := by
  cases e <;> first | exact rfl | exact ⟨_, rfl, rfl⟩ | exact ⟨_, rfl⟩

omit [LawfulWire F] in
theorem bind_pure_unit (p : Prog F Unit) : (p >>= fun _ => pure ()) = p := by
  funext w
  show Prog.bind p _ w = _
  unfold Prog.bind
  rcases h : p w with ⟨r, w'⟩
  cases r <;> rfl

/-- A request that is answered. -/
theorem request_did {c : RobotCall F} {b : RobotBody F} {m : Bytes} {o : Outcome F Unit} {p : Asking} {h : RobotCommandHeader} (hid : id ≠ 0xffffffff) (hh : h.command = kind b)
    (ha : Told id c b m o) (hp : p.Brings m) (hb : Between id s q (p.script ++ ts) w) (hnt : w.cfg.network_type = .Robot) :
    Post c.run w (Did o [.robotReq ⟨h, b⟩] (id + 1) s (q ++ udpArrived p.script) ts w) := by
  obtain ⟨α, cd, a, g, h1, h2, rfl, h4, h5, h6⟩ := ha.call
  rw [h1]
  refine (rpc_between g hb hnt hid b hp h4 h5 h6 h2).mono ?_
  rintro r w' ⟨rfl, k1, k2, k3, hd, k4, k5⟩
  exact ⟨rfl, k1, _, k5, .cons ⟨hd, rfl, by rw [k4]; exact hh.symm⟩ .nil⟩

/-- Setters one after the other, up to the first that fails. -/
def setters : List (RobotBody F) → Prog F Unit
  | [] => pure ()
  | b :: bs => do
    rpc b SetterResponse.codec fun r => setterOutcome r.status
    setters bs

omit [LawfulWire F] in
theorem set_default_behavior_eq : (Robot.set_default_behavior : Prog F Unit) = setters defaultBehavior := by
  unfold Robot.set_default_behavior
  rw [set_collision_behavior_eq, set_joint_impedance_eq, set_cartesian_impedance_eq]
  simp only [setters, defaultBehavior, bind_pure_unit]

omit [LawfulWire F] in
theorem setters_did {bs : List (RobotBody F)} {ts0 : List Tick} {o : Outcome F Unit} {tr : List (Ev F)} {id' : UInt32} (h : Setting id bs ts0 o tr id')
    (hb : Between id s q (ts0 ++ ts) w) (hnt : w.cfg.network_type = .Robot) : Post (setters bs) w (Did o tr id' s (q ++ udpArrived ts0) ts w) := by
  induction h generalizing w q with
  | nil id =>
    unfold setters
    rw [post_pure]
    exact ⟨rfl, by simpa [udpArrived] using hb, [], by simp, .nil⟩
  | @next id m p bs ts1 o tr id' b h h1 h2 h3 h4 h5 h6 ih =>
    unfold setters
    rw [post_bind]
    obtain ⟨a, g1, g2⟩ := setter_answer h3 h4
    rw [List.append_assoc] at hb
    refine (rpc_between (fun r => setterOutcome r.status) hb hnt h1 b h5 h3.frame (by rw [h3.size]; omega) h3.known g1).mono ?_
    rintro r w1 ⟨rfl, k1, k2, k3, hd, k4, k5⟩
    rw [g2]
    rw [show (returned (Except.ok ()) : Res F Unit) = .ok () from rfl, after_ok]
    refine (ih k1 (by rw [k3]; exact hnt)).mono ?_
    rintro r w2 ⟨rfl, l1, es, l3, l4⟩
    refine ⟨rfl, by simpa [udpArrived] using l1, _, by rw [l3, k5, List.append_assoc]; rfl, .cons ⟨hd, rfl, by rw [k4]; exact h2.symm⟩ l4⟩
  | @fail id m p bs e b h h1 h2 h3 h4 h5 =>
    unfold setters
    rw [post_bind]
    obtain ⟨a, g1, g2⟩ := setter_answer h3 h4
    refine (rpc_between (fun r => setterOutcome r.status) hb hnt h1 b h5 h3.frame (by rw [h3.size]; omega) h3.known g1).mono ?_
    rintro r w1 ⟨rfl, k1, k2, k3, hd, k4, k5⟩
    rw [g2]
    exact ⟨rfl, k1, _, k5, .cons ⟨hd, rfl, by rw [k4]; exact h2.symm⟩ .nil⟩

omit [LawfulWire F] in
/-- After system calls without requests and without bytes from the server. -/
theorem Moves.between {ts0 : List Tick} {seen : List (Ev F)} {w' : World F} {s' : RobotStateIntern F} (hm : Moves ts0 seen w w') (hb : Between id s q (ts0 ++ ts) w) (ht : TcpSilent ts0)
    (hl : LastState w' s') (hq : w'.ker.udpRx = []) : Between id s' [] ts w' where
  number := hm.id.trans hb.number
  last := hl
  script := (List.append_cancel_left (hb.script.symm.trans hm.script)).symm
  rx := by rw [hm.tcp, hb.rx, tcpArrived_silent ht]; rfl
  eof := hm.eof.trans hb.eof
  pending := hm.pending.trans hb.pending
  table := fun i hi => by rw [hm.table]; exact hb.table i hi
  udp := hq
  ready := fun h => absurd hq h

omit [LawfulWire F] in
/-- A state that arrives. -/
theorem state_between {s' : RobotStateIntern F} {ts0 : List Tick} (ha : StateArrives s' q ts0) (ht : TcpSilent ts0) (hnew : s.message_id < s'.message_id)
    (hb : Between id s q (ts0 ++ ts) w) : Post (receive_robot_state : Prog F (RobotStateIntern F)) w fun r w' => r = .ok s' ∧ Between id s' [] ts w' ∧ w'.cfg = w.cfg ∧
      visible w'.trace = visible w.trace ++ [.accepted s'] := by
  refine (receive_supplied ha hb.script hb.udp (by rw [← hb.udp]; exact hb.ready) (by rw [hb.last.2.2]; exact hnew)).mono ?_
  rintro r w' ⟨rfl, m, s1, r1, q1⟩
  obtain ⟨es, e1, e2⟩ := m.trace
  exact ⟨rfl, m.between hb ht (by rw [LastState, r1]; exact ⟨rfl, rfl, rfl⟩) q1, m.cfg, by rw [e1, visible_append, e2]⟩

theorem discard_between {ts0 : List Tick} (hd : Discards F q ts0) (ht : TcpSilent ts0) (hb : Between id s q (ts0 ++ ts) w) :
    Post (discard_available : Prog F Unit) w fun r w' => r = .ok () ∧ Between id s [] ts w' ∧ w'.cfg = w.cfg ∧ visible w'.trace = visible w.trace := by
  have hu : (discard_available : Prog F _) = _ := loop_unfold consumes_discard_available ()
  rw [hu]
  simp only [post_bind]
  cases hd with
  | nothing t h1 h2 =>
    refine (udp_receive_none (RobotStateIntern.codec F) size_of_RobotStateIntern hb.script (h2 t (by simp)) (by rw [hb.udp]; exact h1)).mono ?_
    rintro r w1 ⟨rfl, m1, s1, r1, q1⟩
    simp only [after_ok, post_pure]
    obtain ⟨es, e1, e2⟩ := m1.trace
    exact ⟨trivial, m1.between hb ht (by rw [LastState, r1]; exact hb.last) q1, m1.cfg, by rw [e1, visible_append, e2, List.append_nil]⟩
  | all s0 ds src data t ts0 hda h1 h2 h3 h4 h5 =>
    have hlen : ∀ x ∈ ds ++ [⟨src, data⟩], x.data.length = size_of_RobotStateIntern := by
      intro x hx
      rcases List.mem_append.1 hx with hx | hx
      · exact h2 x hx
      · rw [List.mem_singleton] at hx
        rw [hx]; exact hda.size
    obtain ⟨ts1, tl, rfl⟩ : ∃ ts1 tl, ts0 = ts1 ++ [tl] := by
      rcases List.eq_nil_or_concat ts0 with rfl | ⟨a, b, rfl⟩
      · simp at h5
      · exact ⟨a, b, by simp⟩
    refine (udp_receive_last (RobotStateIntern.codec F) size_of_RobotStateIntern (t := t) (ts := ts1) (rest := tl :: ts) (ds := ds) (by simpa using hb.script)
      (fun x hx => h3 x (by rcases List.mem_cons.1 hx with hx | hx <;> simp [hx])) (fun x hx => h4 x (by simp [hx])) (by rw [hb.udp]; exact h1)
      hb.ready (by simpa using h5) hlen hda.contents).mono ?_
    rintro r w1 ⟨rfl, m1, s1, r1, q1⟩
    simp only [after_ok, post_pure]
    have hu2 := loop_unfold consumes_discard_available (F := F) ()
    rw [hu2]
    simp only [post_bind]
    refine (udp_receive_none (RobotStateIntern.codec F) size_of_RobotStateIntern s1 (h3 tl (by simp)) (by rw [q1, h4 tl (by simp)]; rfl)).mono ?_
    rintro r w2 ⟨rfl, m2, s2, r2, q2⟩
    simp only [after_ok, post_pure]
    obtain ⟨es, e1, e2⟩ := (m1.trans m2).trace
    exact ⟨trivial, (m1.trans m2).between (by simpa using hb) (by simpa using ht) (by rw [LastState, r2, r1]; exact hb.last) q2, m2.cfg.trans m1.cfg,
      by rw [e1, visible_append, e2]; simp⟩

theorem read_once_did {s' : RobotStateIntern F} {ts0 ts1 : List Tick} (hd : Discards F q ts0) (ha : StateArrives s' [] ts1) (ht : TcpSilent (ts0 ++ ts1))
    (hnew : s.message_id < s'.message_id) (hb : Between id s q (ts0 ++ (ts1 ++ ts)) w) :
    Post (RobotCall.run .read_once) w (Did (.ok ()) [.accepted s'] id s' [] ts w) := by
  show Post (RobotImpl.read_once >>= fun _ => pure ()) w _
  unfold RobotImpl.read_once
  simp only [Prog.bind_assoc', post_bind]
  refine (discard_between hd (fun x hx => ht x (List.mem_append_left _ hx)) hb).mono ?_
  rintro r w1 ⟨rfl, b1, c1, t1⟩
  rw [after_ok, post_bind]
  refine (state_between ha (fun x hx => ht x (List.mem_append_right _ hx)) hnew b1).mono ?_
  rintro r w2 ⟨rfl, b2, c2, t2⟩
  simp only [after_ok, post_pure, post_bind]
  exact ⟨rfl, b2, _, by rw [t2, t1], .cons (alike_refl _) .nil⟩

omit [LawfulWire F] in
theorem consumes_read {σ : Type} (cb : σ → RobotState F → σ × Bool) : Consumes (fun c : σ => (do
    let state ← update none none
    let (c, cont) := cb c state
    emit (.readCb state cont)
    if cont then pure (.inl c) else pure (.inr ()) : Prog F (σ ⊕ Unit))) := by
  apply consumes_of_eats
  intro c
  refine Eats.bind ?_ fun st => ?_
  · have : (update none none : Prog F (RobotState F)) = receive_robot_state >>= fun s => pure (RobotState.ofIntern s) := rfl
    rw [this]
    exact eats_receive_robot_state.bind fun e => by pres
  · pres
    exact fun w => Nat.le_refl _

omit [LawfulWire F] in
theorem update_between {s' : RobotStateIntern F} {ts0 : List Tick} (ha : StateArrives s' q ts0) (ht : TcpSilent ts0) (hnew : s.message_id < s'.message_id)
    (hb : Between id s q (ts0 ++ ts) w) : Post (update none none : Prog F (RobotState F)) w fun r w' => r = .ok (RobotState.ofIntern s') ∧ Between id s' [] ts w' ∧ w'.cfg = w.cfg ∧
      visible w'.trace = visible w.trace ++ [.accepted s'] := by
  have hupd : (update none none : Prog F (RobotState F)) = receive_robot_state >>= fun s => pure (RobotState.ofIntern s) := rfl
  rw [hupd, post_bind]
  refine (state_between ha ht hnew hb).mono ?_
  rintro r w1 ⟨rfl, h⟩
  exact ⟨rfl, h⟩

omit [LawfulWire F] in
theorem read_did {σ : Type} {cb : σ → RobotState F → σ × Bool} {c : σ} {s' : RobotStateIntern F} {ts0 : List Tick} {tr : List (Ev F)} (h : Reads cb c s q ts0 tr s')
    (hb : Between id s q (ts0 ++ ts) w) : Post (Robot.read cb c) w (Did (.ok ()) tr id s' [] ts w) := by
  induction h generalizing w with
  | @last c s q ts0 s' ha ht hn hc =>
    have hu : (Robot.read cb c : Prog F Unit) = _ := loop_unfold (consumes_read cb) c
    rw [hu]
    simp only [post_bind]
    refine (update_between ha ht hn hb).mono ?_
    rintro r w1 ⟨rfl, b1, c1, t1⟩
    simp only [after_ok, post_pure, post_bind, post_emit, hc, Bool.false_eq_true, if_false]
    refine ⟨rfl, ⟨b1.number, b1.last, b1.script, b1.rx, b1.eof, b1.pending, b1.table, b1.udp, b1.ready⟩, _, ?_, .cons (alike_refl _) (.cons (alike_refl _) .nil)⟩
    rw [visible_append, t1, List.append_assoc]
    rfl
  | @more c s q ts0 s' ts1 tr sE ha ht hn hc hr ih =>
    have hu : (Robot.read cb c : Prog F Unit) = _ := loop_unfold (consumes_read cb) c
    rw [hu]
    simp only [post_bind]
    rw [List.append_assoc] at hb
    refine (update_between ha ht hn hb).mono ?_
    rintro r w1 ⟨rfl, b1, c1, t1⟩
    simp only [after_ok, post_pure, post_bind, post_emit, hc, if_true]
    refine (ih (w := { w1 with trace := w1.trace ++ [.readCb (RobotState.ofIntern s') true] }) ⟨b1.number, b1.last, b1.script, b1.rx, b1.eof, b1.pending, b1.table, b1.udp, b1.ready⟩).mono ?_
    rintro r w2 ⟨rfl, b2, es, t2, t3⟩
    refine ⟨rfl, b2, .accepted s' :: .readCb (RobotState.ofIntern s') true :: es, ?_, .cons (alike_refl _) (.cons (alike_refl _) t3)⟩
    rw [t2, visible_append, t1]
    simp [visible, isTcpEv, isUdpEv]

theorem start_refused {σ : Type} {k : MotionKind} {call : ControlCall F σ k} {m : Bytes} {status : MoveStatus} {msg : String} {p : Asking}
    (hid : id ≠ 0xffffffff) (hidle : ¬ Running s) (hm : IsMoveReply id status m)
    (hmsg : abortMessage status = some msg) (hp : p.Brings m) (hb : Between id s q (p.script ++ ts) w) (hnt : w.cfg.network_type = .Robot) :
    Post (start_motion call.controller k.get_motion_generator_mode defaultDeviation defaultDeviation) w fun r w' => r = .err (.CommandException msg) ∧
      Between (id + 1) s (q ++ udpArrived p.script) ts w' ∧ w'.cfg = w.cfg ∧ ∃ hd : RobotCommandHeader, hd.command = .Move ∧
      visible w'.trace = visible w.trace ++ [.robotReq ⟨hd, moveBody k call.controller⟩] := by
  unfold start_motion
  rw [post_bind, running_iff s hb.last]
  refine ⟨fun h => absurd h hidle, fun _ => ?_⟩
  simp only [after_ok, Bool.false_eq_true, if_false, post_bind, post_modify]
  have hexec : ∀ x : MoveRequest F, (execute_move_command x.controller_mode x.motion_generator_mode x.maximum_path_deviation x.maximum_goal_deviation : Prog F UInt32) =
      sendRequest (.Move x) >>= fun id => tcp_blocking_receive_response MoveResponse.codec id >>= fun a => ofExcept (handle_command_response_move a) >>= fun _ => pure id := by
    intro x
    unfold execute_move_command sendRequest
    simp only [Prog.bind_assoc']; rfl
  rw [hexec ⟨_, _, _, _⟩, post_bind]
  obtain ⟨f1, f2, f3, f4⟩ := move_reply_frame hm
  generalize hw2 : ({ w with rob := { w.rob with
      current_move_motion_generator_mode := k.get_motion_generator_mode.reported
      current_move_controller_mode := some call.controller.reported } } : World F) = w2
  have hb2 : Between id s q (p.script ++ ts) w2 := by
    rw [← hw2]
    exact ⟨hb.number, hb.last, hb.script, hb.rx, hb.eof, hb.pending, hb.table, hb.udp, hb.ready⟩
  have hask := ask_between hb2 (by rw [← hw2]; exact hnt) hid (moveBody k call.controller) hp f1 (by omega) f3 f4
  unfold ask at hask
  rw [post_bind] at hask
  unfold moveBody at hask
  rw [← requested_generator k] at hask
  refine hask.mono ?_
  intro r w3 hr
  cases r with
  | err e => obtain ⟨h, -⟩ := hr; cases h
  | panic m => obtain ⟨h, -⟩ := hr; cases h
  | blocked => obtain ⟨h, -⟩ := hr; cases h
  | ok i =>
  rw [after_ok] at hr ⊢
  rw [post_bind]
  refine Post.mono hr ?_
  rintro r w4 ⟨rfl, b4, -, c4, hd, k4, k5⟩
  have hh2 : (handle_command_response_move (⟨⟨.Move, id, 13⟩, status⟩ : MoveResponse) : Except (FrankaException F) Unit) = .error (.CommandException msg) := by
    have := handle_move (F := F) ⟨⟨.Move, id, 13⟩, status⟩
    cases hx : (handle_command_response_move (⟨⟨.Move, id, 13⟩, status⟩ : MoveResponse) : Except (FrankaException F) Unit) with
    | error e =>
      rw [hx] at this
      obtain ⟨msg', h1, rfl⟩ := this
      rw [show abortMessage status = some msg' from h1] at hmsg
      cases hmsg; rfl
    | ok _ =>
      rw [hx] at this
      rw [show abortMessage status = none from this] at hmsg
      cases hmsg
  rw [after_ok, hh2]
  refine ⟨rfl, b4, c4.trans (by rw [← hw2]), hd, k4, ?_⟩
  unfold moveBody
  rw [← requested_generator k, show visible w.trace = visible w2.trace by rw [← hw2]]
  exact k5

/-- A motion that the robot refuses to start. -/
theorem refused_did {c : RobotCall F} {σ : Type} {k : MotionKind} {call : ControlCall F σ k} {c0 : σ} {m : Bytes} {status : MoveStatus} {msg : String} {p : Asking} {h : RobotCommandHeader}
    (hrt : ¬ RealTimeMissing w) (hid : id ≠ 0xffffffff) (hc : IsControl c call c0) (hidle : ¬ Running s) (hh : h.command = .Move) (hm : IsMoveReply id status m)
    (hmsg : abortMessage status = some msg) (hp : p.Brings m) (hb : Between id s q (p.script ++ ts) w) (hnt : w.cfg.network_type = .Robot) :
    Post c.run w (Did (.error (.CommandException msg)) [.robotReq ⟨h, moveBody k call.controller⟩] (id + 1) s (q ++ udpArrived p.script) ts w) := by
  rw [(IsControl.run_eq hc).1]
  unfold controlProgram
  rw [post_bind]
  refine (new_intern_view call w).mono ?_
  rintro res w1 ⟨rfl, hres⟩
  cases res with
  | err e => exact absurd hres.1 hrt
  | panic m => exact hres.elim
  | blocked => exact hres.elim
  | ok l =>
  obtain ⟨rfl, -⟩ := hres
  rw [after_ok, post_bind]
  refine (start_refused hid hidle hm hmsg hp hb hnt).mono ?_
  rintro r w2 ⟨rfl, b4, c4, hd, k4, k5⟩
  exact ⟨rfl, b4, _, k5, .cons ⟨hd, rfl, by rw [k4]; exact hh.symm⟩ .nil⟩

end Verif
