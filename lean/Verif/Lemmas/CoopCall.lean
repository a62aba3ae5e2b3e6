import Verif.Lemmas.CoopLoop
import Verif.Lemmas.Deliver
/-!
# A control call with a robot that cooperates
-/
set_option linter.unusedSectionVars false
namespace Verif
open Prog Spec
variable {F : Type} [Fl F] [Wire F] [Geo F]
variable {σ : Type} {k : MotionKind} {call : ControlCall F σ k} {c0 : σ} {L : Nat} {s : RobotStateIntern F} {w : World F}

/-- `Idle` without the history of answers. -/
structure Resting (w : World F) : Prop where
  rx : w.ker.tcpRx = []
  eof : w.ker.tcpEof = false
  pending : w.net.pending_response = []
  ids : w.net.command_id ≠ 0xffffffff
  ready : w.ker.udpRx ≠ [] → w.ker.udpEdge = true

theorem Spec.Idle.resting {w : World F} (h : Idle w) : Resting w := ⟨h.rx, h.eof, h.pending, h.ids, h.ready⟩

/-- The world after a call that began in `w`. -/
structure Ends (L : Nat) (s : RobotStateIntern F) (q : List Datagram) (rest : List Tick) (w w' : World F) : Prop where
  last : LastState w' s
  logger : w'.rob.logger.Ok L
  script : w'.script = rest
  rx : w'.ker.tcpRx = []
  eof : w'.ker.tcpEof = false
  pending : w'.net.pending_response = []
  table : w'.net.received_responses = w.net.received_responses
  udp : w'.ker.udpRx = q
  ready : w'.ker.udpRx ≠ [] → w'.ker.udpEdge = true

omit [Geo F] in
/-- An answer that arrives in one piece is received. -/
theorem reply_arrives {nt : NetworkType} {α : Type} {c : Codec α} {a : α} {id : UInt32} {m : Bytes} (h1 : IsFrame nt id m) (h2 : headerLength nt < m.length ∧ m.length ≤ 70000) (h3 : KnownCommand nt m)
    (h4 : c.dec m = some (a, [])) {l1 l2 l3 l4 : Tick} {rest q : List Tick} (hs : w.script = q ++ l1 :: l2 :: l3 :: l4 :: rest)
    (hf : Fine (q ++ [l1, l2, l3, l4])) (ht : TcpSilent (q ++ [l2, l3, l4])) (heof : w.ker.tcpEof = false) (hp : w.net.pending_response = [])
    (habs : w.net.received_responses id = none) (hnt : w.cfg.network_type = nt)
    (hrx : w.ker.tcpRx = [] ∧ l1.tcpIn = m ∨ q = [] ∧ w.ker.tcpRx = m ∧ l1.tcpIn = [] ∧ w.ker.tcpEdge = true) :
    Post (tcp_blocking_receive_response c id : Prog F α) w fun r w' => r = .ok a ∧ w'.net.command_id = w.net.command_id ∧
      w'.script = rest ∧ w'.ker.tcpRx = [] ∧ w'.net.pending_response = [] ∧ w'.net.received_responses = w.net.received_responses ∧ w'.rob = w.rob ∧ w'.cfg = w.cfg ∧
      visible w'.trace = visible w.trace ∧ w'.ker.tcpEof = false ∧ w'.ker.udpRx = w.ker.udpRx ++ udpArrived (q ++ [l1, l2, l3, l4]) ∧
      ((w.ker.udpRx ≠ [] → w.ker.udpEdge = true) → w'.ker.udpRx ≠ [] → w'.ker.udpEdge = true) := by
  unfold tcp_blocking_receive_response
  rw [post_bind]
  refine ((wait_reply h1 h2 h3 l1 l2 l3 l4 rest q w hs hf ht heof hp habs hnt hrx).and
    ((pres_wait_for_response_to_arrive (T := Passive) id).post w)).mono ?_
  rintro r w' ⟨⟨rfl, g1, g2, g3, g4⟩, hpas⟩
  simp only [after_ok, deserialize, h4, post_pure]
  obtain ⟨es, e1, e2⟩ := hpas.trace
  obtain ⟨ts, t1, t2, t3, t4⟩ := hpas.ticks
  have hts : ts = q ++ [l1, l2, l3, l4] := by
    rw [hs, g1] at t1
    have : (q ++ [l1, l2, l3, l4]) ++ rest = ts ++ rest := by simpa using t1
    exact (List.append_cancel_right this).symm
  subst hts
  exact ⟨trivial, hpas.id, g1, g2, g3, g4, hpas.rob, hpas.cfg, by rw [e1, visible_append, e2, List.append_nil], (t4 hf).trans heof, t2, t3⟩

/-- An answer of a robot. -/
theorem reply_supplied {α : Type} {c : Codec α} {a : α} {id : UInt32} {m : Bytes} (h1 : IsFrame .Robot id m) (h2 : 12 < m.length ∧ m.length ≤ 70000) (h3 : KnownCommand .Robot m)
    (h4 : c.dec m = some (a, [])) {l1 l2 l3 l4 : Tick} {rest q : List Tick} (hs : w.script = q ++ l1 :: l2 :: l3 :: l4 :: rest)
    (hf : Fine (q ++ [l1, l2, l3, l4])) (ht : TcpSilent (q ++ [l2, l3, l4])) (heof : w.ker.tcpEof = false) (hp : w.net.pending_response = [])
    (habs : w.net.received_responses id = none) (hnt : w.cfg.network_type = .Robot)
    (hrx : w.ker.tcpRx = [] ∧ l1.tcpIn = m ∨ q = [] ∧ w.ker.tcpRx = m ∧ l1.tcpIn = [] ∧ w.ker.tcpEdge = true) :
    Post (tcp_blocking_receive_response c id : Prog F α) w fun r w' => r = .ok a ∧ w'.net.command_id = w.net.command_id ∧
      w'.script = rest ∧ w'.ker.tcpRx = [] ∧ w'.net.pending_response = [] ∧ w'.net.received_responses = w.net.received_responses ∧ w'.rob = w.rob ∧ w'.cfg = w.cfg ∧
      visible w'.trace = visible w.trace ∧ w'.ker.tcpEof = false ∧ w'.ker.udpRx = w.ker.udpRx ++ udpArrived (q ++ [l1, l2, l3, l4]) ∧
      ((w.ker.udpRx ≠ [] → w.ker.udpEdge = true) → w'.ker.udpRx ≠ [] → w'.ker.udpEdge = true) :=
  reply_arrives h1 h2 h3 h4 hs hf ht heof hp habs hnt hrx

/-- The answer to a Move request is received. -/
theorem answer_supplied {id : UInt32} {m : Bytes} (hm : IsMoveAnswer id m) {l1 l2 l3 l4 : Tick} {rest q : List Tick} (hs : w.script = q ++ l1 :: l2 :: l3 :: l4 :: rest)
    (hf : Fine (q ++ [l1, l2, l3, l4])) (ht : TcpSilent (q ++ [l2, l3, l4])) (heof : w.ker.tcpEof = false) (hp : w.net.pending_response = [])
    (habs : w.net.received_responses id = none) (hnt : w.cfg.network_type = .Robot)
    (hrx : w.ker.tcpRx = [] ∧ l1.tcpIn = m ∨ q = [] ∧ w.ker.tcpRx = m ∧ l1.tcpIn = [] ∧ w.ker.tcpEdge = true) :
    Post (tcp_blocking_receive_response MoveResponse.codec id : Prog F MoveResponse) w fun r w' => ∃ a, r = .ok a ∧ abortMessage a.status = none ∧
      w'.net.command_id = w.net.command_id ∧
      w'.script = rest ∧ w'.ker.tcpRx = [] ∧ w'.net.pending_response = [] ∧ w'.net.received_responses = w.net.received_responses ∧ w'.rob = w.rob ∧ w'.cfg = w.cfg ∧
      visible w'.trace = visible w.trace ∧ w'.ker.tcpEof = false ∧ w'.ker.udpRx = w.ker.udpRx ++ udpArrived (q ++ [l1, l2, l3, l4]) ∧
      ((w.ker.udpRx ≠ [] → w.ker.udpEdge = true) → w'.ker.udpRx ≠ [] → w'.ker.udpEdge = true) := by
  obtain ⟨h1, h2, h3, a, h4, h5⟩ := move_answer_frame hm
  refine (reply_supplied h1 (by omega) h3 h4 hs hf ht heof hp habs hnt hrx).mono ?_
  rintro r w' ⟨rfl, h⟩
  exact ⟨a, rfl, h5, h⟩

theorem udpArrived_cons (t : Tick) (ts : List Tick) : udpArrived (t :: ts) = t.udpIn ++ udpArrived ts := by simp [udpArrived]

theorem supplies_start_inv {q : List Datagram} {s : RobotStateIntern F} {ss : List (RobotStateIntern F)} {ts : List Tick} (h : SuppliesStart q (s :: ss) ts) :
    ∃ t ts1 ts2, ts = t :: ts1 ++ ts2 ∧ Fine [t] ∧ StateArrives s (q ++ t.udpIn) ts1 ∧ SuppliesStart [] ss ts2 := by
  cases h with
  | state h1 h2 h3 => exact ⟨_, _, _, rfl, h1, h2, h3⟩

/-- The states are received until one shows that the motion has started. -/
theorem start_supplied {id : UInt32} {rest : List Tick} {tr : List (Ev F)} {phE : Phase F σ}
    {first : RobotStateIntern F} (waiting : List (RobotStateIntern F)) : ∀ (s : RobotStateIntern F) (q : List Datagram) (ts : List Tick) (w : World F),
    Steady call L s w → w.ker.udpRx = q → (q ≠ [] → w.ker.udpEdge = true) → w.script = ts ++ rest → SuppliesStart q waiting ts → TcpSilent ts →
    w.ker.tcpRx = [] → w.ker.tcpEof = false → w.net.received_responses id = none →
    Run call c0 (.starting s) (waiting.map .accepted ++ .accepted first :: tr) phE →
    ShowsModes k call.controller ((s :: waiting).getLast (by simp)) →
    Post (wait_for_motion_start id : Prog F Unit) w fun r w' => ∃ s1, r = .ok () ∧ Steady call L s1 w' ∧ ShowsModes k call.controller s1 ∧
      Run call c0 (.starting s1) (.accepted first :: tr) phE ∧ Moves ts (waiting.map .accepted) w w' ∧ w'.script = rest ∧
      (waiting ≠ [] ∨ q = [] → w'.ker.udpRx = []) := by
  induction waiting with
  | nil =>
    intro s q ts w hw hq hedge hs hsup hsil hrx heof habs hr hshow
    cases hsup
    have hu : (wait_for_motion_start id : Prog F Unit) = _ := loop_unfold (consumes_wait_for_motion_start id) ()
    rw [hu, post_bind, post_bind, post_modes_differ s hw.last hw.generator hw.controller]
    refine ⟨fun _ => ?_, fun h => absurd hshow h⟩
    simp only [after_ok, Bool.false_eq_true, if_false, post_pure]
    exact ⟨s, trivial, hw, hshow, hr, Moves.nil w, hs, fun h => hq.trans (h.resolve_left fun h => h rfl)⟩
  | cons s1 waiting ih =>
    intro s q ts w hw hq hedge hs hsup hsil hrx heof habs hr hshow
    obtain ⟨t, ts1, ts2, rfl, k1, k2, k3⟩ := supplies_start_inv hsup
    have hstep : ¬ ShowsModes k call.controller s ∧ s.message_id < s1.message_id ∧
        Run call c0 (.starting s1) (waiting.map .accepted ++ .accepted first :: tr) phE := by
      obtain ⟨ph, hst, hr1⟩ := Run.cons_inv (e := .accepted s1) (tr := waiting.map .accepted ++ .accepted first :: tr) hr
      obtain ⟨s2, tr2, h2⟩ : ∃ s2 tr2, waiting.map .accepted ++ .accepted first :: tr = .accepted s2 :: tr2 := by
        cases waiting with
        | nil => exact ⟨_, _, rfl⟩
        | cons x xs => exact ⟨_, _, rfl⟩
      cases hst with
      | wait _ _ h1 h3 => exact ⟨h1, h3, hr1⟩
      | first =>
        rw [h2] at hr1
        obtain ⟨_, hst, -⟩ := hr1.cons_inv
        cases hst
      | firstBroken =>
        rw [h2] at hr1
        obtain ⟨_, hst, -⟩ := hr1.cons_inv
        cases hst
    obtain ⟨hns, hlt, hr1⟩ := hstep
    have hu : (wait_for_motion_start id : Prog F Unit) = _ := loop_unfold (consumes_wait_for_motion_start id) ()
    rw [hu, post_bind, post_bind, post_modes_differ s hw.last hw.generator hw.controller]
    refine ⟨fun h => absurd h hns, fun _ => ?_⟩
    simp only [after_ok, if_true, post_bind, post_attempt]
    unfold tcp_receive_response
    rw [post_bind]
    have htin : t.tcpIn = [] := hsil t (by simp)
    have hft := k1 t (by simp)
    refine (read_nothing (by simpa using hs) hrx heof htin hft.2 hft.1).mono ?_
    rintro r w1 ⟨rfl, hw1⟩
    have habs1 : w1.net.received_responses id = none := by rw [hw1]; exact habs
    have hrx1 : w1.ker.tcpRx = [] := by rw [hw1]; simp [Kernel.arrive, hrx, htin]
    have hm1 : Moves [t] [] w w1 := by
      refine ⟨by rw [hw1]; simpa using hs, by rw [hw1], by rw [hw1], by rw [hw1], by rw [hw1], by rw [hrx1, hrx]; simp [htin], fun _ h => absurd hrx1 h, ?_, [], ?_, rfl⟩
      · rw [hw1]; simp [Kernel.arrive, hft.2]
      · rw [hw1]; simp
    have hs1 : w1.script = ts1 ++ (ts2 ++ rest) := by rw [hw1]
    have hq1 : w1.ker.udpRx = q ++ t.udpIn := by rw [hw1]; simp [Kernel.arrive, hq]
    have hedge1 : q ++ t.udpIn ≠ [] → w1.ker.udpEdge = true := by
      intro h
      rw [hw1]
      simp only [ne_eq, List.append_eq_nil_iff, not_and_or] at h
      simp only [Kernel.arrive]
      rcases h with h | h
      · simp [hedge h]
      · have : t.udpIn.isEmpty = false := by simpa using h
        simp [this]
    have hst1 : Steady call L s w1 := hw.congr (by rw [hw1])
    simp only [after_ok, post_bind, post_gets, habs1, post_pure, tried_ok]
    refine (update_none_supplied hs1 hst1 hq1 hedge1 k2 hlt).mono ?_
    rintro r w2 ⟨rfl, m2, s2, st2, q2⟩
    rw [after_ok, post_pure, after_ok]
    have hm2 := hm1.trans m2
    refine Post.mono (ih s1 [] ts2 w2 st2 q2 (fun h => absurd rfl h) s2 k3 (fun x hx => hsil x (by simp [hx])) ?_ ?_ ?_ hr1 (by simpa using hshow)) ?_
    · rw [hm2.tcp, hrx]
      simp only [List.nil_append]
      have : ∀ ts : List Tick, TcpSilent ts → tcpArrived ts = [] := by
        intro ts h
        simp only [tcpArrived, List.flatMap_eq_nil_iff]
        exact h
      exact this _ fun x hx => hsil x (by rcases List.mem_append.1 hx with hx | hx <;> simp_all)
    · rw [hm2.eof]; exact heof
    · rw [hm2.table]; exact habs
    rintro r w3 ⟨s3, rfl, g1, g2, g3, g4, g5, g6⟩
    exact ⟨s3, rfl, g1, g2, g3, by simpa using hm2.trans g4, g5, fun _ => g6 (.inr rfl)⟩

theorem tcpArrived_silent {ts : List Tick} (h : TcpSilent ts) : tcpArrived ts = [] := by
  simp only [tcpArrived, List.flatMap_eq_nil_iff]
  exact h

theorem tcpArrived_once {m : Bytes} {ts : List Tick} (h : ArrivesOnce m ts) : tcpArrived ts = m := by
  obtain ⟨pre, t, post, rfl, rfl, h⟩ := h
  have h1 : tcpArrived pre = [] := tcpArrived_silent fun x hx => h x (by simp [hx])
  have h2 : tcpArrived post = [] := tcpArrived_silent fun x hx => h x (by simp [hx])
  have : tcpArrived (pre ++ t :: post) = tcpArrived pre ++ (t.tcpIn ++ tcpArrived post) := by simp [tcpArrived]
  rw [this, h1, h2]; simp

/-- The finishing command, the last states, and the last answer. -/
theorem finish_supplied {id : UInt32} {p : Plan} {o : Option (ControllerCommand F)} (ho : o.isSome = true ↔ controllerOf call.controller = .ExternalController)
    {sF : RobotStateIntern F} {m mF : MotionGeneratorCommand F} {tF : ControllerCommand F} (hF : ¬ Running sF) {tr : List (Ev F)} {ts : List Tick} {m0 : Bytes}
    (hw : Steady call L s w) (hq : w.ker.udpRx = []) (hs : w.script = ts ++ (p.closing ++ p.rest)) (hsup : Supplies [] tr ts)
    (hr : Run call c0 (.finishing s m (o.getD noTorques)) tr (.finishing sF mF tF)) (hn : NoRequest tr) (hrun : Running s)
    (heof : w.ker.tcpEof = false) (hp : w.net.pending_response = []) (habs : w.net.received_responses id = none) (hnt : w.cfg.network_type = .Robot)
    (hm : IsMoveAnswer id m0) (hf : Fine p.closing) (hsil : TcpSilent [p.l2, p.l3, p.l4]) (hedge : w.ker.tcpRx ≠ [] → w.ker.tcpEdge = true)
    (hrx : w.ker.tcpRx ++ tcpArrived ts = [] ∧ TcpSilent p.await ∧ p.l1.tcpIn = m0 ∨ w.ker.tcpRx ++ tcpArrived ts = m0 ∧ p.await = [] ∧ p.l1.tcpIn = []) :
    Post (finish_motion id (some m) o) w fun r w' => r = .ok () ∧ (Ends L sF (udpArrived p.closing) p.rest w w' ∧ w'.net.command_id = w.net.command_id) ∧
      ∃ es, visible w'.trace = visible w.trace ++ es ∧ List.Forall₂ Alike tr es := by
  unfold finish_motion
  rw [post_bind, running_iff s hw.last]
  refine ⟨fun _ => ?_, fun h => absurd hrun h⟩
  simp only [after_ok, if_true, post_bind]
  unfold finish_loop
  refine (finish_loop_supplied o ho hF tr.length tr s none ts w (Nat.le_refl _) hw hq hs hsup hr hn (.inl hrun)).mono ?_
  rintro r w1 ⟨st, es, rfl, g1, g2, g3, g4, g5⟩
  simp only [after_ok, unwrapOpt, post_bind, post_pure]
  have hm0 : m0 ≠ [] := by
    intro e
    have := (move_answer_frame hm).2.1
    rw [e] at this; simp at this
  refine (answer_supplied hm (q := p.await) (l1 := p.l1) (l2 := p.l2) (l3 := p.l3) (l4 := p.l4) (rest := p.rest) (w := w1) (by rw [g4]; simp [Plan.closing]) hf ?_
    (g2.eof.trans heof) (g2.pending.trans hp) (by rw [g2.table]; exact habs) (by rw [g2.cfg]; exact hnt) ?_).mono ?_
  · intro x hx
    rcases List.mem_append.1 hx with hx | hx
    · rcases hrx with ⟨-, h, -⟩ | ⟨-, h, -⟩
      · exact h x hx
      · rw [h] at hx; cases hx
    · exact hsil x hx
  · rcases hrx with ⟨h1, h2, h3⟩ | ⟨h1, h2, h3⟩
    · exact .inl ⟨by rw [g2.tcp, h1], h3⟩
    · have h4 : w1.ker.tcpRx = m0 := by rw [g2.tcp, h1]
      exact .inr ⟨h2, h4, h3, g2.edge hedge (by rw [h4]; exact hm0)⟩
  rintro r w2 ⟨a, rfl, i1, j0, j1, j2, j3, j4, j5, i2, i3, j6, j7, j8⟩
  have hne : a.status ≠ .ReflexAborted := by
    intro e; rw [e] at i1; cases i1
  have hh := handle_move (F := F) a
  simp only [after_ok, hne, if_false]
  cases hx : (handle_command_response_move a : Except (FrankaException F) Unit) with
  | error e =>
    rw [hx] at hh
    obtain ⟨msg, h1, -⟩ := hh
    rw [i1] at h1; cases h1
  | ok _ =>
    simp only [forget_motion, post_modify, true_and]
    obtain ⟨fs, f1, f2⟩ := g2.trace
    have hl : LastState w2 sF := LastState.congr j5 g1.last
    refine ⟨⟨⟨⟨hl.1, hl.2.1, hl.2.2⟩, ?_, j1, j2, j6, j3, j4.trans g2.table, ?_, j8 fun h => absurd g5 h⟩, j0.trans g2.id⟩, es, by rw [i3, f1, visible_append, f2], g3⟩
    · show w2.rob.logger.Ok L
      rw [j5]; exact g1.logger
    · show w2.ker.udpRx = _
      rw [j7, g5]; rfl

/-- The motion and its end. -/
theorem run_supplied (hfit : Fits call) {id : UInt32} {p : Plan} {sF first : RobotStateIntern F} {mF : MotionGeneratorCommand F} {tF : ControllerCommand F}
    (hF : ¬ Running sF) {tr : List (Ev F)} {m0 : Bytes} (hw : Steady call L s w) (hq : w.ker.udpRx = []) (hs : w.script = p.motion ++ (p.closing ++ p.rest))
    (hsup : Supplies [] (.accepted first :: tr) p.motion) (hr : Run call c0 (.starting s) (.accepted first :: tr) (.finishing sF mF tF))
    (hshow : ShowsModes k call.controller s) (hn : NoRequest tr) (heof : w.ker.tcpEof = false) (hp : w.net.pending_response = [])
    (habs : w.net.received_responses id = none) (hnt : w.cfg.network_type = .Robot) (hm : IsMoveAnswer id m0) (hf : Fine p.closing)
    (hsil : TcpSilent [p.l2, p.l3, p.l4]) (hrx0 : w.ker.tcpRx = [])
    (hrx : TcpSilent (p.motion ++ p.await) ∧ p.l1.tcpIn = m0 ∨ ArrivesOnce m0 p.motion ∧ p.await = [] ∧ p.l1.tcpIn = []) :
    Post ((loopOf call id).run c0) w fun r w' => r = .ok () ∧ (Ends L sF (udpArrived p.closing) p.rest w w' ∧ w'.net.command_id = w.net.command_id) ∧
      ∃ es, visible w'.trace = visible w.trace ++ es ∧ List.Forall₂ Alike (.accepted first :: tr) es := by
  unfold ControlLoop.run
  rw [post_bind, post_attempt]
  obtain ⟨ph, hst, hr1⟩ := hr.cons_inv
  cases hst with
  | wait _ _ h1 _ => exact absurd hshow h1
  | firstBroken => exact (broken_stuck hr1 hn).elim
  | first _ _ hlt hh =>
    obtain ⟨ts1, ts2, hts, k1, k2⟩ := supplies_state hsup
    have hrx' : tcpArrived p.motion = [] ∧ TcpSilent p.await ∧ p.l1.tcpIn = m0 ∨ tcpArrived p.motion = m0 ∧ p.await = [] ∧ p.l1.tcpIn = [] := by
      rcases hrx with ⟨h1, h2⟩ | ⟨h1, h2, h3⟩
      · exact .inl ⟨tcpArrived_silent fun x hx => h1 x (by simp [hx]), fun x hx => h1 x (by simp [hx]), h2⟩
      · exact .inr ⟨tcpArrived_once h1, h2, h3⟩
    unfold ControlLoop.do_loop
    rw [post_bind]
    refine (update_none_supplied (ts := ts1) (rest := ts2 ++ (p.closing ++ p.rest)) (by rw [hs, hts, List.append_assoc]) hw hq (fun h => absurd rfl h) k1 hlt).mono ?_
    rintro r w1 ⟨rfl, m1, s1, st1, q1⟩
    rw [after_ok, post_bind]
    refine (st1.motion_ok id hh).mono ?_
    rintro r w1 ⟨rfl, rfl⟩
    rw [after_ok]
    have tail : ∀ (o : Option (ControllerCommand F)) (m : MotionGeneratorCommand F) (w2 : World F), (o.isSome = true ↔ controllerOf call.controller = .ExternalController) →
        Left call c0 L tr ts2 (p.closing ++ p.rest) sF mF tF w1 m (o.getD noTorques) w2 →
        Post (finish_motion id (some m) o) w2 fun r w' => r = .ok () ∧ (Ends L sF (udpArrived p.closing) p.rest w w' ∧ w'.net.command_id = w.net.command_id) ∧
          ∃ es, visible w'.trace = visible w.trace ++ es ∧ List.Forall₂ Alike (.accepted first :: tr) es := by
      rintro o m w2 ho ⟨⟨tr1, tr2, us1, us2, s2, es, rfl, hu, e3, e4, e5, e6, e7, e8, e9⟩, e10⟩
      subst hu
      have hm2 := m1.trans e7
      refine (finish_supplied (m0 := m0) ho hF e5 e10 e9 e3 e4 (fun r hr => hn r (by simp [hr])) e6 (by rw [hm2.eof]; exact heof) (by rw [hm2.pending]; exact hp)
        (by rw [hm2.table]; exact habs) (by rw [hm2.cfg]; exact hnt) hm hf hsil (hm2.edge fun h => absurd hrx0 h) ?_).mono ?_
      · have : w2.ker.tcpRx ++ tcpArrived us2 = tcpArrived p.motion := by
          rw [hm2.tcp, hrx0, hts]
          simp [tcpArrived_append]
        rw [this]
        exact hrx'
      rintro r w3 ⟨rfl, ⟨hE, hid⟩, fs, f1, f2⟩
      obtain ⟨gs, g1, g2⟩ := hm2.trace
      refine ⟨rfl, ⟨⟨hE.last, hE.logger, hE.script, hE.rx, hE.eof, hE.pending, hE.table.trans hm2.table, hE.udp, hE.ready⟩, hid.trans hm2.id⟩, _,
        by rw [f1, g1, visible_append, g2, List.append_assoc], ?_⟩
      exact .cons rfl (List.rel_append e8 f2)
    cases ht : call.torque with
    | none =>
      have ho : controllerOf call.controller ≠ .ExternalController := by
        unfold Fits at hfit
        rw [ht] at hfit
        have : call.controller ≠ .ExternalController := fun e => by simpa using hfit.2 e
        cases hcc : call.controller <;> simp_all [controllerOf]
      have hc : (loopOf call id).control_callback = none := ht
      simp only [hc]
      rw [post_bind]
      refine (motion_loop_supplied (c0 := c0) (L := L) ht ho (id := id) (rest := p.closing ++ p.rest) tr.length tr c0 first (RobotState.ofIntern first).time noMotion ts2 w1
        (Nat.le_refl _) st1 hh q1 s1 k2 hr1 hn).mono ?_
      rintro r w2 ⟨m', rfl, hl⟩
      rw [after_ok]
      refine (tail none m' w2 (by simp [ho]) hl).mono ?_
      rintro r w3 ⟨rfl, hes⟩
      exact ⟨rfl, hes⟩
    | some f =>
      have ho : controllerOf call.controller = .ExternalController := by
        unfold Fits at hfit
        rw [hfit.1 (by rw [ht]; rfl)]; rfl
      have hc : (loopOf call id).control_callback = some f := ht
      simp only [hc]
      rw [post_bind]
      refine (torque_loop_supplied (c0 := c0) (L := L) ht ho (id := id) (rest := p.closing ++ p.rest) tr.length tr c0 first (RobotState.ofIntern first).time noMotion noTorques
        ts2 w1 (Nat.le_refl _) st1 hh q1 s1 k2 hr1 hn).mono ?_
      rintro r w2 ⟨m', t', rfl, hl⟩
      rw [after_ok]
      refine (tail (some t') m' w2 (by simp [ho]) hl).mono ?_
      rintro r w3 ⟨rfl, hes⟩
      exact ⟨rfl, hes⟩

/-- The request is written. -/
theorem request_supplied (b : RobotBody F) {t : Tick} {ts : List Tick} (hs : w.script = t :: ts) (hf : t.fail = false ∧ t.eof = false) (hid : w.net.command_id ≠ 0xffffffff)
    (hrx : w.ker.tcpRx = []) (ht : t.tcpIn = []) (heof : w.ker.tcpEof = false) :
    Post (sendRequest b) w fun r w' => r = .ok w.net.command_id ∧ w'.net.command_id = w.net.command_id + 1 ∧ w'.script = ts ∧ w'.rob = w.rob ∧ w'.cfg = w.cfg ∧ w'.ker.tcpRx = [] ∧ w'.ker.tcpEof = false ∧
      w'.net.pending_response = w.net.pending_response ∧ w'.net.received_responses = w.net.received_responses ∧ w'.ker.udpRx = w.ker.udpRx ++ t.udpIn ∧
      ((w.ker.udpRx ≠ [] → w.ker.udpEdge = true) → w'.ker.udpRx ≠ [] → w'.ker.udpEdge = true) ∧
      ∃ h : RobotCommandHeader, h.command = kind b ∧ w'.trace = w.trace ++ [.robotReq ⟨h, b⟩] := by
  rw [post_of_eq (sendRequest_eq b w t ts hs hf.1 hid)]
  refine ⟨rfl, rfl, rfl, rfl, rfl, ?_, ?_, rfl, rfl, rfl, ?_, _, rfl, rfl⟩
  · simp [Kernel.arrive, hrx, ht]
  · simp [Kernel.arrive, heof, hf.2]
  · intro h1 h2
    simp only [Kernel.arrive] at h2 ⊢
    cases hd : t.udpIn with
    | nil => rw [hd, List.append_nil] at h2; simp [h1 h2]
    | cons d ds => simp

theorem flush_logger_supplied (hw : Steady call L s w) :
    Post (flush_logger : Prog F (List (Record F))) w fun r w' => (∃ x, r = .ok x) ∧ Steady call L s w' ∧ w'.script = w.script ∧ w'.ker = w.ker ∧ w'.net = w.net ∧
      w'.trace = w.trace ∧ w'.cfg = w.cfg := by
  obtain ⟨h1, ⟨q, hq, hk⟩, h2⟩ := hw.logger
  have he := Logger.flush_eq hq hk
  unfold flush_logger
  rw [post_bind, post_gets, after_ok, he]
  simp only [post_bind, post_liftP_ok, after_ok, post_modify, post_pure]
  exact ⟨⟨_, rfl⟩, ⟨⟨hw.last.1, hw.last.2.1, hw.last.2.2⟩, hw.generator, hw.controller, hw.logger.flush he, hw.size⟩, trivial, trivial, trivial, trivial, trivial⟩

/-- The motion is started. -/
theorem start_motion_supplied {p : Plan} {s0 first : RobotStateIntern F} {waiting : List (RobotStateIntern F)} {phE : Phase F σ} {tr tr' : List (Ev F)}
    {r : RobotReq F} (hidle : Resting w) (habs : w.net.received_responses w.net.command_id = none)
    (hnt : w.cfg.network_type = .Robot) (hlast : LastState w s0) (hlog : w.rob.logger.Ok L) (hL : 0 < L)
    (hr : Run call c0 (.before s0) (.robotReq r :: (waiting.map .accepted ++ .accepted first :: tr)) phE)
    (hshow : ∃ s, waiting.getLast? = some s ∧ ShowsModes k call.controller s) (hs : w.script = p.script)
    (hf : Fine p.opening) (hacc : ∃ m, IsMoveAnswer w.net.command_id m ∧ p.a1.tcpIn = m ∧ TcpSilent (p.write :: p.ask ++ [p.a2, p.a3, p.a4]))
    (hst : SuppliesStart (w.ker.udpRx ++ udpArrived p.opening) waiting p.start ∧ TcpSilent p.start)
    (htr : tr' = .robotReq r :: waiting.map .accepted) :
    Post (start_motion call.controller k.get_motion_generator_mode defaultDeviation defaultDeviation) w fun res w' => res = .ok w.net.command_id ∧
      w'.net.command_id = w.net.command_id + 1 ∧
      ∃ s1, Steady call L s1 w' ∧ ShowsModes k call.controller s1 ∧ Run call c0 (.starting s1) (.accepted first :: tr) phE ∧
      w'.script = p.motion ++ (p.closing ++ p.rest) ∧ w'.ker.udpRx = [] ∧ w'.ker.tcpRx = [] ∧ w'.ker.tcpEof = false ∧ w'.net.pending_response = [] ∧
      w'.net.received_responses = w.net.received_responses ∧ w'.cfg = w.cfg ∧
      ∃ es, visible w'.trace = visible w.trace ++ es ∧ List.Forall₂ Alike tr' es := by
  subst htr
  obtain ⟨ph, hst0, hr1⟩ := hr.cons_inv
  cases hst0 with
  | stop _ _ hm _ => exact hm.elim
  | move _ h hnr hc =>
  unfold start_motion
  rw [post_bind, running_iff s0 hlast]
  refine ⟨fun h => absurd h hnr, fun _ => ?_⟩
  simp only [after_ok, Bool.false_eq_true, if_false, post_bind, post_modify]
  obtain ⟨m1, a1, a2, a3⟩ := hacc
  obtain ⟨b1, b2⟩ := hst
  have hfw := hf p.write (by simp [Plan.opening])
  have hexec : ∀ x : MoveRequest F, (execute_move_command x.controller_mode x.motion_generator_mode x.maximum_path_deviation x.maximum_goal_deviation : Prog F UInt32) =
      sendRequest (.Move x) >>= fun id => tcp_blocking_receive_response MoveResponse.codec id >>= fun a => ofExcept (handle_command_response_move a) >>= fun _ => pure id := by
    intro x
    unfold execute_move_command sendRequest
    simp only [Prog.bind_assoc']; rfl
  have hs' : w.script = p.write :: (p.ask ++ p.a1 :: p.a2 :: p.a3 :: p.a4 :: (p.start ++ (p.motion ++ (p.closing ++ p.rest)))) := by
    rw [hs]; simp [Plan.script, Plan.opening]
  rw [hexec ⟨_, _, _, _⟩, post_bind]
  have hst0 : Steady call L s0 { w with rob := { w.rob with
      current_move_motion_generator_mode := k.get_motion_generator_mode.reported
      current_move_controller_mode := some call.controller.reported } } :=
    ⟨⟨hlast.1, hlast.2.1, hlast.2.2⟩, reported_generator k, congrArg some (reported_controller call.controller), hlog, hL⟩
  generalize hw2 : ({ w with rob := { w.rob with
      current_move_motion_generator_mode := k.get_motion_generator_mode.reported
      current_move_controller_mode := some call.controller.reported } } : World F) = w2 at hst0 ⊢
  have e1 : w2.script = w.script := by rw [← hw2]
  have e2 : w2.ker = w.ker := by rw [← hw2]
  have e3 : w2.net = w.net := by rw [← hw2]
  have e4 : w2.cfg = w.cfg := by rw [← hw2]
  have e5 : w2.trace = w.trace := by rw [← hw2]
  refine (request_supplied _ (e1.trans hs') hfw (by rw [e3]; exact hidle.ids) (by rw [e2]; exact hidle.rx) (a3 _ (by simp)) (by rw [e2]; exact hidle.eof)).mono ?_
  rintro r w3 ⟨rfl, g0, g1, g2, g3, g4, g5, g6, g7, g8, g9, hd, hdc, g10⟩
  rw [e3] at g0 g6 g7
  rw [e2] at g8 g9
  rw [after_ok, post_bind, e3]
  refine (answer_supplied a1 g1 (fun x hx => hf x (List.mem_cons_of_mem _ hx)) (fun x hx => a3 x (List.mem_cons_of_mem _ hx)) g5 (by rw [g6]; exact hidle.pending)
    (by rw [g7]; exact habs) (by rw [g3, e4]; exact hnt) (.inl ⟨g4, a2⟩)).mono ?_
  rintro r w4 ⟨a, rfl, j0, jid, j1, j2, j3, j4, j5, j6, j7, j8, j9, j10⟩
  have hh : (handle_command_response_move a : Except (FrankaException F) Unit) = .ok () := by
    have := handle_move (F := F) a
    cases hx : (handle_command_response_move a : Except (FrankaException F) Unit) with
    | error e =>
      rw [hx] at this
      obtain ⟨msg, h1, -⟩ := this
      rw [j0] at h1; cases h1
    | ok _ => rfl
  rw [after_ok, hh]
  simp only [ofExcept, post_bind, post_pure, after_ok]
  obtain ⟨sl, hl1, hl2⟩ := hshow
  have hne : waiting ≠ [] := by rintro rfl; cases hl1
  have hlast' : ShowsModes k call.controller ((s0 :: waiting).getLast (by simp)) := by
    rw [List.getLast_cons hne]
    rw [List.getLast?_eq_getLast_of_ne_nil hne] at hl1
    cases hl1; exact hl2
  have hq : w4.ker.udpRx = w.ker.udpRx ++ udpArrived p.opening := by
    rw [j9, g8, List.append_assoc]
    congr 1
  refine (start_supplied (call := call) (c0 := c0) (L := L) (id := w.net.command_id) waiting s0 _ p.start w4 (hst0.congr (j5.trans g2)) hq
    (fun h => j10 (g9 hidle.ready) (by rw [hq]; exact h)) j1 b1 b2 j2 j8 (by rw [j4, g7]; exact habs) hr1 hlast').mono ?_
  rintro r w5 ⟨s1, rfl, st5, sh5, r5, m5, s5, q5⟩
  rw [after_ok, post_bind]
  refine (flush_logger_supplied st5).mono ?_
  rintro r w6 ⟨⟨x, rfl⟩, st6, l1, l2, l3, l4, l5⟩
  simp only [after_ok, post_pure]
  obtain ⟨es5, t1, t2⟩ := m5.trace
  refine ⟨trivial, by rw [l3, m5.id, jid, g0], s1, st6, sh5, r5, l1.trans s5, by rw [l2]; exact q5 (.inl hne), by rw [l2, m5.tcp, j2, tcpArrived_silent b2]; rfl,
    by rw [l2, m5.eof]; exact j8, by rw [l3, m5.pending]; exact j3, by rw [l3, m5.table, j4, g7], by rw [l5, m5.cfg, j6, g3, e4],
    .robotReq ⟨hd, moveBody k call.controller⟩ :: waiting.map .accepted, ?_, .cons ⟨hd, ?_, ?_⟩ ?_⟩
  · rw [l4, t1, visible_append, t2, j7, g10, e5, visible_append]
    unfold moveBody
    rw [requested_generator k]
    simp [visible, isTcpEv, isUdpEv]
  · rfl
  · exact hdc.trans hc.symm
  · exact List.forall₂_same.2 fun e he => by
      obtain ⟨x, -, rfl⟩ := List.mem_map.1 he
      exact rfl

/-- The whole call. -/
theorem control_supplied (hfit : Fits call) {p : Plan} {s0 sF first : RobotStateIntern F} {waiting : List (RobotStateIntern F)} {mF : MotionGeneratorCommand F}
    {tF : ControllerCommand F} {tr : List (Ev F)} {r : RobotReq F} (hF : ¬ Running sF) (hidle : Resting w) (habs : w.net.received_responses w.net.command_id = none)
    (hnt : w.cfg.network_type = .Robot) (hrt : ¬ RealTimeMissing w) (hlast : LastState w s0) (hlog : w.rob.logger.Ok L) (hL : 0 < L)
    (hr : Run call c0 (.before s0) (.robotReq r :: (waiting.map .accepted ++ .accepted first :: tr)) (.finishing sF mF tF)) (hn : NoRequest tr)
    (hshow : ∃ s, waiting.getLast? = some s ∧ ShowsModes k call.controller s) (hs : w.script = p.script)
    (hco : Cooperates w.net.command_id w.ker.udpRx waiting (.accepted first :: tr) p) :
    Post (controlProgram call c0) w fun res w' => res = .ok () ∧ (Ends L sF (udpArrived p.closing) p.rest w w' ∧ w'.net.command_id = w.net.command_id + 1) ∧ ∃ es, visible w'.trace = visible w.trace ++ es ∧
      List.Forall₂ Alike (.robotReq r :: (waiting.map .accepted ++ .accepted first :: tr)) es := by
  unfold controlProgram
  rw [post_bind]
  refine (new_intern_view call w).mono ?_
  rintro res w1 ⟨rfl, hres⟩
  cases res with
  | err e => exact absurd hres.1 hrt
  | panic m => exact hres.elim
  | blocked => exact hres.elim
  | ok l =>
  obtain ⟨rfl, -⟩ := hres
  rw [after_ok, post_bind]
  obtain ⟨⟨f1, f2⟩, hacc, hst, hmv, ⟨m2, d1, d2, d3⟩⟩ := hco
  refine (start_motion_supplied hidle habs hnt hlast hlog hL hr hshow hs f1 hacc hst rfl).mono ?_
  rintro res w2 ⟨rfl, k0, s1, st, sh, r5, k1, k2, k3, k4, k5, k6, k7, es1, n1, n2⟩
  rw [after_ok]
  refine (run_supplied hfit (id := w1.net.command_id) (p := p) hF st k2 k1 hmv r5 sh hn k4 k5 (by rw [k6]; exact habs) (by rw [k7]; exact hnt) d1 f2 d2 k3 d3).mono ?_
  rintro res w3 ⟨rfl, ⟨hE, hid⟩, es, i1, i2⟩
  refine ⟨rfl, ⟨⟨hE.last, hE.logger, hE.script, hE.rx, hE.eof, hE.pending, hE.table.trans k6, hE.udp, hE.ready⟩, hid.trans k0⟩, es1 ++ es, by rw [i1, n1, List.append_assoc], ?_⟩
  rw [← List.cons_append]
  exact List.rel_append n2 i2

end Verif
