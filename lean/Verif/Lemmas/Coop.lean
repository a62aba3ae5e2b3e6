import Verif.Lemmas.Calls
import Verif.Lemmas.Deliver
import Verif.Lemmas.LogSession
import Verif.Spec.Coop
/-!
# The library with a robot that cooperates
-/
set_option linter.unusedSectionVars false
namespace Verif
open Prog Spec
variable {F : Type}

/-- The system calls `ts` were made, and these events were seen. -/
structure Moves (ts : List Tick) (seen : List (Ev F)) (w w' : World F) : Prop where
  script : w.script = ts ++ w'.script
  cfg : w'.cfg = w.cfg
  id : w'.net.command_id = w.net.command_id
  pending : w'.net.pending_response = w.net.pending_response
  table : w'.net.received_responses = w.net.received_responses
  tcp : w'.ker.tcpRx = w.ker.tcpRx ++ tcpArrived ts
  edge : (w.ker.tcpRx ≠ [] → w.ker.tcpEdge = true) → w'.ker.tcpRx ≠ [] → w'.ker.tcpEdge = true
  eof : w'.ker.tcpEof = w.ker.tcpEof
  trace : ∃ es, w'.trace = w.trace ++ es ∧ visible es = seen

theorem Moves.trans {ts ts' : List Tick} {es es' : List (Ev F)} {w w1 w2 : World F} (h : Moves ts es w w1) (h' : Moves ts' es' w1 w2) :
    Moves (ts ++ ts') (es ++ es') w w2 where
  script := by rw [h.script, h'.script, List.append_assoc]
  cfg := by rw [h'.cfg, h.cfg]
  id := by rw [h'.id, h.id]
  pending := by rw [h'.pending, h.pending]
  table := by rw [h'.table, h.table]
  tcp := by rw [h'.tcp, h.tcp, tcpArrived_append, List.append_assoc]
  edge h0 := h'.edge (h.edge h0)
  eof := by rw [h'.eof, h.eof]
  trace := by
    obtain ⟨a, h1, h2⟩ := h.trace
    obtain ⟨b, h3, h4⟩ := h'.trace
    exact ⟨a ++ b, by rw [h3, h1, List.append_assoc], by rw [visible_append, h2, h4]⟩

theorem Moves.nil (w : World F) : Moves [] [] w w :=
  ⟨rfl, rfl, rfl, rfl, rfl, by simp, fun h => h, rfl, [], by simp, rfl⟩

/-- One system call that changes nothing but the queue of datagrams. -/
theorem Moves.one {w w' : World F} {t : Tick} {seen es : List (Ev F)} (hs : w.script = t :: w'.script) (hf : t.eof = false) (hcfg : w'.cfg = w.cfg)
    (hid : w'.net.command_id = w.net.command_id) (hp : w'.net.pending_response = w.net.pending_response)
    (htb : w'.net.received_responses = w.net.received_responses) (hrx : w'.ker.tcpRx = (w.ker.arrive t).tcpRx)
    (he : w'.ker.tcpEdge = (w.ker.arrive t).tcpEdge) (heof : w'.ker.tcpEof = (w.ker.arrive t).tcpEof) (ht : w'.trace = w.trace ++ es) (hv : visible es = seen) :
    Moves [t] seen w w' where
  script := by simpa using hs
  cfg := hcfg
  id := hid
  pending := hp
  table := htb
  tcp := by rw [hrx]; simp [Kernel.arrive]
  edge h0 h1 := by
    rw [he]
    rw [hrx] at h1
    simp only [Kernel.arrive, ne_eq, List.append_eq_nil_iff, not_and_or] at h1 ⊢
    rcases h1 with h1 | h1
    · simp [h0 h1]
    · have : t.tcpIn.isEmpty = false := by simpa using h1
      simp [this]
  eof := by rw [heof]; simp [Kernel.arrive, hf]
  trace := ⟨es, ht, hv⟩

theorem post_sys_cons {w : World F} {t : Tick} {ts : List Tick} (hs : w.script = t :: ts) (Q : Res F Tick → World F → Prop) :
    Post sys w Q ↔ Q (.ok t) { w with script := ts, ker := w.ker.arrive t } := by
  unfold Post sys
  rw [hs]

section udp
variable [Fl F] [Wire F]

theorem recv_empty {b : Bytes} {w : World F} {t : Tick} {ts : List Tick} (hs : w.script = t :: ts) (hf : t.fail = false ∧ t.eof = false)
    (hq : w.ker.udpRx ++ t.udpIn = []) : Post (recv_from b) w fun r w' => r = .ok none ∧ Moves [t] [] w w' ∧ w'.script = ts ∧ w'.rob = w.rob ∧ w'.ker.udpRx = [] := by
  unfold recv_from
  rw [post_bind, post_sys_cons hs]
  simp only [after_ok, hf.1, Bool.false_eq_true, if_false, post_bind, post_gets, Kernel.arrive, hq, post_pure, true_and, and_true]
  exact .one hs hf.2 rfl rfl rfl rfl rfl rfl rfl (List.append_nil _).symm rfl

theorem recv_first {b : Bytes} {w : World F} {t : Tick} {ts : List Tick} {d : Datagram} {ds : List Datagram} (hs : w.script = t :: ts)
    (hf : t.fail = false ∧ t.eof = false) (hq : w.ker.udpRx ++ t.udpIn = d :: ds) (hd : d.data.length = b.length) :
    Post (recv_from b) w fun r w' => r = .ok (some (d.data, b.length, d.src)) ∧ Moves [t] [] w w' ∧ w'.script = ts ∧ w'.rob = w.rob ∧ w'.ker.udpRx = ds := by
  unfold recv_from
  rw [post_bind, post_sys_cons hs]
  simp only [after_ok, hf.1, Bool.false_eq_true, if_false, post_bind, post_gets, Kernel.arrive, hq, post_modify, post_emit, post_pure, hd, Nat.min_self,
    List.drop_length, List.append_nil, and_true]
  refine ⟨by rw [← hd, List.take_length], .one hs hf.2 rfl rfl rfl rfl rfl rfl rfl rfl rfl⟩

theorem drain_all (ds : List Datagram) : ∀ (b : Bytes) (w : World F) (ts rest : List Tick), w.script = ts ++ rest → ts.length = ds.length + 1 → Fine ts →
    NoDatagram ts → w.ker.udpRx = ds → (∀ d ∈ ds, d.data.length = b.length) → Post (udp_drain b) w fun r w' =>
      r = .ok (((ds.getLast?).map (·.data)).getD b) ∧ Moves ts [] w w' ∧ w'.script = rest ∧ w'.rob = w.rob ∧ w'.ker.udpRx = [] := by
  induction ds with
  | nil =>
    intro b w ts rest hs hl hf hn hq hd
    obtain ⟨t, rfl⟩ := List.length_eq_one_iff.1 hl
    have hu : (udp_drain b : Prog F Bytes) = _ := loop_unfold consumes_udp_drain b
    rw [hu]
    simp only [post_bind]
    refine (recv_empty (b := b) hs (hf t (by simp)) (by rw [hq, hn t (by simp)]; rfl)).mono ?_
    rintro r w' ⟨rfl, h1, h2, h3, h4⟩
    exact ⟨rfl, h1, h2, h3, h4⟩
  | cons d ds ih =>
    intro b w ts rest hs hl hf hn hq hd
    cases ts with
    | nil => simp at hl
    | cons t ts =>
    have hu : (udp_drain b : Prog F Bytes) = _ := loop_unfold consumes_udp_drain b
    rw [hu]
    simp only [post_bind]
    refine (recv_first (b := b) (by simpa using hs) (hf t (by simp)) (by rw [hq, hn t (by simp), List.append_nil]) (hd d (by simp))).mono ?_
    rintro r w' ⟨rfl, h1, h2, h3, h4⟩
    simp only [after_ok, post_pure]
    have hd0 : d.data.length = b.length := hd d (by simp)
    refine Post.mono (ih d.data w' ts rest h2 (by simpa using hl) (fun x hx => hf x (by simp [hx])) (fun x hx => hn x (by simp [hx])) h4
      (fun x hx => by rw [hd0]; exact hd x (by simp [hx]))) ?_
    rintro r w'' ⟨rfl, g1, g2, g3, g4⟩
    refine ⟨?_, h1.trans g1, g2, by rw [g3, h3], g4⟩
    cases ds with
    | nil => rfl
    | cons d' ds => simp [List.getLast?_cons]

theorem poll_reports {w : World F} {t : Tick} {ts : List Tick} (hs : w.script = t :: ts) (hf : t.fail = false ∧ t.eof = false)
    (he : w.ker.udpRx ++ t.udpIn ≠ []) (hedge : w.ker.udpRx ≠ [] → w.ker.udpEdge = true) : Post (udp_poll : Prog F Bool) w fun r w' =>
      r = .ok true ∧ Moves [t] [] w w' ∧ w'.script = ts ∧ w'.rob = w.rob ∧ w'.ker.udpRx = w.ker.udpRx ++ t.udpIn := by
  unfold udp_poll
  rw [post_bind, post_sys_cons hs]
  have h1 : (w.ker.arrive t).udpEdge = true := by
    simp only [ne_eq, List.append_eq_nil_iff, not_and_or] at he
    simp only [Kernel.arrive]
    rcases he with he | he
    · simp [hedge he]
    · have : t.udpIn.isEmpty = false := by simpa using he
      simp [this]
  have h2 : (w.ker.arrive t).udpRx.isEmpty = false := by simpa [Kernel.arrive] using he
  simp only [after_ok, hf.1, Bool.false_eq_true, if_false, post_bind, post_gets, h1, h2, post_modify, post_pure, Bool.not_false, Bool.and_self]
  exact ⟨trivial, .one hs hf.2 rfl rfl rfl rfl rfl rfl rfl (List.append_nil _).symm rfl, trivial, trivial, rfl⟩

theorem receive_last {α : Type} (c : Codec α) (n : Nat) {w : World F} {t : Tick} {ts rest : List Tick} {ds : List Datagram} {d : Datagram} {a : α}
    (hs : w.script = t :: ts ++ rest) (hf : Fine (t :: ts)) (hn : NoDatagram ts) (hq : w.ker.udpRx ++ t.udpIn = ds ++ [d])
    (hedge : w.ker.udpRx ≠ [] → w.ker.udpEdge = true) (hl : ts.length = ds.length + 2) (hd : ∀ x ∈ ds ++ [d], x.data.length = n)
    (ha : c.dec d.data = some (a, [])) : Post (udp_blocking_receive c n) w fun r w' =>
      r = .ok a ∧ Moves (t :: ts) [] w w' ∧ w'.script = rest ∧ w'.rob = w.rob ∧ w'.ker.udpRx = [] := by
  unfold udp_blocking_receive
  rw [post_bind]
  refine (poll_reports (by simpa using hs) (hf t (by simp)) (by rw [hq]; simp) hedge).mono ?_
  rintro r w1 ⟨rfl, m1, s1, r1, q1⟩
  rw [hq] at q1
  simp only [after_ok, if_true, post_bind]
  cases ts with
  | nil => simp at hl
  | cons t2 ts =>
  obtain ⟨e, es, hes⟩ : ∃ e es, ds ++ [d] = e :: es := by
    cases ds with
    | nil => exact ⟨d, [], rfl⟩
    | cons x xs => exact ⟨x, xs ++ [d], rfl⟩
  have hlen : es.length = ds.length := by
    have := congrArg List.length hes
    simp at this
    omega
  have he : e.data.length = (List.replicate n (0 : UInt8)).length := by
    rw [List.length_replicate]; exact hd e (by rw [hes]; simp)
  refine (recv_first (b := List.replicate n 0) s1 (hf t2 (by simp)) (by rw [q1, hes, hn t2 (by simp), List.append_nil]) he).mono ?_
  rintro r w2 ⟨rfl, m2, s2, r2, q2⟩
  simp only [after_ok, post_bind]
  refine (drain_all es e.data w2 ts rest s2 (by simp at hl; omega) (fun x hx => hf x (by simp [hx])) (fun x hx => hn x (by simp [hx])) q2
    (fun x hx => ?_)).mono ?_
  · rw [he, List.length_replicate]
    exact hd x (by rw [hes]; simp [hx])
  rintro r w3 ⟨rfl, m3, s3, r3, q3⟩
  have hlast : ((es.getLast?).map (·.data)).getD e.data = d.data := by
    have h1 : (e :: es).getLast? = some d := by rw [← hes]; simp
    rw [List.getLast?_cons] at h1
    cases h : es.getLast? with
    | none => rw [h] at h1; simp at h1; rw [h1]; rfl
    | some x => rw [h] at h1; simp at h1; rw [h1]; rfl
  simp only [after_ok, post_bind, post_modify, List.length_replicate, ne_eq, not_true_eq_false, if_false, hlast, deserialize, ha, post_pure, true_and]
  have := (m1.trans m2).trans m3
  exact ⟨⟨this.script, this.cfg, this.id, this.pending, this.table, this.tcp, this.edge, this.eof, this.trace⟩, s3, by rw [r3, r2, r1], q3⟩

theorem peek_empty (n : Nat) {w : World F} {t : Tick} {ts : List Tick} (hs : w.script = t :: ts) (hf : t.fail = false ∧ t.eof = false)
    (hq : w.ker.udpRx ++ t.udpIn = []) : Post (udp_peek n : Prog F _) w fun r w' => r = .ok none ∧ Moves [t] [] w w' ∧ w'.script = ts ∧ w'.rob = w.rob ∧
      w'.ker.udpRx = [] := by
  unfold udp_peek
  rw [post_bind, post_sys_cons hs]
  simp only [after_ok, hf.1, Bool.false_eq_true, if_false, post_bind, post_gets, Kernel.arrive, hq, post_pure, true_and, and_true]
  exact .one hs hf.2 rfl rfl rfl rfl rfl rfl rfl (List.append_nil _).symm rfl

theorem peek_first (n : Nat) {w : World F} {t : Tick} {ts : List Tick} {d : Datagram} {ds : List Datagram} (hs : w.script = t :: ts)
    (hf : t.fail = false ∧ t.eof = false) (hq : w.ker.udpRx ++ t.udpIn = d :: ds) (hedge : w.ker.udpRx ≠ [] → w.ker.udpEdge = true) :
    Post (udp_peek n : Prog F _) w fun r w' => r = .ok (some (min d.data.length n)) ∧ Moves [t] [] w w' ∧ w'.script = ts ∧ w'.rob = w.rob ∧
      w'.ker.udpRx = d :: ds ∧ w'.ker.udpEdge = true := by
  unfold udp_peek
  rw [post_bind, post_sys_cons hs]
  simp only [after_ok, hf.1, Bool.false_eq_true, if_false, post_bind, post_gets, Kernel.arrive, hq, post_pure, true_and]
  refine ⟨.one hs hf.2 rfl rfl rfl rfl rfl rfl rfl (List.append_nil _).symm rfl, ?_⟩
  by_cases h : w.ker.udpRx = []
  · have : t.udpIn.isEmpty = false := by rw [h] at hq; simp at hq; rw [hq]; rfl
    simp [this]
  · simp [hedge h]

theorem udp_receive_none {α : Type} (c : Codec α) (n : Nat) {w : World F} {t : Tick} {ts : List Tick} (hs : w.script = t :: ts) (hf : t.fail = false ∧ t.eof = false)
    (hq : w.ker.udpRx ++ t.udpIn = []) : Post (udp_receive c n) w fun r w' => r = .ok none ∧ Moves [t] [] w w' ∧ w'.script = ts ∧ w'.rob = w.rob ∧
      w'.ker.udpRx = [] := by
  unfold udp_receive
  rw [post_bind]
  refine (peek_empty n hs hf hq).mono ?_
  rintro r w1 ⟨rfl, h1, h2, h3, h4⟩
  exact ⟨rfl, h1, h2, h3, h4⟩

theorem udp_receive_last {α : Type} (c : Codec α) (n : Nat) {w : World F} {t : Tick} {ts rest : List Tick} {ds : List Datagram} {d : Datagram} {a : α}
    (hs : w.script = t :: ts ++ rest) (hf : Fine (t :: ts)) (hn : NoDatagram ts) (hq : w.ker.udpRx ++ t.udpIn = ds ++ [d])
    (hedge : w.ker.udpRx ≠ [] → w.ker.udpEdge = true) (hl : ts.length = ds.length + 3) (hd : ∀ x ∈ ds ++ [d], x.data.length = n)
    (ha : c.dec d.data = some (a, [])) : Post (udp_receive c n) w fun r w' =>
      r = .ok (some a) ∧ Moves (t :: ts) [] w w' ∧ w'.script = rest ∧ w'.rob = w.rob ∧ w'.ker.udpRx = [] := by
  obtain ⟨e, es, hes⟩ : ∃ e es, ds ++ [d] = e :: es := by
    cases ds with
    | nil => exact ⟨d, [], rfl⟩
    | cons x xs => exact ⟨x, xs ++ [d], rfl⟩
  unfold udp_receive
  rw [post_bind]
  refine (peek_first n (by simpa using hs) (hf t (by simp)) (by rw [hq, hes]) hedge).mono ?_
  rintro r w1 ⟨rfl, m1, s1, r1, q1, e1⟩
  have he : e.data.length = n := hd e (by rw [hes]; simp)
  simp only [after_ok, he, Nat.min_self, le_refl, if_true, post_bind, post_attempt]
  cases ts with
  | nil => simp at hl
  | cons t2 ts =>
  refine (receive_last c n (t := t2) (ts := ts) (ds := ds) (d := d) (by simpa using s1) (fun x hx => hf x (List.mem_cons_of_mem _ hx))
    (fun x hx => hn x (by simp [hx])) (by rw [q1, hn t2 (by simp), hes, List.append_nil]) (fun _ => e1) (by simpa using hl) hd ha).mono ?_
  rintro r w2 ⟨rfl, m2, s2, r2, q2⟩
  simp only [tried_ok, after_ok, post_pure, true_and]
  exact ⟨m1.trans m2, s2, by rw [r2, r1], q2⟩

/-- The state that the robot sends is accepted. -/
theorem receive_supplied {s : RobotStateIntern F} {q : List Datagram} {ts rest : List Tick} (h : StateArrives s q ts) {w : World F} (hs : w.script = ts ++ rest)
    (hq : w.ker.udpRx = q) (hedge : q ≠ [] → w.ker.udpEdge = true) (hnew : w.rob.message_id < s.message_id) :
    Post (receive_robot_state : Prog F (RobotStateIntern F)) w fun r w' => r = .ok s ∧ Moves ts [.accepted s] w w' ∧ w'.script = rest ∧
      w'.rob = withState w.rob s ∧ w'.ker.udpRx = [] := by
  have hend : ∀ w1, Moves ts [] w w1 → w1.script = rest → w1.rob = w.rob → w1.ker.udpRx = [] →
      Post (receive_newer (some s) : Prog F _) w1 (After (fun state => update_state_with state >>= fun _ => pure state) fun r w' => r = .ok s ∧
        Moves ts [.accepted s] w w' ∧ w'.script = rest ∧ w'.rob = withState w.rob s ∧ w'.ker.udpRx = []) := by
    intro w1 m1 s1 r1 q1
    have hu : (receive_newer (some s) : Prog F _) = _ := loop_unfold consumes_receive_newer (some s)
    rw [hu]
    simp only [post_bind, post_pure, after_ok, update_state_with, post_modify, post_emit, true_and]
    refine ⟨?_, s1, by rw [r1]; rfl, q1⟩
    obtain ⟨es, h1, h2⟩ := m1.trace
    exact ⟨m1.script, m1.cfg, m1.id, m1.pending, m1.table, m1.tcp, m1.edge, m1.eof, es ++ [.accepted s], by rw [h1, List.append_assoc],
      by rw [visible_append, h2]; rfl⟩
  have hlen : ∀ (ds : List Datagram) (src : Addr) (data : Bytes), HoldsState s data → StateSized ds → ∀ x ∈ ds ++ [⟨src, data⟩], x.data.length = size_of_RobotStateIntern := by
    intro ds src data hda hds x hx
    rcases List.mem_append.1 hx with hx | hx
    · exact hds x hx
    · rw [List.mem_singleton] at hx
      rw [hx]; exact hda.size
  unfold receive_robot_state
  rw [post_bind]
  cases h with
  | there _ ds src data t ts hda h1 h2 h3 h4 h5 =>
    have hu : (receive_available : Prog F _) = _ := loop_unfold consumes_receive_available none
    rw [hu]
    simp only [post_bind]
    obtain ⟨ts, tl, rfl⟩ : ∃ ts0 tl, ts = ts0 ++ [tl] := by
      rcases List.eq_nil_or_concat ts with rfl | ⟨a, b, rfl⟩
      · simp at h5
      · exact ⟨a, b, by simp⟩
    refine (udp_receive_last (RobotStateIntern.codec F) size_of_RobotStateIntern (t := t) (ts := ts) (rest := tl :: rest) (ds := ds) (by simpa using hs)
      (fun x hx => h3 x (by rcases List.mem_cons.1 hx with hx | hx <;> simp [hx])) (fun x hx => h4 x (by simp [hx])) (by rw [hq]; exact h1)
      (by rw [hq]; exact hedge) (by simpa using h5) (hlen ds src data hda h2) hda.contents).mono ?_
    rintro r w1 ⟨rfl, m1, s1, r1, q1⟩
    have hlt : w1.rob.message_id < s.message_id := by rw [r1]; exact hnew
    simp only [after_ok, post_bind, post_gets, hlt, if_true, post_pure]
    have hu2 := loop_unfold consumes_receive_available (F := F) (some s)
    rw [hu2]
    simp only [post_bind]
    refine (udp_receive_none (RobotStateIntern.codec F) size_of_RobotStateIntern s1 (h3 tl (by simp)) (by rw [q1, h4 tl (by simp)]; rfl)).mono ?_
    rintro r w2 ⟨rfl, m2, s2, r2, q2⟩
    simp only [after_ok, post_pure]
    rw [post_bind]
    exact hend w2 (m1.trans m2) s2 (by rw [r2, r1]) q2
  | later ds src data t0 t ts hda h0 h1 h2 h3 h4 h5 =>
    have hu : (receive_available : Prog F _) = _ := loop_unfold consumes_receive_available none
    rw [hu]
    simp only [post_bind]
    refine (udp_receive_none (RobotStateIntern.codec F) size_of_RobotStateIntern (by simpa using hs) (h3 t0 (by simp)) (by rw [hq, h0]; rfl)).mono ?_
    rintro r w1 ⟨rfl, m1, s1, r1, q1⟩
    simp only [after_ok, post_pure]
    have hu2 : (receive_newer none : Prog F _) = _ := loop_unfold consumes_receive_newer none
    rw [post_bind, hu2]
    simp only [post_bind]
    refine (receive_last (RobotStateIntern.codec F) size_of_RobotStateIntern (t := t) (ts := ts) (rest := rest) (ds := ds) (by simpa using s1)
      (fun x hx => h3 x (List.mem_cons_of_mem _ hx)) h4 (by rw [q1]; exact h1) (fun h => absurd q1 h) h5 (hlen ds src data hda h2) hda.contents).mono ?_
    rintro r w2 ⟨rfl, m2, s2, r2, q2⟩
    have hlt : w2.rob.message_id < s.message_id := by rw [r2, r1]; exact hnew
    simp only [after_ok, post_bind, post_gets, hlt, if_true, post_pure]
    exact hend w2 (m1.trans m2) s2 (by rw [r2, r1]) q2

end udp

/-! ## Answers -/

/-- What reading from the TCP stream does to the rest of the world. -/
structure Passive (w w' : World F) : Prop where
  rob : w'.rob = w.rob
  cfg : w'.cfg = w.cfg
  id : w'.net.command_id = w.net.command_id
  trace : ∃ es, w'.trace = w.trace ++ es ∧ visible es = []
  ticks : ∃ ts, w.script = ts ++ w'.script ∧ w'.ker.udpRx = w.ker.udpRx ++ udpArrived ts ∧
    ((w.ker.udpRx ≠ [] → w.ker.udpEdge = true) → w'.ker.udpRx ≠ [] → w'.ker.udpEdge = true) ∧ (Fine ts → w'.ker.tcpEof = w.ker.tcpEof)

theorem Passive.none {w w' : World F} {es : List (Ev F)} (h1 : w'.rob = w.rob) (h2 : w'.cfg = w.cfg) (h3 : w'.net.command_id = w.net.command_id)
    (h4 : w'.trace = w.trace ++ es) (h5 : visible es = []) (h6 : w'.script = w.script) (h7 : w'.ker.udpRx = w.ker.udpRx)
    (h8 : w'.ker.udpEdge = w.ker.udpEdge) (h9 : w'.ker.tcpEof = w.ker.tcpEof) : Passive w w' :=
  ⟨h1, h2, h3, ⟨es, h4, h5⟩, [], by simp [h6], by simp [h7], by rw [h7, h8]; exact fun h => h, fun _ => h9⟩

instance : Pre (Passive (F := F)) where
  refl w := .none (es := []) rfl rfl rfl (by simp) rfl rfl rfl rfl rfl
  trans := by
    rintro a b c ⟨h1, h2, h3, ⟨es, h4, h5⟩, ts, h6, h7, h8, h9⟩ ⟨g1, g2, g3, ⟨fs, g4, g5⟩, us, g6, g7, g8, g9⟩
    refine ⟨g1.trans h1, g2.trans h2, g3.trans h3, ⟨es ++ fs, by rw [g4, h4, List.append_assoc], by rw [visible_append, h5, g5]; rfl⟩, ts ++ us,
      by rw [h6, g6, List.append_assoc], by rw [g7, h7, udpArrived_append, List.append_assoc], fun h => g8 (h8 h), fun h => ?_⟩
    rw [g9 fun t ht => h t (List.mem_append_right _ ht), h9 fun t ht => h t (List.mem_append_left _ ht)]

instance : TTcp (Passive (F := F)) where
  tick w t ts hs := by
    refine ⟨rfl, rfl, rfl, ⟨[], by simp, rfl⟩, [t], by simpa using hs, by simp [Kernel.arrive], ?_, ?_⟩
    · intro h h'
      simp only [Kernel.arrive, ne_eq, List.append_eq_nil_iff, not_and_or] at h' ⊢
      rcases h' with h' | h'
      · simp [h h']
      · have : t.udpIn.isEmpty = false := by simpa using h'
        simp [this]
    · intro h
      simp [Kernel.arrive, (h t (by simp)).2]
  poll w := .none (es := []) rfl rfl rfl (by simp) rfl rfl rfl rfl rfl
  read w n := .none (es := [.tcpRecv (w.ker.tcpRx.take n)]) rfl rfl rfl rfl rfl rfl rfl rfl rfl
  pend w _ _ := .none (es := []) rfl rfl rfl (by simp) rfl rfl rfl rfl rfl
  head w _ _ := .none (es := []) rfl rfl rfl (by simp) rfl rfl rfl rfl rfl
  store w := .none (es := [.response w.net.pending_command_id w.net.pending_response]) rfl rfl rfl rfl rfl rfl rfl rfl rfl
  remove w _ := .none (es := []) rfl rfl rfl (by simp) rfl rfl rfl rfl rfl

section tcp
variable [Fl F] [Wire F]

/-- Nothing has arrived: nothing is read. -/
theorem read_nothing {w : World F} {t : Tick} {ts : List Tick} (hs : w.script = t :: ts) (hrx : w.ker.tcpRx = []) (heof : w.ker.tcpEof = false)
    (h1 : t.tcpIn = []) (h2 : t.eof = false) (h3 : t.fail = false) : Post (tcp_read_from_buffer : Prog F Unit) w fun r w' => r = .ok () ∧
      w' = { w with script := ts, ker := { w.ker.arrive t with tcpEdge := false } } := by
  unfold tcp_read_from_buffer
  have hrx' : (w.ker.arrive t).tcpRx = [] := by simp [Kernel.arrive, hrx, h1]
  have heof' : (w.ker.arrive t).tcpEof = false := by simp [Kernel.arrive, heof, h2]
  rw [post_bind, post_of_eq (tcp_poll_eq w t ts hs h3)]
  simp [after_ok, hrx', heof']

/-- An answer that arrives in one piece ends the wait for it. -/
theorem wait_reply {nt : NetworkType} {id : UInt32} {m : Bytes} (hm : IsFrame nt id m) (hl : headerLength nt < m.length ∧ m.length ≤ 70000) (hk : KnownCommand nt m) (l1 l2 l3 l4 : Tick) (rest : List Tick) :
    ∀ (q : List Tick) (w : World F), w.script = q ++ l1 :: l2 :: l3 :: l4 :: rest → Fine (q ++ [l1, l2, l3, l4]) → TcpSilent (q ++ [l2, l3, l4]) →
    w.ker.tcpEof = false → w.net.pending_response = [] → w.net.received_responses id = none → w.cfg.network_type = nt →
    (w.ker.tcpRx = [] ∧ l1.tcpIn = m ∨ q = [] ∧ w.ker.tcpRx = m ∧ l1.tcpIn = [] ∧ w.ker.tcpEdge = true) →
    Post (wait_for_response_to_arrive id : Prog F Bytes) w fun r w' => r = .ok m ∧ w'.script = rest ∧ w'.ker.tcpRx = [] ∧ w'.net.pending_response = [] ∧
      w'.net.received_responses = w.net.received_responses := by
  intro q
  have hm0 : m ≠ [] := by rintro rfl; simp at hl
  induction q with
  | nil =>
    intro w hs hf ht heof hp habs hnt hrx
    have hu : (wait_for_response_to_arrive id : Prog F Bytes) = _ := loop_unfold (consumes_wait_for_response_to_arrive id) ()
    rw [hu]
    simp only [post_bind]
    have h2 : l2.tcpIn = [] := ht l2 (by simp)
    have h3 : l3.tcpIn = [] := ht l3 (by simp)
    have h4 : l4.tcpIn = [] := ht l4 (by simp)
    refine (read_whole w l1 l2 l3 l4 rest id m [] (by simpa using hs) (fun t ht => (hf t (by simpa using ht)).1) hp ?_ ?_ ?_ (by rw [hnt]; exact hm)
      (by rw [hnt]; exact hl.1) hl.2 (by rw [hnt]; exact hk)).mono ?_
    · rcases hrx with ⟨-, h⟩ | ⟨-, -, -, h⟩
      · simp [Kernel.arrive, h, hm0]
      · simp [Kernel.arrive, h]
    · rcases hrx with ⟨-, h⟩ | ⟨-, h, -, -⟩
      · simp [Kernel.arrive, h, hm0]
      · simp [Kernel.arrive, h, hm0]
    · rcases hrx with ⟨h, h'⟩ | ⟨-, h, h', -⟩
      · simp [h, h', h2]
      · simp [h, h', h2]
    rintro r w' ⟨rfl, g1, g2, g3, g4, g5, g6, g7⟩
    simp only [after_ok, remove_response, post_bind, post_gets, post_modify, post_pure, g6, if_true, true_and]
    refine ⟨g1, by rw [g3, h3, h4]; rfl, g5, ?_⟩
    funext i
    by_cases hi : i = id
    · simp [hi, habs]
    · simp [hi]
  | cons t q ih =>
    intro w hs hf ht heof hp habs hnt hrx
    have hrx : w.ker.tcpRx = [] ∧ l1.tcpIn = m := hrx.resolve_right fun h => by simp at h
    have hu : (wait_for_response_to_arrive id : Prog F Bytes) = _ := loop_unfold (consumes_wait_for_response_to_arrive id) ()
    rw [hu]
    simp only [post_bind]
    refine (read_nothing (by simpa using hs) hrx.1 heof (ht t (by simp)) (hf t (by simp)).2 (hf t (by simp)).1).mono ?_
    rintro r w' ⟨rfl, rfl⟩
    simp only [after_ok, remove_response, post_bind, post_gets, post_modify, post_pure, habs]
    have htab : (fun i => if i = id then none else w.net.received_responses i) = w.net.received_responses := by
      funext i
      by_cases hi : i = id
      · simp [hi, habs]
      · simp [hi]
    rw [htab]
    refine ih _ rfl (fun x hx => hf x (by simp only [List.cons_append]; exact List.mem_cons_of_mem _ hx))
      (fun x hx => ht x (by simp only [List.cons_append]; exact List.mem_cons_of_mem _ hx)) ?_ hp habs hnt (.inl ⟨?_, hrx.2⟩)
    · simp [Kernel.arrive, heof, (hf t (by simp)).2]
    · simp [Kernel.arrive, hrx.1, ht t (by simp)]

theorem move_answer_frame {id : UInt32} {m : Bytes} (h : IsMoveAnswer id m) : IsFrame .Robot id m ∧ m.length = 13 ∧ KnownCommand .Robot m ∧
    ∃ a : MoveResponse, MoveResponse.codec.dec m = some (a, []) ∧ abortMessage a.status = none := by
  obtain ⟨a, rfl, h1, h2, h3⟩ := h
  have hl : (MoveResponse.codec.enc a).length = 13 := MoveResponse.codec_lawful.len a
  have ha : At (MoveResponse.codec.enc a) 0 (MoveResponse.codec.enc a) := ⟨[], [], by simp, rfl⟩
  obtain ⟨hh, -⟩ := At.seq ha (m := 12) (RobotCommandHeader.codec_lawful.len _)
  obtain ⟨hc, hh⟩ := At.seq hh (m := 4) (RobotCommandEnum.codec_lawful.len _)
  obtain ⟨hi, hz⟩ := At.seq hh (m := 4) (Codec.u32_lawful.len _)
  refine ⟨⟨by rw [hl]; decide, ?_, ?_⟩, hl, ?_, a, by simpa using MoveResponse.codec_lawful.rt a [], h3⟩
  · have := At.nat4 hz
    unfold sizeAt
    rw [hl]
    simpa [h2] using this
  · have := At.nat4 hi
    unfold idAt
    simpa [h1] using this
  · have := At.nat4 hc
    unfold KnownCommand
    show natAt _ 0 4 < 14
    rw [this]
    exact (by intro c; cases c <;> decide : ∀ c : RobotCommandEnum, c.toTag.toNat < 14) _

end tcp
end Verif
