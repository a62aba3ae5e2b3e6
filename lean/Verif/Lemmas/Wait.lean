import Verif.Lemmas.History
/-! Waiting for a response: what is returned, and when it does not return. -/
set_option linter.unusedSectionVars false
namespace Verif
open Prog Spec
variable {F : Type}

/-- `p` never returns an error. -/
def NoErr {α : Type} (p : Prog F α) : Prop := ∀ w, Post p w fun r _ => ∀ e, r ≠ .err e

namespace NoErr
variable {α β γ : Type}
theorem pure (a : α) : NoErr (pure a : Prog F α) := fun _ _ h => by cases h
theorem panic (m) : NoErr (Prog.panic m : Prog F α) := fun _ _ h => by cases h
theorem gets (f : World F → α) : NoErr (gets f) := fun _ _ h => by cases h
theorem modify (f : World F → World F) : NoErr (Prog.modify f) := fun _ _ h => by cases h
theorem emit (e : Ev F) : NoErr (emit e) := fun _ _ h => by cases h
theorem liftP (x : P α) : NoErr (liftP x : Prog F α) := by cases x; exact panic _; exact pure _
theorem sys : NoErr (sys : Prog F Tick) := by
  intro w
  rw [post_sys]
  exact ⟨fun _ _ h => (by cases h), fun _ _ _ _ h => (by cases h)⟩
theorem bind {p : Prog F α} {f : α → Prog F β} (hp : NoErr p) (hf : ∀ a, NoErr (f a)) : NoErr (p >>= f) := by
  intro w
  refine (hp w).bind ?_
  intro r w' h
  cases r with
  | ok a => exact hf a w'
  | err e => exact absurd rfl (h e)
  | panic m => exact fun _ h => by cases h
  | blocked => exact fun _ h => by cases h
theorem attempt (p : Prog F α) : NoErr (attempt p) := by
  intro w
  rw [post_attempt]
  show Tried _ (p w).1 (p w).2
  cases (p w).1 <;> exact fun _ h => by cases h
theorem ite {c : Prop} [Decidable c] {p q : Prog F α} (hp : NoErr p) (hq : NoErr q) : NoErr (if c then p else q) := by
  split <;> assumption
theorem loop {body : β → Prog F (β ⊕ γ)} (hb : ∀ b, NoErr (body b)) (b : β) : NoErr (loop body b) := by
  intro w
  refine loop_post (fun _ _ => True) trivial ?_ ?_
  · intro b w _
    refine (hb b w).mono ?_
    intro r w' h
    cases r with
    | ok x => cases x <;> [trivial; exact fun _ h => by cases h]
    | err e => exact absurd rfl (h e)
    | panic m => exact fun _ h => by cases h
    | blocked => exact fun _ h => by cases h
  · intro b w _ e h; cases h
end NoErr

/-- Decomposes a goal `NoErr p`. -/
syntax "noerr" ("[" term,* "]")? : tactic
macro_rules
  | `(tactic| noerr) => `(tactic| noerr [])
  | `(tactic| noerr [$ts,*]) => `(tactic|
      repeat' (first
        | with_reducible assumption
        $[| with_reducible exact $ts]*
        | with_reducible exact NoErr.pure _ | with_reducible exact NoErr.panic _ | with_reducible exact NoErr.gets _
        | with_reducible exact NoErr.modify _ | with_reducible exact NoErr.emit _ | with_reducible exact NoErr.liftP _
        | with_reducible exact NoErr.sys | with_reducible exact NoErr.attempt _
        | with_reducible refine NoErr.bind ?_ ?_
        | with_reducible refine NoErr.ite ?_ ?_ | with_reducible refine NoErr.loop ?_ _
        | with_reducible intro _ | split
        $[| exact $ts]*))

theorem noErr_deserialize {α : Type} (c : Codec α) (bs : Bytes) : NoErr (deserialize c bs : Prog F α) := by
  unfold deserialize; noerr

theorem noErr_tcp_read_from_buffer : NoErr (tcp_read_from_buffer : Prog F Unit) := by
  unfold tcp_read_from_buffer tcp_poll tcp_peek read_header read_body tcp_read_exact decode_header
  noerr [noErr_deserialize _ _]

theorem noErr_wait_for_response_to_arrive (id : UInt32) : NoErr (wait_for_response_to_arrive id : Prog F Bytes) := by
  unfold wait_for_response_to_arrive remove_response
  noerr [noErr_tcp_read_from_buffer]

/-- Reading from the TCP stream changes the table of responses as the new responses say, and nothing the user sees. -/
structure TcpStep (w w' : World F) : Prop where
  rob : w'.rob = w.rob
  cfg : w'.cfg = w.cfg
  next : w'.net.command_id = w.net.command_id
  addr : w'.net.udp_server_address = w.net.udp_server_address
  file : w'.model_file = w.model_file
  trace : ∃ es, w'.trace = w.trace ++ es ∧ (∀ e ∈ es, isTcpEv e = true) ∧
    ∀ i, w'.net.received_responses i = latestAnswer i (w.net.received_responses i) es

theorem TcpStep.same {w w' : World F} (h1 : w'.rob = w.rob) (h2 : w'.cfg = w.cfg) (h3 : w'.net.command_id = w.net.command_id)
    (h4 : w'.net.udp_server_address = w.net.udp_server_address) (h5 : w'.model_file = w.model_file) (h6 : w'.trace = w.trace)
    (h7 : w'.net.received_responses = w.net.received_responses) : TcpStep w w' :=
  ⟨h1, h2, h3, h4, h5, [], by simp [h6], by simp, by intro i; rw [h7]; rfl⟩

instance : Pre (TcpStep (F := F)) where
  refl _ := TcpStep.same rfl rfl rfl rfl rfl rfl rfl
  trans := by
    rintro a b c ⟨h1, h2, h3, h4, h5, es, h6, h7, h8⟩ ⟨g1, g2, g3, g4, g5, fs, g6, g7, g8⟩
    refine ⟨g1.trans h1, g2.trans h2, g3.trans h3, g4.trans h4, g5.trans h5, es ++ fs, by rw [g6, h6]; simp, ?_, ?_⟩
    · intro e he
      rcases List.mem_append.mp he with he | he
      · exact h7 e he
      · exact g7 e he
    · intro i
      rw [g8 i, h8 i, latestAnswer_append]

instance : TRead (TcpStep (F := F)) where
  tick _ _ _ _ := TcpStep.same rfl rfl rfl rfl rfl rfl rfl
  poll _ := TcpStep.same rfl rfl rfl rfl rfl rfl rfl
  read w n := ⟨rfl, rfl, rfl, rfl, rfl, [.tcpRecv (w.ker.tcpRx.take n)], rfl, by simp [isTcpEv], by intro i; rfl⟩
  pend _ _ _ := TcpStep.same rfl rfl rfl rfl rfl rfl rfl
  head _ _ _ := TcpStep.same rfl rfl rfl rfl rfl rfl rfl
  store w := ⟨rfl, rfl, rfl, rfl, rfl, [.response w.net.pending_command_id w.net.pending_response], rfl, by simp [isTcpEv], by
    intro i
    simp only [latestAnswer, List.foldl]
    by_cases h : i = w.net.pending_command_id
    · simp [h]
    · simp [h, Ne.symm h]⟩

/-- What `wait_for_response_to_arrive` returns and leaves. -/
theorem wait_spec (id : UInt32) (w : World F) :
    Post (wait_for_response_to_arrive id : Prog F Bytes) w fun r w' => match r with
      | .ok bs => ∃ w1, TcpStep w w1 ∧ w1.net.received_responses id = some bs ∧ w' = { w1 with net := { w1.net with
          received_responses := fun i => if i = id then none else w1.net.received_responses i } }
      | .err _ => False
      | _ => TcpStep w w' := by
  unfold wait_for_response_to_arrive
  refine loop_post (fun _ w' => TcpStep w w') (Pre.refl w) ?_ ?_
  · intro _ w1 h1
    refine (((pres_tcp_read_from_buffer (T := TcpStep)).post w1).and (noErr_tcp_read_from_buffer w1)).bind ?_
    rintro r w2 ⟨h2, hne⟩
    have h2 := Pre.trans h1 h2
    cases r with
    | ok a =>
      simp only [after_ok, remove_response, post_bind, post_gets, post_modify, post_pure]
      cases ht : w2.net.received_responses id with
      | some bs => simp only [post_pure, round_inr]; exact ⟨w2, h2, ht, rfl⟩
      | none =>
        simp only [post_pure, round_inl]
        have : (fun i => if i = id then none else w2.net.received_responses i) = w2.net.received_responses := by
          funext i
          by_cases hi : i = id
          · simp [hi, ht]
          · simp [hi]
        rw [this]
        exact h2
    | err e =>
      exact absurd rfl (hne e)
    | panic m => exact h2
    | blocked => exact h2
  · intro _ w1 h1; exact h1

/-! ## Reading in known circumstances -/

/-- One poll of the TCP socket. -/
theorem tcp_poll_eq (w : World F) (t : Tick) (ts : List Tick) (hs : w.script = t :: ts) (hf : t.fail = false) :
    (tcp_poll : Prog F Bool) w = (.ok ((w.ker.arrive t).tcpEdge && (!(w.ker.arrive t).tcpRx.isEmpty || (w.ker.arrive t).tcpEof)),
      { w with script := ts, ker := { w.ker.arrive t with tcpEdge := false } }) := by
  simp only [tcp_poll, bind, Prog.bind, sys, hs, hf, gets, Prog.modify, pure, Prog.pure, Bool.false_eq_true, if_false]

/-- The outcome of a program, from what holds of it. -/
theorem Prog.Post.eq {α : Type} {p : Prog F α} {w : World F} {a : Res F α} {b : World F}
    (h : Post p w fun r w' => r = a ∧ w' = b) : p w = (a, b) := Prod.ext h.1 h.2

theorem Prog.post_of_eq {α : Type} {p : Prog F α} {w : World F} {a : Res F α} {b : World F} (h : p w = (a, b))
    (Q : Res F α → World F → Prop) : Post p w Q ↔ Q a b := by unfold Post; rw [h]

/-- Peeking when something is there. -/
theorem tcp_peek_eq (w : World F) (t : Tick) (ts : List Tick) (hs : w.script = t :: ts) (hf : t.fail = false)
    (hne : (w.ker.arrive t).tcpRx ≠ []) :
    (tcp_peek : Prog F (Option Nat)) w = (.ok (some (min (w.ker.arrive t).tcpRx.length 70000)),
      { w with script := ts, ker := w.ker.arrive t }) := by
  refine Prog.Post.eq ?_
  unfold tcp_peek
  simp only [post_bind, post_sys, hs]
  refine ⟨fun h => (by cases h), fun t' ts' h' => ?_⟩
  cases h'
  have : (w.ker.arrive t).tcpRx.isEmpty = false := by simpa using hne
  simp only [after_ok, post_bind, post_gets, hf, Bool.false_eq_true, if_false, this, Bool.false_and, post_pure, and_self]

theorem tcp_read_exact_zero (w : World F) : (tcp_read_exact 0 : Prog F Bytes) w = (.ok [], w) := by
  have h : (tcp_read_exact 0 : Prog F Bytes) = _ := loop_unfold (consumes_tcp_read_exact 0) []
  rw [h]; rfl

/-- Reading bytes which are there. -/
theorem tcp_read_exact_eq (n : Nat) (w : World F) (t : Tick) (ts : List Tick) (hs : w.script = t :: ts) (hf : t.fail = false)
    (hn : 0 < n) (hl : n ≤ (w.ker.arrive t).tcpRx.length) :
    (tcp_read_exact n : Prog F Bytes) w = (.ok ((w.ker.arrive t).tcpRx.take n), { w with
      script := ts, ker := { w.ker.arrive t with tcpRx := (w.ker.arrive t).tcpRx.drop n }
      trace := w.trace ++ [.tcpRecv ((w.ker.arrive t).tcpRx.take n)] }) := by
  have hne : (w.ker.arrive t).tcpRx.isEmpty = false := by
    cases h : (w.ker.arrive t).tcpRx with
    | nil => rw [h] at hl; simp at hl; omega
    | cons a b => rfl
  refine Prog.Post.eq ?_
  have h : (tcp_read_exact n : Prog F Bytes) = _ := loop_unfold (consumes_tcp_read_exact n) []
  rw [h]
  simp only [List.length_nil, if_pos hn, post_bind, post_sys, hs]
  refine ⟨fun h => (by cases h), fun t' ts' h' => ?_⟩
  cases h'
  simp only [after_ok, post_bind, post_gets, hf, hne, Bool.or_self, Bool.false_eq_true, if_false, post_modify, post_emit,
    post_pure, List.nil_append, Nat.sub_zero]
  rw [loop_unfold (consumes_tcp_read_exact n)]
  have hlen : ¬ ((w.ker.arrive t).tcpRx.take n).length < n := by rw [List.length_take]; omega
  simp only [if_neg hlen, post_bind, post_pure, after_ok]
  exact ⟨trivial, trivial⟩

theorem read_header_none (w : World F) : (read_header 0 : Prog F Unit) w = (.ok (), w) := by
  refine Prog.Post.eq ?_
  unfold read_header
  have : ∀ nt, decide (header_mem_size nt ≤ 0) = false := by intro nt; cases nt <;> rfl
  simp only [post_bind, post_gets, after_ok, this, Bool.and_false, Bool.false_eq_true, if_false, post_pure, and_self]

theorem read_body_none (w : World F) : (read_body 0 : Prog F Unit) w = (.ok (), w) := by
  refine Prog.Post.eq ?_
  unfold read_body
  simp only [post_bind, post_gets, after_ok, Nat.lt_irrefl, decide_false, Bool.and_false, Bool.false_eq_true, if_false,
    post_pure, and_self]

/-- Without a new edge nothing is read, and a caller that waits for a response waits for ever. -/
theorem wait_stuck (id : UInt32) (w : World F) (he : w.ker.tcpEdge = false) (ht : w.net.received_responses id = none)
    (hq : TcpQuiet w.script) : ((wait_for_response_to_arrive id : Prog F Bytes) w).1 = .blocked := by
  have : Post (wait_for_response_to_arrive id : Prog F Bytes) w fun r _ => r = .blocked := by
    unfold wait_for_response_to_arrive
    refine loop_post' (fun _ w => w.ker.tcpEdge = false ∧ w.net.received_responses id = none ∧ TcpQuiet w.script)
      (consumes_wait_for_response_to_arrive id) ⟨he, ht, hq⟩ ?_
    rintro _ w ⟨he, ht, hq⟩
    unfold tcp_read_from_buffer tcp_poll
    simp only [post_bind, post_sys]
    refine ⟨fun _ => rfl, ?_⟩
    intro t ts hs
    obtain ⟨h1, h2, h3⟩ := hq t (by rw [hs]; simp)
    have he' : (w.ker.arrive t).tcpEdge = false := by simp [Kernel.arrive, he, h1, h2]
    simp only [after_ok, h3, Bool.false_eq_true, if_false, post_bind, post_gets, post_modify, post_pure, he', Bool.false_and,
      remove_response, ht, round_inl]
    refine ⟨trivial, by simp, fun t ht => hq t (by rw [hs]; simp [ht])⟩
  exact this

/-- If the server sends nothing more, not even a part of a message, no caller gets an answer or an error. The server may
close the connection. -/
theorem wait_no_bytes (id : UInt32) (w : World F) (hrx : w.ker.tcpRx = []) (hp : w.net.pending_response = [])
    (ht : w.net.received_responses id = none) (hq : tcpArrived w.script = []) :
    Post (wait_for_response_to_arrive id : Prog F Bytes) w fun r _ => match r with
      | .ok _ | .err _ => False
      | .panic _ => ∃ t ∈ w.script, t.fail = true
      | .blocked => True := by
  unfold wait_for_response_to_arrive
  refine loop_post' (fun _ w' => w'.ker.tcpRx = [] ∧ w'.net.pending_response = [] ∧ w'.net.received_responses id = none ∧
    tcpArrived w'.script = [] ∧ ∀ t ∈ w'.script, t ∈ w.script)
      (consumes_wait_for_response_to_arrive id) ⟨hrx, hp, ht, hq, fun _ h => h⟩ ?_
  rintro _ w1 ⟨hrx, hp, ht, hq, hsub⟩
  unfold tcp_read_from_buffer tcp_poll
  simp only [post_bind, post_sys]
  refine ⟨fun _ => trivial, ?_⟩
  intro t ts hs
  have h1 : t.tcpIn = [] ∧ tcpArrived ts = [] := by
    rw [hs, tcpArrived_cons] at hq
    exact List.append_eq_nil_iff.mp hq
  have hrx' : (w1.ker.arrive t).tcpRx = [] := by simp [Kernel.arrive, hrx, h1.1]
  have hsub' : ∀ t ∈ ts, t ∈ w.script := fun t ht => hsub t (by rw [hs]; simp [ht])
  simp only [after_ok, post_ite, post_panic, after_panic, round_panic]
  refine ⟨fun hf => ⟨t, hsub t (by rw [hs]; simp), hf⟩, fun hf => ?_⟩
  simp only [post_bind, post_gets, after_ok, post_modify, post_pure, post_ite]
  refine ⟨fun _ => ?_, fun _ => ?_⟩
  · unfold tcp_peek
    simp only [post_bind, post_sys]
    refine ⟨fun _ => trivial, ?_⟩
    intro t' ts' hs'
    have h1' : t'.tcpIn = [] ∧ tcpArrived ts' = [] := by
      have := h1.2
      rw [hs', tcpArrived_cons] at this
      exact List.append_eq_nil_iff.mp this
    have hsub'' : ∀ t ∈ ts', t ∈ w.script := fun t ht => hsub' t (by rw [hs']; simp [ht])
    have hrx'' : ({ w1.ker.arrive t with tcpEdge := false }.arrive t').tcpRx = [] := by
      simp only [Kernel.arrive, h1'.1, List.append_nil]; exact hrx'
    simp only [after_ok, post_bind, post_gets, post_ite, post_pure, hrx'']
    refine ⟨fun _ => ?_, fun _ => ⟨fun _ => ?_, fun _ => ?_⟩⟩
    · simp only [remove_response, post_bind, post_gets, after_ok, post_modify, post_pure, ht, round_inl]
      exact ⟨hrx'', hp, by simp, h1'.2, hsub''⟩
    · simp only [remove_response, post_bind, post_gets, after_ok, post_modify, post_pure, ht, round_inl]
      exact ⟨hrx'', hp, by simp, h1'.2, hsub''⟩
    · simp only [List.length_nil, Nat.zero_min, post_bind, post_of_eq (read_header_none _), after_ok,
        post_of_eq (read_body_none _)]
      simp only [remove_response, post_bind, post_gets, after_ok, post_modify, post_pure, ht, round_inl]
      exact ⟨hrx'', hp, by simp, h1'.2, hsub''⟩
  · simp only [remove_response, post_bind, post_gets, after_ok, post_modify, post_pure, ht, round_inl]
    exact ⟨hrx', hp, by simp, h1.2, hsub'⟩

/-! ## A whole message in one piece -/

theorem natAt_take (bs : Bytes) (k : Nat) (h : k ≤ bs.length) : natAt bs 0 k = Codec.leVal (bs.take k) := by
  induction k generalizing bs with
  | zero => simp [natAt, Codec.leVal]
  | succ k ih =>
    cases bs with
    | nil => simp at h
    | cons b bs =>
      rw [natAt_cons, ih bs (by simpa using h)]
      simp [Codec.leVal]

theorem u32_dec_of (bs : Bytes) (h : 4 ≤ bs.length) : Codec.u32.dec bs = some (UInt32.ofNat (natAt bs 0 4), bs.drop 4) := by
  simp [Codec.u32, Codec.splitN, h, natAt_take bs 4 h]

theorem u16_dec_of (bs : Bytes) (h : 2 ≤ bs.length) : Codec.u16.dec bs = some (UInt16.ofNat (natAt bs 0 2), bs.drop 2) := by
  simp [Codec.u16, Codec.splitN, h, natAt_take bs 2 h]

theorem robot_tag_known : ∀ n < 14, (RobotCommandEnum.ofTag (UInt32.ofNat n)).isSome = true := by decide
theorem gripper_tag_known : ∀ n < 5, (Gripper.Command.ofTag (UInt16.ofNat n)).isSome = true := by decide

theorem decode_header_known (nt : NetworkType) (bs : Bytes) (w : World F) (hl : headerLength nt ≤ bs.length)
    (hk : KnownCommand nt bs) :
    (decode_header nt bs : Prog F (Nat × UInt32)) w = (.ok (sizeAt nt bs, UInt32.ofNat (idAt nt bs)), w) := by
  have hs := decode_header_spec nt bs w
  have hok : ∃ p, (decode_header nt bs : Prog F (Nat × UInt32)) w = (.ok p, w) := by
    cases nt with
    | Robot =>
      have hl : 12 ≤ bs.length := hl
      obtain ⟨c, hc⟩ := Option.isSome_iff_exists.mp (robot_tag_known _ hk)
      suffices h : Post (decode_header _ bs : Prog F (Nat × UInt32)) w fun r w' => ∃ p, r = .ok p ∧ w' = w by
        obtain ⟨p, h1, h2⟩ := h
        exact ⟨p, Prod.ext h1 h2⟩
      unfold decode_header deserialize
      simp only [RobotCommandHeader.codec, Codec.iso, Codec.seq, RobotCommandEnum.codec, Codec.enum]
      rw [u32_dec_of bs (by omega)]
      simp only [Option.bind_some, hc, Option.map_some]
      rw [u32_dec_of _ (by simp; omega)]
      simp only [Option.bind_some]
      rw [u32_dec_of _ (by simp; omega)]
      simp only [Option.map_some, post_bind, post_pure, after_ok]
      exact ⟨_, rfl, trivial⟩
    | Gripper =>
      have hl : 10 ≤ bs.length := hl
      obtain ⟨c, hc⟩ := Option.isSome_iff_exists.mp (gripper_tag_known _ hk)
      suffices h : Post (decode_header _ bs : Prog F (Nat × UInt32)) w fun r w' => ∃ p, r = .ok p ∧ w' = w by
        obtain ⟨p, h1, h2⟩ := h
        exact ⟨p, Prod.ext h1 h2⟩
      unfold decode_header deserialize
      simp only [Gripper.CommandHeader.codec, Codec.iso, Codec.seq, Gripper.Command.codec, Codec.enum]
      rw [u16_dec_of bs (by omega)]
      simp only [Option.bind_some, hc, Option.map_some]
      rw [u32_dec_of _ (by simp; omega)]
      simp only [Option.bind_some]
      rw [u32_dec_of _ (by simp; omega)]
      simp only [Option.map_some, post_bind, post_pure, after_ok]
      exact ⟨_, rfl, trivial⟩
  obtain ⟨⟨n, i⟩, hp⟩ := hok
  rw [post_of_eq hp] at hs
  obtain ⟨-, -, h1, h2⟩ := hs
  rw [hp, h1, h2, UInt32.ofNat_toNat]

/-- A message that is there when the library looks is read and stored, whatever else is in the buffer. -/
theorem read_whole (w : World F) (t1 t2 t3 t4 : Tick) (ts : List Tick) (id : UInt32) (m r : Bytes)
    (hs : w.script = t1 :: t2 :: t3 :: t4 :: ts) (hf : ∀ t ∈ [t1, t2, t3, t4], t.fail = false)
    (hp : w.net.pending_response = [])
    (hedge : (w.ker.arrive t1).tcpEdge = true) (hne : (w.ker.arrive t1).tcpRx ≠ [])
    (hm : w.ker.tcpRx ++ t1.tcpIn ++ t2.tcpIn = m ++ r) (hfr : IsFrame w.cfg.network_type id m)
    (hlong : headerLength w.cfg.network_type < m.length) (hshort : m.length ≤ 70000)
    (hk : KnownCommand w.cfg.network_type m) :
    Post (tcp_read_from_buffer : Prog F Unit) w fun res w' => res = .ok () ∧ w'.script = ts ∧ w'.cfg = w.cfg ∧
      w'.ker.tcpRx = r ++ t3.tcpIn ++ t4.tcpIn ∧
      w'.ker.tcpEdge = (!t2.tcpIn.isEmpty || t2.eof || !t3.tcpIn.isEmpty || t3.eof || !t4.tcpIn.isEmpty || t4.eof) ∧
      w'.net.pending_response = [] ∧
      w'.net.received_responses = (fun i => if i = id then some m else w.net.received_responses i) ∧
      w'.trace = w.trace ++ [.tcpRecv (m.take (headerLength w.cfg.network_type)),
        .tcpRecv (m.drop (headerLength w.cfg.network_type)), .response id m] := by
  have hnt := header_mem_size_eq w.cfg.network_type
  have hh : 0 < headerLength w.cfg.network_type := by cases w.cfg.network_type <;> decide
  generalize hh' : headerLength w.cfg.network_type = h at *
  have hw2 : ({ w.ker.arrive t1 with tcpEdge := false }.arrive t2).tcpRx = m ++ r := by
    simpa [Kernel.arrive] using hm
  have hw3 : (({ w.ker.arrive t1 with tcpEdge := false }.arrive t2).arrive t3).tcpRx = m ++ (r ++ t3.tcpIn) := by
    simp only [Kernel.arrive] at hw2 ⊢
    rw [hw2]; simp
  have hw4 : ({ (({ w.ker.arrive t1 with tcpEdge := false }.arrive t2).arrive t3) with
      tcpRx := (({ w.ker.arrive t1 with tcpEdge := false }.arrive t2).arrive t3).tcpRx.drop h }.arrive t4).tcpRx =
      m.drop h ++ (r ++ t3.tcpIn ++ t4.tcpIn) := by
    have : ∀ k : Kernel, (k.arrive t4).tcpRx = k.tcpRx ++ t4.tcpIn := fun _ => rfl
    rw [this]
    simp only [hw3]
    rw [List.drop_append_of_le_length (by omega)]
    simp
  have hml : (m ++ r).length = m.length + r.length := by simp
  unfold tcp_read_from_buffer
  rw [post_bind, post_of_eq (tcp_poll_eq w t1 _ hs (hf t1 (by simp)))]
  have hev : ((w.ker.arrive t1).tcpEdge && (!(w.ker.arrive t1).tcpRx.isEmpty || (w.ker.arrive t1).tcpEof)) = true := by
    simp [hedge, hne]
  simp only [after_ok, hev, if_true]
  rw [post_bind, post_of_eq (tcp_peek_eq _ t2 _ rfl (hf t2 (by simp)) (by rw [hw2]; intro h; rw [h] at hml; simp at hml; omega))]
  simp only [after_ok, hw2]
  unfold read_header
  simp only [post_bind, post_gets, after_ok, hp, hnt, hml, List.isEmpty_nil, Bool.true_and]
  have hav : h ≤ min (m.length + r.length) 70000 := by omega
  simp only [hav, decide_true, if_true, post_bind]
  rw [post_of_eq (tcp_read_exact_eq h _ t3 _ rfl (hf t3 (by simp)) hh (by
    simp only [hw3, List.length_append]; omega))]
  have htake : (m ++ (r ++ t3.tcpIn)).take h = m.take h := by rw [List.take_append_of_le_length (by omega)]
  simp only [after_ok, post_bind, post_modify, hw3, htake]
  have hsz : sizeAt w.cfg.network_type (m.take h) = m.length := by
    have := sizeAt_prefix w.cfg.network_type (m.take h) (m.drop h) (by rw [hh']; simp; omega)
    rw [List.take_append_drop, hfr.size] at this
    exact this.symm
  have hid : idAt w.cfg.network_type (m.take h) = id.toNat := by
    have := idAt_prefix w.cfg.network_type (m.take h) (m.drop h) (by rw [hh']; simp; omega)
    rw [List.take_append_drop, hfr.id] at this
    exact this.symm
  have hk' : KnownCommand w.cfg.network_type (m.take h) := by
    revert hk hh'
    cases w.cfg.network_type <;> intro hk hh' <;> simp only [KnownCommand] at hk ⊢
    · have := natAt_prefix (m.take h) (m.drop h) 0 4 (by
        have : h = 12 := hh'.symm
        simp; omega)
      rw [List.take_append_drop] at this
      omega
    · have := natAt_prefix (m.take h) (m.drop h) 0 2 (by
        have : h = 10 := hh'.symm
        simp; omega)
      rw [List.take_append_drop] at this
      omega
  rw [post_of_eq (decode_header_known _ _ _ (by rw [hh']; simp; omega) hk')]
  simp only [after_ok, post_modify, hsz, hid, UInt32.ofNat_toNat, hp, List.nil_append]
  unfold read_body
  have hnb : (m.take h).isEmpty = false := by
    cases hmt : m.take h with
    | nil => have := congrArg List.length hmt; rw [List.length_take, List.length_nil] at this; omega
    | cons a b => rfl
  have hav' : 0 < min (m.length + r.length) 70000 := by omega
  have hmin : min (min (m.length + r.length) 70000) (m.length - h) = m.length - h := by omega
  simp only [post_bind, post_gets, after_ok, hnb, Bool.not_false, hav', decide_true, Bool.and_self, if_true, remaining_bytes,
    if_pos hlong.le, post_liftP_ok, hmin]
  rw [post_of_eq (tcp_read_exact_eq (m.length - h) _ t4 _ rfl (hf t4 (by simp)) (by omega) (by
    simp only [hw3] at hw4
    simp only [hw4, List.length_append, List.length_drop]; omega))]
  simp only [hw3] at hw4
  have htake' : (m.drop h ++ (r ++ t3.tcpIn ++ t4.tcpIn)).take (m.length - h) = m.drop h := by
    rw [List.take_append_of_le_length (by simp), List.take_of_length_le (by simp)]
  have hdrop' : (m.drop h ++ (r ++ t3.tcpIn ++ t4.tcpIn)).drop (m.length - h) = r ++ t3.tcpIn ++ t4.tcpIn := by
    rw [List.drop_append_of_le_length (by simp), List.drop_of_length_le (by simp), List.nil_append]
  have hadd : h + (m.length - h) = m.length := by omega
  simp only [after_ok, post_bind, post_modify, post_gets, hw4, htake', hdrop', hadd, if_true, post_emit,
    List.take_append_drop, true_and]
  refine ⟨?_, ?_⟩
  · simp [Kernel.arrive]
  · simp

/-- Nothing new: nothing is read. -/
theorem read_quiet (w : World F) (t : Tick) (ts : List Tick) (hs : w.script = t :: ts) (he : w.ker.tcpEdge = false)
    (h1 : t.tcpIn = []) (h2 : t.eof = false) (h3 : t.fail = false) :
    (tcp_read_from_buffer : Prog F Unit) w = (.ok (), { w with script := ts, ker := w.ker.arrive t }) := by
  refine Prog.Post.eq ?_
  unfold tcp_read_from_buffer
  have he' : (w.ker.arrive t).tcpEdge = false := by simp [Kernel.arrive, he, h1, h2]
  rw [post_bind, post_of_eq (tcp_poll_eq w t ts hs h3)]
  simp only [after_ok, he', Bool.false_and, Bool.false_eq_true, if_false, post_pure, true_and]
  rw [← he']

/-- What is known about a caller that waits while its answer arrives in one piece. -/
structure Delivery (w : World F) (id : UInt32) (q : List Tick) (t1 t2 t3 t4 : Tick) (ts : List Tick) (m r : Bytes) : Prop where
  script : w.script = q ++ t1 :: t2 :: t3 :: t4 :: ts
  quiet : TcpQuiet q
  fine : ∀ t ∈ [t1, t2, t3, t4], t.fail = false
  rx : w.ker.tcpRx = []
  edge : w.ker.tcpEdge = false
  pending : w.net.pending_response = []
  absent : w.net.received_responses id = none
  start : t1.tcpIn ≠ []
  bytes : t1.tcpIn ++ t2.tcpIn = m ++ r
  frame : IsFrame w.cfg.network_type id m
  long : headerLength w.cfg.network_type < m.length
  short : m.length ≤ 70000
  known : KnownCommand w.cfg.network_type m

theorem wait_delivers (id : UInt32) (q : List Tick) (t1 t2 t3 t4 : Tick) (ts : List Tick) (m r : Bytes) (w : World F)
    (h : Delivery w id q t1 t2 t3 t4 ts m r) :
    Post (wait_for_response_to_arrive id : Prog F Bytes) w fun res w' => res = .ok m ∧ w'.script = ts ∧ w'.cfg = w.cfg ∧
      w'.ker.tcpRx = r ++ t3.tcpIn ++ t4.tcpIn ∧
      w'.ker.tcpEdge = (!t2.tcpIn.isEmpty || t2.eof || !t3.tcpIn.isEmpty || t3.eof || !t4.tcpIn.isEmpty || t4.eof) ∧
      w'.net.pending_response = [] ∧ w'.net.received_responses = w.net.received_responses ∧
      ∃ a b, w'.trace = w.trace ++ [.tcpRecv a, .tcpRecv b, .response id m] := by
  induction q generalizing w with
  | nil =>
    have hu : (wait_for_response_to_arrive id : Prog F Bytes) = _ := loop_unfold (consumes_wait_for_response_to_arrive id) ()
    rw [hu]
    simp only [post_bind]
    refine (read_whole w t1 t2 t3 t4 ts id m r h.script h.fine h.pending ?_ ?_ ?_ h.frame h.long h.short h.known).mono ?_
    · have := h.start
      simp [Kernel.arrive, this]
    · have := h.start
      simp [Kernel.arrive, this]
    · simpa [h.rx] using h.bytes
    · rintro res w' ⟨rfl, h1, h2, h3, h4, h5, h6, h7⟩
      simp only [after_ok, remove_response, post_bind, post_gets, post_modify, post_pure, h6, if_true]
      refine ⟨trivial, h1, h2, h3, h4, h5, ?_, _, _, h7⟩
      funext i
      by_cases hi : i = id
      · simp [hi, h.absent]
      · simp [hi]
  | cons t q ih =>
    obtain ⟨h1, h2, h3⟩ := h.quiet t (by simp)
    have hu : (wait_for_response_to_arrive id : Prog F Bytes) = _ := loop_unfold (consumes_wait_for_response_to_arrive id) ()
    rw [hu]
    simp only [post_bind]
    rw [post_of_eq (read_quiet w t (q ++ t1 :: t2 :: t3 :: t4 :: ts) h.script h.edge h1 h2 h3)]
    simp only [after_ok, remove_response, post_bind, post_gets, post_modify, post_pure, h.absent]
    refine (ih { w with
      script := q ++ t1 :: t2 :: t3 :: t4 :: ts, ker := w.ker.arrive t
      net := { w.net with received_responses := fun i => if i = id then none else w.net.received_responses i } }
      ⟨rfl, fun t ht => h.quiet t (by simp [ht]), h.fine, ?_, ?_, h.pending, ?_, h.start, h.bytes, h.frame, h.long,
      h.short, h.known⟩).mono ?_
    · simp [Kernel.arrive, h.rx, h1]
    · simp [Kernel.arrive, h.edge, h1, h2]
    · simp
    · rintro res w' ⟨h1, h2, h3, h4, h5, h6, h7, h8⟩
      refine ⟨h1, h2, h3, h4, h5, h6, ?_, h8⟩
      rw [h7]
      funext i
      by_cases hi : i = id
      · simp [hi, h.absent]
      · simp [hi]

/-- Reading more bytes than are there ends the program. -/
theorem tcp_read_exact_short (n : Nat) (w : World F) (t t' : Tick) (ts : List Tick) (hs : w.script = t :: t' :: ts)
    (hl : w.ker.tcpRx.length < n) (hq : TcpQuiet [t, t']) : ∃ msg, ((tcp_read_exact n : Prog F Bytes) w).1 = .panic msg := by
  obtain ⟨a1, a2, a3⟩ := hq t (by simp)
  obtain ⟨b1, b2, b3⟩ := hq t' (by simp)
  have : Post (tcp_read_exact n : Prog F Bytes) w fun r _ => ∃ msg, r = .panic msg := by
    have hu : (tcp_read_exact n : Prog F Bytes) = _ := loop_unfold (consumes_tcp_read_exact n) []
    rw [hu]
    simp only [List.length_nil, if_pos (show 0 < n by omega), post_bind, post_sys, hs]
    refine ⟨fun h => (by cases h), fun s ss hss => ?_⟩
    cases hss
    have hrx : (w.ker.arrive t).tcpRx = w.ker.tcpRx := by simp [Kernel.arrive, a1]
    simp only [after_ok, post_bind, post_gets, a3, Bool.false_or, hrx, post_ite, post_panic, after_panic, post_modify, post_emit,
      post_pure, List.nil_append, Nat.sub_zero]
    refine ⟨fun _ => ⟨_, rfl⟩, fun _ => ?_⟩
    rw [loop_unfold (consumes_tcp_read_exact n)]
    have hlen : (w.ker.tcpRx.take n).length < n := by rw [List.length_take]; omega
    have hd : w.ker.tcpRx.drop n = [] := List.drop_of_length_le (by omega)
    simp only [if_pos hlen, post_bind, post_sys]
    refine ⟨fun h => (by cases h), fun s ss hss => ?_⟩
    cases hss
    simp only [after_ok, post_bind, post_gets, Kernel.arrive, hd, b1, List.append_nil, List.isEmpty_nil, Bool.or_true, if_true,
      post_panic, after_panic]
    exact ⟨_, rfl⟩
  exact this

/-- A message of which the header and `k - headerLength` bytes of the body are there, and the rest is not. -/
theorem read_cut (w : World F) (t1 t2 t3 t4 t5 : Tick) (ts : List Tick) (m : Bytes) (k : Nat)
    (hs : w.script = t1 :: t2 :: t3 :: t4 :: t5 :: ts) (hf : t1.fail = false) (hq : TcpQuiet [t2, t3, t4, t5])
    (hp : w.net.pending_response = []) (hrx : w.ker.tcpRx = [])
    (hm : t1.tcpIn = m.take k) (hk1 : headerLength w.cfg.network_type ≤ k) (hk2 : k < m.length)
    (hsz : sizeAt w.cfg.network_type m = m.length) (hshort : m.length ≤ 70000) (hk : KnownCommand w.cfg.network_type m) :
    ∃ msg, ((tcp_read_from_buffer : Prog F Unit) w).1 = .panic msg := by
  suffices h : Post (tcp_read_from_buffer : Prog F Unit) w fun r _ => ∃ msg, r = .panic msg from h
  have hnt := header_mem_size_eq w.cfg.network_type
  have hh : 0 < headerLength w.cfg.network_type := by cases w.cfg.network_type <;> decide
  obtain ⟨a1, a2, a3⟩ := hq t2 (by simp)
  obtain ⟨b1, b2, b3⟩ := hq t3 (by simp)
  generalize hh' : headerLength w.cfg.network_type = h at *
  have hlen : (m.take k).length = k := by rw [List.length_take]; omega
  have hne : m.take k ≠ [] := by intro h0; rw [h0] at hlen; simp at hlen; omega
  have hw2 : ({ w.ker.arrive t1 with tcpEdge := false }.arrive t2).tcpRx = m.take k := by simp [Kernel.arrive, hrx, hm, a1]
  have hw3 : (({ w.ker.arrive t1 with tcpEdge := false }.arrive t2).arrive t3).tcpRx = m.take k := by
    simp [Kernel.arrive, hrx, hm, a1, b1]
  unfold tcp_read_from_buffer
  rw [post_bind, post_of_eq (tcp_poll_eq w t1 _ hs hf)]
  have hev : ((w.ker.arrive t1).tcpEdge && (!(w.ker.arrive t1).tcpRx.isEmpty || (w.ker.arrive t1).tcpEof)) = true := by
    simp only [Kernel.arrive, hm, hrx, List.nil_append]
    cases h0 : m.take k with
    | nil => exact absurd h0 hne
    | cons a b => simp
  simp only [after_ok, hev, if_true]
  rw [post_bind, post_of_eq (tcp_peek_eq _ t2 _ rfl a3 (by rw [hw2]; exact hne))]
  simp only [after_ok, hw2, hlen]
  have hmin : min k 70000 = k := by omega
  unfold read_header
  simp only [post_bind, post_gets, after_ok, hp, hnt, List.isEmpty_nil, Bool.true_and, hmin, hk1, decide_true, if_true]
  rw [post_of_eq (tcp_read_exact_eq h _ t3 _ rfl b3 hh (by simp only [hw3, hlen]; exact hk1))]
  have htake : (m.take k).take h = m.take h := by rw [List.take_take, Nat.min_eq_left hk1]
  simp only [after_ok, post_bind, post_modify, hw3, htake]
  have hsz : sizeAt w.cfg.network_type (m.take h) = m.length := by
    have := sizeAt_prefix w.cfg.network_type (m.take h) (m.drop h) (by rw [hh']; simp; omega)
    rw [List.take_append_drop, hsz] at this
    exact this.symm
  have hk' : KnownCommand w.cfg.network_type (m.take h) := by
    revert hk hh'
    cases w.cfg.network_type <;> intro hk hh' <;> simp only [KnownCommand] at hk ⊢
    · have := natAt_prefix (m.take h) (m.drop h) 0 4 (by
        have : h = 12 := hh'.symm
        simp; omega)
      rw [List.take_append_drop] at this
      omega
    · have := natAt_prefix (m.take h) (m.drop h) 0 2 (by
        have : h = 10 := hh'.symm
        simp; omega)
      rw [List.take_append_drop] at this
      omega
  rw [post_of_eq (decode_header_known _ _ _ (by rw [hh']; simp; omega) hk')]
  simp only [after_ok, post_modify, hsz, hp, List.nil_append]
  unfold read_body
  have hnb : (m.take h).isEmpty = false := by
    cases hmt : m.take h with
    | nil => have := congrArg List.length hmt; rw [List.length_take, List.length_nil] at this; omega
    | cons a b => rfl
  have hav' : 0 < k := by omega
  simp only [post_bind, post_gets, after_ok, hnb, Bool.not_false, hav', decide_true, Bool.and_self, if_true, remaining_bytes,
    if_pos (show h ≤ m.length by omega), post_liftP_ok]
  obtain ⟨msg, hmsg⟩ := tcp_read_exact_short (F := F) (min k (m.length - h)) (t := t4) (t' := t5) (ts := ts) (hs := rfl) (w := { w with
      script := t4 :: t5 :: ts
      ker := { ({ w.ker.arrive t1 with tcpEdge := false }.arrive t2).arrive t3 with tcpRx := (m.take k).drop h }
      net := { w.net with
        pending_response := m.take h, pending_response_offset := h, pending_response_len := m.length
        pending_command_id := UInt32.ofNat (idAt w.cfg.network_type (m.take h)) }
      trace := w.trace ++ [.tcpRecv (m.take h)] })
    (by simp only [List.length_drop, hlen]; omega) (fun t ht => hq t (by simp only [List.mem_cons] at ht ⊢; tauto))
  unfold Post
  rw [hmsg]
  exact ⟨msg, rfl⟩

/-- The caller who waits for a message that is cut inside its body panics. -/
theorem wait_cut (id : UInt32) (q : List Tick) (w : World F) (t1 t2 t3 t4 t5 : Tick) (ts : List Tick) (m : Bytes) (k : Nat)
    (hs : w.script = q ++ t1 :: t2 :: t3 :: t4 :: t5 :: ts) (hqq : TcpQuiet q) (he : w.ker.tcpEdge = false)
    (ha : w.net.received_responses id = none) (hf : t1.fail = false) (hq : TcpQuiet [t2, t3, t4, t5])
    (hp : w.net.pending_response = []) (hrx : w.ker.tcpRx = [])
    (hm : t1.tcpIn = m.take k) (hk1 : headerLength w.cfg.network_type ≤ k) (hk2 : k < m.length)
    (hsz : sizeAt w.cfg.network_type m = m.length) (hshort : m.length ≤ 70000) (hk : KnownCommand w.cfg.network_type m) :
    ∃ msg, ((wait_for_response_to_arrive id : Prog F Bytes) w).1 = .panic msg := by
  suffices h : Post (wait_for_response_to_arrive id : Prog F Bytes) w fun r _ => ∃ msg, r = .panic msg from h
  induction q generalizing w with
  | nil =>
    have hu : (wait_for_response_to_arrive id : Prog F Bytes) = _ := loop_unfold (consumes_wait_for_response_to_arrive id) ()
    rw [hu, post_bind, post_bind]
    obtain ⟨msg, h⟩ := read_cut w t1 t2 t3 t4 t5 ts m k hs hf hq hp hrx hm hk1 hk2 hsz hshort hk
    unfold Post
    rw [h]
    exact ⟨msg, rfl⟩
  | cons t q ih =>
    obtain ⟨h1, h2, h3⟩ := hqq t (by simp)
    have hu : (wait_for_response_to_arrive id : Prog F Bytes) = _ := loop_unfold (consumes_wait_for_response_to_arrive id) ()
    rw [hu]
    simp only [post_bind]
    rw [post_of_eq (read_quiet w t _ hs he h1 h2 h3)]
    simp only [after_ok, remove_response, post_bind, post_gets, post_modify, post_pure, ha]
    exact ih _ rfl (fun x hx => hqq x (by simp [hx])) (by simp [Kernel.arrive, he, h1, h2]) (by simp) hp
      (by simp [Kernel.arrive, hrx, h1]) hk1 hsz hk

end Verif
