import Verif.Lemmas.Requests
import Verif.Lemmas.Udp
import Verif.Spec.Panic
/-!
# When nothing panics

`Calm I C p`: if `I` holds before `p` then it holds afterwards when `p` returns, and `C` holds when `p` panics.
`Sane nt`: the connection is orderly, now and in the future. Reading from sane connections does not panic.
-/
set_option linter.unusedSectionVars false
namespace Verif
namespace Prog
variable {F : Type} {α β γ : Type}

/-- See the head of this file. -/
def Calm (I C : World F → Prop) (p : Prog F α) : Prop := ∀ w, I w → Post p w fun r w' =>
  match r with
  | .ok _ | .err _ => I w'
  | .panic _ => C w'
  | .blocked => True

variable {I C : World F → Prop}

theorem Calm.of_pres {p : Prog F α} (h : Pres (fun w w' => I w → I w') p) (hp : ∀ w, I w → Post p w fun r w' => ∀ m, r = .panic m → C w') :
    Calm I C p := by
  intro w hw
  refine ((h.post w).and (hp w hw)).mono ?_
  rintro r w' ⟨h1, h2⟩
  cases r with
  | ok _ => exact h1 hw
  | err _ => exact h1 hw
  | panic m => exact h2 m rfl
  | blocked => trivial

theorem Calm.pure (a : α) : Calm I C (pure a : Prog F α) := fun _ h => h
theorem Calm.err (e) : Calm I C (err e : Prog F α) := fun _ h => h
theorem Calm.gets (f : World F → α) : Calm I C (gets f) := fun _ h => h
theorem Calm.panic (m) (h : ∀ w, I w → C w) : Calm I C (Prog.panic m : Prog F α) := fun w hw => h w hw
theorem Calm.bind {p : Prog F α} {f : α → Prog F β} (hp : Calm I C p) (hf : ∀ a, Calm I C (f a)) : Calm I C (p >>= f) := by
  intro w hw
  refine (hp w hw).bind ?_
  intro r w' h
  cases r with
  | ok a => exact hf a w' h
  | err e => exact h
  | panic m => exact h
  | blocked => exact h
theorem Calm.attempt {p : Prog F α} (hp : Calm I C p) : Calm I C (attempt p) := by
  intro w hw
  refine (post_attempt _ _ _).2 ((hp w hw).mono ?_)
  intro r w' h
  cases r <;> exact h
theorem Calm.ite {c : Prop} [Decidable c] {p q : Prog F α} (hp : Calm I C p) (hq : Calm I C q) : Calm I C (if c then p else q) := by
  split <;> assumption
theorem Calm.loop {body : β → Prog F (β ⊕ γ)} (hb : ∀ b, Calm I C (body b)) (b : β) : Calm I C (loop body b) := by
  intro w hw
  refine loop_post (fun _ w => I w) hw ?_ ?_
  · intro b w h
    refine (hb b w h).mono ?_
    intro r w' h'
    cases r with
    | ok x => cases x <;> exact h'
    | err e => exact h'
    | panic m => exact h'
    | blocked => exact h'
  · intro b w h; trivial
theorem Calm.mono {C' : World F → Prop} {p : Prog F α} (h : Calm I C p) (hC : ∀ w, C w → C' w) : Calm I C' p := by
  intro w hw
  refine (h w hw).mono ?_
  intro r w' h'
  cases r with
  | panic m => exact hC _ h'
  | ok _ => exact h'
  | err _ => exact h'
  | blocked => trivial

/-- Decomposes a goal `Calm I C p` along the structure of `p`. -/
syntax "calm" ("[" term,* "]")? : tactic
macro_rules
  | `(tactic| calm) => `(tactic| calm [])
  | `(tactic| calm [$ts,*]) => `(tactic|
      repeat' (first
        | with_reducible assumption
        $[| with_reducible exact $ts]*
        | with_reducible exact Calm.pure _ | with_reducible exact Calm.err _ | with_reducible exact Calm.gets _
        | with_reducible refine Calm.bind ?_ ?_ | with_reducible refine Calm.attempt ?_
        | with_reducible refine Calm.ite ?_ ?_ | with_reducible refine Calm.loop ?_ _
        | with_reducible intro _ | split
        $[| exact $ts]*))

end Prog

open Prog Spec
variable {F : Type}

/-! ## Sane connections -/

theorem Spec.Messages.append {nt : NetworkType} {a b : Bytes} (ha : Messages nt a) (hb : Messages nt b) : Messages nt (a ++ b) := by
  induction ha with
  | nil => exact hb
  | cons h _ ih => rw [List.append_assoc]; exact .cons h ih

/-- What is still to be read: the rest of a message, whole messages, states. -/
structure Line [Wire F] (nt : NetworkType) (w : World F) : Prop where
  orderly : ∀ t ∈ w.script, Orderly F nt t
  stream : ∃ b rest, w.ker.tcpRx = b ++ rest ∧ Messages nt rest ∧
    (w.net.pending_response = [] ∧ b = [] ∨ w.net.pending_response ≠ [] ∧ IsMessage nt (w.net.pending_response ++ b))
  states : ∀ d ∈ w.ker.udpRx, IsState F nt d

/-- See the head of this file. -/
structure Sane [Wire F] (nt : NetworkType) (w : World F) : Prop where
  tcp : TcpOk nt w
  line : Line nt w

/-- A step after which a sane connection is sane. -/
structure SaneStep [Wire F] (nt : NetworkType) (w w' : World F) : Prop extends TcpSame w w' where
  line : Line nt w → Line nt w'

section
variable [Wire F] {nt : NetworkType}

theorem SaneStep.keep (w w' : World F) (h : SaneStep nt w w') (hw : Sane nt w) : Sane nt w' :=
  ⟨TcpSame.keep _ _ h.toTcpSame hw.tcp, h.line hw.line⟩

theorem Line.congr {w w' : World F} (h : Line nt w) (h1 : w'.script = w.script) (h2 : w'.ker.tcpRx = w.ker.tcpRx)
    (h3 : w'.net.pending_response = w.net.pending_response) (h4 : w'.ker.udpRx = w.ker.udpRx) : Line nt w' := by
  refine ⟨?_, ?_, ?_⟩
  · rw [h1]; exact h.orderly
  · rw [h2, h3]; exact h.stream
  · rw [h4]; exact h.states

theorem Line.tick {w : World F} {t : Tick} {ts : List Tick} (h : Line nt w) (hs : w.script = t :: ts) :
    Line nt { w with script := ts, ker := w.ker.arrive t } := by
  have ht := h.orderly t (by rw [hs]; simp)
  obtain ⟨b, rest, h1, h2, h3⟩ := h.stream
  refine ⟨fun x hx => h.orderly x (by rw [hs]; simp [hx]), ⟨b, rest ++ t.tcpIn, ?_, h2.append ht.stream, h3⟩, ?_⟩
  · simp [Kernel.arrive, h1]
  · intro d hd
    rcases List.mem_append.1 hd with hd | hd
    · exact h.states d hd
    · exact ht.states d hd

instance : Pre (SaneStep (F := F) nt) where
  refl w := ⟨Pre.refl w, id⟩
  trans h h' := ⟨Pre.trans h.1 h'.1, fun x => h'.line (h.line x)⟩

instance : TSys (SaneStep (F := F) nt) where
  tick w t ts hs := ⟨TSys.tick w t ts hs, fun h => h.tick hs⟩
instance : TAcc (SaneStep (F := F) nt) where
  upoll w := ⟨TUdp.upoll w, fun h => h.congr rfl rfl rfl rfl⟩
  recv w d ds hd := ⟨TUdp.recv w d ds hd, fun h => ⟨h.orderly, h.stream, fun x hx => h.states x (by rw [hd]; exact List.mem_cons_of_mem _ hx)⟩⟩
  addr w a := ⟨TUdp.addr w a, fun h => h.congr rfl rfl rfl rfl⟩
  acc w s := ⟨TAcc.acc w s, fun h => h.congr rfl rfl rfl rfl⟩
instance : TRob (SaneStep (F := F) nt) where
  rob w l v m c := ⟨TRob.rob w l v m c, fun h => h.congr rfl rfl rfl rfl⟩
instance : TCmd (SaneStep (F := F) nt) where
  send w c := ⟨TCmd.send w c, fun h => h.congr rfl rfl rfl rfl⟩
instance : TCb (SaneStep (F := F) nt) where
  motion w k s dt m := ⟨TCb.motion w k s dt m, fun h => h.congr rfl rfl rfl rfl⟩
  control w s dt t := ⟨TCb.control w s dt t, fun h => h.congr rfl rfl rfl rfl⟩
instance : TReq (SaneStep (F := F) nt) (fun _ => True) where
  next w := ⟨TReq.next w, fun h => h.congr rfl rfl rfl rfl⟩
  req w r h := ⟨TReq.req w r h, fun h => h.congr rfl rfl rfl rfl⟩
instance : TGReq (SaneStep (F := F) nt) where
  gnext w := ⟨TGReq.gnext w, fun h => h.congr rfl rfl rfl rfl⟩
  greq w r := ⟨TGReq.greq w r, fun h => h.congr rfl rfl rfl rfl⟩

/-! ## Reading -/

theorem Spec.IsMessage.header {m : Bytes} (h : IsMessage nt m) : headerLength nt ≤ m.length := by
  obtain ⟨-, id, h⟩ := h; exact h.long

theorem knownCommand_prefix (a b : Bytes) (h : headerLength nt ≤ a.length) : KnownCommand nt (a ++ b) ↔ KnownCommand nt a := by
  cases nt with
  | Robot => simp only [KnownCommand]; rw [natAt_prefix _ _ _ _ (by simp [headerLength] at h; omega)]
  | Gripper => simp only [KnownCommand]; rw [natAt_prefix _ _ _ _ (by simp [headerLength] at h; omega)]

/-- Reading a number of bytes that are there. -/
theorem tcp_read_exact_calm (n : Nat) (w : World F) (hw : ∀ t ∈ w.script, t.fail = false) (hn : n ≤ w.ker.tcpRx.length) :
    Post (tcp_read_exact n : Prog F Bytes) w fun r w' => match r with
      | .ok bs => bs = w.ker.tcpRx.take n ∧ (n = 0 ∧ w' = w ∨ ∃ t ts, w.script = t :: ts ∧ w' = { w with
          script := ts, ker := { w.ker.arrive t with tcpRx := w.ker.tcpRx.drop n ++ t.tcpIn }
          trace := w.trace ++ [.tcpRecv bs] })
      | .blocked => True
      | _ => False := by
  unfold Post
  rcases Nat.eq_zero_or_pos n with rfl | h0
  · rw [tcp_read_exact_zero]; exact ⟨by simp, .inl ⟨rfl, rfl⟩⟩
  · cases hs : w.script with
    | nil =>
      have h : (tcp_read_exact n : Prog F Bytes) = _ := loop_unfold (consumes_tcp_read_exact n) []
      have : (tcp_read_exact n : Prog F Bytes) w = (.blocked, w) := by
        refine Prog.Post.eq ?_
        rw [h]
        simp only [List.length_nil, if_pos h0, post_bind, post_sys, hs]
        exact ⟨fun _ => by simp, fun t ts h => by cases h⟩
      rw [this]; trivial
    | cons t ts =>
      rw [tcp_read_exact_eq n w t ts hs (hw t (by rw [hs]; simp)) h0 (by simp [Kernel.arrive]; omega)]
      refine ⟨?_, .inr ⟨t, ts, rfl, ?_⟩⟩
      · simp [Kernel.arrive, List.take_append_of_le_length hn]
      · simp [Kernel.arrive, List.take_append_of_le_length hn, List.drop_append_of_le_length hn]

theorem Line.works {w : World F} (h : Line nt w) : ∀ t ∈ w.script, t.fail = false := fun t ht => (h.orderly t ht).works

theorem Spec.IsMessage.len {m p b : Bytes} {w : World F} (h : IsMessage nt m) (hm : m = p ++ b) (hl : headerLength nt ≤ p.length)
    (hs : sizeAt nt p = w.net.pending_response_len) : w.net.pending_response_len = p.length + b.length := by
  obtain ⟨-, id, h⟩ := h
  rw [← hs, ← List.length_append, ← hm, ← h.size, hm, sizeAt_prefix nt p b hl]

/-- Reading a header from a sane connection. -/
theorem read_header_calm (n : Nat) (w : World F) (hw : Sane nt w) (hn : n ≤ w.ker.tcpRx.length) :
    Post (read_header n : Prog F Unit) w fun r w' => match r with
      | .ok _ => Sane nt w'
      | .blocked => True
      | _ => False := by
  suffices h : Post (read_header n : Prog F Unit) w fun r w' => match r with
      | .ok _ => Line nt w'
      | .blocked => True
      | _ => False by
    refine (h.and (keeps_read_header nt n w hw.tcp)).mono ?_
    rintro r w' ⟨h1, h2⟩
    cases r with
    | ok _ => exact ⟨h2, h1⟩
    | err e => exact h1
    | panic m => exact h1
    | blocked => trivial
  unfold read_header
  simp only [post_bind, post_gets, after_ok, post_ite, post_pure]
  refine ⟨fun hc => ?_, fun _ => hw.line⟩
  simp only [Bool.and_eq_true, List.isEmpty_iff, decide_eq_true_eq] at hc
  obtain ⟨hp, hc⟩ := hc
  rw [hw.tcp.type, header_mem_size_eq] at hc ⊢
  obtain ⟨b, rest, h1, h2, h3⟩ := hw.line.stream
  obtain rfl : b = [] := by
    rcases h3 with h3 | h3
    · exact h3.2
    · exact absurd hp h3.1
  rw [List.nil_append] at h1
  have hpos : 0 < headerLength nt := by cases nt <;> decide
  have hne : w.ker.tcpRx ≠ [] := by
    intro h; rw [h] at hn; simp at hn; omega
  rw [h1] at hne
  cases h2 with
  | nil => exact absurd rfl hne
  | @cons m bs hm hbs =>
    have hml := hm.header
    refine (tcp_read_exact_calm _ w hw.line.works (by omega)).mono ?_
    intro r w1 hr
    cases r with
    | err e => exact hr
    | panic m => exact hr
    | blocked => trivial
    | ok got =>
      obtain ⟨hg, hr⟩ := hr
      rcases hr with ⟨h0, -⟩ | ⟨t, ts, hs, hw1⟩
      · omega
      rw [h1, List.take_append_of_le_length hml] at hg
      rw [h1, List.drop_append_of_le_length hml] at hw1
      have hgl : headerLength nt ≤ got.length := by rw [hg, List.length_take]; omega
      have hk : KnownCommand nt got := by
        have := hm.1
        rw [← List.take_append_drop (headerLength nt) m, ← hg] at this
        exact (knownCommand_prefix _ _ hgl).1 this
      have ht := hw.line.orderly t (by rw [hs]; simp)
      simp only [after_ok, post_bind, post_modify]
      unfold Post
      rw [decode_header_known nt got _ hgl hk]
      simp only [after_ok, post_modify]
      subst hw1
      refine ⟨fun x hx => hw.line.orderly x (by rw [hs]; exact List.mem_cons_of_mem _ hx), ⟨m.drop (headerLength nt), bs ++ t.tcpIn, ?_, hbs.append ht.stream, .inr ?_⟩, ?_⟩
      · simp
      · simp only [hp, List.nil_append]
        refine ⟨?_, ?_⟩
        · intro h; rw [h] at hgl; simp at hgl; omega
        · rw [hg, List.take_append_drop]; exact hm
      · intro d hd
        rcases List.mem_append.1 hd with hd | hd
        · exact hw.line.states d hd
        · exact ht.states d hd

/-- Reading the body of a message from a sane connection. -/
theorem read_body_calm (n : Nat) : Calm (Sane nt) (fun _ => False) (read_body n : Prog F Unit) := by
  intro w hw
  suffices h : Post (read_body n : Prog F Unit) w fun r w' => match r with
      | .ok _ | .err _ => Line nt w'
      | .blocked => True
      | _ => False by
    refine (h.and (keeps_read_body nt n w hw.tcp)).mono ?_
    rintro r w' ⟨h1, h2⟩
    cases r with
    | ok _ => exact ⟨h2, h1⟩
    | err e => exact ⟨h2, h1⟩
    | panic m => exact h1
    | blocked => trivial
  unfold read_body
  simp only [post_bind, post_gets, after_ok, post_ite, post_pure]
  refine ⟨fun hc => ?_, fun _ => hw.line⟩
  simp only [Bool.and_eq_true, Bool.not_eq_true', List.isEmpty_eq_false_iff] at hc
  obtain ⟨hp, -⟩ := hc
  obtain ⟨g1, g2, g3⟩ := hw.tcp.head hp
  obtain ⟨b, rest, h1, h2, h3⟩ := hw.line.stream
  have hm : IsMessage nt (w.net.pending_response ++ b) := by
    rcases h3 with h3 | h3
    · exact absurd h3.1 hp
    · exact h3.2
  have hlen := hm.len rfl g1 g2
  rw [hw.tcp.offset]
  have hrem : remaining_bytes w.cfg.overflow_checks w.net.pending_response_len w.net.pending_response.length = .ok b.length := by
    unfold remaining_bytes
    rw [if_pos (by omega), hlen, Nat.add_sub_cancel_left]
  rw [hrem, post_liftP_ok]
  simp only [after_ok, post_bind]
  refine (tcp_read_exact_calm _ w hw.line.works (by rw [h1, List.length_append]; omega)).mono ?_
  intro r w1 hr
  cases r with
  | err e => exact hr.elim
  | panic m => exact hr
  | blocked => trivial
  | ok got =>
    obtain ⟨hg, hr⟩ := hr
    have hk : min n b.length ≤ b.length := Nat.min_le_right _ _
    generalize min n b.length = k at *
    rw [h1, List.take_append_of_le_length hk] at hg
    have hnet : w1.net = w.net := by
      rcases hr with ⟨-, h⟩ | ⟨t, ts, -, h⟩ <;> rw [h]
    have hpre : ∃ rest', w1.ker.tcpRx = b.drop k ++ rest' ∧ Messages nt rest' ∧ (∀ t ∈ w1.script, Orderly F nt t) ∧ ∀ d ∈ w1.ker.udpRx, IsState F nt d := by
      rcases hr with ⟨h0, h⟩ | ⟨t, ts, hs, h⟩
      · exact ⟨rest, by rw [h, h0, h1]; rfl, h2, by rw [h]; exact hw.line.orderly, by rw [h]; exact hw.line.states⟩
      · have ht := hw.line.orderly t (by rw [hs]; simp)
        refine ⟨rest ++ t.tcpIn, ?_, h2.append ht.stream, ?_, ?_⟩
        · rw [h, h1, List.drop_append_of_le_length hk]; simp
        · rw [h]; exact fun x hx => hw.line.orderly x (by rw [hs]; exact List.mem_cons_of_mem _ hx)
        · rw [h]
          intro d hd
          rcases List.mem_append.1 hd with hd | hd
          · exact hw.line.states d hd
          · exact ht.states d hd
    obtain ⟨rest', r1, r2, r3, r4⟩ := hpre
    have hgl : got.length = k := by rw [hg, List.length_take]; omega
    simp only [after_ok, post_bind, post_modify, post_gets, post_ite, post_emit, post_pure]
    refine ⟨fun heq => ?_, fun _ => ?_⟩
    · have hkb : k = b.length := by
        simp only [hnet, hw.tcp.offset] at heq; omega
      refine ⟨r3, ⟨[], rest', ?_, r2, .inl ⟨rfl, rfl⟩⟩, r4⟩
      simp only [r1, hkb, List.drop_length, List.nil_append]
    · refine ⟨r3, ⟨b.drop k, rest', r1, r2, .inr ⟨?_, ?_⟩⟩, r4⟩
      · simp only [hnet]
        intro h
        exact hp (List.append_eq_nil_iff.1 h).1
      · simp only [hnet]
        rw [List.append_assoc, hg, List.take_append_drop]
        exact hm

theorem pres_tcp_poll_sane : Pres (SaneStep nt) (tcp_poll : Prog F Bool) := by
  unfold tcp_poll
  pres [pres_sys, (show Pres (SaneStep nt) (Prog.modify _) from fun w =>
    ⟨⟨rfl, rfl, rfl, rfl, rfl, rfl, rfl, rfl⟩, fun h => h.congr rfl rfl rfl rfl⟩)]

theorem pres_tcp_peek_sane : Pres (SaneStep nt) (tcp_peek : Prog F (Option Nat)) := by
  unfold tcp_peek; pres [pres_sys]

theorem calm_sys : Calm (Sane nt) (fun _ => False) (sys : Prog F Tick) := by
  intro w hw
  rw [post_sys]
  exact ⟨fun _ => trivial, fun t ts hs => SaneStep.keep _ _ (TSys.tick w t ts hs) hw⟩

theorem calm_of_rel {α : Type} {C : World F → Prop} {p : Prog F α} (h : Pres (SaneStep nt) p)
    (hp : ∀ w, Sane nt w → Post p w fun r w' => ∀ m, r = .panic m → C w') : Calm (Sane nt) C p :=
  Calm.of_pres (fun w hw => SaneStep.keep _ _ (h w) hw) hp

theorem calm_tcp_poll : Calm (Sane nt) (fun _ => False) (tcp_poll : Prog F Bool) := by
  refine calm_of_rel pres_tcp_poll_sane fun w hw => ?_
  unfold tcp_poll
  simp only [post_bind, post_sys]
  refine ⟨fun _ m h => (by cases h), fun t ts hs => ?_⟩
  simp only [after_ok, hw.line.works t (by rw [hs]; simp), Bool.false_eq_true, if_false, post_bind, post_gets, post_modify, post_pure]
  intro m h; cases h

theorem tcp_peek_calm (w : World F) (hw : Sane nt w) : Post (tcp_peek : Prog F (Option Nat)) w fun r w' => match r with
    | .ok o => Sane nt w' ∧ ∀ n ∈ o, n ≤ w'.ker.tcpRx.length
    | .blocked => True
    | _ => False := by
  have h : Post (tcp_peek : Prog F (Option Nat)) w fun r w' => match r with
    | .ok o => ∀ n ∈ o, n ≤ w'.ker.tcpRx.length
    | .blocked => True
    | _ => False := by
    unfold tcp_peek
    simp only [post_bind, post_sys]
    refine ⟨fun _ => trivial, fun t ts hs => ?_⟩
    simp only [after_ok, post_bind, post_gets, post_ite, post_pure]
    refine ⟨fun _ n hn => (by cases hn), fun _ => ⟨fun _ n hn => (by cases hn), fun _ n hn => ?_⟩⟩
    cases hn
    exact Nat.min_le_left _ _
  refine (h.and ((pres_tcp_peek_sane (nt := nt)).post w)).mono ?_
  rintro r w' ⟨h1, h2⟩
  cases r with
  | ok o => exact ⟨SaneStep.keep _ _ h2 hw, h1⟩
  | err e => exact h1
  | panic m => exact h1
  | blocked => trivial

theorem calm_tcp_read_from_buffer : Calm (Sane nt) (fun _ => False) (tcp_read_from_buffer : Prog F Unit) := by
  unfold tcp_read_from_buffer
  refine Calm.bind calm_tcp_poll fun e => Calm.ite ?_ (Calm.pure _)
  intro w hw
  rw [post_bind]
  refine (tcp_peek_calm w hw).mono ?_
  intro r w1 hr
  cases r with
  | err e => exact hr.elim
  | panic m => exact hr
  | blocked => trivial
  | ok o =>
    obtain ⟨h1, h2⟩ := hr
    rw [after_ok]
    cases o with
    | none => exact h1
    | some n =>
      simp only
      rw [post_bind]
      refine (read_header_calm n w1 h1 (h2 n rfl)).mono ?_
      intro r w2 hr
      cases r with
      | err e => exact hr.elim
      | panic m => exact hr
      | blocked => trivial
      | ok _ => exact read_body_calm n w2 hr

theorem calm_remove_response (id : UInt32) : Calm (Sane nt) (fun _ => False) (remove_response id : Prog F (Option Bytes)) := by
  intro w hw
  have h : Keeps (TcpOk nt) (TcpWeak nt) (remove_response id : Prog F (Option Bytes)) := KeepTcp.remove id
  have h := h w hw.tcp
  unfold remove_response at h ⊢
  simp only [post_bind, post_gets, after_ok, post_modify, post_pure] at h ⊢
  exact ⟨h, hw.line.congr rfl rfl rfl rfl⟩

instance keepTcp_Sane : KeepTcp (F := F) (Sane nt) (fun _ => True) where
  weak _ _ := trivial
  tick w t ts hs hw := SaneStep.keep _ _ (TSys.tick w t ts hs) hw
  tcp w hw := (calm_tcp_read_from_buffer w hw).mono fun r w' h => by cases r <;> first | exact h | trivial
  remove id w hw := (calm_remove_response id w hw).mono fun r w' h => by cases r <;> first | exact h | trivial

theorem calm_wait (id : UInt32) : Calm (Sane nt) (fun _ => False) (wait_for_response_to_arrive id : Prog F Bytes) := by
  unfold wait_for_response_to_arrive
  calm [calm_tcp_read_from_buffer, calm_remove_response _]

end

section
variable [Fl F] [Wire F] {nt : NetworkType}

instance keepRobot_Sane : KeepRobot (F := F) (Sane nt) (fun _ => True) :=
  KeepRobot.of (SaneStep nt) SaneStep.keep
    (fun w s b => ⟨⟨rfl, by simp [recvBytes], by simp [responses], rfl, rfl, rfl, rfl, rfl⟩, fun h => h.congr rfl rfl rfl rfl⟩)
    (fun w f => ⟨⟨rfl, rfl, rfl, rfl, rfl, rfl, rfl, rfl⟩, fun h => h.congr rfl rfl rfl rfl⟩)
    (fun b => Keeps.of_rel SaneStep.keep (pres_sendRequest b))

instance keepGripper_Sane : KeepGripper (F := F) (Sane nt) (fun _ => True) :=
  KeepGripper.of (SaneStep nt) SaneStep.keep (fun b => Keeps.of_rel SaneStep.keep (pres_sendGripperRequest b))

/-! ## Datagrams -/

section
variable {α : Type} {c : Codec α} {n : Nat} (hc : Codec.Lawful c n) (hst : ∀ d, IsState F nt d → ∃ s, d.data = c.enc s)
include hc hst

theorem recv_from_calm (b : Bytes) (hb : b.length = n) (w : World F) (hw : Sane nt w) : Post (recv_from b : Prog F _) w fun r w' =>
    match r with
    | .ok none => Sane nt w' ∧ w.ker.udpRx = []
    | .ok (some (b', k, _)) => Sane nt w' ∧ k = n ∧ ∃ s, b' = c.enc s
    | .blocked => True
    | _ => False := by
  have hp : Pres (SaneStep nt) (recv_from b : Prog F _) := pres_recv_from b
  have h : Post (recv_from b : Prog F _) w fun r w' => match r with
    | .ok none => w.ker.udpRx = []
    | .ok (some (b', k, _)) => k = n ∧ ∃ s, b' = c.enc s
    | .blocked => True
    | _ => False := by
    unfold recv_from
    simp only [post_bind, post_sys]
    refine ⟨fun _ => trivial, fun t ts hs => ?_⟩
    have ht := hw.line.orderly t (by rw [hs]; simp)
    simp only [after_ok, ht.works, Bool.false_eq_true, if_false, post_bind, post_gets]
    cases h : (w.ker.arrive t).udpRx with
    | nil =>
      simp only [Kernel.arrive, List.append_eq_nil_iff] at h
      exact h.1
    | cons d ds =>
      have hd : IsState F nt d := (hw.line.tick hs).states d (by show d ∈ (w.ker.arrive t).udpRx; rw [h]; simp)
      obtain ⟨s, hd⟩ := hst d hd
      have hl : d.data.length = n := by rw [hd, hc.len]
      simp only [post_bind, post_modify, after_ok, post_emit, post_pure, hl, hb, Nat.min_self, true_and]
      exact ⟨s, by rw [← hd, ← hl, List.take_length, hl, ← hb, List.drop_length, List.append_nil]⟩
  refine (h.and (hp.post w)).mono ?_
  rintro r w' ⟨h1, h2⟩
  have h3 := SaneStep.keep _ _ h2 hw
  cases r with
  | ok o =>
    cases o with
    | none => exact ⟨h3, h1⟩
    | some p => exact ⟨h3, h1⟩
  | err e => exact h1
  | panic m => exact h1
  | blocked => trivial

theorem udp_drain_calm (b : Bytes) (hb : ∃ s, b = c.enc s) (w : World F) (hw : Sane nt w) : Post (udp_drain b : Prog F _) w fun r w' =>
    match r with
    | .ok b' => Sane nt w' ∧ ∃ s, b' = c.enc s
    | .blocked => True
    | _ => False := by
  unfold udp_drain
  refine loop_post (fun b' w1 => Sane nt w1 ∧ ∃ s, b' = c.enc s) ⟨hw, hb⟩ ?_ (fun _ _ _ => trivial)
  rintro b1 w1 ⟨h1, s, rfl⟩
  refine (recv_from_calm hc hst _ (hc.len s) w1 h1).bind ?_
  intro r w2 h
  cases r with
  | ok o =>
    cases o with
    | none => exact ⟨h.1, s, rfl⟩
    | some p => exact ⟨h.1, h.2.2⟩
  | err e => exact h.elim
  | panic m => exact h
  | blocked => trivial

/-- A blocking receive on a sane connection returns a state or times out. -/
theorem blocking_receive_calm (w : World F) (hw : Sane nt w) : Post (udp_blocking_receive c n : Prog F α) w fun r w' =>
    match r with
    | .ok _ => Sane nt w'
    | .err _ => Sane nt w' ∧ w'.trace = w.trace
    | .panic _ => False
    | .blocked => True := by
  have hp : Pres (SaneStep nt) (udp_poll : Prog F Bool) := pres_udp_poll
  have h1 : Post (udp_poll : Prog F Bool) w fun r w' => match r with
      | .ok e => w'.trace = w.trace ∧ (e = true → w'.ker.udpRx ≠ [])
      | .blocked => True
      | _ => False := by
    unfold udp_poll
    simp only [post_bind, post_sys]
    refine ⟨fun _ => trivial, fun t ts hs => ?_⟩
    simp only [after_ok, hw.line.works t (by rw [hs]; simp), Bool.false_eq_true, if_false, post_bind, post_gets, post_modify, post_pure]
    refine ⟨trivial, fun h => ?_⟩
    simp only [Bool.and_eq_true, Bool.not_eq_true', List.isEmpty_eq_false_iff] at h
    exact h.2
  unfold udp_blocking_receive
  refine (h1.and (hp.post w)).bind ?_
  rintro r w1 ⟨g1, g2⟩
  have g3 := SaneStep.keep _ _ g2 hw
  cases r with
  | err e => exact g1.elim
  | panic m => exact g1
  | blocked => trivial
  | ok e =>
    obtain ⟨g0, g1⟩ := g1
    rw [after_ok, post_ite]
    refine ⟨fun he => ?_, fun _ => ⟨g3, g0⟩⟩
    refine (recv_from_calm hc hst _ (by simp) w1 g3).bind ?_
    intro r w2 h
    cases r with
    | err e => exact h.elim
    | panic m => exact h
    | blocked => trivial
    | ok o =>
      rw [after_ok]
      cases o with
      | none => exact absurd h.2 (g1 he)
      | some p =>
        obtain ⟨b', k, src⟩ := p
        obtain ⟨h2, rfl, s, rfl⟩ := h
        refine (udp_drain_calm hc hst _ ⟨s, rfl⟩ w2 h2).bind ?_
        intro r w3 h
        cases r with
        | err e => exact h.elim
        | panic m => exact h
        | blocked => trivial
        | ok b =>
          obtain ⟨h3, s, rfl⟩ := h
          simp only [after_ok, post_bind, post_modify, ne_eq, not_true_eq_false, if_false, deserialize]
          have := hc.rt s []
          rw [List.append_nil] at this
          rw [this]
          exact SaneStep.keep _ _ (TUdp.addr w3 src) h3

theorem calm_udp_blocking_receive : Calm (Sane nt) (fun _ => False) (udp_blocking_receive c n : Prog F α) := by
  intro w hw
  refine (blocking_receive_calm hc hst w hw).mono ?_
  intro r w' h
  cases r with
  | ok _ => exact h
  | err e => exact h.1
  | panic m => exact h
  | blocked => trivial

theorem calm_udp_receive : Calm (Sane nt) (fun _ => False) (udp_receive c n : Prog F (Option α)) := by
  have h : Calm (Sane nt) (fun _ => False) (udp_peek n : Prog F (Option Nat)) := by
    unfold udp_peek; calm [calm_sys]
  unfold udp_receive
  calm [h, calm_udp_blocking_receive hc hst]

end

section
variable [LawfulWire F]

theorem robot_state (d : Datagram) (h : IsState F .Robot d) : ∃ s, d.data = (RobotStateIntern.codec F).enc s := h
theorem gripper_state (d : Datagram) (h : IsState F .Gripper d) : ∃ s, d.data = (Gripper.GripperStateIntern.codec F).enc s := h

theorem calm_receive_robot_state : Calm (Sane .Robot) (fun _ => False) (receive_robot_state : Prog F (RobotStateIntern F)) := by
  have h : ∀ s, Calm (Sane .Robot) (fun _ => False) (update_state_with s : Prog F Unit) := by
    intro s
    refine calm_of_rel (pres_update_state_with s) fun w hw => ?_
    unfold update_state_with
    simp only [post_bind, post_modify, after_ok, post_emit]
    intro m h; cases h
  unfold receive_robot_state receive_available receive_newer
  calm [calm_udp_receive RobotStateIntern.codec_lawful robot_state, calm_udp_blocking_receive RobotStateIntern.codec_lawful robot_state, h _]

theorem calm_discard_available : Calm (Sane .Robot) (fun _ => False) (discard_available : Prog F Unit) := by
  unfold discard_available
  calm [calm_udp_receive RobotStateIntern.codec_lawful robot_state]

theorem calm_gripper_read_once : Calm (Sane .Gripper) (fun _ => False) (Gripper.read_once : Prog F (Gripper.GripperState F)) := by
  unfold Gripper.read_once Gripper.discard_available
  calm [calm_udp_receive Gripper.GripperStateIntern.codec_lawful gripper_state,
    calm_udp_blocking_receive Gripper.GripperStateIntern.codec_lawful gripper_state]

end

end
end Verif
