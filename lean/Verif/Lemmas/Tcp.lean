import Verif.Lemmas.Keep
import Verif.Lemmas.Layout
import Verif.Spec.Frames
/-! The TCP stream: framing is unique, and the code follows it. -/
set_option linter.unusedSectionVars false
namespace Verif
open Prog Spec
variable {F : Type}

theorem natAt_prefix (a b : Bytes) (off k : Nat) (h : off + k ≤ a.length) : natAt (a ++ b) off k = natAt a off k := by
  induction k with
  | zero => rfl
  | succ k ih =>
    simp only [natAt]
    rw [ih (by omega), List.getElem?_append_left (by omega)]

theorem sizeAt_prefix (nt : NetworkType) (a b : Bytes) (h : headerLength nt ≤ a.length) : sizeAt nt (a ++ b) = sizeAt nt a := by
  cases nt <;> exact natAt_prefix _ _ _ _ (by simpa [headerLength] using h)

theorem idAt_prefix (nt : NetworkType) (a b : Bytes) (h : headerLength nt ≤ a.length) : idAt nt (a ++ b) = idAt nt a := by
  cases nt <;> exact natAt_prefix _ _ _ _ (by simp [headerLength] at h; omega)

/-- Two messages at the front of the same stream are the same message. -/
theorem Spec.IsFrame.unique {nt : NetworkType} {i i' : UInt32} {m m' r r' : Bytes} (h : IsFrame nt i m) (h' : IsFrame nt i' m')
    (he : m ++ r = m' ++ r') : i = i' ∧ m = m' ∧ r = r' := by
  have hs : sizeAt nt m = sizeAt nt m' := by
    rw [← sizeAt_prefix nt m r h.long, ← sizeAt_prefix nt m' r' h'.long, he]
  have hi : idAt nt m = idAt nt m' := by
    rw [← idAt_prefix nt m r h.long, ← idAt_prefix nt m' r' h'.long, he]
  have hl : m.length = m'.length := by rw [← h.size, ← h'.size, hs]
  obtain ⟨rfl, rfl⟩ := List.append_inj he hl
  exact ⟨UInt32.toNat_inj.mp (by rw [← h.id, ← h'.id]), rfl, rfl⟩

/-- The messages in a stream are determined by the stream. -/
theorem Spec.Frames.comparable {nt : NetworkType} {bs bs' : Bytes} {ms ms' : List (UInt32 × Bytes)} {r r' : Bytes}
    (h : Frames nt bs ms r) (h' : Frames nt bs' ms' r') (hp : bs <+: bs') : ms <+: ms' ∨ ms' <+: ms := by
  obtain ⟨t, rfl⟩ := hp
  obtain ⟨rfl, h⟩ := h
  obtain ⟨he, h'⟩ := h'
  rw [List.append_assoc] at he
  generalize r ++ t = u at he
  clear r t
  induction ms generalizing ms' with
  | nil => exact .inl ⟨ms', rfl⟩
  | cons m ms ih =>
    cases ms' with
    | nil => exact .inr ⟨m :: ms, rfl⟩
    | cons m' ms' =>
      simp only [List.map_cons, List.flatten_cons, List.append_assoc] at he
      obtain ⟨h1, h2, h3⟩ := (h m (by simp)).unique (h' m' (by simp)) he
      have hm : m = m' := Prod.ext h1 h2
      subst hm
      rcases ih (fun x hx => h x (by simp [hx])) (fun x hx => h' x (by simp [hx])) h3 with h | h
      · exact .inl (List.prefix_cons_inj _ |>.mpr h)
      · exact .inr (List.prefix_cons_inj _ |>.mpr h)

theorem Spec.Frames.snoc {nt : NetworkType} {bs : Bytes} {ms : List (UInt32 × Bytes)} {id : UInt32} {m : Bytes}
    (h : Frames nt bs ms m) (hm : IsFrame nt id m) : Frames nt bs (ms ++ [(id, m)]) [] := by
  obtain ⟨rfl, h⟩ := h
  refine ⟨by simp, ?_⟩
  intro x hx
  rcases List.mem_append.mp hx with hx | hx
  · exact h x hx
  · rw [List.mem_singleton] at hx
    subst hx; exact hm

theorem Spec.Frames.more {nt : NetworkType} {bs : Bytes} {ms : List (UInt32 × Bytes)} {r : Bytes} (h : Frames nt bs ms r) (a : Bytes) :
    Frames nt (bs ++ a) ms (r ++ a) := by
  obtain ⟨rfl, h⟩ := h
  exact ⟨by simp, h⟩

/-- The header of a robot message gives id and size. -/
theorem robot_header_at {bs rest : Bytes} {h : RobotCommandHeader} (hd : RobotCommandHeader.codec.dec bs = some (h, rest)) :
    12 ≤ bs.length ∧ natAt bs 4 4 = h.command_id.toNat ∧ natAt bs 8 4 = h.size.toNat := by
  have hb := RobotCommandHeader.codec_lawful.sound bs h rest hd
  have hl : 12 ≤ bs.length := by rw [hb, List.length_append, RobotCommandHeader.codec_lawful.len]; omega
  have a0 : At bs 0 (RobotCommandHeader.codec.enc h) := ⟨[], rest, by simpa using hb, rfl⟩
  have a1 := At.seq (a := RobotCommandEnum.codec) (b := Codec.seq Codec.u32 Codec.u32)
    (p := (h.command, h.command_id, h.size)) a0 (RobotCommandEnum.codec_lawful.len _)
  have a2 := At.seq a1.2 (Codec.u32_lawful.len _)
  exact ⟨hl, At.nat4 a2.1, At.nat4 a2.2⟩

/-- The header of a gripper message gives id and size. -/
theorem gripper_header_at {bs rest : Bytes} {h : Gripper.CommandHeader}
    (hd : Gripper.CommandHeader.codec.dec bs = some (h, rest)) :
    10 ≤ bs.length ∧ natAt bs 2 4 = h.command_id.toNat ∧ natAt bs 6 4 = h.size.toNat := by
  have hb := Gripper.CommandHeader.codec_lawful.sound bs h rest hd
  have hl : 10 ≤ bs.length := by rw [hb, List.length_append, Gripper.CommandHeader.codec_lawful.len]; omega
  have a0 : At bs 0 (Gripper.CommandHeader.codec.enc h) := ⟨[], rest, by simpa using hb, rfl⟩
  have a1 := At.seq (a := Gripper.Command.codec) (b := Codec.seq Codec.u32 Codec.u32)
    (p := (h.command, h.command_id, h.size)) a0 (Gripper.Command.codec_lawful.len _)
  have a2 := At.seq a1.2 (Codec.u32_lawful.len _)
  exact ⟨hl, At.nat4 a2.1, At.nat4 a2.2⟩

/-- `decode_header` reads what the offsets say. -/
theorem decode_header_spec (nt : NetworkType) (bs : Bytes) (w : World F) :
    Post (decode_header nt bs : Prog F (Nat × UInt32)) w fun r w' => w' = w ∧ match r with
      | .ok (size, id) => headerLength nt ≤ bs.length ∧ sizeAt nt bs = size ∧ idAt nt bs = id.toNat
      | .panic _ => True
      | _ => False := by
  cases nt with
  | Robot =>
    unfold decode_header deserialize
    simp only [post_bind]
    cases hd : RobotCommandHeader.codec.dec bs with
    | none => simp
    | some p =>
      obtain ⟨h1, h2, h3⟩ := robot_header_at (h := p.1) (rest := p.2) (by rw [hd])
      simp only [post_pure, after_ok, true_and]
      exact ⟨h1, h3, h2⟩
  | Gripper =>
    unfold decode_header deserialize
    simp only [post_bind]
    cases hd : Gripper.CommandHeader.codec.dec bs with
    | none => simp
    | some p =>
      obtain ⟨h1, h2, h3⟩ := gripper_header_at (h := p.1) (rest := p.2) (by rw [hd])
      simp only [post_pure, after_ok, true_and]
      exact ⟨h1, h3, h2⟩

theorem header_mem_size_eq (nt : NetworkType) : header_mem_size nt = headerLength nt := by cases nt <;> rfl

/-- Only bytes are read and nothing else changes. -/
structure ReadOnly (w w' : World F) (got : Bytes) : Prop where
  net : w'.net = w.net
  cfg : w'.cfg = w.cfg
  rob : w'.rob = w.rob
  recv : recvBytes w'.trace = recvBytes w.trace ++ got
  resp : responses w'.trace = responses w.trace

theorem tcp_read_exact_spec (n : Nat) (w : World F) :
    Post (tcp_read_exact n : Prog F Bytes) w fun r w' => match r with
      | .ok bs => ReadOnly w w' bs ∧ bs.length = n
      | .err _ => False
      | _ => ∃ got, ReadOnly w w' got := by
  unfold tcp_read_exact
  refine loop_post (fun got w' => ReadOnly w w' got ∧ got.length ≤ n) ?_ ?_ ?_
  · exact ⟨⟨rfl, rfl, rfl, by simp, rfl⟩, by simp⟩
  · rintro got w1 ⟨hr, hl⟩
    by_cases hn : got.length < n
    · simp only [if_pos hn, post_bind, post_sys]
      refine ⟨fun _ => ⟨got, hr⟩, ?_⟩
      intro t ts hs
      have hr' : ReadOnly w { w1 with script := ts, ker := w1.ker.arrive t } got := ⟨hr.net, hr.cfg, hr.rob, hr.recv, hr.resp⟩
      simp only [after_ok, post_bind, post_gets, post_ite, post_panic, post_modify, post_emit, post_pure]
      refine ⟨fun _ => ⟨got, hr'⟩, fun _ => ?_⟩
      refine ⟨⟨hr'.net, hr'.cfg, hr'.rob, ?_, ?_⟩, ?_⟩
      · have := hr'.recv
        simp only at this
        simp only [recvBytes_append, this]; simp [recvBytes]
      · have := hr'.resp
        simp only at this
        simp only [responses_append, this]; simp [responses]
      · simp; omega
    · simp only [if_neg hn, post_pure, round_inr]
      exact ⟨hr, by omega⟩
  · rintro got w1 ⟨hr, -⟩; exact ⟨got, hr⟩

/-- Invariant between API calls: all bytes read so far are the stored responses plus the pending one. -/
structure TcpOk (nt : NetworkType) (w : World F) : Prop where
  type : w.cfg.network_type = nt
  frames : Frames nt (recvBytes w.trace) (responses w.trace) w.net.pending_response
  offset : w.net.pending_response_offset = w.net.pending_response.length
  head : w.net.pending_response ≠ [] → headerLength nt ≤ w.net.pending_response.length ∧
    sizeAt nt w.net.pending_response = w.net.pending_response_len ∧ idAt nt w.net.pending_response = w.net.pending_command_id.toNat
  table : ∀ i bs, w.net.received_responses i = some bs → (i, bs) ∈ responses w.trace

/-- What remains after a panic: the stored responses are the first messages of the stream. -/
def TcpWeak (nt : NetworkType) (w : World F) : Prop := ∃ rest, Frames nt (recvBytes w.trace) (responses w.trace) rest

theorem TcpOk.weak {nt : NetworkType} (w : World F) (h : TcpOk nt w) : TcpWeak nt w := ⟨_, h.frames⟩

theorem TcpOk.readOnly {nt : NetworkType} {w w' : World F} {got : Bytes} (h : TcpOk nt w) (hr : ReadOnly w w' got) : TcpWeak nt w' := by
  refine ⟨w.net.pending_response ++ got, ?_⟩
  rw [hr.recv, hr.resp]
  exact h.frames.more got

theorem keeps_read_header (nt : NetworkType) (n : Nat) : Keeps (TcpOk nt) (TcpWeak nt) (read_header n : Prog F Unit) := by
  intro w hw
  unfold read_header
  simp only [post_bind, post_gets, after_ok, post_ite, post_pure]
  refine ⟨fun hc => ?_, fun _ => hw⟩
  simp only [Bool.and_eq_true, List.isEmpty_iff] at hc
  obtain ⟨hp, -⟩ := hc
  rw [hw.type]
  refine (tcp_read_exact_spec _ w).mono ?_
  intro r w1 hr
  cases r with
  | err e => exact hr.elim
  | panic m => obtain ⟨got, hr⟩ := hr; exact hw.readOnly hr
  | blocked => obtain ⟨got, hr⟩ := hr; exact hw.readOnly hr
  | ok bs =>
    obtain ⟨hr, hl⟩ := hr
    simp only [after_ok, post_bind, post_modify]
    refine (decode_header_spec nt bs _).mono ?_
    rintro r w2 ⟨rfl, hd⟩
    cases r with
    | err e => exact hd.elim
    | blocked => exact hd.elim
    | panic m => exact (show TcpWeak nt w1 from hw.readOnly hr)
    | ok si =>
      obtain ⟨size, id⟩ := si
      obtain ⟨h1, h2, h3⟩ := hd
      simp only [after_ok, post_modify]
      have hpn : w1.net.pending_response = [] := by rw [hr.net]; exact hp
      refine ⟨?_, ?_, ?_, ?_, ?_⟩
      · show w1.cfg.network_type = nt
        rw [hr.cfg]; exact hw.type
      · show Frames nt (recvBytes w1.trace) (responses w1.trace) (w1.net.pending_response ++ bs)
        rw [hr.recv, hr.resp, hr.net]
        exact hw.frames.more bs
      · show header_mem_size nt = (w1.net.pending_response ++ bs).length
        rw [hpn, List.nil_append, hl]
      · intro _
        show headerLength nt ≤ (w1.net.pending_response ++ bs).length ∧ _ = size ∧ _ = id.toNat
        simp only [hpn, List.nil_append]
        exact ⟨h1, h2, h3⟩
      · intro i b hb
        show (i, b) ∈ responses w1.trace
        rw [hr.resp]
        exact hw.table i b (by rw [← hr.net]; exact hb)

theorem keeps_read_body (nt : NetworkType) (n : Nat) : Keeps (TcpOk nt) (TcpWeak nt) (read_body n : Prog F Unit) := by
  intro w hw
  unfold read_body
  simp only [post_bind, post_gets, after_ok, post_ite, post_pure]
  refine ⟨fun hc => ?_, fun _ => hw⟩
  simp only [Bool.and_eq_true, Bool.not_eq_true', List.isEmpty_eq_false_iff] at hc
  obtain ⟨hp, -⟩ := hc
  rw [post_liftP]
  refine ⟨?_, fun _ _ => hw.weak⟩
  intro rem hrem
  simp only [after_ok, post_bind]
  refine (tcp_read_exact_spec _ w).mono ?_
  intro r w1 hr
  cases r with
  | err e => exact hr.elim
  | panic m => obtain ⟨got, hr⟩ := hr; exact hw.readOnly hr
  | blocked => obtain ⟨got, hr⟩ := hr; exact hw.readOnly hr
  | ok bs =>
    obtain ⟨hr, hl⟩ := hr
    obtain ⟨g1, g2, g3⟩ := hw.head hp
    simp only [after_ok, post_bind, post_modify, post_gets, post_ite, post_emit, post_pure]
    have hpn : w1.net.pending_response = w.net.pending_response := by rw [hr.net]
    have hfr : Frames nt (recvBytes w1.trace) (responses w1.trace) (w1.net.pending_response ++ bs) := by
      rw [hr.recv, hr.resp, hr.net]
      exact hw.frames.more bs
    have hoff : w1.net.pending_response_offset + min n rem = (w1.net.pending_response ++ bs).length := by
      rw [hr.net, hw.offset, List.length_append, hl]
    have hhead : headerLength nt ≤ (w1.net.pending_response ++ bs).length ∧
        sizeAt nt (w1.net.pending_response ++ bs) = w1.net.pending_response_len ∧
        idAt nt (w1.net.pending_response ++ bs) = w1.net.pending_command_id.toNat := by
      rw [hr.net]
      refine ⟨?_, ?_, ?_⟩
      · rw [List.length_append]; omega
      · rw [sizeAt_prefix _ _ _ g1, g2]
      · rw [idAt_prefix _ _ _ g1, g3]
    have htab : ∀ i b, w1.net.received_responses i = some b → (i, b) ∈ responses w1.trace := by
      intro i b hb
      rw [hr.resp]
      exact hw.table i b (by rw [← hr.net]; exact hb)
    refine ⟨fun heq => ?_, fun hne => ?_⟩
    · have hf : IsFrame nt w1.net.pending_command_id (w1.net.pending_response ++ bs) :=
        ⟨hhead.1, by rw [hhead.2.1, ← heq, hoff], hhead.2.2⟩
      refine ⟨?_, ?_, rfl, fun h => absurd rfl h, ?_⟩
      · show w1.cfg.network_type = nt
        rw [hr.cfg]; exact hw.type
      · have := hfr.snoc hf
        simpa [recvBytes, responses] using this
      · intro i b hb
        simp only at hb
        simp only [responses_append, List.mem_append]
        by_cases hi : i = w1.net.pending_command_id
        · rw [if_pos hi] at hb
          refine .inr ?_
          simp only [Option.some.injEq] at hb
          simp [responses, hi, hb]
        · rw [if_neg hi] at hb
          exact .inl (htab i b hb)
    · exact ⟨by show w1.cfg.network_type = nt; rw [hr.cfg]; exact hw.type, hfr, hoff, fun _ => hhead, htab⟩

/-- Relation that leaves everything of `TcpOk` alone. -/
structure TcpSame (w w' : World F) : Prop where
  cfg : w'.cfg = w.cfg
  recv : recvBytes w'.trace = recvBytes w.trace
  resp : responses w'.trace = responses w.trace
  pend : w'.net.pending_response = w.net.pending_response
  off : w'.net.pending_response_offset = w.net.pending_response_offset
  len : w'.net.pending_response_len = w.net.pending_response_len
  id : w'.net.pending_command_id = w.net.pending_command_id
  tab : w'.net.received_responses = w.net.received_responses

theorem TcpSame.keep {nt : NetworkType} (w w' : World F) (h : TcpSame w w') (hw : TcpOk nt w) : TcpOk nt w' := by
  refine ⟨?_, ?_, ?_, ?_, ?_⟩
  · rw [h.cfg]; exact hw.type
  · rw [h.recv, h.resp, h.pend]; exact hw.frames
  · rw [h.off, h.pend]; exact hw.offset
  · rw [h.pend, h.len, h.id]; exact hw.head
  · rw [h.tab, h.resp]; exact hw.table

instance : Pre (TcpSame (F := F)) where
  refl _ := ⟨rfl, rfl, rfl, rfl, rfl, rfl, rfl, rfl⟩
  trans h h' := ⟨h'.1.trans h.1, h'.2.trans h.2, h'.3.trans h.3, h'.4.trans h.4, h'.5.trans h.5, h'.6.trans h.6,
    h'.7.trans h.7, h'.8.trans h.8⟩

instance : TSys (TcpSame (F := F)) where
  tick _ _ _ _ := ⟨rfl, rfl, rfl, rfl, rfl, rfl, rfl, rfl⟩
instance : TAcc (TcpSame (F := F)) where
  upoll _ := ⟨rfl, rfl, rfl, rfl, rfl, rfl, rfl, rfl⟩
  recv w d ds _ := ⟨rfl, by simp [recvBytes], by simp [responses], rfl, rfl, rfl, rfl, rfl⟩
  addr _ _ := ⟨rfl, rfl, rfl, rfl, rfl, rfl, rfl, rfl⟩
  acc w s := ⟨rfl, by simp [recvBytes], by simp [responses], rfl, rfl, rfl, rfl, rfl⟩
instance : TRob (TcpSame (F := F)) where
  rob _ _ _ _ _ := ⟨rfl, rfl, rfl, rfl, rfl, rfl, rfl, rfl⟩
instance : TCmd (TcpSame (F := F)) where
  send w c := ⟨rfl, by simp [recvBytes], by simp [responses], rfl, rfl, rfl, rfl, rfl⟩
instance : TCb (TcpSame (F := F)) where
  motion w _ _ _ _ := ⟨rfl, by simp [recvBytes], by simp [responses], rfl, rfl, rfl, rfl, rfl⟩
  control w _ _ _ := ⟨rfl, by simp [recvBytes], by simp [responses], rfl, rfl, rfl, rfl, rfl⟩
instance : TReq (TcpSame (F := F)) (fun _ => True) where
  next _ := ⟨rfl, rfl, rfl, rfl, rfl, rfl, rfl, rfl⟩
  req w r _ := ⟨rfl, by simp [recvBytes], by simp [responses], rfl, rfl, rfl, rfl, rfl⟩
instance : TGReq (TcpSame (F := F)) where
  gnext _ := ⟨rfl, rfl, rfl, rfl, rfl, rfl, rfl, rfl⟩
  greq w r := ⟨rfl, by simp [recvBytes], by simp [responses], rfl, rfl, rfl, rfl, rfl⟩

theorem pres_tcp_poll_same : Pres TcpSame (tcp_poll : Prog F Bool) := by
  unfold tcp_poll
  pres [pres_sys, (show Pres TcpSame (Prog.modify _) from fun w => ⟨rfl, rfl, rfl, rfl, rfl, rfl, rfl, rfl⟩)]

theorem pres_tcp_peek_same : Pres TcpSame (tcp_peek : Prog F (Option Nat)) := by
  unfold tcp_peek; pres [pres_sys]

instance keepTcp_TcpOk (nt : NetworkType) : KeepTcp (F := F) (TcpOk nt) (TcpWeak nt) where
  weak := TcpOk.weak
  tick w t ts h hw := TcpSame.keep _ _ (TSys.tick w t ts h) hw
  tcp := by
    unfold tcp_read_from_buffer
    have h (p : Prog F Bool) (hp : Pres TcpSame p) : Keeps (TcpOk nt) (TcpWeak nt) p :=
      Keeps.of_pres TcpOk.weak fun w => TcpSame.keep _ _ (hp w)
    have h' (p : Prog F (Option Nat)) (hp : Pres TcpSame p) : Keeps (TcpOk nt) (TcpWeak nt) p :=
      Keeps.of_pres TcpOk.weak fun w => TcpSame.keep _ _ (hp w)
    keeps TcpOk.weak [h _ pres_tcp_poll_same, h' _ pres_tcp_peek_same, keeps_read_header _ _, keeps_read_body _ _]
  remove id := by
    intro w hw
    unfold remove_response
    simp only [post_bind, post_gets, after_ok, post_modify, post_pure]
    refine ⟨hw.type, hw.frames, hw.offset, hw.head, ?_⟩
    intro i b hb
    simp only at hb
    split at hb
    · cases hb
    · exact hw.table i b hb

theorem pres_sendRequest {T : World F → World F → Prop} [TReq T (fun _ => True)] (b : RobotBody F) : Pres T (sendRequest b) := by
  unfold sendRequest
  pres [pres_create_header_for_robot _ _, pres_tcp_send_request _ trivial]

theorem pres_sendGripperRequest {T : World F → World F → Prop} [TGReq T] (b : Gripper.Body F) : Pres T (sendGripperRequest b) := by
  unfold sendGripperRequest
  pres [pres_create_header_for_gripper _ _, pres_tcp_send_request_gripper _]

section
variable [Fl F] [Wire F]

instance keepRobot_TcpOk (nt : NetworkType) : KeepRobot (F := F) (TcpOk nt) (TcpWeak nt) :=
  KeepRobot.of TcpSame TcpSame.keep
    (fun w s b => ⟨rfl, by simp [recvBytes], by simp [responses], rfl, rfl, rfl, rfl, rfl⟩)
    (fun w f => ⟨rfl, rfl, rfl, rfl, rfl, rfl, rfl, rfl⟩)
    (fun b => Keeps.of_rel TcpSame.keep (pres_sendRequest b))

instance keepGripper_TcpOk (nt : NetworkType) : KeepGripper (F := F) (TcpOk nt) (TcpWeak nt) :=
  KeepGripper.of TcpSame TcpSame.keep (fun b => Keeps.of_rel TcpSame.keep (pres_sendGripperRequest b))

theorem tcpOk_init (nt : NetworkType) (w : World F) (h : w.trace = []) (hn : w.net = {}) (hc : w.cfg.network_type = nt) : TcpOk nt w := by
  refine ⟨hc, ?_, ?_, ?_, ?_⟩
  · rw [h, hn]; exact ⟨rfl, by simp [responses]⟩
  · rw [hn]; rfl
  · rw [hn]; intro h; exact absurd rfl h
  · rw [hn]; intro i bs h; cases h

/-- The invariant holds in every history of a robot. -/
theorem session_tcp [Geo F] (rc : Option RealtimeConfig) (ls : Option Nat) (cs : List (RobotCall F)) (w : World F) (hw : Fresh w) :
    Post (robotSession rc ls cs) w fun r w' => match r with
      | .ok _ => TcpOk .Robot w'
      | _ => TcpWeak .Robot w' := by
  refine post_robotSession (I := TcpOk .Robot) rc ls cs w ?_
  refine post_robot_new (I := TcpOk .Robot) (K := TcpOk .Robot) rc ls w ?_ ?_ (fun b _ => Keeps.of_rel TcpSame.keep (pres_sendRequest b)) ?_ ?_
  · intro w' h; exact ⟨[], by rw [h, hw.1]; exact ⟨rfl, by simp [responses]⟩⟩
  · intro t ts r hs; exact tcpOk_init _ _ hw.1 rfl rfl
  · intro w v h
    exact TcpSame.keep _ _ (TRob.rob w w.rob.logger v w.rob.current_move_motion_generator_mode w.rob.current_move_controller_mode) h
  · intro w h
    have : Keeps (TcpOk .Robot) (TcpWeak .Robot)
        (udp_blocking_receive (F := F) (RobotStateIntern.codec F) size_of_RobotStateIntern) :=
      Keeps.of_rel TcpSame.keep (pres_udp_blocking_receive _ _)
    refine (this w h).mono ?_
    intro r w' hr
    cases r with
    | ok s => exact TcpSame.keep _ _ (TAcc.acc w' s) hr
    | err e => exact TcpOk.weak _ hr
    | panic m => exact hr
    | blocked => exact hr

/-- The invariant holds in every history of a gripper. -/
theorem gripper_session_tcp (cs : List (GripperCall F)) (w : World F) (hw : Fresh w) :
    Post (gripperSession cs) w fun r w' => match r with
      | .ok _ => TcpOk .Gripper w'
      | _ => TcpWeak .Gripper w' := by
  refine post_gripperSession (I := TcpOk .Gripper) cs w ?_
  refine post_gripper_new (I := TcpOk .Gripper) w ?_ ?_ (fun b => Keeps.of_rel TcpSame.keep (pres_sendGripperRequest b)) ?_
  · intro w' h; exact ⟨[], by rw [h, hw.1]; exact ⟨rfl, by simp [responses]⟩⟩
  · intro t ts v hs; exact tcpOk_init _ _ hw.1 rfl rfl
  · intro w v h
    exact TcpSame.keep _ _ (TRob.rob w w.rob.logger v w.rob.current_move_motion_generator_mode w.rob.current_move_controller_mode) h

end
end Verif
