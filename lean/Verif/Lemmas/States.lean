import Verif.Lemmas.Udp
/-!
# The state stream over whole histories
-/
set_option linter.unusedSectionVars false
namespace Verif
open Prog Spec
variable {F : Type}

/-- Events that have nothing to do with the state stream. -/
def isStreamEv : Ev F → Bool
  | .udpRecv _ => true
  | .accepted _ => true
  | .udpSend _ _ => true
  | _ => false

/-- An accepted state is the newest among the datagrams received before. -/
def NewestAt (pre : List (Ev F)) (e : Ev F) : Prop := ∀ s, e = .accepted s → ∀ d ∈ datagrams pre, stamp d ≤ s.message_id.toNat
/-- An accepted state is the content of a datagram received before. -/
def SingleAt [Wire F] (pre : List (Ev F)) (e : Ev F) : Prop := ∀ s, e = .accepted s → ∃ d ∈ datagrams pre, StateLayout d.data s
/-- A command is sent to an address from which a datagram was received before. -/
def SentAt (pre : List (Ev F)) (e : Ev F) : Prop := ∀ a c, e = .udpSend a c → ∃ d ∈ datagrams pre, d.src = a

/-- What holds of the state stream at every moment. `arr` are the datagrams that ever arrive. -/
structure StateWeak [Wire F] (arr : List Datagram) (nf : Prop) (w : World F) : Prop where
  ids : (accepted w.trace).Pairwise fun a b => a.message_id < b.message_id
  single : ExactSize arr → Before SingleAt w.trace
  newest : ExactSize arr → nf → InOrder arr → Before NewestAt w.trace
  sent : Before SentAt w.trace

/-- What holds of the state stream between the parts of the program; `p` says that a state has been received. -/
structure StateOk [Wire F] (arr : List Datagram) (nf p : Prop) (w : World F) : Prop extends StateWeak arr nf w where
  conserve : datagrams w.trace ++ w.ker.udpRx ++ udpArrived w.script = arr
  last : ∀ s ∈ accepted w.trace, s.message_id ≤ w.rob.message_id
  nofail : nf → NoFail w.script
  ready : nf → Ready w
  addr : p → ∃ d ∈ datagrams w.trace, d.src = w.net.udp_server_address
  start : ¬p → accepted w.trace = []

section
variable [Wire F] {arr : List Datagram} {nf p : Prop}

theorem stream_proj (e : Ev F) (h : isStreamEv e = false) : datagrams [e] = [] ∧ accepted [e] = [] := by
  cases e <;> first | exact ⟨rfl, rfl⟩ | cases h

theorem StateWeak.event {w w' : World F} (e : Ev F) (he : isStreamEv e = false) (ht : w'.trace = w.trace ++ [e])
    (h : StateWeak arr nf w) : StateWeak arr nf w' := by
  obtain ⟨h1, h2⟩ := stream_proj e he
  refine ⟨by rw [ht, accepted_append, h2, List.append_nil]; exact h.ids, fun hx => ?_, fun hx hn ho => ?_, ?_⟩ <;>
    rw [ht, before_snoc]
  · exact ⟨h.single hx, by rintro s rfl; cases he⟩
  · exact ⟨h.newest hx hn ho, by rintro s rfl; cases he⟩
  · exact ⟨h.sent, by rintro a c rfl; cases he⟩

theorem StateOk.event {w w' : World F} (e : Ev F) (he : isStreamEv e = false) (ht : w'.trace = w.trace ++ [e])
    (hs : w'.script = w.script) (hk : w'.ker.udpRx = w.ker.udpRx) (hk' : w'.ker.udpEdge = w.ker.udpEdge)
    (hm : w'.rob.message_id = w.rob.message_id) (ha : w'.net.udp_server_address = w.net.udp_server_address)
    (h : StateOk arr nf p w) : StateOk arr nf p w' := by
  obtain ⟨h1, h2⟩ := stream_proj e he
  refine ⟨h.toStateWeak.event e he ht, ?_, ?_, ?_, ?_, ?_, ?_⟩
  · rw [ht, hs, hk, datagrams_append, h1, List.append_nil]; exact h.conserve
  · rw [ht, accepted_append, h2, List.append_nil, hm]; exact h.last
  · rw [hs]; exact h.nofail
  · unfold Ready; rw [hk, hk']; exact h.ready
  · rw [ht, datagrams_append, h1, List.append_nil, ha]; exact h.addr
  · rw [ht, accepted_append, h2, List.append_nil]; exact h.start

theorem StateOk.same {w w' : World F} (ht : w'.trace = w.trace)
    (hs : w'.script = w.script) (hk : w'.ker.udpRx = w.ker.udpRx) (hk' : w'.ker.udpEdge = w.ker.udpEdge)
    (hm : w'.rob.message_id = w.rob.message_id) (ha : w'.net.udp_server_address = w.net.udp_server_address)
    (h : StateOk arr nf p w) : StateOk arr nf p w' := by
  refine ⟨⟨?_, ?_, ?_, ?_⟩, ?_, ?_, ?_, ?_, ?_, ?_⟩
  · rw [ht]; exact h.ids
  · rw [ht]; exact h.single
  · rw [ht]; exact h.newest
  · rw [ht]; exact h.sent
  · rw [ht, hs, hk]; exact h.conserve
  · rw [ht, hm]; exact h.last
  · rw [hs]; exact h.nofail
  · unfold Ready; rw [hk, hk']; exact h.ready
  · rw [ht, ha]; exact h.addr
  · rw [ht]; exact h.start

theorem Spec.Ready.tick {w : World F} (h : Ready w) (t : Tick) (ts : List Tick) :
    Ready ({ w with script := ts, ker := w.ker.arrive t } : World F) := by
  intro hne
  simp only [Kernel.arrive, ne_eq, List.append_eq_nil_iff, not_and_or, Bool.or_eq_true, Bool.not_eq_true', List.isEmpty_eq_false_iff]
    at hne ⊢
  rcases hne with hne | hne
  · exact .inl (h hne)
  · exact .inr hne

theorem StateOk.tick (w : World F) (t : Tick) (ts : List Tick) (hs : w.script = t :: ts) (h : StateOk arr nf p w) :
    StateOk arr nf p { w with script := ts, ker := w.ker.arrive t } := by
  refine ⟨⟨h.ids, h.single, h.newest, h.sent⟩, ?_, h.last, ?_, ?_, h.addr, h.start⟩
  · rw [← h.conserve, hs]; simp [Kernel.arrive]
  · intro hn; exact (h.nofail hn).suffix (by rw [hs]; exact List.suffix_cons t ts)
  · intro hn; exact (h.ready hn).tick t ts

/-- Keeping `StateOk`, as a relation. -/
def StateRel (arr : List Datagram) (nf p : Prop) (w w' : World F) : Prop := StateOk arr nf p w → StateOk arr nf p w'

instance : Pre (StateRel (F := F) arr nf p) := ⟨fun _ h => h, fun h g x => g (h x)⟩

instance : TTcp (StateRel (F := F) arr nf p) where
  tick := StateOk.tick
  poll _ := StateOk.same rfl rfl rfl rfl rfl rfl
  read w n := StateOk.event (.tcpRecv (w.ker.tcpRx.take n)) rfl rfl rfl rfl rfl rfl rfl
  pend _ _ _ := StateOk.same rfl rfl rfl rfl rfl rfl
  head _ _ _ := StateOk.same rfl rfl rfl rfl rfl rfl
  store _ := StateOk.event _ rfl rfl rfl rfl rfl rfl rfl
  remove _ _ := StateOk.same rfl rfl rfl rfl rfl rfl

instance : TReq (StateRel (F := F) arr nf p) (fun _ => True) where
  tick := StateOk.tick
  next _ := StateOk.same rfl rfl rfl rfl rfl rfl
  req _ _ _ := StateOk.event _ rfl rfl rfl rfl rfl rfl rfl

instance : TRob (StateRel (F := F) arr nf p) where
  rob _ _ _ _ _ := StateOk.same rfl rfl rfl rfl rfl rfl

instance : TCb (StateRel (F := F) arr nf p) where
  motion _ _ _ _ _ := StateOk.event _ rfl rfl rfl rfl rfl rfl rfl
  control _ _ _ _ := StateOk.event _ rfl rfl rfl rfl rfl rfl rfl

instance : TCmd (StateRel (F := F) arr nf True) where
  tick := StateOk.tick
  send w c h := by
    refine ⟨⟨?_, fun hx => ?_, fun hx hn ho => ?_, ?_⟩, ?_, ?_, h.nofail, h.ready, ?_, fun h => absurd trivial h⟩
    · simpa [accepted_append, accepted] using h.ids
    · exact (before_snoc _ _ _).2 ⟨h.single hx, by intro s hs; cases hs⟩
    · exact (before_snoc _ _ _).2 ⟨h.newest hx hn ho, by intro s hs; cases hs⟩
    · exact (before_snoc _ _ _).2 ⟨h.sent, by intro a c he; cases he; exact h.addr trivial⟩
    · have : datagrams [Ev.udpSend w.net.udp_server_address c] = [] := rfl
      rw [datagrams_append, this, List.append_nil]; exact h.conserve
    · have : accepted [Ev.udpSend w.net.udp_server_address c] = [] := rfl
      rw [accepted_append, this, List.append_nil]; exact h.last
    · have : datagrams [Ev.udpSend w.net.udp_server_address c] = [] := rfl
      rw [datagrams_append, this, List.append_nil]; exact h.addr

/-! ## Receiving -/

/-- What is known of a received state that is not accepted yet. -/
structure Fresher (arr : List Datagram) (nf : Prop) (w : World F) (s : RobotStateIntern F) : Prop where
  single : ExactSize arr → ∃ d ∈ datagrams w.trace, StateLayout d.data s
  newest : ExactSize arr → nf → InOrder arr → ∀ d ∈ datagrams w.trace, stamp d ≤ s.message_id.toNat

theorem StateWeak.udp {w w' : World F} (h : StateWeak arr nf w) (ds : List Datagram) (ht : w'.trace = w.trace ++ ds.map .udpRecv) :
    StateWeak arr nf w' := by
  have hev : ∀ e ∈ (ds.map .udpRecv : List (Ev F)), ∃ d, e = .udpRecv d := by
    intro e he
    obtain ⟨d, -, rfl⟩ := List.mem_map.1 he
    exact ⟨d, rfl⟩
  refine ⟨by rw [ht, accepted_append, accepted_map, List.append_nil]; exact h.ids, fun hx => ?_, fun hx hn ho => ?_, ?_⟩ <;> rw [ht]
  · refine before_append (h.single hx) _ fun e he pre s hs => ?_
    obtain ⟨d, rfl⟩ := hev e he; cases hs
  · refine before_append (h.newest hx hn ho) _ fun e he pre s hs => ?_
    obtain ⟨d, rfl⟩ := hev e he; cases hs
  · refine before_append h.sent _ fun e he pre a c hs => ?_
    obtain ⟨d, rfl⟩ := hev e he; cases hs

theorem StateOk.udp {w w' : World F} (h : StateOk arr nf p w) (hu : UdpStep w w') (hc : Conserve w w') (hr : nf → Ready w')
    (ha : w'.net.udp_server_address = w.net.udp_server_address ∨ ∃ d ds, w'.trace = w.trace ++ (d :: ds).map .udpRecv ∧
      w'.net.udp_server_address = d.src) : StateOk arr nf p w' := by
  obtain ⟨ds, ht⟩ := hu.trace
  obtain ⟨used, es, c1, c2, -, c3⟩ := hc
  have hes : es = ds.map .udpRecv := List.append_cancel_left (c2.symm.trans ht)
  have hds : datagrams es = ds := by rw [hes]; exact datagrams_map ds
  refine ⟨h.toStateWeak.udp ds ht, ?_, ?_, ?_, hr, ?_, ?_⟩
  · rw [ht, datagrams_append, datagrams_map]
    rw [← h.conserve, c1, udpArrived_append]
    rw [hds] at c3
    simp only [List.append_assoc]
    rw [← List.append_assoc ds, ← c3]
    simp
  · rw [ht, accepted_append, accepted_map, List.append_nil, hu.rob]; exact h.last
  · intro hn; exact (h.nofail hn).suffix ⟨used, c1.symm⟩
  · intro hp
    rcases ha with ha | ⟨d, es', ht', ha⟩
    · obtain ⟨d, hd, he⟩ := h.addr hp
      exact ⟨d, by rw [ht, datagrams_append]; simp [hd], by rw [ha]; exact he⟩
    · exact ⟨d, by rw [ht', datagrams_append, datagrams_map]; simp, ha.symm⟩
  · rw [ht, accepted_append, accepted_map, List.append_nil]; exact h.start

variable [LawfulWire F]

theorem inOrder_last (ds : List Datagram) (x : Datagram) (h : InOrder (ds ++ [x])) : ∀ d ∈ ds ++ [x], stamp d ≤ stamp x := by
  intro d hd
  rcases List.mem_append.1 hd with hd | hd
  · exact (List.pairwise_append.1 h).2.2 d hd x (by simp)
  · rw [List.mem_singleton.1 hd]

/-- The state a receive returns. -/
theorem Fresher.of_receive {w w' : World F} (h : StateOk arr nf p w') (d : Datagram) (ds : List Datagram) (rest : Bytes)
    (s : RobotStateIntern F) (ht : w'.trace = w.trace ++ (d :: ds).map .udpRecv)
    (hd : (RobotStateIntern.codec F).dec (ds.foldl fill (fill (List.replicate size_of_RobotStateIntern 0) d)) = some (s, rest)) :
    Fresher arr nf w' s := by
  have key : ExactSize arr → StateLayout ((d :: ds).getLast (by simp)).data s := by
    intro hx
    have hex : ∀ e ∈ d :: ds, e.data.length = 2373 := by
      intro e he
      apply hx
      rw [← h.conserve, ht, datagrams_append, datagrams_map]
      exact List.mem_append_left _ (List.mem_append_left _ (List.mem_append_right _ he))
    rw [fold_exact _ d ds (by rw [List.length_replicate]; exact hex)] at hd
    have h0 := RobotStateIntern.codec_lawful.sound _ _ _ hd
    exact stateLayout_of_at ⟨[], rest, h0, rfl⟩
  have hdg : datagrams w'.trace = datagrams w.trace ++ (d :: ds) := by rw [ht, datagrams_append, datagrams_map]
  constructor
  · intro hx
    exact ⟨_, by rw [hdg]; exact List.mem_append_right _ (List.getLast_mem _), key hx⟩
  · intro hx hn ho e he
    have hl := (key hx).message_id
    rw [← hl]
    rw [hdg] at he
    have hcut : datagrams w'.trace <+: arr := ⟨w'.ker.udpRx ++ udpArrived w'.script, by rw [← h.conserve]; simp⟩
    rw [hdg] at hcut
    have ho' : InOrder (datagrams w.trace ++ (d :: ds)) := ho.sublist hcut.sublist
    have hsplit : datagrams w.trace ++ (d :: ds) = (datagrams w.trace ++ (d :: ds).dropLast) ++ [(d :: ds).getLast (by simp)] := by
      rw [List.append_assoc, List.dropLast_concat_getLast]
    rw [hsplit] at ho' he
    exact inOrder_last _ _ ho' e he

/-- Receiving a state without accepting it. -/
theorem state_receive (w : World F) (h : StateOk arr nf p w) :
    Post (udp_blocking_receive (RobotStateIntern.codec F) size_of_RobotStateIntern) w fun r w' =>
      UdpStep w w' ∧ match r with
      | .ok s => StateOk arr nf True w' ∧ Fresher arr nf w' s ∧ StateOk arr nf p w'
      | .err _ => StateOk arr nf p w' ∧ (nf → w'.ker.udpRx = [])
      | _ => StateWeak arr nf w' := by
  have h1 : Pres UdpStep (udp_blocking_receive (RobotStateIntern.codec F) size_of_RobotStateIntern : Prog F _) :=
    pres_udp_blocking_receive _ _
  have h2 : Pres Conserve (udp_blocking_receive (RobotStateIntern.codec F) size_of_RobotStateIntern : Prog F _) :=
    pres_udp_blocking_receive _ _
  refine ((blocking_receive_spec _ _ w).and ((h1.post w).and (h2.post w))).mono ?_
  rintro r w' ⟨hr, hu, hc⟩
  refine ⟨hu, ?_⟩
  cases r with
  | ok s =>
    obtain ⟨d, ds, rest, ht, -, hd, ha, hrx⟩ := hr
    have hok : StateOk arr nf p w' := h.udp hu hc (fun hn hne => absurd (hrx (h.nofail hn)) hne) (.inr ⟨d, ds, ht, ha⟩)
    refine ⟨⟨hok.toStateWeak, hok.conserve, hok.last, hok.nofail, hok.ready, fun _ => ?_, fun h => absurd trivial h⟩, Fresher.of_receive hok d ds rest s ht hd, hok⟩
    exact ⟨d, by rw [ht, datagrams_append, datagrams_map]; simp, ha.symm⟩
  | err e =>
    rcases hr with ⟨-, ht, hn', hrx⟩ | ⟨d, ds, ht, -, ha, hrx, -⟩ | ⟨hnf, -, hn'⟩
    · exact ⟨h.udp hu hc (fun hn hne => absurd (hrx (h.ready hn)) hne) (.inl (by rw [hn'])), fun hn => hrx (h.ready hn)⟩
    · exact ⟨h.udp hu hc (fun hn hne => absurd (hrx (h.nofail hn)) hne) (.inr ⟨d, ds, ht, ha⟩), fun hn => hrx (h.nofail hn)⟩
    · exact ⟨h.udp hu hc (fun hn => absurd (h.nofail hn) hnf) (.inl (by rw [hn'])), fun hn => absurd (h.nofail hn) hnf⟩
  | panic m => obtain ⟨ds, ht⟩ := hu.trace; exact h.toStateWeak.udp ds ht
  | blocked => obtain ⟨ds, ht⟩ := hu.trace; exact h.toStateWeak.udp ds ht

theorem Fresher.kept {w w' : World F} {s : RobotStateIntern F} (h : Fresher arr nf w s) {ds : List Datagram}
    (ht : w'.trace = w.trace ++ ds.map .udpRecv) (hds : ExactSize arr → nf → InOrder arr → ∀ d ∈ ds, stamp d ≤ s.message_id.toNat) :
    Fresher arr nf w' s := by
  constructor
  · intro hx
    obtain ⟨d, hd, hl⟩ := h.single hx
    exact ⟨d, by rw [ht, datagrams_append]; simp [hd], hl⟩
  · intro hx hn ho d hd
    rw [ht, datagrams_append, datagrams_map, List.mem_append] at hd
    rcases hd with hd | hd
    · exact h.newest hx hn ho d hd
    · exact hds hx hn ho d hd

/-- Looking for a state without accepting it. -/
theorem state_try (w : World F) (h : StateOk arr nf p w) :
    Post (udp_receive (RobotStateIntern.codec F) size_of_RobotStateIntern) w fun r w' =>
      UdpStep w w' ∧ match r with
      | .ok (some s) => StateOk arr nf p w' ∧ Fresher arr nf w' s
      | .ok none => StateOk arr nf p w' ∧ ∀ s, Fresher arr nf w s → Fresher arr nf w' s
      | .err _ => False
      | _ => StateWeak arr nf w' := by
  have h1 : Pres UdpStep (udp_receive (RobotStateIntern.codec F) size_of_RobotStateIntern : Prog F _) := pres_udp_receive _ _
  have h2 : Pres Conserve (udp_receive (RobotStateIntern.codec F) size_of_RobotStateIntern : Prog F _) := pres_udp_receive _ _
  refine ((udp_receive_spec _ _ w).and ((h1.post w).and (h2.post w))).mono ?_
  rintro r w' ⟨hr, hu, hc⟩
  refine ⟨hu, ?_⟩
  obtain ⟨es, het⟩ := hu.trace
  cases r with
  | ok o =>
    cases o with
    | some s =>
      obtain ⟨d, ds, rest, ht, -, hd, ha, hrx⟩ := hr
      have hok : StateOk arr nf p w' := h.udp hu hc (fun hn hne => absurd (hrx (h.nofail hn)) hne) (.inr ⟨d, ds, ht, ha⟩)
      exact ⟨hok, Fresher.of_receive hok d ds rest s ht hd⟩
    | none =>
      rcases hr with ⟨ht, hn', hrx⟩ | ⟨d, ds, ht, hlen, ha, hrx⟩ | ⟨hnf, hn'⟩
      · have hok := h.udp hu hc (fun hn => hrx (h.ready hn)) (.inl (by rw [hn']))
        exact ⟨hok, fun s hs => hs.kept (ds := []) (by simp [ht]) (by simp)⟩
      · have hok := h.udp hu hc (fun hn hne => absurd (hrx (h.nofail hn)) hne) (.inr ⟨d, ds, ht, ha⟩)
        refine ⟨hok, fun s hs => hs.kept ht fun hx => ?_⟩
        have : d.data.length = 2373 := hx d (by rw [← hok.conserve, ht, datagrams_append, datagrams_map]; simp)
        rw [this] at hlen
        exact absurd hlen (by decide)
      · have hok := h.udp hu hc (fun hn => absurd (h.nofail hn) hnf) (.inl (by rw [hn']))
        exact ⟨hok, fun s hs => hs.kept het fun _ hn => absurd (h.nofail hn) hnf⟩
  | err e => exact hr.elim
  | panic m => exact h.toStateWeak.udp es het
  | blocked => exact h.toStateWeak.udp es het

/-- Receiving and accepting the next state. -/
theorem state_update (w : World F) (hp : p) (h : StateOk arr nf p w) :
    Post (receive_robot_state : Prog F (RobotStateIntern F)) w fun r w' => match r with
      | .ok s => StateOk arr nf p w' ∧ w.rob.message_id < s.message_id
      | .err _ => StateOk arr nf p w' ∧ w'.rob = w.rob ∧ (nf → w'.ker.udpRx = [])
      | _ => StateWeak arr nf w' := by
  unfold receive_robot_state
  refine Post.bind (S := fun r w' => match r with
      | .ok l => StateOk arr nf p w' ∧ w'.rob = w.rob ∧ ∀ s, l = some s → Fresher arr nf w' s ∧ w.rob.message_id < s.message_id
      | .err _ => False
      | _ => StateWeak arr nf w') ?_ ?_
  · unfold receive_available
    refine loop_post (fun l w' => StateOk arr nf p w' ∧ w'.rob = w.rob ∧
      ∀ s, l = some s → Fresher arr nf w' s ∧ w.rob.message_id < s.message_id) ⟨h, rfl, by intro s hs; cases hs⟩ ?_
      (fun _ _ hx => hx.1.toStateWeak)
    rintro l w1 ⟨h1, h2, h3⟩
    refine (state_try w1 h1).bind ?_
    rintro r w2 ⟨hu, hr⟩
    cases r with
    | ok o =>
      cases o with
      | none => exact ⟨hr.1, hu.rob.trans h2, fun s hs => ⟨hr.2 s (h3 s hs).1, (h3 s hs).2⟩⟩
      | some s =>
        simp only [after_ok, post_bind, post_gets, post_ite, post_pure, round_inl]
        rw [hu.rob, h2]
        refine ⟨fun hlt => ?_, fun hnlt => ?_⟩
        · refine ⟨hr.1, rfl, fun s' hs' => ?_⟩
          cases hs'
          refine ⟨hr.2, ?_⟩
          cases l with
          | none => exact hlt
          | some l => exact UInt64.lt_trans (h3 l rfl).2 hlt
        · refine ⟨hr.1, rfl, fun s' hs' => ?_⟩
          obtain ⟨es, het⟩ := hu.trace
          subst hs'
          obtain ⟨g1, g2⟩ := h3 s' rfl
          refine ⟨g1.kept het fun hx hn ho d hd => ?_, g2⟩
          have := hr.2.newest hx hn ho d (by rw [het, datagrams_append, datagrams_map]; simp [hd])
          have hle : s.message_id.toNat ≤ s'.message_id.toNat := by
            have := UInt64.not_lt.1 hnlt
            exact this
          omega
    | err e => exact hr.elim
    | panic m => exact hr
    | blocked => exact hr
  rintro r w1 hr
  cases r with
  | ok l =>
    obtain ⟨h1, h2, h3⟩ := hr
    rw [after_ok]
    refine Post.bind (S := fun r w' => match r with
      | .ok s => StateOk arr nf p w' ∧ w'.rob = w.rob ∧ Fresher arr nf w' s ∧ w.rob.message_id < s.message_id
      | .err _ => StateOk arr nf p w' ∧ w'.rob = w.rob ∧ (nf → w'.ker.udpRx = [])
      | _ => StateWeak arr nf w') ?_ ?_
    · unfold receive_newer
      refine loop_post (fun l w' => StateOk arr nf p w' ∧ w'.rob = w.rob ∧
        ∀ s, l = some s → Fresher arr nf w' s ∧ w.rob.message_id < s.message_id) ⟨h1, h2, h3⟩ ?_ (fun _ _ hx => hx.1.toStateWeak)
      rintro l w2 ⟨g1, g2, g3⟩
      cases l with
      | some s => exact ⟨g1, g2, g3 s rfl⟩
      | none =>
        simp only
        refine (state_receive w2 g1).bind ?_
        rintro r w3 ⟨hu, hr⟩
        cases r with
        | ok s =>
          have hok : StateOk arr nf p w3 := hr.2.2
          simp only [after_ok, post_bind, post_gets, post_ite, post_pure, round_inl]
          rw [hu.rob, g2]
          refine ⟨fun hlt => ⟨hok, rfl, fun s' hs' => ?_⟩, fun _ => ⟨hok, rfl, fun s' hs' => by cases hs'⟩⟩
          cases hs'
          exact ⟨hr.2.1, hlt⟩
        | err e => exact ⟨hr.1, hu.rob.trans g2, hr.2⟩
        | panic m => exact hr
        | blocked => exact hr
    rintro r w2 hr
    cases r with
    | ok s =>
      obtain ⟨g1, g2, g3, g4⟩ := hr
      unfold update_state_with
      simp only [after_ok, post_bind, post_modify, post_emit, post_pure]
      refine ⟨⟨⟨?_, fun hx => ?_, fun hx hn ho => ?_, ?_⟩, ?_, ?_, g1.nofail, g1.ready, ?_, fun h => absurd hp h⟩, g4⟩
      · have : accepted [Ev.accepted s] = [s] := rfl
        rw [accepted_append, this, List.pairwise_append]
        refine ⟨g1.ids, List.pairwise_singleton _ _, ?_⟩
        intro a ha b hb
        rw [List.mem_singleton.1 hb]
        have := g1.last a ha
        rw [g2] at this
        exact UInt64.lt_of_le_of_lt this g4
      · exact (before_snoc _ _ _).2 ⟨g1.single hx, by intro s' hs'; cases hs'; exact g3.single hx⟩
      · exact (before_snoc _ _ _).2 ⟨g1.newest hx hn ho, by intro s' hs'; cases hs'; exact g3.newest hx hn ho⟩
      · exact (before_snoc _ _ _).2 ⟨g1.sent, by intro a c he; cases he⟩
      · have : datagrams [Ev.accepted s] = [] := rfl
        rw [datagrams_append, this, List.append_nil]; exact g1.conserve
      · have : accepted [Ev.accepted s] = [s] := rfl
        intro a ha
        rw [accepted_append, this, List.mem_append] at ha
        rcases ha with ha | ha
        · have := g1.last a ha
          rw [g2] at this
          exact UInt64.le_of_lt (UInt64.lt_of_le_of_lt this g4)
        · rw [List.mem_singleton.1 ha]; exact UInt64.le_refl _
      · have : datagrams [Ev.accepted s] = [] := rfl
        rw [datagrams_append, this, List.append_nil]; exact g1.addr
    | err e => exact hr
    | panic m => exact hr
    | blocked => exact hr
  | err e => exact hr.elim
  | panic m => exact hr
  | blocked => exact hr

theorem keeps_receive_state : Keeps (StateOk arr nf True) (StateWeak arr nf) (receive_robot_state : Prog F (RobotStateIntern F)) := by
  intro w h
  refine (state_update w trivial h).mono ?_
  intro r w' hr
  cases r with
  | ok s => exact hr.1
  | err e => exact hr.1
  | panic m => exact hr
  | blocked => exact hr

theorem keeps_discard_state : Keeps (StateOk arr nf p) (StateWeak arr nf) (discard_available : Prog F Unit) := by
  unfold discard_available
  refine Keeps.loop (fun _ h => h.toStateWeak) (fun _ => Keeps.bind ?_ fun o => ?_) _
  · intro w h
    refine (state_try w h).mono ?_
    rintro r w' ⟨-, hr⟩
    cases r with
    | ok o => cases o <;> exact hr.1
    | err e => exact hr.elim
    | panic m => exact hr
    | blocked => exact hr
  · cases o <;> exact Keeps.pure _

variable [Fl F]

instance : KeepTcp (StateOk (F := F) arr nf p) (StateWeak arr nf) where
  weak _ h := h.toStateWeak
  tick := StateOk.tick
  tcp := Keeps.of_pres (fun _ h => h.toStateWeak) (pres_tcp_read_from_buffer (T := StateRel arr nf p))
  remove id := Keeps.of_pres (fun _ h => h.toStateWeak) (pres_remove_response (T := StateRel arr nf p) id)

theorem keeps_state_request (b : RobotBody F) : Keeps (StateOk arr nf p) (StateWeak arr nf) (sendRequest b) :=
  Keeps.of_pres (fun _ h => h.toStateWeak) (pres_sendRequest (T := StateRel arr nf p) b)

instance : KeepRobot (StateOk (F := F) arr nf True) (StateWeak arr nf) where
  request b _ := keeps_state_request b
  start cm mm a b := by
    refine keeps_start_motion (I := StateOk arr nf True) (J := StateWeak arr nf) cm mm a b (fun m => keeps_state_request _)
      (keeps_update_none keeps_receive_state ?_) (keeps_flush_logger' ?_) ?_
    · intro w l; exact StateOk.same rfl rfl rfl rfl rfl rfl
    · intro w l; exact StateOk.same rfl rfl rfl rfl rfl rfl
    · intro w m c; exact StateOk.same rfl rfl rfl rfl rfl rfl
  receive := keeps_receive_state
  discard := keeps_discard_state
  update m c := keeps_update_some m c (Keeps.of_pres (fun _ h => h.toStateWeak) (pres_send_robot_command (T := StateRel arr nf True) m c))
    keeps_receive_state fun w l => StateOk.same rfl rfl rfl rfl rfl rfl
  flush := keeps_flush_logger' fun w l => StateOk.same rfl rfl rfl rfl rfl rfl
  forget := Keeps.of_pres (fun _ h => h.toStateWeak) (pres_forget_motion (T := StateRel arr nf True))
  cb w e h := by
    rcases h with ⟨k, s, dt, m, rfl⟩ | ⟨s, dt, t, rfl⟩ | ⟨s, b, rfl⟩
    · exact StateOk.event _ rfl rfl rfl rfl rfl rfl rfl
    · exact StateOk.event _ rfl rfl rfl rfl rfl rfl rfl
    · exact StateOk.event _ rfl rfl rfl rfl rfl rfl rfl
  file w f := StateOk.same rfl rfl rfl rfl rfl rfl

theorem StateWeak.empty {w : World F} (h : w.trace = []) : StateWeak arr nf w :=
  ⟨by rw [h]; exact List.Pairwise.nil, fun _ => by rw [h]; exact before_nil _, fun _ _ _ => by rw [h]; exact before_nil _,
    by rw [h]; exact before_nil _⟩

/-- The state stream in every history of a robot. -/
theorem session_states [Geo F] (rc : Option RealtimeConfig) (ls : Option Nat) (cs : List (RobotCall F)) (w : World F) (hw : Fresh w) :
    Post (robotSession rc ls cs) w fun r w' => match r with
      | .ok _ => StateOk (udpArrived w.script) (NoFail w.script) True w'
      | _ => StateWeak (udpArrived w.script) (NoFail w.script) w' := by
  refine post_robotSession (I := StateOk _ _ True) rc ls cs w ?_
  refine post_robot_new (I := StateOk (udpArrived w.script) (NoFail w.script) False) (K := StateOk _ _ True) rc ls w ?_ ?_
    (fun b _ => keeps_state_request b) ?_ ?_
  · intro w' h; exact StateWeak.empty (by rw [h, hw.1])
  · intro t ts r hs
    refine ⟨StateWeak.empty hw.1, ?_, ?_, ?_, ?_, fun h => h.elim, fun _ => by rw [hw.1]; rfl⟩
    · rw [hs, hw.2]
      simp [hw.1, Kernel.arrive]
    · rw [hw.1]; intro s hs; cases hs
    · intro hn; exact hn.suffix (by rw [hs]; exact List.suffix_cons t ts)
    · intro _ hne
      rw [hw.2] at hne ⊢
      simpa [Kernel.arrive] using hne
  · intro w v; exact StateOk.same rfl rfl rfl rfl rfl rfl
  · intro w1 h1
    refine (state_receive w1 h1).mono ?_
    rintro r w2 ⟨hu, hr⟩
    have hacc : accepted w2.trace = [] := by
      obtain ⟨ds, ht⟩ := hu.trace
      rw [ht, accepted_append, accepted_map, List.append_nil]; exact h1.start (fun h => h)
    cases r with
    | ok s =>
      obtain ⟨g1, g2, -⟩ := hr
      have e1 : datagrams [Ev.accepted s] = [] := rfl
      have e2 : accepted [Ev.accepted s] = [s] := rfl
      refine ⟨⟨?_, fun hx => ?_, fun hx hn ho => ?_, ?_⟩, ?_, ?_, g1.nofail, g1.ready, ?_, fun h => absurd trivial h⟩
      · rw [accepted_append, hacc, e2]; exact List.pairwise_singleton _ _
      · exact (before_snoc _ _ _).2 ⟨g1.single hx, by intro s' hs'; cases hs'; exact g2.single hx⟩
      · exact (before_snoc _ _ _).2 ⟨g1.newest hx hn ho, by intro s' hs'; cases hs'; exact g2.newest hx hn ho⟩
      · exact (before_snoc _ _ _).2 ⟨g1.sent, by intro a c he; cases he⟩
      · rw [datagrams_append, e1, List.append_nil]; exact g1.conserve
      · intro a ha
        rw [accepted_append, hacc, e2, List.nil_append, List.mem_singleton] at ha
        rw [ha]; exact UInt64.le_refl _
      · rw [datagrams_append, e1, List.append_nil]; exact g1.addr
    | err e => exact hr.1.toStateWeak
    | panic m => exact hr
    | blocked => exact hr

theorem session_states_weak [Geo F] (rc : Option RealtimeConfig) (ls : Option Nat) (cs : List (RobotCall F)) (w : World F) (hw : Fresh w) :
    StateWeak (udpArrived w.script) (NoFail w.script) (robotSession rc ls cs w).2 :=
  (session_states rc ls cs w hw).always fun r w' h => by cases r; exacts [h.toStateWeak, h, h, h]

end
end Verif
