import Verif.Lemmas.Reach
import Verif.Lemmas.Layout
import Verif.Spec.Udp
/-!
# Receiving datagrams
-/
set_option linter.unusedSectionVars false
namespace Verif
open Prog Spec
variable {F : Type}

/-! ## Order of events -/

theorem before_nil (P : List (Ev F) → Ev F → Prop) : Before P [] := by
  intro pre e post h; cases pre <;> cases h

theorem before_snoc (P : List (Ev F) → Ev F → Prop) (tr : List (Ev F)) (e : Ev F) :
    Before P (tr ++ [e]) ↔ Before P tr ∧ P tr e := by
  constructor
  · intro h
    refine ⟨?_, h tr e [] rfl⟩
    intro pre x post hx
    exact h pre x (post ++ [e]) (by rw [hx]; simp)
  · rintro ⟨h, he⟩ pre x post hx
    rcases List.eq_nil_or_concat post with rfl | ⟨post', y, rfl⟩
    · have hx' : tr ++ [e] = pre ++ [x] := hx
      obtain ⟨rfl, h2⟩ := List.append_inj' hx' rfl
      cases h2
      exact he
    · rw [List.concat_eq_append] at hx
      have hx' : tr ++ [e] = (pre ++ x :: post') ++ [y] := by rw [hx]; simp
      obtain ⟨h1, -⟩ := List.append_inj' hx' rfl
      exact h pre x post' h1

theorem before_append {P : List (Ev F) → Ev F → Prop} {tr : List (Ev F)} (h : Before P tr) (es : List (Ev F))
    (he : ∀ e ∈ es, ∀ pre, P pre e) : Before P (tr ++ es) := by
  induction es generalizing tr with
  | nil => simpa using h
  | cons e es ih =>
    have : tr ++ e :: es = (tr ++ [e]) ++ es := by simp
    rw [this]
    exact ih ((before_snoc P tr e).2 ⟨h, he e (by simp) tr⟩) fun x hx => he x (by simp [hx])

/-! ## The buffer -/

/-- A buffer after a datagram was written into it. -/
def fill (b : Bytes) (d : Datagram) : Bytes := d.data.take (min d.data.length b.length) ++ b.drop (min d.data.length b.length)

theorem fill_length (b : Bytes) (d : Datagram) : (fill b d).length = b.length := by
  simp only [fill, List.length_append, List.length_take, List.length_drop]; omega

theorem fill_exact (b : Bytes) (d : Datagram) (h : d.data.length = b.length) : fill b d = d.data := by
  simp [fill, h, List.take_of_length_le]

theorem fold_exact (b : Bytes) (d : Datagram) (ds : List Datagram) (h : ∀ e ∈ d :: ds, e.data.length = b.length) :
    ds.foldl fill (fill b d) = ((d :: ds).getLast (by simp)).data := by
  induction ds generalizing b d with
  | nil => exact fill_exact b d (h d (by simp))
  | cons e ds ih =>
    rw [List.foldl_cons, ih (fill b d) e (by intro x hx; rw [fill_length]; exact h x (by simp [hx]))]
    rw [List.getLast_cons (a := d) (by simp)]

/-! ## Steps -/

/-- Receiving datagrams changes nothing but the reply address and the sockets. -/
structure UdpStep (w w' : World F) : Prop where
  rob : w'.rob = w.rob
  cfg : w'.cfg = w.cfg
  file : w'.model_file = w.model_file
  net : w'.net = { w.net with udp_server_address := w'.net.udp_server_address }
  trace : ∃ ds : List Datagram, w'.trace = w.trace ++ ds.map .udpRecv

theorem UdpStep.same {w w' : World F} (h1 : w'.rob = w.rob) (h2 : w'.cfg = w.cfg) (h3 : w'.model_file = w.model_file)
    (h4 : w'.net = w.net) (h5 : w'.trace = w.trace) : UdpStep w w' :=
  ⟨h1, h2, h3, by rw [h4], [], by simp [h5]⟩

instance : Pre (UdpStep (F := F)) where
  refl _ := UdpStep.same rfl rfl rfl rfl rfl
  trans := by
    rintro a b c ⟨h1, h2, h3, h4, ds, h5⟩ ⟨g1, g2, g3, g4, es, g5⟩
    exact ⟨g1.trans h1, g2.trans h2, g3.trans h3, by rw [g4, h4], ds ++ es, by rw [g5, h5]; simp⟩

instance : TUdp (UdpStep (F := F)) where
  tick _ _ _ _ := UdpStep.same rfl rfl rfl rfl rfl
  upoll _ := UdpStep.same rfl rfl rfl rfl rfl
  recv _ d _ _ := ⟨rfl, rfl, rfl, rfl, [d], rfl⟩
  addr _ _ := ⟨rfl, rfl, rfl, rfl, [], by simp⟩

theorem datagrams_map (ds : List Datagram) : datagrams (ds.map .udpRecv : List (Ev F)) = ds := by
  induction ds with
  | nil => rfl
  | cons d ds ih => simp only [datagrams, List.map_cons, List.filterMap_cons] at ih ⊢; rw [ih]

theorem accepted_map (ds : List Datagram) : accepted (ds.map .udpRecv : List (Ev F)) = [] := by
  induction ds with
  | nil => rfl
  | cons d ds ih => simpa only [accepted, List.map_cons, List.filterMap_cons] using ih

theorem visible_map (ds : List Datagram) : visible (ds.map .udpRecv : List (Ev F)) = [] := by
  simp [visible, List.filter_eq_nil_iff, isUdpEv]

theorem UdpStep.visible {w w' : World F} (h : UdpStep w w') : visible w'.trace = visible w.trace := by
  obtain ⟨ds, h⟩ := h.trace
  rw [h, visible_append, visible_map, List.append_nil]

/-- Only a suffix of the schedule remains. -/
def Suffix (w w' : World F) : Prop := w'.script <:+ w.script

instance : Pre (Suffix (F := F)) := ⟨fun _ => List.suffix_refl _, fun h g => g.trans h⟩
instance : TUdp (Suffix (F := F)) where
  tick w t ts h := by unfold Suffix; rw [h]; exact List.suffix_cons t ts
  upoll _ := List.suffix_refl _
  recv _ _ _ _ := List.suffix_refl _
  addr _ _ := List.suffix_refl _

theorem Spec.NoFail.suffix {s s' : List Tick} (h : NoFail s) (hs : s' <:+ s) : NoFail s' := fun t ht => h t (hs.subset ht)

theorem recv_from_spec (b : Bytes) (w : World F) : Post (recv_from b) w fun r w' =>
    match r with
    | .ok none => w'.trace = w.trace ∧ w'.net = w.net ∧ (NoFail w.script → w'.ker.udpRx = [] ∧ w.ker.udpRx = [])
    | .ok (some (b', n, src)) => ∃ d, w'.trace = w.trace ++ [.udpRecv d] ∧ b' = fill b d ∧ n = min d.data.length b.length ∧
        src = d.src ∧ w'.net = w.net
    | .blocked => True
    | _ => False := by
  unfold recv_from
  simp only [post_bind, post_sys]
  refine ⟨fun _ => trivial, ?_⟩
  intro t ts hs
  simp only [after_ok, post_ite, post_pure, post_bind, post_gets]
  refine ⟨fun hf => ⟨trivial, trivial, fun hn => ?_⟩, fun _ => ?_⟩
  · exact absurd (hn t (by rw [hs]; simp)) (by simp [hf])
  · cases h : (w.ker.arrive t).udpRx with
    | nil =>
      refine ⟨rfl, rfl, fun _ => ⟨h, ?_⟩⟩
      simp only [Kernel.arrive, List.append_eq_nil_iff] at h
      exact h.1
    | cons d ds => exact ⟨d, rfl, rfl, rfl, rfl, rfl⟩

theorem udp_drain_spec (b : Bytes) (w : World F) : Post (udp_drain b) w fun r w' =>
    match r with
    | .ok b' => ∃ ds : List Datagram, w'.trace = w.trace ++ ds.map .udpRecv ∧ b' = ds.foldl fill b ∧ w'.net = w.net ∧
        (NoFail w.script → w'.ker.udpRx = [])
    | .blocked => True
    | _ => False := by
  unfold udp_drain
  refine loop_post (fun b' w1 => ∃ ds : List Datagram, w1.trace = w.trace ++ ds.map .udpRecv ∧ b' = ds.foldl fill b ∧ w1.net = w.net ∧
    w1.script <:+ w.script) ⟨[], by simp, rfl, rfl, List.suffix_refl _⟩ ?_ (fun _ _ _ => trivial)
  rintro b1 w1 ⟨ds, h1, h2, h3, h4⟩
  have hs : Pres Suffix (recv_from b1 : Prog F _) := pres_recv_from b1
  refine ((recv_from_spec b1 w1).and (hs.post w1)).bind ?_
  rintro r w2 ⟨h, h5⟩
  cases r with
  | ok o =>
    cases o with
    | none =>
      obtain ⟨g1, g2, g3⟩ := h
      exact ⟨ds, g1.trans h1, h2, g2.trans h3, fun hn => (g3 (hn.suffix h4)).1⟩
    | some p =>
      obtain ⟨b', n, src⟩ := p
      obtain ⟨d, g1, rfl, -, -, g2⟩ := h
      exact ⟨ds ++ [d], g1.trans (by rw [h1]; simp), by simp [h2], g2.trans h3, h5.trans h4⟩
  | err e => exact h.elim
  | panic m => exact h.elim
  | blocked => trivial

/-- The error of a receive that found nothing. -/
def udpTimeout : FrankaException F := .NetworkException "libfranka-rs: UDP receive: timeout"

theorem size_error_ne (k n : Nat) : (.NetworkException s!"UDP object could not be received: object has {k} bytes but it should have {n} bytes" :
    FrankaException F) ≠ udpTimeout := by
  intro h
  have h1 := congrArg (fun s => s.toList.head?) (FrankaException.NetworkException.inj h)
  simp [String.toList_append, toString] at h1

/-- What `udp_blocking_receive` returns. -/
theorem blocking_receive_spec {α : Type} (c : Codec α) (n : Nat) (w : World F) : Post (udp_blocking_receive c n) w fun r w' =>
    match r with
    | .ok a => ∃ d ds rest, w'.trace = w.trace ++ (d :: ds).map .udpRecv ∧ n ≤ d.data.length ∧
        c.dec (ds.foldl fill (fill (List.replicate n 0) d)) = some (a, rest) ∧ w'.net.udp_server_address = d.src ∧
        (NoFail w.script → w'.ker.udpRx = [])
    | .err e => (e = udpTimeout ∧ w'.trace = w.trace ∧ w'.net = w.net ∧ (Ready w → w'.ker.udpRx = [])) ∨
        (∃ d ds, w'.trace = w.trace ++ (d :: ds).map .udpRecv ∧ d.data.length < n ∧ w'.net.udp_server_address = d.src ∧
          (NoFail w.script → w'.ker.udpRx = []) ∧ e ≠ udpTimeout) ∨
        (¬ NoFail w.script ∧ e = .NetworkException ioErrorText ∧ w'.net = w.net)
    | _ => True := by
  unfold udp_blocking_receive udp_poll
  simp only [post_bind, post_sys]
  refine ⟨fun _ => trivial, ?_⟩
  intro t ts hs
  simp only [after_ok, post_ite, post_panic, after_panic, post_bind, post_gets, post_modify, post_pure, post_err, Bool.not_eq_true]
  refine ⟨fun _ => trivial, fun _ => ⟨fun he => ?_, fun he => ?_⟩⟩
  · have hne : (w.ker.arrive t).udpRx ≠ [] := by
      simp only [Bool.and_eq_true, Bool.not_eq_true', List.isEmpty_eq_false_iff] at he
      exact he.2
    have hsuf : ts <:+ w.script := by rw [hs]; exact List.suffix_cons t ts
    have hs1 : Pres Suffix (recv_from (List.replicate n 0) : Prog F _) := pres_recv_from _
    refine ((recv_from_spec _ _).and (hs1.post _)).mono ?_
    rintro r w1 ⟨h, h5⟩
    have h5' : w1.script <:+ w.script := List.IsSuffix.trans h5 hsuf
    cases r with
    | ok o =>
      rw [after_ok]
      cases o with
      | none =>
        obtain ⟨g1, g2, g3⟩ := h
        simp only [post_bind]
        refine (udp_drain_spec _ w1).mono ?_
        intro r w2 h
        cases r with
        | ok b =>
          obtain ⟨ds, k1, -, k3, k4⟩ := h
          simp only [after_ok, post_err]
          refine .inr (.inr ⟨fun hn => ?_, trivial, k3.trans g2⟩)
          exact hne (g3 (hn.suffix hsuf)).2
        | err e => exact h.elim
        | panic m => trivial
        | blocked => trivial
      | some p =>
        obtain ⟨b', k, src⟩ := p
        obtain ⟨d, g1, rfl, rfl, rfl, g2⟩ := h
        simp only [post_bind]
        refine (udp_drain_spec _ w1).mono ?_
        intro r w2 h
        cases r with
        | ok b =>
          obtain ⟨ds, k1, rfl, k3, k4⟩ := h
          simp only [after_ok, post_bind, post_modify, List.length_replicate, post_ite, post_err]
          have htr : w2.trace = w.trace ++ (d :: ds).map .udpRecv := by rw [k1, g1]; simp
          refine ⟨fun hlen => ?_, fun hlen => ?_⟩
          · refine .inr (.inl ⟨d, ds, htr, by omega, rfl, fun hn => k4 (hn.suffix h5'), fun h => ?_⟩)
            exact size_error_ne _ _ h
          · unfold deserialize
            split
            · rename_i a rest hdec
              exact ⟨d, ds, rest, htr, by omega, hdec, rfl, fun hn => k4 (hn.suffix h5')⟩
            · trivial
        | err e => exact h.elim
        | panic m => trivial
        | blocked => trivial
    | err e => exact h.elim
    | panic m => trivial
    | blocked => trivial
  · refine .inl ⟨rfl, trivial, trivial, fun hr => ?_⟩
    show (w.ker.arrive t).udpRx = []
    simp only [Bool.and_eq_false_iff, Bool.not_eq_false', List.isEmpty_iff] at he
    rcases he with he | he
    · simp only [Kernel.arrive, Bool.or_eq_false_iff, Bool.not_eq_false', List.isEmpty_iff] at he ⊢
      have : w.ker.udpRx = [] := by
        by_contra hne
        rw [hr hne] at he
        exact absurd he.1 (by simp)
      simp [this, he.2]
    · exact he

/-- What `udp_receive` returns: nothing, or what `udp_blocking_receive` returns. -/
theorem udp_receive_spec {α : Type} (c : Codec α) (n : Nat) (w : World F) : Post (udp_receive c n) w fun r w' =>
    match r with
    | .ok (some a) => ∃ d ds rest, w'.trace = w.trace ++ (d :: ds).map .udpRecv ∧ n ≤ d.data.length ∧
        c.dec (ds.foldl fill (fill (List.replicate n 0) d)) = some (a, rest) ∧ w'.net.udp_server_address = d.src ∧
        (NoFail w.script → w'.ker.udpRx = [])
    | .ok none => (w'.trace = w.trace ∧ w'.net = w.net ∧ (Ready w → Ready w')) ∨
        (∃ d ds, w'.trace = w.trace ++ (d :: ds).map .udpRecv ∧ d.data.length < n ∧ w'.net.udp_server_address = d.src ∧
          (NoFail w.script → w'.ker.udpRx = [])) ∨
        (¬ NoFail w.script ∧ w'.net = w.net)
    | .err _ => False
    | _ => True := by
  unfold udp_receive udp_peek
  simp only [post_bind, post_sys]
  refine ⟨fun _ => trivial, ?_⟩
  intro t ts hs
  have hready : Ready w → Ready ({ w with script := ts, ker := w.ker.arrive t } : World F) := by
    intro h hne
    simp only [Kernel.arrive, ne_eq, List.append_eq_nil_iff, not_and_or, Bool.or_eq_true, Bool.not_eq_true', List.isEmpty_eq_false_iff]
      at hne ⊢
    rcases hne with hne | hne
    · exact .inl (h hne)
    · exact .inr hne
  have hsuf : ts <:+ w.script := by rw [hs]; exact List.suffix_cons t ts
  simp only [after_ok, post_ite, post_pure, post_bind, post_gets]
  refine ⟨fun _ => .inl ⟨trivial, trivial, hready⟩, fun _ => ?_⟩
  cases h : (w.ker.arrive t).udpRx with
  | nil => exact .inl ⟨rfl, rfl, hready⟩
  | cons d ds =>
    simp only [post_pure, after_ok, post_ite, post_bind, post_attempt]
    refine ⟨fun _ => ?_, fun _ => .inl ⟨trivial, trivial, hready⟩⟩
    refine (blocking_receive_spec c n _).mono ?_
    intro r w' hr
    cases r with
    | ok a =>
      obtain ⟨d, ds, rest, h1, h2, h3, h4, h5⟩ := hr
      exact ⟨d, ds, rest, h1, h2, h3, h4, fun hn => h5 (hn.suffix hsuf)⟩
    | err e =>
      rcases hr with ⟨-, h1, h2, h3⟩ | ⟨d, ds, h1, h2, h3, h4, -⟩ | ⟨h1, -, h2⟩
      · exact .inl ⟨h1, h2, fun hr hne => absurd (h3 (hready hr)) hne⟩
      · exact .inr (.inl ⟨d, ds, h1, h2, h3, fun hn => h4 (hn.suffix hsuf)⟩)
      · exact .inr (.inr ⟨fun hn => h1 (hn.suffix hsuf), h2⟩)
    | panic m => trivial
    | blocked => trivial

end Verif
