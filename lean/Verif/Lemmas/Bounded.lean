import Verif.Lemmas.Progress
import Verif.Spec.Bounded
/-!
# System calls of the functions that receive states

Each of them is paid for by a datagram that is read, up to a constant.
-/
set_option linter.unusedSectionVars false
namespace Verif
open Prog Spec
variable {F : Type}

/-- The system calls that are left, and eight for every datagram that was read. -/
def value (w : World F) : Int := w.script.length + 8 * (datagrams w.trace).length

/-- The datagrams read and to be read. -/
def allDatagrams (w : World F) : Nat := (datagrams w.trace).length + w.ker.udpRx.length + (udpArrived w.script).length

/-- The step from `w` to `w'` costs at most `n`; if it waits for ever the schedule has ended. -/
structure Paid (n : Int) {α : Type} (w : World F) (r : Res F α) (w' : World F) : Prop where
  cost : value w ≤ value w' + n
  all : allDatagrams w' = allDatagrams w
  ends : r = .blocked → w'.script = []
  shorter : w'.script.length ≤ w.script.length
  reads : (datagrams w.trace).length ≤ (datagrams w'.trace).length

theorem Paid.same {α : Type} {w w' : World F} {r : Res F α} {es : List (Ev F)} (h1 : w'.script = w.script) (h2 : w'.ker.udpRx = w.ker.udpRx) (h3 : w'.trace = w.trace ++ es)
    (h4 : datagrams es = []) (h5 : r ≠ .blocked) : Paid 0 w r w' := by
  refine ⟨?_, ?_, fun h => absurd h h5, ?_, ?_⟩
  · simp [value, h1, h3, h4]
  · simp [allDatagrams, h1, h2, h3, h4]
  · simp [h1]
  · simp [h3]

theorem Paid.mono {n n' : Int} {α : Type} {w w' : World F} {r : Res F α} (h : Paid n w r w') (hn : n ≤ n') : Paid n' w r w' :=
  ⟨by have := h.cost; omega, h.all, h.ends, h.shorter, h.reads⟩

theorem Paid.trans {n n' : Int} {α β : Type} {w w1 w2 : World F} {r : Res F α} {r' : Res F β} (h : Paid n w r w1) (h' : Paid n' w1 r' w2) : Paid (n + n') w r' w2 :=
  ⟨by have := h.cost; have := h'.cost; omega, by rw [h'.all, h.all], h'.ends, h'.shorter.trans h.shorter, h.reads.trans h'.reads⟩

theorem Paid.res {n : Int} {α β : Type} {w w' : World F} {r : Res F α} {r' : Res F β} (h : Paid n w r w') (hr : r' = .blocked → r = .blocked) : Paid n w r' w' :=
  ⟨h.cost, h.all, fun e => h.ends (hr e), h.shorter, h.reads⟩

theorem Paid.fin {n n' : Int} {α β : Type} {w w' : World F} {r : Res F α} {r' : Res F β} (h : Paid n w r w') (hn : n ≤ n') (hr : r' = .blocked → r = .blocked) :
    Paid n' w r' w' := (h.mono hn).res hr

theorem Paid.keep {n : Int} {α β : Type} {w w1 w2 : World F} {r : Res F α} {r' : Res F β} (h : Paid n w r w1) (h1 : w2.script = w1.script)
    (h2 : w2.ker.udpRx = w1.ker.udpRx) (h3 : datagrams w2.trace = datagrams w1.trace) (h5 : r' ≠ .blocked) : Paid n w r' w2 := by
  refine ⟨?_, ?_, fun h => absurd h h5, ?_, ?_⟩
  · have := h.cost; unfold value at *; rw [h1, h3]; exact this
  · rw [← h.all]; unfold allDatagrams; rw [h1, h2, h3]
  · rw [h1]; exact h.shorter
  · rw [h3]; exact h.reads

/-- Closes a goal `r' = .blocked → r = .blocked` for known results. -/
macro "nb" : tactic => `(tactic| first | exact fun _ => rfl | (intro h; cases h))

theorem paid_sys (w : World F) : Post (sys : Prog F Tick) w fun r w' => Paid 1 w r w' ∧ w'.trace = w.trace := by
  rw [post_sys]
  refine ⟨fun h => ⟨⟨by omega, rfl, fun _ => h, le_refl _, le_refl _⟩, rfl⟩, fun t ts h => ⟨⟨?_, ?_, fun e => by simp at e, ?_, ?_⟩, rfl⟩⟩
  · simp [value, h]; omega
  · simp [allDatagrams, h, Kernel.arrive]; omega
  · simp [h]
  · simp

section
variable [Fl F] [Wire F]

/-- What receiving a datagram costs: seven are gained if there is one. -/
theorem paid_recv (b : Bytes) (w : World F) : Post (recv_from b) w fun r w' =>
    match r with
    | .ok (some _) => Paid (-7) w r w'
    | _ => Paid 1 w r w' := by
  unfold recv_from
  rw [post_bind]
  refine (paid_sys w).mono ?_
  rintro r w1 ⟨h, ht⟩
  cases r with
  | ok t =>
    simp only [after_ok, post_ite, post_pure, post_bind, post_gets]
    refine ⟨fun _ => h.res (by nb), fun _ => ?_⟩
    cases hd : w1.ker.udpRx with
    | nil => exact h.res (by nb)
    | cons d ds =>
      simp only [post_bind, post_modify, after_ok, post_emit, post_pure]
      refine ⟨?_, ?_, by simp, h.shorter, ?_⟩
      · have := h.cost
        simp [value, datagrams] at this ⊢
        omega
      · rw [← h.all]
        simp [allDatagrams, hd, datagrams]
        omega
      · have := h.reads
        simp [datagrams] at this ⊢
        omega
  | err e => exact h.res (by nb)
  | panic m => exact h.res (by nb)
  | blocked => exact h.res (by nb)

theorem paid_drain (b : Bytes) (w : World F) : Post (udp_drain b) w (Paid 1 w) := by
  unfold udp_drain
  refine loop_post' (fun _ w' => Paid 0 w (.ok () : Res F Unit) w') consumes_udp_drain (.same (es := []) rfl rfl (by simp) rfl (by simp)) ?_
  intro b w1 h
  rw [post_bind]
  refine (paid_recv b w1).mono ?_
  intro r w2 hr
  cases r with
  | ok o =>
    cases o with
    | none => exact (h.trans hr).fin (by omega) (by nb)
    | some x => exact (h.trans hr).fin (by omega) (by nb)
  | err e => exact (h.trans hr).fin (by omega) (by nb)
  | panic m => exact (h.trans hr).fin (by omega) (by nb)
  | blocked => exact (h.trans hr).fin (by omega) (by nb)

theorem paid_poll (w : World F) : Post (udp_poll : Prog F Bool) w (Paid 1 w) := by
  unfold udp_poll
  rw [post_bind]
  refine (paid_sys w).mono ?_
  rintro r w1 ⟨h, ht⟩
  cases r with
  | ok t =>
    simp only [after_ok, post_ite, post_panic, post_pure, post_bind, post_gets, post_modify]
    exact ⟨fun _ => h.res (by nb), fun _ => h.keep rfl rfl rfl (by intro h; cases h)⟩
  | err e => exact h.res (by nb)
  | panic m => exact h.res (by nb)
  | blocked => exact h.res (by nb)

/-- Five are gained if a datagram is received, and otherwise three are lost. -/
theorem paid_blocking_receive {α : Type} (c : Codec α) (n : Nat) (w : World F) : Post (udp_blocking_receive c n) w fun r w' =>
    match r with
    | .ok _ => Paid (-5) w r w'
    | _ => Paid 3 w r w' := by
  unfold udp_blocking_receive
  rw [post_bind]
  refine (paid_poll w).mono ?_
  intro r w1 h
  cases r with
  | ok e =>
    rw [after_ok, post_ite]
    refine ⟨fun _ => ?_, fun _ => h.fin (by omega) (by nb)⟩
    rw [post_bind]
    refine (paid_recv _ w1).mono ?_
    intro r w2 h2
    cases r with
    | ok o =>
      rw [after_ok]
      cases o with
      | none =>
        rw [post_bind]
        refine (paid_drain _ w2).mono ?_
        intro r w3 h3
        cases r with
        | ok _ => exact ((h.trans h2).trans h3).fin (by omega) (by nb)
        | err e => exact ((h.trans h2).trans h3).fin (by omega) (by nb)
        | panic m => exact ((h.trans h2).trans h3).fin (by omega) (by nb)
        | blocked => exact ((h.trans h2).trans h3).fin (by omega) (by nb)
      | some x =>
        obtain ⟨buf, k, src⟩ := x
        simp only [post_bind]
        refine (paid_drain _ w2).mono ?_
        intro r w3 h3
        have h123 := (h.trans h2).trans h3
        cases r with
        | ok buf' =>
          simp only [after_ok, post_bind, post_modify, post_ite, post_err]
          have h4 : Paid (-5) w (.ok () : Res F Unit) { w3 with net := { w3.net with udp_server_address := src } } :=
            (h123.mono (by omega)).keep rfl rfl rfl (by simp)
          refine ⟨fun _ => h4.fin (by omega) (by nb), fun _ => ?_⟩
          unfold deserialize
          cases c.dec buf' with
          | none => exact h4.fin (by omega) (by nb)
          | some x => exact h4.res (by nb)
        | err e => exact h123.fin (by omega) (by nb)
        | panic m => exact h123.fin (by omega) (by nb)
        | blocked => exact h123.fin (by omega) (by nb)
    | err e => exact (h.trans h2).fin (by omega) (by nb)
    | panic m => exact (h.trans h2).fin (by omega) (by nb)
    | blocked => exact (h.trans h2).fin (by omega) (by nb)
  | err e => exact h.fin (by omega) (by nb)
  | panic m => exact h.fin (by omega) (by nb)
  | blocked => exact h.fin (by omega) (by nb)

theorem paid_peek (n : Nat) (w : World F) : Post (udp_peek n : Prog F _) w (Paid 1 w) := by
  unfold udp_peek
  rw [post_bind]
  refine (paid_sys w).mono ?_
  rintro r w1 ⟨h, ht⟩
  cases r with
  | ok t =>
    simp only [after_ok, post_ite, post_pure, post_bind, post_gets]
    refine ⟨fun _ => h.res (by nb), fun _ => ?_⟩
    cases hd : w1.ker.udpRx with
    | nil => exact h.res (by nb)
    | cons d ds => exact h.res (by nb)
  | err e => exact h.res (by nb)
  | panic m => exact h.res (by nb)
  | blocked => exact h.res (by nb)

theorem paid_receive {α : Type} (c : Codec α) (n : Nat) (w : World F) : Post (udp_receive c n) w fun r w' =>
    match r with
    | .ok (some _) => Paid (-4) w r w'
    | _ => Paid 4 w r w' := by
  unfold udp_receive
  rw [post_bind]
  refine (paid_peek n w).mono ?_
  intro r w1 h
  cases r with
  | ok o =>
    rw [after_ok]
    cases o with
    | none => exact h.fin (by omega) (by nb)
    | some k =>
      simp only [post_ite, post_pure]
      refine ⟨fun _ => ?_, fun _ => h.fin (by omega) (by nb)⟩
      simp only [post_bind, post_attempt]
      refine (paid_blocking_receive c n w1).mono ?_
      intro r w2 h2
      cases r with
      | ok a => exact (h.trans h2).fin (by omega) (by nb)
      | err e => exact (h.trans h2).fin (by omega) (by nb)
      | panic m => exact (h.trans h2).fin (by omega) (by nb)
      | blocked => exact (h.trans h2).fin (by omega) (by nb)
  | err e => exact h.fin (by omega) (by nb)
  | panic m => exact h.fin (by omega) (by nb)
  | blocked => exact h.fin (by omega) (by nb)

theorem paid_available (w : World F) : Post (receive_available : Prog F _) w fun r w' =>
    match r with
    | .ok (some _) => Paid 0 w r w'
    | _ => Paid 4 w r w' := by
  unfold receive_available
  refine loop_post' (fun l w' => match l with
    | some _ => Paid (-4) w (.ok () : Res F Unit) w'
    | none => Paid 0 w (.ok () : Res F Unit) w') consumes_receive_available (.same (es := []) rfl rfl (by simp) rfl (by simp)) ?_
  intro l w1 h
  have h0 : Paid 0 w (.ok () : Res F Unit) w1 := by
    cases l with
    | none => exact h
    | some x => exact h.mono (by omega)
  rw [post_bind]
  refine (paid_receive _ _ w1).mono ?_
  intro r w2 h2
  cases r with
  | ok o =>
    rw [after_ok]
    cases o with
    | none =>
      cases l with
      | none => exact (h.trans h2).fin (by omega) (by nb)
      | some x => exact (h.trans h2).fin (by omega) (by nb)
    | some s =>
      simp only [post_bind, post_gets, after_ok, post_ite, post_pure, round_inl]
      refine ⟨fun _ => (h0.trans h2).fin (by omega) (by nb), fun _ => ?_⟩
      cases l with
      | none => exact (h.trans h2).fin (by omega) (by nb)
      | some x => exact (h.trans h2).fin (by omega) (by nb)
  | err e => exact (h0.trans h2).fin (by omega) (by nb)
  | panic m => exact (h0.trans h2).fin (by omega) (by nb)
  | blocked => exact (h0.trans h2).fin (by omega) (by nb)

theorem paid_newer (w : World F) (l : Option (RobotStateIntern F)) : Post (receive_newer l : Prog F _) w fun r w' =>
    match r with
    | .ok _ => if l.isSome then Paid 0 w r w' else Paid (-5) w r w'
    | _ => Paid 3 w r w' := by
  unfold receive_newer
  refine loop_post' (fun l' w' => Paid 0 w (.ok () : Res F Unit) w' ∧ (l' = l ∨ Paid (-5) w (.ok () : Res F Unit) w')) consumes_receive_newer
    ⟨.same (es := []) rfl rfl (by simp) rfl (by simp), .inl rfl⟩ ?_
  rintro l' w1 ⟨h0, h⟩
  cases l' with
  | some s =>
    simp only [post_pure, round_inr]
    cases l with
    | some x => exact h0.res (by nb)
    | none => exact (h.resolve_left (by simp)).res (by nb)
  | none =>
    simp only [post_bind]
    refine (paid_blocking_receive _ _ w1).mono ?_
    intro r w2 h2
    cases r with
    | ok s =>
      have h5 : Paid (-5) w (.ok () : Res F Unit) w2 := (h0.trans h2).fin (by omega) (by nb)
      simp only [after_ok, post_bind, post_gets, post_ite, post_pure, round_inl]
      exact ⟨fun _ => ⟨h5.mono (by omega), .inr h5⟩, fun _ => ⟨h5.mono (by omega), .inr h5⟩⟩
    | err e => exact (h0.trans h2).fin (by omega) (by nb)
    | panic m => exact (h0.trans h2).fin (by omega) (by nb)
    | blocked => exact (h0.trans h2).fin (by omega) (by nb)

/-- A state that is received pays for itself. -/
theorem paid_state (w : World F) : Post (receive_robot_state : Prog F (RobotStateIntern F)) w fun r w' =>
    match r with
    | .ok _ => Paid 0 w r w'
    | _ => Paid 7 w r w' := by
  unfold receive_robot_state
  rw [post_bind]
  refine (paid_available w).mono ?_
  intro r w1 h
  cases r with
  | ok l =>
    rw [after_ok, post_bind]
    refine (paid_newer w1 l).mono ?_
    intro r w2 h2
    cases r with
    | ok s =>
      simp only [after_ok, post_bind, update_state_with, post_modify, post_emit, post_pure]
      have h3 : Paid 0 w (.ok () : Res F Unit) w2 := by
        cases l with
        | none => exact (h.trans h2).fin (by omega) (by nb)
        | some x => exact (h.trans h2).fin (by omega) (by nb)
      exact h3.keep rfl rfl (by simp [datagrams]) (by simp)
    | err e => cases l <;> exact (h.trans h2).fin (by omega) (by nb)
    | panic m => cases l <;> exact (h.trans h2).fin (by omega) (by nb)
    | blocked => cases l <;> exact (h.trans h2).fin (by omega) (by nb)
  | err e => exact h.fin (by omega) (by nb)
  | panic m => exact h.fin (by omega) (by nb)
  | blocked => exact h.fin (by omega) (by nb)

end
end Verif
