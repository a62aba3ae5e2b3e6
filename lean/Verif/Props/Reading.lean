import Verif.Spec.Reading
import Verif.Model.Examples
import Verif.Props.CoopSession
import Verif.Lemmas.PlannedTorques
/-!
# Reading states with a callback: C84
-/
set_option linter.unusedSectionVars false
namespace Verif
open Prog Spec

namespace Reading
variable {F : Type} [Fl F] {σ : Type} (cb : σ → RobotState F → σ × Bool)

/-- What the callback has captured after these states. -/
def after (c : σ) (ss : List (RobotStateIntern F)) : σ := ss.foldl (fun c s => (cb c (RobotState.ofIntern s)).1) c

theorem callbackAnswers_append (c : σ) (ss ts : List (RobotStateIntern F)) : callbackAnswers cb c (ss ++ ts) = callbackAnswers cb c ss ++ callbackAnswers cb (after cb c ss) ts := by
  induction ss generalizing c with
  | nil => rfl
  | cons s ss ih => rw [List.cons_append, callbackAnswers, ih]; rfl

theorem after_snoc (c : σ) (ss : List (RobotStateIntern F)) (s : RobotStateIntern F) : after cb c (ss ++ [s]) = (cb (after cb c ss) (RobotState.ofIntern s)).1 := by
  unfold after
  rw [List.foldl_append]
  rfl

theorem answers_states (c : σ) (ss : List (RobotStateIntern F)) : (callbackAnswers cb c ss).map (·.1) = ss := by
  induction ss generalizing c with
  | nil => rfl
  | cons s ss ih => rw [callbackAnswers, List.map_cons, ih]

/-- The loop. -/
structure Inv (w : World F) (c : σ) (ss : List (RobotStateIntern F)) (w' : World F) : Prop where
  seen : visible w'.trace = visible w.trace ++ (callbackAnswers cb c ss).flatMap shownEvents
  newer : (w.rob.message_id :: ss.map (·.message_id)).IsChain (· < ·)
  last : w'.rob.message_id = (ss.getLast?.map (·.message_id)).getD w.rob.message_id

theorem Inv.step {w w1 w2 : World F} {c : σ} {ss : List (RobotStateIntern F)} (h : Inv cb w c ss w1) {s : RobotStateIntern F}
    (h1 : visible w2.trace = visible w1.trace ++ [.accepted s]) (h2 : w2.rob = withState w1.rob s) (h3 : w1.rob.message_id < s.message_id) :
    Inv cb w c (ss ++ [s]) { w2 with trace := w2.trace ++ [.readCb (RobotState.ofIntern s) (cb (after cb c ss) (RobotState.ofIntern s)).2] } where
  seen := by
    rw [visible_append, h1, h.seen, callbackAnswers_append, List.flatMap_append]
    simp only [List.append_assoc]
    rfl
  newer := by
    rw [List.map_append, ← List.cons_append, List.isChain_append]
    refine ⟨h.newer, .singleton _, ?_⟩
    intro x hx y hy
    cases hy
    have hl := h.last
    have : x = w1.rob.message_id := by
      rw [hl]
      cases ss using List.reverseRecOn with
      | nil => cases hx; rfl
      | append_singleton ss t =>
        rw [List.map_append, ← List.cons_append, Option.mem_def, List.map_singleton, List.getLast?_concat] at hx
        rw [List.getLast?_concat]
        exact (Option.some.inj hx).symm
    rw [this]
    exact h3
  last := by
    show w2.rob.message_id = _
    rw [h2, List.getLast?_concat]
    rfl

end Reading
open Reading

section
variable {F : Type} [Fl F] [Wire F] {σ : Type} (cb : σ → RobotState F → σ × Bool) (c : σ) (w : World F)

/-- How `read` ends when the callback gave these answers. -/
def readEnds {F : Type} (l : List (RobotStateIntern F × Bool)) : Res F Unit → Prop
  | .ok _ => ∃ front s, l = front ++ [(s, false)] ∧ ∀ p ∈ front, p.2 = true
  | .err e => (∀ p ∈ l, p.2 = true) ∧ ∃ m, e = .NetworkException m
  | _ => ∀ p ∈ l, p.2 = true

/-- **C84**: `read` does nothing but receive states, each newer than the one before, and show each of them to the callback at once, until the callback does not want to
go on. It returns Ok if and only if the callback ended it. -/
theorem C84_read [Geo F] : ∃ ss : List (RobotStateIntern F), newEvents w (Robot.read cb c w).2 = (callbackAnswers cb c ss).flatMap shownEvents ∧
    (ss.map (·.message_id)).Pairwise (· < ·) ∧ readEnds (callbackAnswers cb c ss) (Robot.read cb c w).1 := by
  have hg : Grows w (Robot.read cb c w).2 := call_grows (.read σ cb c) w
  have key : Post (Robot.read cb c : Prog F Unit) w fun r w' => ∃ ss, visible w'.trace = visible w.trace ++ (callbackAnswers cb c ss).flatMap shownEvents ∧
      (w.rob.message_id :: ss.map (·.message_id)).IsChain (· < ·) ∧ readEnds (callbackAnswers cb c ss) r := by
    unfold Robot.read
    refine loop_post (fun c' w' => ∃ ss, Inv cb w c ss w' ∧ c' = after cb c ss ∧ ∀ p ∈ callbackAnswers cb c ss, p.2 = true)
      ⟨[], ⟨by simp [callbackAnswers], .singleton _, rfl⟩, rfl, nofun⟩ ?_ fun _ _ ⟨ss, h1, _, h2⟩ => ⟨ss, h1.seen, h1.newer, h2⟩
    rintro c1 w1 ⟨ss, h1, rfl, h2⟩
    rw [post_bind]
    refine (update_none_view w1).mono ?_
    rintro r w2 ⟨-, h⟩
    cases r with
    | ok st =>
      obtain ⟨s, rfl, g1, g2, g3⟩ := h
      have h3 := h1.step cb g1 g2 g3
      simp only [after_ok, post_bind, post_emit]
      cases hcb : (cb (after cb c ss) (RobotState.ofIntern s)).2 with
      | true =>
        rw [hcb] at h3
        refine ⟨ss ++ [s], h3, (after_snoc cb c ss s).symm, ?_⟩
        intro p hp
        rw [callbackAnswers_append] at hp
        rcases List.mem_append.1 hp with hp | hp
        · exact h2 p hp
        · rw [callbackAnswers, callbackAnswers, hcb, List.mem_singleton] at hp
          rw [hp]
      | false =>
        rw [hcb] at h3
        refine ⟨ss ++ [s], h3.seen, h3.newer, callbackAnswers cb c ss, s, ?_, h2⟩
        rw [callbackAnswers_append, callbackAnswers, callbackAnswers, hcb]
    | err e =>
      obtain ⟨g1, g2, g3⟩ := h
      exact ⟨ss, by rw [g1, h1.seen], h1.newer, h2, g3⟩
    | panic m => exact ⟨ss, by rw [h, h1.seen], h1.newer, h2⟩
    | blocked => exact ⟨ss, by rw [h, h1.seen], h1.newer, h2⟩
  obtain ⟨ss, h1, h3, h2⟩ := key
  refine ⟨ss, newEvents_eq hg h1, ?_, h2⟩
  have := h3
  rw [List.isChain_iff_pairwise, List.pairwise_cons] at this
  exact this.2

/-- **C84**, the same for the example echo_robot_state, from connecting to its end: it returns Ok if and only if it could connect and has shown 101 states; it never shows more. -/
theorem C84_echo [Geo F] : ∃ (r : Res F Unit) (w1 : World F), Robot.new none none w = (r, w1) ∧
    ((∀ u, r ≠ .ok u) → (∀ u, (Examples.echo_robot_state w).1 ≠ .ok u) ∧ (Examples.echo_robot_state w).2 = w1) ∧
    (r = .ok () → ∃ ss : List (RobotStateIntern F), (ss.map (·.message_id)).Pairwise (· < ·) ∧ ss.length ≤ 101 ∧
      newEvents w1 (Examples.echo_robot_state w).2 = (callbackAnswers Examples.echo_callback 0 ss).flatMap shownEvents ∧
      ((Examples.echo_robot_state w).1 = .ok () ↔ ss.length = 101)) := by
  obtain ⟨r, w1, hr⟩ : ∃ r w1, Robot.new none none w = (r, w1) := ⟨_, _, rfl⟩
  have e : Examples.echo_robot_state w = Prog.bind (Robot.new none none) (fun _ => Robot.read Examples.echo_callback 0) w := rfl
  unfold Prog.bind at e
  rw [hr] at e
  refine ⟨r, w1, hr, ?_, ?_⟩
  · intro h
    rw [e]
    cases r with
    | ok u => exact absurd rfl (h u)
    | err e => exact ⟨nofun, rfl⟩
    | panic m => exact ⟨nofun, rfl⟩
    | blocked => exact ⟨nofun, rfl⟩
  · rintro rfl
    replace e : Examples.echo_robot_state w = Robot.read Examples.echo_callback 0 w1 := e
    obtain ⟨ss, h1, h2, h3⟩ := C84_read Examples.echo_callback 0 w1
    rw [e]
    have ha : ∀ (ss : List (RobotStateIntern F)) (c : ℕ) (i : ℕ) (p : RobotStateIntern F × Bool), (callbackAnswers Examples.echo_callback c ss)[i]? = some p → p.2 = decide (c + i + 1 ≤ 100) := by
      intro ss
      induction ss with
      | nil => intro c i p hp; cases hp
      | cons s ss ih =>
        intro c i p hp
        cases i with
        | zero => cases hp; rfl
        | succ i =>
          rw [ih (c + 1) i p hp]
          congr 1
          apply propext
          omega
    have hl : (callbackAnswers Examples.echo_callback 0 ss).length = ss.length := by
      conv_rhs => rw [← answers_states Examples.echo_callback 0 ss]
      rw [List.length_map]
    have htrue : ∀ l : List (RobotStateIntern F × Bool), l <+: callbackAnswers Examples.echo_callback 0 ss → (∀ p ∈ l, p.2 = true) → l.length ≤ 100 := by
      intro l hlp hp
      by_contra hlt
      have hi : l[100]? = some l[100] := List.getElem?_eq_getElem (by omega)
      have h4 := ha ss 0 100 l[100] (by obtain ⟨t, ht⟩ := hlp; rw [← ht, List.getElem?_append_left (by omega)]; exact hi)
      rw [hp _ (List.getElem_mem _)] at h4
      exact absurd h4 (by decide)
    refine ⟨ss, h2, ?_, h1, ?_⟩
    · unfold readEnds at h3
      split at h3
      · obtain ⟨front, s, h4, h5⟩ := h3
        have := htrue front ⟨_, h4.symm⟩ h5
        rw [← hl, h4, List.length_append, List.length_singleton]
        omega
      · have := htrue _ (List.prefix_refl _) h3.1
        omega
      · have := htrue _ (List.prefix_refl _) h3
        omega
    · constructor
      · intro hok
        rw [hok] at h3
        obtain ⟨front, s, h4, h5⟩ := h3
        have h6 := htrue front ⟨_, h4.symm⟩ h5
        have h7 := ha ss 0 front.length (s, false) (by rw [h4, List.getElem?_append_right le_rfl, Nat.sub_self]; rfl)
        have h8 := of_decide_eq_false h7.symm
        rw [← hl, h4, List.length_append, List.length_singleton]
        omega
      · intro h100
        cases hr : (Robot.read Examples.echo_callback 0 w1).1 with
        | ok u => rfl
        | err e =>
          rw [hr] at h3
          have := htrue _ (List.prefix_refl _) h3.1
          omega
        | panic m =>
          rw [hr] at h3
          have := htrue _ (List.prefix_refl _) h3
          omega
        | blocked =>
          rw [hr] at h3
          have := htrue _ (List.prefix_refl _) h3
          omega

end

/-! ## Reading happens -/

namespace Reading
variable {F : Type} [Fl F] [Wire F] [Geo F] {σ : Type} {cb : σ → RobotState F → σ × Bool}

theorem robot_responses (ts : List Tick) : responses (Realize.robot (F := F) ts).trace = [(0, Toy.connected)] := by
  have h := Realize.robot_facts (F := F) ts
  generalize Realize.robot (F := F) ts = w at h ⊢
  simp only [Prod.mk.injEq] at h
  exact h.2.2.2.2.2.2.2.1

theorem between_robot (ts : List Tick) : Between 1 (Realize.s1 F) [] ts (Realize.robot ts) := by
  have hidle := Realize.robot_idle (F := F) ts
  exact
    { number := Realize.robot_id ts
      last := Realize.robot_lastState ts
      script := Realize.robot_script ts
      rx := hidle.rx
      eof := hidle.eof
      pending := hidle.pending
      table := fun i hi => by
        cases hx : (Realize.robot (F := F) ts).net.received_responses i with
        | none => rfl
        | some bs =>
          obtain ⟨hk, -⟩ := RobotReachable.alive (Realize.robot_reachable (F := F) ts)
          have := hk.table _ _ hx
          rw [robot_responses, List.mem_singleton] at this
          rw [(Prod.mk.inj this).1] at hi
          exact absurd hi (by decide)
      udp := Realize.robot_udp ts
      ready := fun h => absurd (Realize.robot_udp ts) h }

theorem new_of_session {w0 w : World F} (h : robotSession none none [] w0 = (.ok (), w)) : Robot.new none none w0 = (.ok (), w) := by
  have h' : Prog.bind (Robot.new none none) (fun _ => pure ()) w0 = (.ok (), w) := h
  unfold Prog.bind at h'
  generalize Robot.new none none w0 = x at h' ⊢
  obtain ⟨r, w1⟩ := x
  cases r with
  | ok u => exact h'
  | err e => cases (congrArg Prod.fst h' : Res.err e = Res.ok ())
  | panic m => cases (congrArg Prod.fst h' : (Res.panic m : Res F Unit) = Res.ok ())
  | blocked => cases (congrArg Prod.fst h' : (Res.blocked : Res F Unit) = Res.ok ())

theorem exists_between (ts : List Tick) : ∃ w0 w : World F, Fresh w0 ∧ Robot.new none none w0 = (.ok (), w) ∧ Between 1 (Realize.s1 F) [] ts w := by
  have h1 := Realize.robot_session (F := F) ts
  have h2 := between_robot (F := F) ts
  have h3 := Realize.fresh (F := F) (Toy.handshake ++ ts)
  generalize Realize.robot (F := F) ts = w at h1 h2
  generalize Realize.world (F := F) (Toy.handshake ++ ts) = w0 at h1 h3
  exact ⟨w0, w, h3, new_of_session h1, h2⟩

/-- States that can be sent are read. -/
theorem reads_all {ss : List (RobotStateIntern F)} {sL : RobotStateIntern F} {c : σ} {s : RobotStateIntern F} (hd : ∀ s ∈ ss ++ [sL], ∃ data, HoldsState s data)
    (hn : (s :: (ss ++ [sL])).IsChain fun a b => a.message_id < b.message_id) (ht : ∀ p ∈ callbackAnswers cb c ss, p.2 = true)
    (hf : (cb (after cb c ss) (RobotState.ofIntern sL)).2 = false) :
    ∃ ts tr, Reads cb c s [] ts tr sL ∧ tr = (callbackAnswers cb c (ss ++ [sL])).flatMap shownEvents := by
  induction ss generalizing c s with
  | nil =>
    obtain ⟨data, hdata⟩ := hd sL (by simp)
    obtain ⟨ts, h1, h2⟩ := Realize.arrives hdata
    refine ⟨ts, _, .last h1 h2 (by simpa using hn) hf, ?_⟩
    simp only [List.nil_append, callbackAnswers, List.flatMap_cons, List.flatMap_nil, shownEvents, List.append_nil]
    rw [show (cb c (RobotState.ofIntern sL)).2 = false from hf]
  | cons t ss ih =>
    obtain ⟨data, hdata⟩ := hd t (by simp)
    obtain ⟨ts, h1, h2⟩ := Realize.arrives hdata
    rw [List.cons_append, List.isChain_cons_cons] at hn
    have h3 : (cb c (RobotState.ofIntern t)).2 = true := ht _ List.mem_cons_self
    obtain ⟨ts', tr, h4, h5⟩ := ih (c := (cb c (RobotState.ofIntern t)).1) (fun s hs => hd s (List.mem_cons_of_mem _ hs)) hn.2 (fun p hp => ht p (List.mem_cons_of_mem _ hp)) hf
    refine ⟨_, _, .more h1 h2 hn.1 h3 h4, ?_⟩
    rw [h5, List.cons_append, callbackAnswers, List.flatMap_cons, h3]
    rfl

theorem alike_shown {l : List (RobotStateIntern F × Bool)} {es : List (Ev F)} (h : List.Forall₂ Alike (l.flatMap shownEvents) es) : l.flatMap shownEvents = es := by
  induction l generalizing es with
  | nil => cases h; rfl
  | cons p l ih =>
    rw [List.flatMap_cons] at h ⊢
    cases h with
    | cons a1 h =>
      cases h with
      | cons a2 h =>
        have e := ih h
        rw [← e]
        unfold Alike at a1 a2
        dsimp only at a1 a2
        subst a1 a2
        rfl

theorem read_from {w : World F} {s sL : RobotStateIntern F} {c : σ} {ts : List Tick} {l : List (RobotStateIntern F × Bool)} (hb : Between 1 s [] ts w)
    (h : Reads cb c s [] ts (l.flatMap shownEvents) sL) : (Robot.read cb c w).1 = .ok () ∧ newEvents w (Robot.read cb c w).2 = l.flatMap shownEvents := by
  obtain ⟨k1, -, es, k2, k3⟩ := read_did (ts := []) h (w := w) (id := 1) (by rw [List.append_nil]; exact hb)
  refine ⟨k1, ?_⟩
  exact (newEvents_eq (call_grows (.read σ cb c) w) k2).trans (alike_shown k3).symm

end Reading

/-- **C84**: whenever the robot sends these states one after the other, and the callback wants to go on until the last one, `read` shows them and returns Ok. -/
theorem C84_happens {F : Type} [Fl F] [Wire F] [Geo F] {σ : Type} (cb : σ → RobotState F → σ × Bool) (c : σ) {ss : List (RobotStateIntern F)} {front : List (RobotStateIntern F × Bool)}
    {sL : RobotStateIntern F} (hd : ∀ s ∈ ss, ∃ data, HoldsState s data) (h1 : ∀ s ∈ ss, 1 < s.message_id) (hn : (ss.map (·.message_id)).Pairwise (· < ·))
    (hl : callbackAnswers cb c ss = front ++ [(sL, false)]) (ht : ∀ p ∈ front, p.2 = true) :
    ∃ w0 w, Fresh w0 ∧ Robot.new none none w0 = (.ok (), w) ∧ (Robot.read cb c w).1 = .ok () ∧ newEvents w (Robot.read cb c w).2 = (callbackAnswers cb c ss).flatMap shownEvents := by
  have hss := answers_states cb c ss
  rw [hl, List.map_append] at hss
  obtain ⟨ts, tr, g1, g2⟩ := reads_all (cb := cb) (c := c) (s := Realize.s1 F) (ss := front.map (·.1)) (sL := sL) (by rw [show front.map (·.1) ++ [sL] = ss from hss]; exact hd)
    (by
      rw [show front.map (·.1) ++ [sL] = ss from hss, List.isChain_iff_pairwise, List.pairwise_cons]
      · refine ⟨fun s hs => ?_, List.pairwise_map.1 hn⟩
        rw [Realize.s1_id]
        exact h1 s hs)
    (by
      have := hl
      rw [← hss, callbackAnswers_append] at this
      have h3 := (List.append_inj_left' this rfl)
      rw [h3]
      exact ht)
    (by
      have := hl
      rw [← hss, callbackAnswers_append] at this
      have h3 := (List.append_inj_right' this rfl)
      simp only [List.map_singleton, callbackAnswers, List.cons.injEq, Prod.mk.injEq, true_and, and_true] at h3
      exact h3)
  rw [g2, show front.map (·.1) ++ [sL] = ss from hss] at g1
  obtain ⟨w0, w, hw, hn, hb⟩ := exists_between (F := F) ts
  obtain ⟨k1, k2⟩ := read_from hb g1
  exact ⟨w0, w, hw, hn, k1, k2⟩

namespace Reading

/-- The `n`-th of some states. -/
def idle (n : ℕ) : RobotStateIntern UInt64 := loadedState (UInt64.ofNat (n + 2)) (fun _ => Fl.lit 0) (Fl.lit 0) .Idle .Other .Idle

theorem idle_id {n : ℕ} (h : n < 1000) : (idle n).message_id.toNat = n + 2 := by
  show (UInt64.ofNat (n + 2)).toNat = _
  rw [UInt64.toNat_ofNat', Nat.mod_eq_of_lt (by omega)]

theorem echo_answers {F : Type} [Fl F] (ss : List (RobotStateIntern F)) (c : ℕ) (h : c + ss.length ≤ 100) : callbackAnswers Examples.echo_callback c ss = ss.map (·, true) := by
  induction ss generalizing c with
  | nil => rfl
  | cons s ss ih =>
    rw [List.length_cons] at h
    rw [callbackAnswers, List.map_cons]
    have h1 : (Examples.echo_callback c (RobotState.ofIntern s)).2 = true := decide_eq_true (by omega)
    have h2 : (Examples.echo_callback c (RobotState.ofIntern s)).1 = c + 1 := rfl
    rw [h1, h2, ih (c + 1) (by omega)]

theorem echo_after {F : Type} [Fl F] (ss : List (RobotStateIntern F)) (c : ℕ) : after Examples.echo_callback c ss = c + ss.length := by
  induction ss generalizing c with
  | nil => rfl
  | cons s ss ih =>
    show after Examples.echo_callback (c + 1) ss = _
    rw [ih, List.length_cons]
    omega

end Reading

/-- The example echo_robot_state can return Ok, so 101 states are shown. -/
example [Geo UInt64] : ∃ w : World UInt64, Fresh w ∧ (Examples.echo_robot_state w).1 = .ok () := by
  have hf : callbackAnswers Examples.echo_callback 0 ((List.range 100).map idle ++ [idle 100]) = ((List.range 100).map idle).map (·, true) ++ [(idle 100, false)] := by
    rw [callbackAnswers_append, echo_answers _ _ (by simp), echo_after]
    simp only [List.length_map, List.length_range]
    rw [callbackAnswers, callbackAnswers]
    have h1 : (Examples.echo_callback (0 + 100) (RobotState.ofIntern (idle 100))).2 = false := by unfold Examples.echo_callback; simp
    rw [h1]
  have hm : ∀ s ∈ (List.range 100).map idle ++ [idle 100], ∃ n ≤ 100, s = idle n := by
    intro s hs
    rcases List.mem_append.1 hs with hs | hs
    · obtain ⟨n, hn, rfl⟩ := List.mem_map.1 hs
      exact ⟨n, (List.mem_range.1 hn).le, rfl⟩
    · exact ⟨100, le_rfl, List.mem_singleton.1 hs⟩
  obtain ⟨w0, w, h1, h2, h3, -⟩ := C84_happens (F := UInt64) Examples.echo_callback 0 (ss := (List.range 100).map idle ++ [idle 100]) (sL := idle 100)
    (front := ((List.range 100).map idle).map (·, true))
    (by
      intro s hs
      obtain ⟨n, -, rfl⟩ := hm s hs
      exact loadedState_holds rfl (fun _ => rfl) rfl)
    (by
      intro s hs
      obtain ⟨n, hn, rfl⟩ := hm s hs
      rw [UInt64.lt_iff_toNat_lt, idle_id (by omega)]
      show 1 < _
      omega)
    (by
      have e : (List.range 100).map idle ++ [idle 100] = (List.range 101).map idle := by
        rw [List.range_succ (n := 100), List.map_append, List.map_singleton]
      rw [e, List.map_map, List.pairwise_map]
      refine (List.pairwise_lt_range (n := 101)).imp_of_mem ?_
      intro a b ha hb hab
      rw [List.mem_range] at ha hb
      show (idle a).message_id < (idle b).message_id
      rw [UInt64.lt_iff_toNat_lt, idle_id (by omega), idle_id (by omega)]
      omega)
    hf (by intro p hp; obtain ⟨s, -, rfl⟩ := List.mem_map.1 hp; rfl)
  refine ⟨w0, h1, ?_⟩
  have e : Examples.echo_robot_state w0 = Prog.bind (Robot.new none none) (fun _ => Robot.read Examples.echo_callback 0) w0 := rfl
  unfold Prog.bind at e
  rw [h2] at e
  rw [e]
  exact h3

end Verif
