import Verif.Lemmas.LogSession
import Verif.Lemmas.Protocol
import Verif.Lemmas.ToyMotion
/-!
# The log of a control exception: C39, C40, C59

`cycles` of a list of events are the pairs of a command and the state received after it. The history before the call is `robotSession rc ls cs`: the
log size is `ls`, or 50 if none is given.
-/
set_option linter.unusedSectionVars false
namespace Verif
open Prog Spec
variable {F : Type}

theorem Logger.record_shows (p : RobotState F × RobotCommand F) : Shows (Logger.record p.1 p.2) p := ⟨rfl, rfl, rfl, rfl, rfl, rfl⟩

theorem shows_map (ps : List (RobotState F × RobotCommand F)) : List.Forall₂ Shows (ps.map fun p => Logger.record p.1 p.2) ps := by
  induction ps with
  | nil => exact .nil
  | cons p ps ih => exact .cons (Logger.record_shows p) ih

section
variable [Fl F]

theorem cycles_break (tr1 tr2 : List (Ev F)) {r} : cycles (tr1 ++ Ev.robotReq r :: tr2) = cycles tr1 ++ cycles tr2 := by
  induction tr1 using cycles.induct with
  | case1 a c s tr ih => simp only [List.cons_append, cycles, ih]
  | case2 x tr h ih =>
    rw [List.cons_append, cycles.eq_2 _ _ ?_, cycles.eq_2 _ _ h, ih]
    rintro a1 c1 s1 tr1 rfl h2
    cases tr with
    | nil => simp at h2
    | cons y tr => simp only [List.cons_append, List.cons.injEq] at h2; exact h a1 c1 s1 tr rfl (by rw [h2.1])
  | case3 => rfl

theorem cycles_accepted (tr : List (Ev F)) (h : ∀ e ∈ tr, ∃ s, e = .accepted s) : cycles tr = [] := by
  induction tr with
  | nil => rfl
  | cons e tr ih =>
    obtain ⟨s, rfl⟩ := h _ List.mem_cons_self
    exact ih fun e he => h e (List.mem_cons_of_mem _ he)

theorem forall2_mem {α β : Type} {R : α → β → Prop} {l : List α} {m : List β} (h : List.Forall₂ R l m) {x : α} (hx : x ∈ l) : ∃ y ∈ m, R x y := by
  induction h with
  | nil => cases hx
  | cons h1 h2 ih =>
    rcases List.mem_cons.1 hx with rfl | hr
    · exact ⟨_, List.mem_cons_self, h1⟩
    · obtain ⟨p, hp, hsh⟩ := ih hr
      exact ⟨p, List.mem_cons_of_mem _ hp, hsh⟩

theorem cycles_suffix_subset (tr1 tr2 : List (Ev F)) : cycles tr2 ⊆ cycles (tr1 ++ tr2) := by
  induction tr1 using cycles.induct with
  | case1 a c s tr ih =>
    simp only [List.cons_append, cycles]
    exact fun p hp => List.mem_cons_of_mem _ (ih hp)
  | case2 x tr h ih =>
    intro p hp
    have := ih hp
    rw [List.cons_append]
    by_cases hx : ∃ a c s t, x = .udpSend a c ∧ tr ++ tr2 = .accepted s :: t
    · obtain ⟨a, c, s, t, rfl, ht⟩ := hx
      rw [ht] at this ⊢
      exact List.mem_cons_of_mem _ this
    · rw [cycles.eq_2]
      · exact this
      · rintro a1 c1 s1 t1 rfl h2
        exact hx ⟨a1, c1, s1, t1, rfl, h2⟩
  | case3 => exact fun p hp => hp

/-- What a logger made for `L` pairs returns after logging the pairs `ps`. -/
theorem loggedBy_eq {L : Nat} {l : Logger F} {q ps : List (RobotState F × RobotCommand F)} {log : List (Record F)} (hl : Arises L l) (hq : l.Holds q)
    (h : LoggedBy l ps log) :
    log = ((((q ++ ps).drop (ps.length - L)).take (min ps.length L)).rotate (ps.length % L)).map fun p => Logger.record p.1 p.2 := by
  obtain ⟨old, l0, l1, l2, h1, h2, h3⟩ := h
  obtain ⟨hL, ⟨q', hq', hk⟩, hr⟩ := hl.ok
  rw [Logger.flush_eq hq' hk] at h1
  cases h1
  have hq0 : ({ l with ring_front := 0, ring_size := 0 } : Logger F).Holds q := ⟨hq.states, hq.commands⟩
  rcases Nat.eq_zero_or_pos L with h0 | h0
  · cases ps with
    | nil =>
      cases h2
      rw [Logger.flush_eq hq0 (Nat.zero_le _)] at h3
      cases h3
      simp
    | cons p ps =>
      rw [List.foldlM_cons] at h2
      have e : ({ l with ring_front := 0, ring_size := 0 } : Logger F).log p.1 p.2 = .error "attempt to calculate the remainder with a divisor of zero" := by
        unfold Logger.log
        simp only [hL, h0, if_true]
      rw [e] at h2
      cases h2
  · obtain ⟨l1', g1, g2, g3, g4, g5⟩ := Logger.logAll hq0 rfl rfl (by show 0 < l.log_size; rw [hL]; exact h0) ps
    rw [h2] at g1
    cases g1
    have hsize : ({ l with ring_front := 0, ring_size := 0 } : Logger F).log_size = L := hL
    rw [hsize] at g2 g3 g4
    rw [Logger.flush_eq g2 (by rw [g4, List.length_drop, List.length_append]; omega), g3, g4] at h3
    cases h3
    rfl

variable [Wire F] [Geo F] {rc : Option RealtimeConfig} {ls : Option Nat} {cs : List (RobotCall F)} {w0 w : World F} (hw0 : Fresh w0)
  (hs : robotSession rc ls cs w0 = (.ok (), w)) {c : RobotCall F} {σ : Type} {k : MotionKind} {call : ControlCall F σ k} {c0 : σ}
  (hc : IsControl c call c0) {log : List (Record F)} {text : String} (herr : (c.run w).1 = .err (.ControlException (some log) text))
include hw0 hs hc herr

/-- **C39**, what the code does. The log of a control call that returns a `ControlException` is taken from the pairs of the call and from pairs `old`
of earlier calls that are still there, as follows: all of them are written one after the other, as many as there are pairs of the call in excess of the
log size are removed at the front, from the rest as many as there are pairs of the call, but at most as the log size, are taken from the front, and the
result is rotated by the number of pairs of the call modulo the log size. -/
theorem C39_log : ∃ old, old.Sublist (cycles (visible w.trace)) ∧
    let ps := cycles (newEvents w (c.run w).2)
    let L := ls.getD 50
    List.Forall₂ Shows log ((((old ++ ps).drop (ps.length - L)).take (min ps.length L)).rotate (ps.length % L)) := by
  have hw : RobotReachable w := ⟨rc, ls, cs, w0, hw0, hs⟩
  obtain ⟨ha, q, hq, hsub⟩ : LogOk (ls.getD 50) w := by
    have := session_log rc ls cs w0 hw0
    unfold Post at this
    rw [hs] at this
    exact this
  refine ⟨q, hsub, ?_⟩
  obtain ⟨s0, ph, -, -, -, -, h⟩ := control_events hw hc
  rw [herr] at h
  obtain ⟨-, ⟨-, -, m, he⟩ | ⟨s, -, -, hf⟩ | ⟨s, -, hst⟩⟩ := h
  · cases he
  · cases hf with
    | network m he => cases he
    | rejected bs status rest msg _ _ _ he => rcases he with he | he <;> cases he
  · obtain ⟨tr1, ph1, hd, tr2, e1, -, -, -, hrun, hfail⟩ := hst.events
    cases hfail with
    | network m _ he => cases he
    | aborted bs status rest log' text' _ _ _ he _ hlog =>
      cases he
      have e2 : cycles (newEvents w (c.run w).2) = cycles tr1 := by
        rw [e1, cycles_break, cycles_accepted tr2, List.append_nil]
        exact (run_from_stopping hrun).2
      dsimp only
      rw [e2, loggedBy_eq ha hq hlog]
      exact shows_map _

/-- **C39**, the number of records: as many as there are pairs of the call, but at most the log size. -/
theorem C39_length : log.length = min (cycles (newEvents w (c.run w).2)).length (ls.getD 50) := by
  obtain ⟨old, -, h⟩ := C39_log hw0 hs hc herr
  have := h.length_eq
  rw [this, List.length_rotate, List.length_take, List.length_drop, List.length_append]
  omega

/-- **C39**, if no commands were sent before the call and the number of pairs of the call is at most the log size or a multiple of it: the log holds
the last pairs of the call in their order. Missing: other numbers of pairs, for which the log begins in the middle (`C39_rotated`), and later motions,
whose log holds pairs of earlier motions (`C39_stale`). -/
theorem C39_first_motion_partial (hfirst : cycles (visible w.trace) = [])
    (hn : (cycles (newEvents w (c.run w).2)).length ≤ ls.getD 50 ∨ ls.getD 50 ∣ (cycles (newEvents w (c.run w).2)).length) :
    List.Forall₂ Shows log (lastOf (ls.getD 50) (cycles (newEvents w (c.run w).2))) := by
  obtain ⟨old, hold, h⟩ := C39_log hw0 hs hc herr
  rw [hfirst] at hold
  cases List.sublist_nil.1 hold
  dsimp only at h
  rw [List.nil_append] at h
  unfold lastOf
  generalize cycles (newEvents w (c.run w).2) = ps at *
  rw [List.take_of_length_le (by rw [List.length_drop]; omega)] at h
  have e : (ps.drop (ps.length - ls.getD 50)).rotate (ps.length % ls.getD 50) = ps.drop (ps.length - ls.getD 50) := by
    rcases hn with hn | hn
    · rcases Nat.eq_or_lt_of_le hn with he | hl
      · rw [he, Nat.mod_self, List.rotate_zero]
      · rw [Nat.mod_eq_of_lt hl, Nat.sub_eq_zero_of_le hn, List.drop_zero, List.rotate_length]
    · rw [Nat.mod_eq_zero_of_dvd hn, List.rotate_zero]
  rwa [e] at h

/-- **C59.** Every record of the log shows a pair of a command that was sent and the state that was received after it, in this or in an earlier call of
this object. -/
theorem C59_records_are_real : ∀ r ∈ log, ∃ p ∈ cycles (visible (c.run w).2.trace), Shows r p := by
  intro r hr
  obtain ⟨old, hold, h⟩ := C39_log hw0 hs hc herr
  dsimp only at h
  obtain ⟨p, hp, hsh⟩ := forall2_mem h hr
  refine ⟨p, ?_, hsh⟩
  rw [List.mem_rotate] at hp
  have hp := List.mem_of_mem_drop (List.mem_of_mem_take hp)
  have hv := newEvents_of_grows (call_grows c w)
  rcases List.mem_append.1 hp with hp | hp
  · exact (cycles_prefix (by rw [hv]; exact List.prefix_append _ _)).subset (hold.subset hp)
  · rw [hv]
    exact cycles_suffix_subset _ _ hp

end

/-! ## The cases in which C39 fails -/

namespace Toy

/-- The robot is stopped with the emergency button in the third cycle. -/
def emergency : List Tick := moving ++ [quiet] ++ st 6 0 3 4 ++ ans 1 1 7 ++ halted

/-- A second motion after `finished`, which is stopped with the emergency button in the second cycle. -/
def second : List Tick := finished ++ [quiet] ++ ans 1 2 1 ++ [quiet] ++ st 8 1 0 2 ++ st 9 1 0 2 ++ cycle 10 ++ [quiet] ++ st 11 0 3 4 ++ ans 1 2 7 ++
  ([quiet] ++ ans 2 3 0 ++ st 12 0 3 1 ++ [quiet])

/-- The time and the first joint of a record. -/
def showR (r : Record UInt64) : Nat × Nat := (r.state.time, (r.command.joint_positions.q 0).toNat)
/-- The time and the first joint of a pair. -/
def showP (p : RobotState UInt64 × RobotCommand UInt64) : Nat × Nat := (p.1.time, (p.2.motion.q_c 0).toNat)

/-- The log of a call. -/
def logOf : Res UInt64 Unit → Option (List (Record UInt64))
  | .err (.ControlException l _) => l
  | _ => none

/-- The log and the pairs of a call. -/
def logShown (c : RobotCall UInt64) (w : World UInt64) : Option (List (Nat × Nat)) × List (Nat × Nat) :=
  ((logOf (c.run w).1).map (·.map showR), (cycles (newEvents w (c.run w).2)).map showP)

/-- After the first motion of `second`. -/
def secondRobot : World UInt64 := (robotSession none (some 5) [call 2] (world (handshake ++ second))).2

theorem secondRobot_ok : (robotSession none (some 5) [call 2] (world (handshake ++ second))).1 = .ok () := by kernel_rfl

theorem ordered_shown : logShown (call 9) (robotL 3 emergency) = (some [(4, 0), (5, 7), (6, 14)], [(4, 0), (5, 7), (6, 14)]) := by kernel_rfl
theorem rotated_shown : logShown (call 9) (robotL 2 emergency) = (some [(6, 14), (5, 7)], [(4, 0), (5, 7), (6, 14)]) := by kernel_rfl
theorem stale_shown : logShown (call 9) secondRobot = (some [(4, 0), (5, 7)], [(10, 0), (11, 7)]) := by kernel_rfl

theorem logOf_some {r : Res UInt64 Unit} {l : List (Record UInt64)} (h : logOf r = some l) : ∃ m, r = .err (.ControlException (some l) m) := by
  rcases r with _ | e | _ | _ <;> try (cases h)
  cases e <;> cases h
  exact ⟨_, rfl⟩

/-- Records that show pairs show the same times and joints. -/
theorem showR_of {l : List (Record UInt64)} {ps : List (RobotState UInt64 × RobotCommand UInt64)} (h : List.Forall₂ Shows l ps) : l.map showR = ps.map showP := by
  induction h with
  | nil => rfl
  | cons h1 _ ih =>
    rw [List.map_cons, List.map_cons, ih]
    congr 1
    unfold showR showP
    rw [h1.state, h1.joint_positions]

/-- A log with other times and joints than the last pairs. -/
theorem log_of {c : RobotCall UInt64} {w : World UInt64} {a b : List (Nat × Nat)} (h : logShown c w = (some a, b)) :
    ∃ log text, (c.run w).1 = .err (.ControlException (some log) text) ∧ log.map showR = a ∧ (cycles (newEvents w (c.run w).2)).map showP = b := by
  unfold logShown at h
  obtain ⟨h1, h2⟩ := Prod.mk.injEq .. ▸ h
  rw [Option.map_eq_some_iff] at h1
  obtain ⟨l, h3, h4⟩ := h1
  obtain ⟨m, hm⟩ := logOf_some h3
  exact ⟨l, m, hm, h4, h2⟩

theorem lastOf_map {α β : Type} (f : α → β) (L : Nat) (l : List α) : (lastOf L l).map f = lastOf L (l.map f) := by
  unfold lastOf
  rw [List.map_drop, List.length_map]

end Toy

open Toy

/-- **C39** is false in general: with more pairs than the log holds, the log begins in the middle. Here the log size is 2, the motion is the first of
this object and has three pairs, and the log shows the third and then the second. -/
theorem C39_rotated : ∃ (w0 w : World UInt64) (log : List (Record UInt64)) (text : String), Fresh w0 ∧ robotSession none (some 2) [] w0 = (.ok (), w) ∧
    ((call 9).run w).1 = .err (.ControlException (some log) text) ∧ cycles (visible w.trace) = [] ∧
    ¬ List.Forall₂ Shows log (lastOf 2 (cycles (newEvents w ((call 9).run w).2))) := by
  obtain ⟨log, text, h1, h2, h3⟩ := log_of rotated_shown
  refine ⟨world (handshake ++ emergency), robotL 2 emergency, log, text, fresh _ _ _, eq_pair (robotL_ok 2 emergency), h1, by kernel_rfl, fun h => ?_⟩
  have := showR_of h
  rw [lastOf_map, h2, h3] at this
  exact absurd this (by decide)

/-- **C39** is false in general: the log of a second motion shows pairs of the first. Here the log size is 5, the second motion has two pairs, and its
log shows the first two pairs of the first motion. -/
theorem C39_stale : ∃ (w0 w : World UInt64) (log : List (Record UInt64)) (text : String), Fresh w0 ∧ robotSession none (some 5) [call 2] w0 = (.ok (), w) ∧
    ((call 9).run w).1 = .err (.ControlException (some log) text) ∧
    ¬ List.Forall₂ Shows log (lastOf 5 (cycles (newEvents w ((call 9).run w).2))) ∧
    ∀ r ∈ log, ∀ p ∈ cycles (newEvents w ((call 9).run w).2), ¬ Shows r p := by
  obtain ⟨log, text, h1, h2, h3⟩ := log_of stale_shown
  refine ⟨world (handshake ++ second), secondRobot, log, text, fresh _ _ _, eq_pair secondRobot_ok, h1, fun h => ?_, fun r hr p hp h => ?_⟩
  · have := showR_of h
    rw [lastOf_map, h2, h3] at this
    exact absurd this (by decide)
  · have g1 : showR r ∈ [(4, 0), (5, 7)] := h2 ▸ List.mem_map_of_mem hr
    have g2 : showP p ∈ [(10, 0), (11, 7)] := h3 ▸ List.mem_map_of_mem hp
    have e : showR r = showP p := by unfold showR showP; rw [h.state, h.joint_positions]
    rw [e] at g1
    generalize showP p = x at *
    simp only [List.mem_cons, List.not_mem_nil, or_false] at g1 g2
    rcases g1 with rfl | rfl <;> rcases g2 with g2 | g2 <;> exact absurd g2 (by decide)

/-- The hypotheses of `C39_log`, `C39_length`, `C39_first_motion_partial` and `C59_records_are_real` are met by a motion with three pairs and a log size of 3. -/
example : ∃ (w0 w : World UInt64) (log : List (Record UInt64)) (text : String), Fresh w0 ∧ robotSession none (some 3) [] w0 = (.ok (), w) ∧
    IsControl (call 9) (asked 9) 0 ∧ ((call 9).run w).1 = .err (.ControlException (some log) text) ∧ cycles (visible w.trace) = [] ∧
    (cycles (newEvents w ((call 9).run w).2)).length = 3 ∧ log.map showR = [(4, 0), (5, 7), (6, 14)] := by
  obtain ⟨log, text, h1, h2, h3⟩ := log_of ordered_shown
  refine ⟨world (handshake ++ emergency), robotL 3 emergency, log, text, fresh _ _ _, eq_pair (robotL_ok 3 emergency), call_control 9, h1, by kernel_rfl, ?_, h2⟩
  rw [← List.length_map (f := showP), h3]
  rfl

/-! ## C40 -/

section
variable {F : Type} {L : Nat} {l : Logger F}

/-- **C40** for a positive log size: a logger logs every pair and returns its records, without a panic; after that it still holds as many states as
commands, of which at most the log size belong to the current motion. Missing: the log size zero, for which logging panics (`C40_size_zero`), and the
bound of the memory, which is false (`C40_unbounded`). -/
theorem C40_total_partial (hL : 0 < L) (h : Arises L l) (s : RobotState F) (c : RobotCommand F) :
    (∃ l', l.log s c = .ok l') ∧ (∃ r l', l.flush = .ok (r, l') ∧ r.length ≤ L) ∧ l.states.length = l.commands.length := by
  obtain ⟨h1, ⟨q, hq, hk⟩, h2⟩ := h.ok
  obtain ⟨l', g, -⟩ := Logger.log_eq hq (by rw [h1]; exact hL) s c
  refine ⟨⟨l', g⟩, ⟨_, _, Logger.flush_eq hq hk, ?_⟩, by rw [hq.states, hq.commands, List.length_map, List.length_map]⟩
  rw [List.length_map, List.length_rotate, List.length_take]
  omega

/-- **C40** during the first motion: after any number of pairs and no flush, a logger with a positive log size holds the last pairs, at most as many as
the log size. -/
theorem C40_first_motion (hL : 0 < L) (ps : List (RobotState F × RobotCommand F)) :
    ∃ l : Logger F, ps.foldlM (fun l p => l.log p.1 p.2) (Logger.new L) = .ok l ∧ l.states = (lastOf L ps).map (·.1) ∧ l.commands = (lastOf L ps).map (·.2) ∧
      l.states.length ≤ L := by
  obtain ⟨l, h1, h2, -⟩ := Logger.logAll (l0 := (Logger.new L : Logger F)) (q := []) ⟨rfl, rfl⟩ rfl rfl hL ps
  refine ⟨l, h1, h2.states, h2.commands, ?_⟩
  rw [h2.states]
  show (List.map _ (List.drop (ps.length - L) ([] ++ ps))).length ≤ L
  rw [List.nil_append, List.length_map, List.length_drop]
  omega

/-- **C40** in every later motion: logging `n` pairs after a flush adds at most `min n L` pairs to what the logger holds. -/
theorem C40_motion (hL : 0 < L) (h : Arises L l) (ps : List (RobotState F × RobotCommand F)) :
    ∃ r l0 l1, l.flush = .ok (r, l0) ∧ ps.foldlM (fun l p => l.log p.1 p.2) l0 = .ok l1 ∧ l1.states.length = l.states.length + min ps.length L := by
  obtain ⟨h1, ⟨q, hq, hk⟩, h2⟩ := h.ok
  obtain ⟨l1, g1, g2, -⟩ := Logger.logAll (l0 := { l with ring_front := 0, ring_size := 0 }) (q := q) ⟨hq.states, hq.commands⟩ rfl rfl (by rw [← h1] at hL; exact hL) ps
  refine ⟨_, _, l1, Logger.flush_eq hq hk, g1, ?_⟩
  rw [g2.states, hq.states, List.length_map, List.length_map, List.length_drop, List.length_append]
  show _ - (_ - l.log_size) = _
  rw [h1]
  omega

/-- **C40** is false for the log size zero: logging panics, with every pair and after every history. -/
theorem C40_size_zero (h : Arises 0 l) (s : RobotState F) (c : RobotCommand F) : ∃ m, l.log s c = .error m := by
  refine ⟨"attempt to calculate the remainder with a divisor of zero", ?_⟩
  unfold Logger.log
  simp only [h.ok.log_size, if_true]

/-- **C40** is false for the memory: after enough motions a logger holds as many states as one likes. -/
theorem C40_unbounded (hL : 0 < L) (s : RobotState F) (c : RobotCommand F) (m : Nat) : ∃ l : Logger F, Arises L l ∧ l.states.length = m := by
  induction m with
  | zero => exact ⟨_, .new, rfl⟩
  | succ m ih =>
    obtain ⟨l, h, hm⟩ := ih
    obtain ⟨r, l0, l1, h1, h2, h3⟩ := C40_motion hL h [(s, c)]
    have e : l0.log s c = .ok l1 := by
      rw [List.foldlM_cons] at h2
      cases e : l0.log s c with
      | error m => rw [e] at h2; cases h2
      | ok l' => rw [e] at h2; exact h2
    refine ⟨l1, (h.flush r h1).log s c e, ?_⟩
    rw [h3, hm, List.length_singleton, Nat.min_eq_left hL]

end

/-- **C40** is false for a log size that a user may pass: the first command of a motion ends in a panic. -/
theorem C40_size_zero_reached : ∃ (w0 w : World UInt64) (m : String), Fresh w0 ∧ robotSession none (some 0) [] w0 = (.ok (), w) ∧ ((call 9).run w).1 = .panic m :=
  ⟨world (handshake ++ reflex), robotL 0 reflex, _, fresh _ _ _, eq_pair (robotL_ok 0 reflex), panic_of (res_of noLog_shown)⟩

/-- **C40** is false for the memory of a Robot object, which grows with its motions: with log size 5, after a motion with four pairs and one with two there are six. -/
theorem C40_unbounded_reached : (robotSession none (some 5) [call 2, call 9] (world (handshake ++ second))).1 = .ok () ∧
    (robotSession none (some 5) [call 2, call 9] (world (handshake ++ second))).2.rob.logger.states.length = 6 := ⟨by kernel_rfl, by kernel_rfl⟩

end Verif
