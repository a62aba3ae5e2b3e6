import Verif.Lemmas.Smooth
import Verif.Props.Smooth
import Verif.Props.Complete
/-!
Lemmas: control calls whose callback depends on the time only, with a robot that follows. What happens in them is known in advance, and they happen.
-/
set_option linter.unusedSectionVars false
namespace Verif
open Prog Spec

/-- The command before the `n`-th one. -/
def msBefore {F : Type} [Fl F] (ms : ℕ → MotionGeneratorCommand F) : ℕ → MotionGeneratorCommand F
  | 0 => noMotion
  | n + 1 => ms n

/-- The period that is passed in the `n`-th call of the callback. -/
def periodOf : ℕ → ℕ
  | 0 => 0
  | _ + 1 => 1

section
variable {F : Type} [Fl F] [Geo F] {σ : Type} {k : MotionKind}

/-- A plan for a call: the states of the callback, what it returns, and the commands. `R n` holds of the `n`-th state the robot reports. -/
structure IsPlanOf (call : ControlCall F σ k) (c0 : σ) (cs : ℕ → σ) (o : ℕ → Motion F k) (ms : ℕ → MotionGeneratorCommand F) (R : ℕ → RobotState F → Prop) : Prop where
  torque : call.torque = none
  start : cs 0 = c0
  called : ∀ n st, R n st → call.motion (cs n) st (periodOf n) = (cs (n + 1), o n)
  converted : ∀ n st, R n st → (o n).convert_motion st (msBefore ms n) call.cutoff call.limit_rate = .ok (ms n)

/-- The command that is sent in the `n`-th cycle. -/
def sentCmd (o : ℕ → Motion F k) (ms : ℕ → MotionGeneratorCommand F) (n : ℕ) : MotionGeneratorCommand F :=
  if (o n).is_finished then { ms n with motion_generation_finished := true } else ms n

variable {call : ControlCall F σ k} {c0 : σ} {cs : ℕ → σ} {o : ℕ → Motion F k} {ms : ℕ → MotionGeneratorCommand F} {R : ℕ → RobotState F → Prop}

theorem IsPlanOf.turns (hp : IsPlanOf call c0 cs o ms R) {l : List (Turn F σ k)} (hg : GoodTurns call c0 l) (h0 : ∀ x ∈ l.head?, R 0 x.st)
    (hn : ∀ n x x', l[n]? = some x → l[n + 1]? = some x' → x.cmd = sentCmd o ms n → R n x.st → R (n + 1) x'.st ∧ x'.st.time = x.st.time + 1) :
    ∀ n x, l[n]? = some x → x.c = cs n ∧ x.out = o n ∧ x.m = ms n ∧ x.tq = none ∧ x.t = noTorques ∧ x.cmd = sentCmd o ms n ∧ R n x.st ∧
      x.after call = cs (n + 1) := by
  intro n
  induction n with
  | zero =>
    intro x hx
    cases l with
    | nil => cases hx
    | cons a l =>
      cases hx
      have g := hg [] x l rfl
      have hR := h0 x rfl
      have hc : x.c = cs 0 := by rw [g.moved.c, hp.start]; rfl
      have hdt : x.dt = 0 := by rw [g.moved.dt]; exact Nat.sub_self _
      have hcall : call.motion (cs 0) x.st 0 = _ := hp.called 0 _ hR
      have ho := g.moved.out
      rw [hc, hdt, hcall] at ho
      have hm := g.moved.conv
      rw [ho, show mBefore ([] : List (Turn F σ k)) = msBefore ms 0 from rfl, hp.converted 0 _ hR] at hm
      injection hm with hm
      have ht : x.tq = none ∧ x.t = noTorques := by
        rcases g.torque with h | h
        · exact ⟨h.tq, h.t⟩
        · obtain ⟨f, e, -⟩ := h.out
          rw [hp.torque] at e
          cases e
      refine ⟨hc, ho, hm.symm, ht.1, ht.2, ?_, hR, ?_⟩
      · unfold Turn.cmd sentCmd Turn.ended
        rw [ho, ht.1, hm, Option.elim_none, Bool.or_false]
      · unfold Turn.after
        rw [hp.torque, hc, hdt]
        exact congrArg Prod.fst hcall
  | succ n ih =>
    intro x hx
    obtain ⟨hnl, hxe⟩ := List.getElem?_eq_some_iff.1 hx
    have hn1 : n < l.length := by omega
    obtain ⟨i1, i2, i3, i4, i5, i6, i7, i8⟩ := ih l[n] (List.getElem?_eq_getElem hn1)
    obtain ⟨hR, htime⟩ := hn n _ x (List.getElem?_eq_getElem hn1) hx i6 i7
    have g := hg (l.take (n + 1)) x (l.drop (n + 2)) (by rw [← hxe, ← List.drop_eq_getElem_cons hnl, List.take_append_drop])
    have hlast : (l.take (n + 1)).getLast? = some l[n] := by
      rw [List.take_add_one, List.getElem?_eq_getElem hn1, Option.toList_some, List.getLast?_concat]
    have hc : x.c = cs (n + 1) := by rw [g.moved.c, cBefore, hlast]; exact i8
    have hdt : x.dt = 1 := by rw [g.moved.dt, timeBefore, hlast, Option.elim_some, htime]; omega
    have hcall : call.motion (cs (n + 1)) x.st 1 = _ := hp.called (n + 1) _ hR
    have ho := g.moved.out
    rw [hc, hdt, hcall] at ho
    have hm := g.moved.conv
    rw [ho, mBefore, hlast, Option.elim_some, i3, show ms n = msBefore ms (n + 1) from rfl, hp.converted _ _ hR] at hm
    injection hm with hm
    have ht : x.tq = none ∧ x.t = noTorques := by
      rcases g.torque with h | h
      · refine ⟨h.tq, ?_⟩
        rw [h.t, tBefore, hlast, Option.elim_some, i5]
      · obtain ⟨f, e, -⟩ := h.out
        rw [hp.torque] at e
        cases e
    refine ⟨hc, ho, hm.symm, ht.1, ht.2, ?_, hR, ?_⟩
    · unfold Turn.cmd sentCmd Turn.ended
      rw [ho, ht.1, hm, Option.elim_none, Bool.or_false]
    · unfold Turn.after
      rw [hp.torque, hc, hdt]
      exact congrArg Prod.fst hcall

/-- With a robot that follows, the call goes as planned. -/
theorem IsPlanOf.goes [Wire F] (hp : IsPlanOf call c0 cs o ms R) {w : World F} (hw : RobotReachable w) {c : RobotCall F} (hc : IsControl c call c0)
    (h0 : ∀ st x, Exchange w c 0 st x → R 0 st)
    (hn : ∀ n st x st' x', Exchange w c n st x → Exchange w c (n + 1) st' x' → x.motion = sentCmd o ms n → R n st → R (n + 1) st' ∧ st'.time = st.time + 1) :
    ∀ n st x, Exchange w c n st x → R n st ∧ x.motion = sentCmd o ms n ∧ x.control = noTorques ∧ (motionOutputs k (newEvents w (c.run w).2))[n]? = some (o n) ∧
      ∀ j < n, (o j).is_finished = false := by
  obtain ⟨l, pend, h⟩ := call_turns hw hc
  have hex : ∀ (n : ℕ) (y : Turn F σ k), l[n]? = some y → ∃ x, Exchange w c n y.st x ∧ x.motion = y.cmd ∧ x.control = y.t := by
    intro n y hy
    have hpq := congrArg (·[n]?) h.pairs
    simp only [List.getElem?_map, hy, Option.map_some] at hpq
    obtain ⟨q, hq, e⟩ := Option.map_eq_some_iff.1 hpq
    obtain ⟨st, x⟩ := q
    simp only [Prod.mk.injEq] at e
    obtain ⟨rfl, e2, e3⟩ := e
    exact ⟨x, hq, e2, e3⟩
  have key := hp.turns h.good
    (by
      intro y hy
      rw [List.head?_eq_getElem?] at hy
      obtain ⟨x, e1, -⟩ := hex 0 y hy
      exact h0 _ _ e1)
    (by
      intro n y y' hy hy' hcmd hR
      obtain ⟨x, e1, e2, -⟩ := hex n y hy
      obtain ⟨x', e1', -⟩ := hex (n + 1) y' hy'
      exact hn n _ _ _ _ e1 e1' (e2.trans hcmd) hR)
  intro n st x hx
  obtain ⟨t, h1, h2, h3, h4, h5, h6⟩ := h.at hx
  obtain ⟨-, k2, -, -, k5, k6, k7, -⟩ := key n t h1
  refine ⟨h3 ▸ k7, by rw [← h4, k6], by rw [← h5, k5], by rw [h6, k2], fun j hj => ?_⟩
  obtain ⟨hnl, -⟩ := List.getElem?_eq_some_iff.1 h1
  have hjl : j < l.length := by omega
  obtain ⟨-, q2, -⟩ := key j l[j] (List.getElem?_eq_getElem hjl)
  have := h2.moved.earlier l[j] (List.mem_take_iff_getElem.2 ⟨j, by omega, rfl⟩)
  unfold Turn.ended at this
  rw [q2] at this
  exact (Bool.or_eq_false_iff.1 this).1

/-- If the call returns Ok, then it went to the end of the plan. -/
theorem IsPlanOf.ends [Wire F] (hp : IsPlanOf call c0 cs o ms R) {w : World F} (hw : RobotReachable w) {c : RobotCall F} (hc : IsControl c call c0)
    (h0 : ∀ st x, Exchange w c 0 st x → R 0 st)
    (hn : ∀ n st x st' x', Exchange w c n st x → Exchange w c (n + 1) st' x' → x.motion = sentCmd o ms n → R n st → R (n + 1) st' ∧ st'.time = st.time + 1)
    (hok : (c.run w).1 = .ok ()) : ∃ n, answered w c = n + 1 ∧ (o n).is_finished = true := by
  obtain ⟨l, t, h, he⟩ := call_turns_ok hw hc hok
  have hlen : answered w c = l.length + 1 := by
    have := congrArg List.length h.pairs
    rw [List.length_map, List.length_map, List.length_append] at this
    exact this
  refine ⟨l.length, hlen, ?_⟩
  obtain ⟨st, x, hx⟩ := exchange_exists (by omega : l.length < answered w c)
  obtain ⟨t', h1, -, -, -, -, h6⟩ := h.at hx
  rw [List.getElem?_concat_length] at h1
  cases h1
  obtain ⟨-, -, -, g4, -⟩ := hp.goes hw hc h0 hn l.length st x hx
  rw [h6] at g4
  injection g4 with g4
  unfold Turn.ended at he
  rcases Bool.or_eq_true_iff.1 he with he | he
  · rw [← g4]; exact he
  · exfalso
    have hg := h.good l t [] rfl
    rcases hg.torque with g | g
    · rw [g.tq] at he
      cases he
    · obtain ⟨f, e, -⟩ := g.out
      rw [hp.torque] at e
      cases e

/-- If the call returns Ok, then everything that the motion callback returned was sent. -/
theorem outputs_ok [Wire F] {w : World F} (hw : RobotReachable w) {c : RobotCall F} (hc : IsControl c call c0) (hok : (c.run w).1 = .ok ()) :
    (motionOutputs k (newEvents w (c.run w).2)).length = answered w c := by
  obtain ⟨l, t, h, -⟩ := call_turns_ok hw hc hok
  have := congrArg List.length h.pairs
  rw [List.length_map, List.length_map] at this
  rw [h.motions, List.append_nil]
  unfold motionOuts
  rw [List.length_map]
  exact this.symm

/-! ## Planned calls happen -/

/-- A robot for a plan that ends in the `N`-th cycle: the states while the motion is started, during the motion, and after it. -/
structure RobotFor [Wire F] (call : ControlCall F σ k) (R : ℕ → RobotState F → Prop) (N : ℕ) (s2 : RobotStateIntern F) (s : ℕ → RobotStateIntern F) (sE : RobotStateIntern F) :
    Prop where
  small : N ≤ 2 ^ 40
  id2 : s2.message_id = 2
  modes2 : ShowsModes k call.controller s2
  ids : ∀ n ≤ N, (s n).message_id = UInt64.ofNat (n + 3)
  healthy : ∀ n ≤ N, Healthy k call.controller (s n)
  planned : ∀ n ≤ N, R n (RobotState.ofIntern (s n))
  idE : sE.message_id = UInt64.ofNat (N + 4)
  still : ¬ Running sE
  data2 : ∃ data, HoldsState s2 data
  data : ∀ n ≤ N, ∃ data, HoldsState (s n) data
  dataE : ∃ data, HoldsState sE data

namespace IsPlanOf

/-- The events of the first `n` cycles after the first state. -/
def events (o : ℕ → Motion F k) (ms : ℕ → MotionGeneratorCommand F) (s : ℕ → RobotStateIntern F) : ℕ → List (Ev F)
  | 0 => []
  | n + 1 => events o ms s n ++ [.motionCb k (RobotState.ofIntern (s n)) (periodOf n) (o n), .udpSend 0 ⟨(s n).message_id, ms n, noTorques⟩, .accepted (s (n + 1))]

/-- The last cycle. -/
def ending (o : ℕ → Motion F k) (ms : ℕ → MotionGeneratorCommand F) (s : ℕ → RobotStateIntern F) (sE : RobotStateIntern F) (N : ℕ) : List (Ev F) :=
  [.motionCb k (RobotState.ofIntern (s N)) (periodOf N) (o N), .udpSend 0 ⟨(s N).message_id, { ms N with motion_generation_finished := true }, noTorques⟩, .accepted sE]

/-- The Move request. -/
def request (call : ControlCall F σ k) : RobotReq F := ⟨⟨.Move, 1, 0⟩, moveBody k call.controller⟩

/-- The time before. -/
def timeOf : ℕ → ℕ
  | 0 => 3
  | n + 1 => n + 3

variable [Wire F] {N : ℕ} {s2 sE : RobotStateIntern F} {s : ℕ → RobotStateIntern F}

theorem id_toNat (hr : RobotFor call R N s2 s sE) {n : ℕ} (h : n ≤ N) : (s n).message_id.toNat = n + 3 := by
  have := hr.small
  rw [hr.ids n h, UInt64.toNat_ofNat']
  exact Nat.mod_eq_of_lt (by omega)

theorem idE_toNat (hr : RobotFor call R N s2 s sE) : sE.message_id.toNat = N + 4 := by
  have := hr.small
  rw [hr.idE, UInt64.toNat_ofNat']
  exact Nat.mod_eq_of_lt (by omega)

theorem time_eq (hr : RobotFor call R N s2 s sE) {n : ℕ} (h : n ≤ N) : (RobotState.ofIntern (s n)).time = n + 3 := id_toNat hr h

theorem period_ok (hr : RobotFor call R N s2 s sE) {n : ℕ} (h : n ≤ N) : periodOf n = (RobotState.ofIntern (s n)).time - timeOf n ∧
    timeOf n ≤ (RobotState.ofIntern (s n)).time := by
  rw [time_eq hr h]
  cases n <;> simp [periodOf, timeOf]

theorem run_ready (hp : IsPlanOf call c0 cs o ms R) (hr : RobotFor call R N s2 s sE) (hfin : ∀ n < N, (o n).is_finished = false) : ∀ n : ℕ, n ≤ N →
    Run call c0 (.before (Realize.s1 F)) (.robotReq (request call) :: .accepted s2 :: .accepted (s 0) :: events o ms s n)
      (.ready (cs n) (s n) (timeOf n) (msBefore ms n) noTorques) := by
  intro n
  induction n with
  | zero =>
    intro _
    have p1 := Run.snoc (.nil (.before (Realize.s1 F))) (Step.move (call := call) (c0 := c0) _ ⟨.Move, 1, 0⟩ Realize.s1_idle rfl)
    have p2 := p1.snoc (.wait _ s2 (fun h => Realize.s1_idle (.inl (by rw [h.1]; cases k <;> nofun))) (by rw [Realize.s1_id, hr.id2]; decide))
    have p3 := p2.snoc (.first _ (s 0) (by rw [hr.id2, hr.ids 0 (Nat.zero_le _)]; decide) (hr.healthy 0 (Nat.zero_le _)))
    rw [time_eq hr (Nat.zero_le _), ← hp.start] at p3
    exact hp.start ▸ p3
  | succ n ih =>
    intro hn
    have h1 := ih (by omega)
    have hpe := period_ok hr (n := n) (by omega)
    have hR := hr.planned n (by omega)
    have h2 := h1.snoc (Step.motion (call := call) (c0 := c0) _ _ _ _ _ (periodOf n) _ (o n) (ms n) hp.torque hpe.2 hpe.1 (hp.called n _ hR) (hp.converted n _ hR)
      (hfin n (by omega)))
    have h3 := h2.snoc (.send _ _ _ _ 0)
    have h4 := h3.snoc (.next _ _ _ _ (s (n + 1)) (by
      rw [UInt64.lt_iff_toNat_lt, id_toNat hr (by omega), id_toNat hr hn]; omega) (hr.healthy (n + 1) hn))
    rw [time_eq hr (by omega)] at h4
    have e : Ev.robotReq (request call) :: .accepted s2 :: .accepted (s 0) :: events o ms s (n + 1) =
        (((.robotReq (request call) :: .accepted s2 :: .accepted (s 0) :: events o ms s n) ++
          [.motionCb k (RobotState.ofIntern (s n)) (periodOf n) (o n)]) ++ [.udpSend 0 ⟨(s n).message_id, ms n, noTorques⟩]) ++ [.accepted (s (n + 1))] := by
      simp [events]
    rw [e]
    exact h4

theorem running (hr : RobotFor call R N s2 s sE) : Running (s N) := .inl (by
  rw [(hr.healthy N le_rfl).2.1]
  cases k <;> nofun)

theorem run_all (hp : IsPlanOf call c0 cs o ms R) (hr : RobotFor call R N s2 s sE) (hfin : ∀ n < N, (o n).is_finished = false) (hend : (o N).is_finished = true) :
    Run call c0 (.before (Realize.s1 F)) (.robotReq (request call) :: ([s2].map .accepted ++ .accepted (s 0) :: (events o ms s N ++ ending o ms s sE N)))
      (.finishing sE (ms N) noTorques) := by
  have h1 := run_ready hp hr hfin N le_rfl
  have hpe := period_ok hr (n := N) le_rfl
  have hR := hr.planned N le_rfl
  have h2 := h1.snoc (Step.motionEnd (call := call) (c0 := c0) _ _ _ _ _ (periodOf N) _ (o N) (ms N) hpe.2 hpe.1 (hp.called N _ hR) (hp.converted N _ hR) hend)
  have h3 := h2.snoc (.finish _ _ _ 0 (running hr))
  have h4 := h3.snoc (.finishNext _ _ _ sE (by rw [UInt64.lt_iff_toNat_lt, id_toNat hr le_rfl, idE_toNat hr]; omega))
  have e : Ev.robotReq (request call) :: ([s2].map .accepted ++ .accepted (s 0) :: (events o ms s N ++ ending o ms s sE N)) =
      (((.robotReq (request call) :: .accepted s2 :: .accepted (s 0) :: events o ms s N) ++
        [.motionCb k (RobotState.ofIntern (s N)) (periodOf N) (o N)]) ++
        [.udpSend 0 ⟨(s N).message_id, { ms N with motion_generation_finished := true }, noTorques⟩]) ++ [.accepted sE] := by
    simp [ending]
  rw [e]
  exact h4

theorem events_mem {n : ℕ} {e : Ev F} (h : e ∈ events o ms s n) : (∃ k st dt out, e = .motionCb k st dt out) ∨ (∃ a x, e = .udpSend a x) ∨ ∃ j ≤ n, e = .accepted (s j) := by
  induction n with
  | zero => cases h
  | succ n ih =>
    unfold events at h
    simp only [List.mem_append, List.mem_cons, List.not_mem_nil, or_false] at h
    rcases h with h | rfl | rfl | rfl
    · rcases ih h with h | h | ⟨j, hj, h⟩
      · exact .inl h
      · exact .inr (.inl h)
      · exact .inr (.inr ⟨j, by omega, h⟩)
    · exact .inl ⟨_, _, _, _, rfl⟩
    · exact .inr (.inl ⟨_, _, rfl⟩)
    · exact .inr (.inr ⟨n + 1, le_rfl, rfl⟩)

theorem events_exchanges (n : ℕ) : (events o ms s n).foldl exchangeStep (none, []) =
    (none, (List.range n).map fun j => (RobotState.ofIntern (s j), (⟨(s j).message_id, ms j, noTorques⟩ : RobotCommand F))) := by
  induction n with
  | zero => rfl
  | succ n ih =>
    unfold events
    rw [List.foldl_append, ih, List.range_succ, List.map_append]
    rfl

/-- A planned call happens: there is a world in which it returns Ok, and the robot reports those states. -/
theorem happens (hp : IsPlanOf call c0 cs o ms R) (hr : RobotFor call R N s2 s sE) (hfin : ∀ n < N, (o n).is_finished = false) (hend : (o N).is_finished = true)
    {c : RobotCall F} (hc : IsControl c call c0) :
    ∃ w, RobotReachable w ∧ (c.run w).1 = .ok () ∧ exchanges (newEvents w (c.run w).2) =
      (List.range (N + 1)).map fun j => (RobotState.ofIntern (s j), (⟨(s j).message_id, sentCmd o ms j, noTorques⟩ : RobotCommand F)) := by
  obtain ⟨w, g1, g2, g3⟩ := C65_every_such_motion_happens hc (run_all hp hr hfin hend) hr.still
    (by
      intro r hr
      rcases List.mem_append.1 hr with hr | hr
      · rcases events_mem hr with ⟨_, _, _, _, h⟩ | ⟨_, _, h⟩ | ⟨_, _, h⟩ <;> cases h
      · simp [ending] at hr)
    ⟨s2, rfl, hr.modes2⟩
    (by
      intro z hs
      rcases List.mem_append.1 hs with hs | hs
      · simp at hs
        rw [hs]
        exact hr.data2
      · rcases List.mem_cons.1 hs with hs | hs
        · cases hs
          exact hr.data 0 (Nat.zero_le _)
        · rcases List.mem_append.1 hs with hs | hs
          · rcases events_mem hs with ⟨_, _, _, _, h⟩ | ⟨_, _, h⟩ | ⟨n, hn, h⟩ <;> cases h
            exact hr.data n hn
          · simp [ending] at hs
            rw [hs]
            exact hr.dataE)
  refine ⟨w, g1, g2, ?_⟩
  rw [← exchanges_alike g3]
  show ((events o ms s N ++ ending o ms s sE N).foldl exchangeStep (none, [])).2 = _
  rw [List.foldl_append, events_exchanges, List.range_succ, List.map_append]
  have e : (List.range N).map (fun j => (RobotState.ofIntern (s j), (⟨(s j).message_id, ms j, noTorques⟩ : RobotCommand F))) =
      (List.range N).map fun j => (RobotState.ofIntern (s j), (⟨(s j).message_id, sentCmd o ms j, noTorques⟩ : RobotCommand F)) := by
    refine List.map_congr_left fun j hj => ?_
    unfold sentCmd
    rw [hfin j (List.mem_range.1 hj)]
    rfl
  rw [e]
  unfold sentCmd
  simp only [List.map_singleton, hend, if_true]
  rfl

end IsPlanOf
end
end Verif
