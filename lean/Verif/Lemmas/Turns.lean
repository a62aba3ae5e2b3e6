import Verif.Spec.Turns
/-!
Lemmas: the turns of a control call. In each turn the motion callback is called, then the torque callback (if there is one), and a command is sent.
-/
namespace Verif
open Spec
set_option linter.unusedSectionVars false
variable {F : Type} [Fl F] [Geo F] {σ : Type} {k : MotionKind}

/-- One turn: the callback in the state `c` is called with `st` and `dt` and returns `out`, which is converted to `m`; the torque callback returns `tq`, which is
converted to `t`. -/
structure Turn (F σ : Type) (k : MotionKind) where
  c : σ
  st : RobotState F
  dt : ℕ
  out : Motion F k
  m : MotionGeneratorCommand F
  tq : Option (Torques F)
  t : ControllerCommand F

/-- A callback ended the motion in this turn. -/
def Turn.ended (x : Turn F σ k) : Bool := x.out.is_finished || x.tq.elim false (·.is_finished)

/-- The motion values of the command. -/
def Turn.cmd (x : Turn F σ k) : MotionGeneratorCommand F := if x.ended then { x.m with motion_generation_finished := true } else x.m

/-- The state of the callbacks after the turn. -/
def Turn.after (call : ControlCall F σ k) (x : Turn F σ k) : σ :=
  match call.torque with
  | none => (call.motion x.c x.st x.dt).1
  | some f => (f (call.motion x.c x.st x.dt).1 x.st x.dt).1

/-- What is known before a turn. -/
def cBefore (call : ControlCall F σ k) (c0 : σ) (pre : List (Turn F σ k)) : σ := pre.getLast?.elim c0 (Turn.after call)
def timeBefore (pre : List (Turn F σ k)) (now : ℕ) : ℕ := pre.getLast?.elim now (·.st.time)
def mBefore (pre : List (Turn F σ k)) : MotionGeneratorCommand F := pre.getLast?.elim noMotion (·.m)
def tBefore (pre : List (Turn F σ k)) : ControllerCommand F := pre.getLast?.elim noTorques (·.t)

/-- The motion callback in a turn after the turns `pre`. -/
structure Moved (call : ControlCall F σ k) (c0 : σ) (pre : List (Turn F σ k)) (x : Turn F σ k) : Prop where
  c : x.c = cBefore call c0 pre
  out : x.out = (call.motion x.c x.st x.dt).2
  dt : x.dt = x.st.time - timeBefore pre x.st.time
  conv : x.out.convert_motion x.st (mBefore pre) call.cutoff call.limit_rate = .ok x.m
  earlier : ∀ z ∈ pre, z.ended = false

/-- No torque callback was called. -/
structure NotTurned (call : ControlCall F σ k) (pre : List (Turn F σ k)) (x : Turn F σ k) : Prop where
  why : call.torque = none ∨ x.out.is_finished = true
  tq : x.tq = none
  t : x.t = tBefore pre

/-- The torque callback in this turn. -/
structure Turned (call : ControlCall F σ k) (x : Turn F σ k) : Prop where
  going : x.out.is_finished = false
  out : ∃ f, call.torque = some f ∧ x.tq = some (f (call.motion x.c x.st x.dt).1 x.st x.dt).2
  conv : ∃ o τ, x.tq = some o ∧ ControlLoop.convert_torques call.limit_rate call.cutoff x.st o.tau_J = .ok τ ∧ x.t = { tau_J_d := τ }

/-- A whole turn. -/
structure GoodTurn (call : ControlCall F σ k) (c0 : σ) (pre : List (Turn F σ k)) (x : Turn F σ k) : Prop where
  moved : Moved call c0 pre x
  torque : NotTurned call pre x ∨ Turned call x

/-- Every turn in the list is one. -/
def GoodTurns (call : ControlCall F σ k) (c0 : σ) (l : List (Turn F σ k)) : Prop := ∀ pre x post, l = pre ++ x :: post → GoodTurn call c0 pre x

theorem goodTurns_nil (call : ControlCall F σ k) (c0 : σ) : GoodTurns call c0 [] := fun _ _ _ h => by simp at h

theorem GoodTurns.snoc {call : ControlCall F σ k} {c0 : σ} {l : List (Turn F σ k)} {x : Turn F σ k} (h : GoodTurns call c0 l) (hx : GoodTurn call c0 l x) :
    GoodTurns call c0 (l ++ [x]) := by
  intro pre q post e
  rcases List.eq_nil_or_concat post with rfl | ⟨post', z, rfl⟩
  · obtain ⟨rfl, h⟩ := List.append_inj' e rfl
    cases h
    exact hx
  · rw [List.concat_eq_append, ← List.cons_append, ← List.append_assoc] at e
    obtain ⟨rfl, -⟩ := List.append_inj' e rfl
    exact h _ _ _ rfl

/-- The exchanges are those of the turns. -/
def Pairs (l : List (Turn F σ k)) (e : List (RobotState F × RobotCommand F)) : Prop :=
  e.map (fun p => (p.1, p.2.motion, p.2.control)) = l.map fun x => (x.st, x.cmd, x.t)

theorem Pairs.snoc {l : List (Turn F σ k)} {e : List (RobotState F × RobotCommand F)} (h : Pairs l e) {x : Turn F σ k} {p : RobotState F × RobotCommand F}
    (h1 : p.1 = x.st) (h2 : p.2.motion = x.cmd) (h3 : p.2.control = x.t) : Pairs (l ++ [x]) (e ++ [p]) := by
  unfold Pairs at *
  rw [List.map_append, List.map_append, h, List.map_singleton, List.map_singleton, h1, h2, h3]

/-- What the callbacks returned in the turns. -/
def motionOuts (l : List (Turn F σ k)) : List (Motion F k) := l.map (·.out)
def torqueOuts (l : List (Turn F σ k)) : List (Torques F) := l.filterMap (·.tq)

/-- The events seen so far, as turns: `l` are complete, the exchanges are `e`, the outputs are those of `l` and `pend`. -/
structure SeenTurns (call : ControlCall F σ k) (c0 : σ) (tr : List (Ev F)) (l pend : List (Turn F σ k)) : Prop where
  good : GoodTurns call c0 l
  pairs : Pairs l (exchanges tr)
  motions : motionOutputs k tr = motionOuts (l ++ pend)
  torques : torqueOutputs tr = torqueOuts (l ++ pend)
  last : ∀ z ∈ l, z.ended = true → pend = []

/-- The turns when a call is in this phase. -/
def TurnsInv (call : ControlCall F σ k) (c0 : σ) (tr : List (Ev F)) (p : Option (RobotState F)) : Phase F σ → Prop
  | .before _ | .starting _ => p = none ∧ SeenTurns call c0 tr [] []
  | .ready c s prev m t => p = none ∧ Running s ∧ ∃ l, SeenTurns call c0 tr l [] ∧ (∀ z ∈ l, z.ended = false) ∧ c = cBefore call c0 l ∧
      prev = timeBefore l (RobotState.ofIntern s).time ∧ m = mBefore l ∧ t = tBefore l
  | .moved c s prev m t => p = some (RobotState.ofIntern s) ∧ Running s ∧ call.torque ≠ none ∧ ∃ l x, SeenTurns call c0 tr l [x] ∧ Moved call c0 l x ∧
      x.out.is_finished = false ∧ x.tq = none ∧ c = (call.motion x.c x.st x.dt).1 ∧ x.st = RobotState.ofIntern s ∧ x.m = m ∧ t = tBefore l ∧
      prev = timeBefore l (RobotState.ofIntern s).time
  | .decided c s m t => p = some (RobotState.ofIntern s) ∧ ∃ l x, SeenTurns call c0 tr l [x] ∧ GoodTurn call c0 l x ∧ x.ended = false ∧ c = x.after call ∧
      x.st = RobotState.ofIntern s ∧ x.m = m ∧ x.t = t
  | .sent c s m t => p = none ∧ ∃ l x, SeenTurns call c0 tr (l ++ [x]) [] ∧ (∀ z ∈ l ++ [x], z.ended = false) ∧ c = x.after call ∧ x.st = RobotState.ofIntern s ∧
      x.m = m ∧ x.t = t
  | .finishing s m t => (p = some (RobotState.ofIntern s) ∧ Running s ∧ ∃ l x, SeenTurns call c0 tr l [x] ∧ GoodTurn call c0 l x ∧ x.ended = true ∧
      x.st = RobotState.ofIntern s ∧ x.m = m ∧ x.t = t) ∨ (p = none ∧ ∃ l x, SeenTurns call c0 tr (l ++ [x]) [] ∧ x.ended = true)
  | .finishSent _ _ _ => p = none ∧ ∃ l x, SeenTurns call c0 tr (l ++ [x]) [] ∧ x.ended = true
  | .broken _ | .stopping _ | .refused _ => ∃ l pend, SeenTurns call c0 tr l pend

theorem healthy_still {m : MoveControllerMode} {s : RobotStateIntern F} (h : Healthy k m s) : Running s := .inl (by
  rw [h.2.1]
  cases k <;> nofun)

theorem exchangeStep_fst (e : Ev F) (p : Option (RobotState F)) (l : List (RobotState F × RobotCommand F)) :
    (exchangeStep (p, l) e).1 = (exchangeStep (p, []) e).1 := by
  cases e <;> cases p <;> rfl

section
variable {call : ControlCall F σ k} {c0 : σ} {tr : List (Ev F)} {l pend : List (Turn F σ k)} {p : Option (RobotState F)} {ph : Phase F σ}

theorem exchanges_snoc (tr : List (Ev F)) (e : Ev F) : exchanges (tr ++ [e]) = (exchangeStep (tr.foldl exchangeStep (none, [])) e).2 := by
  unfold exchanges
  rw [List.foldl_append]
  rfl

/-- An event that is neither a callback nor a command. -/
theorem SeenTurns.skip (h : SeenTurns call c0 tr l pend) {e : Ev F} (he : (∃ r, e = .robotReq r) ∨ ∃ s, e = .accepted s) : SeenTurns call c0 (tr ++ [e]) l pend := by
  refine ⟨h.good, ?_, ?_, ?_, h.last⟩
  · rw [exchanges_snoc]
    rcases he with ⟨r, rfl⟩ | ⟨s, rfl⟩ <;> exact h.pairs
  · rw [← h.motions]
    unfold motionOutputs
    rw [List.filterMap_append]
    rcases he with ⟨r, rfl⟩ | ⟨s, rfl⟩ <;> exact List.append_nil _
  · rw [← h.torques]
    unfold torqueOutputs
    rw [List.filterMap_append]
    rcases he with ⟨r, rfl⟩ | ⟨s, rfl⟩ <;> exact List.append_nil _

/-- The motion callback. -/
theorem SeenTurns.motion (h : SeenTurns call c0 tr l []) (hl : ∀ z ∈ l, z.ended = false) (x : Turn F σ k) (hq : x.tq = none) {st : RobotState F} {dt : ℕ} {out : Motion F k} (ho : x.out = out) :
    SeenTurns call c0 (tr ++ [.motionCb k st dt out]) l [x] := by
  subst ho
  refine ⟨h.good, ?_, ?_, ?_, fun z hz e => by rw [hl z hz] at e; cases e⟩
  · rw [exchanges_snoc]
    exact h.pairs
  · have := h.motions
    unfold motionOutputs at this ⊢
    rw [List.filterMap_append, this]
    simp [motionOuts]
  · have := h.torques
    unfold torqueOutputs at this ⊢
    rw [List.filterMap_append, this]
    simp [torqueOuts, hq]

/-- The torque callback. -/
theorem SeenTurns.torque {x : Turn F σ k} (h : SeenTurns call c0 tr l [x]) (hq : x.tq = none) {st : RobotState F} {dt : ℕ} {out : Torques F} (t : ControllerCommand F) :
    SeenTurns call c0 (tr ++ [.controlCb st dt out]) l [{ x with tq := some out, t := t }] := by
  refine ⟨h.good, ?_, ?_, ?_, fun z hz e => by cases h.last z hz e⟩
  · rw [exchanges_snoc]
    exact h.pairs
  · have := h.motions
    unfold motionOutputs at this ⊢
    rw [List.filterMap_append, this]
    simp [motionOuts]
  · have := h.torques
    unfold torqueOutputs at this ⊢
    rw [List.filterMap_append, this]
    simp [torqueOuts, hq]

/-- The command of the turn. -/
theorem SeenTurns.send {x : Turn F σ k} (h : SeenTurns call c0 tr l [x]) (hx : GoodTurn call c0 l x) (hp : (tr.foldl exchangeStep (none, [])).1 = some x.st) {a : Addr}
    {c : RobotCommand F} (h2 : c.motion = x.cmd) (h3 : c.control = x.t) : SeenTurns call c0 (tr ++ [.udpSend a c]) (l ++ [x]) [] := by
  refine ⟨h.good.snoc hx, ?_, ?_, ?_, fun _ _ _ => rfl⟩
  · rw [exchanges_snoc]
    have hpr := h.pairs
    unfold exchanges at hpr
    generalize tr.foldl exchangeStep (none, []) = q at hp hpr ⊢
    obtain ⟨q, e⟩ := q
    change q = _ at hp
    subst hp
    exact hpr.snoc rfl h2 h3
  · have := h.motions
    unfold motionOutputs at this ⊢
    rw [List.filterMap_append, this]
    simp
  · have := h.torques
    unfold torqueOutputs at this ⊢
    rw [List.filterMap_append, this]
    simp

/-- A command after the turns. -/
theorem SeenTurns.again (h : SeenTurns call c0 tr l []) (hp : (tr.foldl exchangeStep (none, [])).1 = none) {a : Addr} {c : RobotCommand F} :
    SeenTurns call c0 (tr ++ [.udpSend a c]) l [] := by
  refine ⟨h.good, ?_, ?_, ?_, h.last⟩
  · rw [exchanges_snoc]
    have hpr := h.pairs
    unfold exchanges at hpr
    generalize tr.foldl exchangeStep (none, []) = q at hp hpr ⊢
    obtain ⟨q, e⟩ := q
    change q = _ at hp
    subst hp
    exact hpr
  · have := h.motions
    unfold motionOutputs at this ⊢
    rw [List.filterMap_append, this]
    simp
  · have := h.torques
    unfold torqueOutputs at this ⊢
    rw [List.filterMap_append, this]
    simp

theorem TurnsInv.end (h : TurnsInv call c0 tr p ph) : ∃ l pend, SeenTurns call c0 tr l pend := by
  cases ph with
  | before => exact ⟨_, _, h.2⟩
  | starting => exact ⟨_, _, h.2⟩
  | ready => obtain ⟨-, -, l, h, -⟩ := h; exact ⟨_, _, h⟩
  | moved => obtain ⟨-, -, -, l, x, h, -⟩ := h; exact ⟨_, _, h⟩
  | decided => obtain ⟨-, l, x, h, -⟩ := h; exact ⟨_, _, h⟩
  | sent => obtain ⟨-, l, x, h, -⟩ := h; exact ⟨_, _, h⟩
  | finishing =>
    rcases h with ⟨-, -, l, x, h, -⟩ | ⟨-, l, x, h, -⟩
    · exact ⟨_, _, h⟩
    · exact ⟨_, _, h⟩
  | finishSent => obtain ⟨-, l, x, h, -⟩ := h; exact ⟨_, _, h⟩
  | broken => exact h
  | stopping => exact h
  | refused => exact h

theorem seen_nil : SeenTurns call c0 [] [] [] := ⟨goodTurns_nil _ _, rfl, rfl, rfl, fun _ h => by simp at h⟩

end

theorem run_turns {call : ControlCall F σ k} {c0 : σ} {s0 : RobotStateIntern F} {tr : List (Ev F)} {ph : Phase F σ} (h : Run call c0 (.before s0) tr ph) :
    TurnsInv call c0 tr (tr.foldl exchangeStep (none, [])).1 ph := by
  induction h with
  | nil => exact ⟨rfl, seen_nil⟩
  | @snoc tr ph e ph' hr hs ih =>
    have hfold : ((tr ++ [e]).foldl exchangeStep (none, [])).1 = (exchangeStep ((tr.foldl exchangeStep (none, [])).1, []) e).1 := by
      rw [List.foldl_append, ← exchangeStep_fst e _ (tr.foldl exchangeStep (none, [])).2]
      rfl
    rw [hfold]
    generalize hp : (tr.foldl exchangeStep (none, [])).1 = p at ih ⊢
    cases hs with
    | move => exact ⟨ih.1, ih.2.skip (.inl ⟨_, rfl⟩)⟩
    | wait => exact ⟨ih.1, ih.2.skip (.inr ⟨_, rfl⟩)⟩
    | first s s' hid hh => exact ⟨ih.1, healthy_still hh, [], ih.2.skip (.inr ⟨_, rfl⟩), by simp, rfl, rfl, rfl, rfl⟩
    | firstBroken => exact ⟨_, _, ih.2.skip (.inr ⟨_, rfl⟩)⟩
    | motion c s prev m t dt c' out m' hn hle hdt hc hm hfin =>
      obtain ⟨h1, hrun, l, h2, h3, h4, h5, h6, h7⟩ := ih
      let x : Turn F σ k := ⟨c, RobotState.ofIntern s, dt, out, m', none, t⟩
      refine ⟨rfl, l, x, h2.motion h3 x rfl rfl, ⟨⟨h4, by rw [show x.out = out from rfl]; exact (congrArg Prod.snd hc).symm, by rw [← h5]; exact hdt, by rw [← h6]; exact hm, h3⟩,
        .inl ⟨.inl hn, rfl, h7⟩⟩, ?_, ?_, rfl, rfl, rfl⟩
      · show (out.is_finished || false) = false
        rw [hfin]; rfl
      · unfold Turn.after
        rw [hn]
        exact (congrArg Prod.fst hc).symm
    | motionFirst c s prev m t dt c' out m' hn hle hdt hc hm hfin =>
      obtain ⟨h1, hrun, l, h2, h3, h4, h5, h6, h7⟩ := ih
      let x : Turn F σ k := ⟨c, RobotState.ofIntern s, dt, out, m', none, t⟩
      exact ⟨rfl, hrun, hn, l, x, h2.motion h3 x rfl rfl, ⟨h4, (congrArg Prod.snd hc).symm, by rw [← h5]; exact hdt, by rw [← h6]; exact hm, h3⟩, hfin, rfl,
        (congrArg Prod.fst hc).symm, rfl, rfl, h7, h5⟩
    | motionEnd c s prev m t dt c' out m' hle hdt hc hm hfin =>
      obtain ⟨h1, hrun, l, h2, h3, h4, h5, h6, h7⟩ := ih
      let x : Turn F σ k := ⟨c, RobotState.ofIntern s, dt, out, m', none, t⟩
      refine .inl ⟨rfl, hrun, l, x, h2.motion h3 x rfl rfl, ⟨⟨h4, (congrArg Prod.snd hc).symm, by rw [← h5]; exact hdt, by rw [← h6]; exact hm, h3⟩,
        .inl ⟨.inr hfin, rfl, h7⟩⟩, ?_, rfl, rfl, rfl⟩
      show (out.is_finished || false) = true
      rw [hfin]; rfl
    | motionRefused c s prev m t dt c' out e hle hdt hc hm =>
      obtain ⟨h1, -, l, h2, h3, -⟩ := ih
      exact ⟨l, _, h2.motion h3 ⟨c, RobotState.ofIntern s, dt, out, m, none, t⟩ rfl rfl⟩
    | torque f c s prev m t dt c' out τ hf hle hdt hc hm hfin =>
      obtain ⟨h1, hrun, hn, l, x, h2, h3, h4, h5, h6, h7, h8, h9, h10⟩ := ih
      have hdt' : dt = x.dt := by rw [hdt, h10, h3.dt, h7]
      subst hdt'
      rw [h6, ← h7] at hc
      refine ⟨h1, l, _, h2.torque h5 _, ⟨⟨h3.c, h3.out, h3.dt, h3.conv, h3.earlier⟩, .inr ⟨h4, ⟨f, hf, ?_⟩, out, τ, rfl, ?_, rfl⟩⟩, ?_, ?_, h7, h8, rfl⟩
      · exact congrArg some (congrArg Prod.snd hc).symm
      · rw [← h7] at hm; exact hm
      · show (x.out.is_finished || out.is_finished) = false
        rw [hfin, h4]; rfl
      · unfold Turn.after
        rw [hf]
        exact (congrArg Prod.fst hc).symm
    | torqueEnd f c s prev m t dt c' out τ hf hle hdt hc hm hfin =>
      obtain ⟨h1, hrun, hn, l, x, h2, h3, h4, h5, h6, h7, h8, h9, h10⟩ := ih
      have hdt' : dt = x.dt := by rw [hdt, h10, h3.dt, h7]
      subst hdt'
      rw [h6, ← h7] at hc
      refine .inl ⟨h1, hrun, l, _, h2.torque h5 _, ⟨⟨h3.c, h3.out, h3.dt, h3.conv, h3.earlier⟩, .inr ⟨h4, ⟨f, hf, ?_⟩, out, τ, rfl, ?_, rfl⟩⟩, ?_, h7, h8, rfl⟩
      · exact congrArg some (congrArg Prod.snd hc).symm
      · rw [← h7] at hm; exact hm
      · show (x.out.is_finished || out.is_finished) = true
        rw [hfin, Bool.or_true]
    | torqueRefused f c s prev m t dt c' out e hf hle hdt hc hm =>
      obtain ⟨h1, hrun, hn, l, x, h2, h3, h4, h5, h6, h7, h8, h9⟩ := ih
      exact ⟨l, _, h2.torque h5 noTorques⟩
    | send c s m t a =>
      obtain ⟨h1, l, x, h2, h3, h4, h5, h6, h7, h8⟩ := ih
      subst h1
      refine ⟨rfl, l, x, h2.send (c := ⟨s.message_id, m, t⟩) h3 (by rw [hp, h6]) ?_ h8.symm, ?_, h5, h6, h7, h8⟩
      · unfold Turn.cmd
        rw [h4]
        exact h7.symm
      · intro z hz
        rcases List.mem_append.1 hz with hz | hz
        · exact h3.moved.earlier z hz
        · rw [List.mem_singleton.1 hz]; exact h4
    | next c s m t s' hid hh =>
      obtain ⟨h1, l, x, h2, h3, h4, h5, h6, h7⟩ := ih
      refine ⟨h1, healthy_still hh, l ++ [x], h2.skip (.inr ⟨_, rfl⟩), h3, ?_, ?_, ?_, ?_⟩
      · unfold cBefore; rw [List.getLast?_concat]; exact h4
      · unfold timeBefore; rw [List.getLast?_concat, Option.elim_some, h5]
      · unfold mBefore; rw [List.getLast?_concat]; exact h6.symm
      · unfold tBefore; rw [List.getLast?_concat]; exact h7.symm
    | nextBroken =>
      obtain ⟨h1, l, x, h2, -⟩ := ih
      exact ⟨_, _, h2.skip (.inr ⟨_, rfl⟩)⟩
    | finish s m t a =>
      rcases ih with ⟨h1, -, l, x, h2, h3, h4, h5, h6, h7⟩ | ⟨h1, l, x, h2, h3⟩
      · subst h1
        refine ⟨rfl, l, x, h2.send (c := ⟨s.message_id, { m with motion_generation_finished := true }, t⟩) h3 (by rw [hp, h5]) ?_ h7.symm, h4⟩
        unfold Turn.cmd
        rw [h4, h6]
        rfl
      · subst h1
        exact ⟨rfl, l, x, h2.again hp, h3⟩
    | finishNext =>
      obtain ⟨h1, l, x, h2, h3⟩ := ih
      exact .inr ⟨h1, l, x, h2.skip (.inr ⟨_, rfl⟩), h3⟩
    | stop =>
      obtain ⟨l, pend, h⟩ := ih.end
      exact ⟨_, _, h.skip (.inl ⟨_, rfl⟩)⟩
    | stopped =>
      obtain ⟨l, pend, h⟩ := ih
      exact ⟨_, _, h.skip (.inr ⟨_, rfl⟩)⟩

end Verif
