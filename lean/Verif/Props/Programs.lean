import Verif.Spec.Programs
import Verif.Props.Api
import Verif.Lemmas.Next
import Verif.Lemmas.Protocol
/-!
# What whole example programs ask the robot for: C95
-/
set_option linter.unusedSectionVars false
namespace Verif
open Prog Spec Fl
variable {F : Type} [Fl F] [Wire F] [Geo F]

/-! ## Single calls -/

theorem asked_append (a b : List (Ev F)) : asked (a ++ b) = asked a ++ asked b := by simp [asked]

theorem asked_visible (tr : List (Ev F)) : asked (visible tr) = asked tr := by unfold asked; rw [requests_visible]

/-- Asking for `bs` from `w` on. -/
structure CallAsks (bs : List (RobotBody F)) (r : Res F Unit) (w w' : World F) : Prop where
  all : r = .ok () → asked w'.trace = asked w.trace ++ bs
  some : ∃ l, l <+: bs ∧ (asked w'.trace = asked w.trace ++ l ∨ asked w'.trace = asked w.trace ++ l ++ [.StopMove] ∧ ∃ m, l.getLast? = some (.Move m))

theorem OneExchange.asks {b : RobotBody F} {v : Bytes → Outcome F Unit → Prop} {w w' : World F} {r : Res F Unit} (h : OneExchange b v w r w') :
    CallAsks [b] r w w' := by
  obtain ⟨hd, -, h⟩ := h
  have one : visible w'.trace = visible w.trace ++ [.robotReq ⟨hd, b⟩] → asked w'.trace = asked w.trace ++ [b] := by
    intro h
    rw [← asked_visible w'.trace, h, asked_append, asked_visible]
    rfl
  have none_ : visible w'.trace = visible w.trace → asked w'.trace = asked w.trace := by
    intro h
    rw [← asked_visible w'.trace, h, asked_visible]
  cases r with
  | ok v => exact ⟨fun _ => one h.1, [b], List.prefix_refl _, .inl (one h.1)⟩
  | err e => exact ⟨(fun h => by cases h), [b], List.prefix_refl _, .inl (one h.1)⟩
  | panic m => exact ⟨(fun h => by cases h), h.elim (fun h => ⟨[], List.nil_prefix, .inl (by simpa using none_ h)⟩)
      fun h => ⟨[b], List.prefix_refl _, .inl (one h)⟩⟩
  | blocked => exact ⟨(fun h => by cases h), h.elim (fun h => ⟨[], List.nil_prefix, .inl (by simpa using none_ h)⟩)
      fun h => ⟨[b], List.prefix_refl _, .inl (one h)⟩⟩

/-- First `bs`, and if that went well `cs`. -/
theorem CallAsks.trans {bs cs : List (RobotBody F)} {r : Res F Unit} {w w1 w2 : World F} (h1 : asked w1.trace = asked w.trace ++ bs)
    (h2 : CallAsks cs r w1 w2) : CallAsks (bs ++ cs) r w w2 := by
  refine ⟨fun h => by rw [h2.all h, h1, List.append_assoc], ?_⟩
  obtain ⟨l, hl, h⟩ := h2.some
  refine ⟨bs ++ l, (List.prefix_append_right_inj bs).2 hl, h.imp (fun h => by rw [h, h1, List.append_assoc]) fun ⟨h, m, hm⟩ => ⟨by rw [h, h1]; simp only [List.append_assoc], m, ?_⟩⟩
  rw [List.getLast?_append, hm]
  rfl

theorem CallAsks.more {bs : List (RobotBody F)} (cs : List (RobotBody F)) {r : Res F Unit} {w w1 : World F} (h1 : CallAsks bs r w w1) (hr : r ≠ .ok ()) :
    CallAsks (bs ++ cs) r w w1 := by
  refine ⟨fun h => absurd h hr, ?_⟩
  obtain ⟨l, hl, h⟩ := h1.some
  exact ⟨l, hl.trans (List.prefix_append _ _), h⟩

theorem SetterSequence.asks : ∀ {bs : List (RobotBody F)} {w w' : World F} {r : Res F Unit}, SetterSequence bs w r w' → CallAsks bs r w w'
  | [], w, w', r, h => by
    obtain ⟨rfl, rfl⟩ := h
    exact ⟨fun _ => by simp, [], List.prefix_refl _, .inl (by simp)⟩
  | b :: bs, w, w', r, h => by
    obtain ⟨r1, w1, h1, h⟩ := h
    have ha := OneExchange.asks h1
    cases r1 with
    | ok v => exact CallAsks.trans (bs := [b]) (ha.all rfl) (SetterSequence.asks h)
    | err e => obtain ⟨rfl, rfl⟩ := h; exact ha.more bs (by simp)
    | panic m => obtain ⟨rfl, rfl⟩ := h; exact ha.more bs (by simp)
    | blocked => obtain ⟨rfl, rfl⟩ := h; exact ha.more bs (by simp)

/-- What a control call asks for. -/
theorem control_asks {w : World F} (hw : RobotReachable w) {c : RobotCall F} {σ : Type} {k : MotionKind} {call : ControlCall F σ k} {c0 : σ}
    (hc : IsControl c call c0) : CallAsks [moveBody k call.controller] (c.run w).1 w (c.run w).2 ∧
      ∀ l m, (c.run w).1 = .err (.ControlException l m) → asked (c.run w).2.trace = asked w.trace ++ [moveBody k call.controller] ∨
        asked (c.run w).2.trace = asked w.trace ++ [moveBody k call.controller, .StopMove] := by
  obtain ⟨s0, ph, -, -, hr, -, hres⟩ := control_events hw hc
  have hv : asked (c.run w).2.trace = asked w.trace ++ asked (newEvents w (c.run w).2) := by
    rw [← asked_visible, newEvents_of_grows (call_grows c w), asked_append, asked_visible]
  have none_ : ∀ {tr : List (Ev F)}, (∀ e ∈ tr, ∀ r, e ≠ .robotReq r) → asked tr = [] := by
    intro tr h
    unfold asked requests
    rw [List.map_eq_nil_iff, List.filterMap_eq_nil_iff]
    intro e he
    cases e with
    | robotReq r => exact absurd rfl (h _ he r)
    | _ => rfl
  rcases run_move hr with ⟨h, hph⟩ | ⟨hd, tr, h, -, hmove, -, hph⟩
  · refine ⟨⟨fun hok => ?_, [], List.nil_prefix, .inl (by rw [hv, h]; rfl)⟩, fun l m he => ?_⟩
    · rw [hok] at hres
      obtain ⟨-, s, m, t, h1, -⟩ := hres
      rw [hph] at h1
      cases h1
    · rw [he] at hres
      obtain ⟨-, ⟨-, -, m, h1⟩ | ⟨s, h1, -⟩ | ⟨s, h1, -⟩⟩ := hres
      · cases h1
      · rw [hph] at h1; cases h1
      · rw [hph] at h1; cases h1
  · by_cases hstop : ∃ e ∈ tr, IsStop e
    · obtain ⟨e, he, hs, rfl⟩ := hstop
      obtain ⟨pre, post, rfl⟩ := List.append_of_mem he
      rw [h] at hr
      have hst := run_stop (pre := .robotReq ⟨hd, moveBody k call.controller⟩ :: pre) hr
      have hpre : asked pre = [] := none_ fun e he r hr' => by
        subst hr'
        rcases run_requests hr (r := r) (by simp [he]) with h1 | h1
        · exact hmove _ (by simp [he]) h1
        · exact hst.1 _ (by simp [he]) h1
      have hpost : asked post = [] := none_ fun e he r hr' => by
        obtain ⟨s, hs⟩ := hst.2.2 e he
        rw [hs] at hr'
        cases hr'
      have hasked : asked (newEvents w (c.run w).2) = [moveBody k call.controller, .StopMove] := by
        rw [h]
        show asked ([_] ++ (pre ++ ([_] ++ post))) = _
        rw [asked_append, asked_append, asked_append, hpre, hpost]
        rfl
      rw [hasked] at hv
      refine ⟨⟨fun hok => ?_, [moveBody k call.controller], List.prefix_refl _, .inr ⟨by rw [hv]; simp, _, rfl⟩⟩, fun _ _ _ => .inr hv⟩
      rw [hok] at hres
      obtain ⟨-, s, m, t, h1, -⟩ := hres
      obtain ⟨s', h2⟩ := hst.2.1
      rw [h1] at h2
      cases h2
    · have htr : asked tr = [] := none_ fun e he r hr' => by
        subst hr'
        rw [h] at hr
        rcases run_requests hr (r := r) (by simp [he]) with h1 | h1
        · exact hmove _ he h1
        · exact hstop ⟨_, he, h1⟩
      have hasked : asked (newEvents w (c.run w).2) = [moveBody k call.controller] := by
        rw [h]
        show asked ([_] ++ tr) = _
        rw [asked_append, htr]
        rfl
      rw [hasked] at hv
      exact ⟨⟨fun _ => hv, _, List.prefix_refl _, .inl hv⟩, fun _ _ _ => .inl hv⟩

/-- What a call asks for. -/
inductive AsksFor : RobotCall F → List (RobotBody F) → Prop where
  | setter {c b} : setterRequest c = some b → AsksFor c [b]
  | default : AsksFor .set_default_behavior defaultBehavior
  | control {c : RobotCall F} {σ : Type} {k : MotionKind} {call : ControlCall F σ k} {c0 : σ} : IsControl c call c0 → AsksFor c [moveBody k call.controller]
  | recovery : AsksFor .automatic_error_recovery [.AutomaticErrorRecovery]

theorem AsksFor.call {c : RobotCall F} {bs : List (RobotBody F)} (h : AsksFor c bs) {w : World F} (hw : RobotReachable w) : CallAsks bs (c.run w).1 w (c.run w).2 := by
  cases h with
  | setter hb => exact OneExchange.asks (C18_setter c _ hb w hw)
  | default => exact SetterSequence.asks (C19_set_default_behavior w hw)
  | control hc => exact (control_asks hw hc).1
  | recovery => exact OneExchange.asks (C20_automatic_error_recovery w hw)

/-! ## Calls in turn -/

/-- The calls in turn as a program. -/
def inTurn : List (RobotCall F) → Prog F Unit
  | [] => pure ()
  | c :: cs => c.run >>= fun _ => inTurn cs

theorem bind_ok_eq {α β : Type} {p : Prog F α} {f : α → Prog F β} {w w' : World F} {a : α} (h : p w = (.ok a, w')) : (p >>= f) w = f a w' := by
  show Prog.bind p f w = _
  unfold Prog.bind
  rw [h]

theorem bind_not_ok {p : Prog F Unit} {f : Unit → Prog F Unit} {w w' : World F} {r : Res F Unit} (h : p w = (r, w')) (hr : r ≠ .ok ()) :
    (p >>= f) w = (r, w') := by
  show Prog.bind p f w = _
  unfold Prog.bind
  rw [h]
  cases r with
  | ok u => exact absurd rfl hr
  | _ => rfl

theorem attempt_eq {p : Prog F Unit} {w w' : World F} {r : Res F Unit} (h : p w = (r, w')) : attempt p w =
    match (generalizing := false) r with
    | .ok u => (.ok (.ok u), w') | .err e => (.ok (.error e), w') | .panic m => (.panic m, w') | .blocked => (.blocked, w') := by
  unfold attempt
  rw [h]
  cases r <;> rfl

theorem bind_eq_panic {α β : Type} {p : Prog F α} {f : α → Prog F β} {w w' : World F} {m : String} (h : p w = (.panic m, w')) : (p >>= f) w = (.panic m, w') := by
  show Prog.bind p f w = _
  unfold Prog.bind
  rw [h]

theorem bind_eq_blocked {α β : Type} {p : Prog F α} {f : α → Prog F β} {w w' : World F} (h : p w = (.blocked, w')) : (p >>= f) w = (.blocked, w') := by
  show Prog.bind p f w = _
  unfold Prog.bind
  rw [h]

theorem inTurn_spec : ∀ (cs : List (RobotCall F)) (w : World F), InTurn cs w (inTurn cs w).1 (inTurn cs w).2
  | [], w => .done w
  | c :: cs, w => by
    show InTurn (c :: cs) w ((c.run >>= fun _ => inTurn cs) w).1 ((c.run >>= fun _ => inTurn cs) w).2
    obtain ⟨r, w', h⟩ : ∃ r w', c.run w = (r, w') := ⟨_, _, rfl⟩
    by_cases hr : r = .ok ()
    · subst hr
      rw [bind_ok_eq h]
      exact .next h (inTurn_spec cs w')
    · rw [bind_not_ok h hr]
      exact .last h hr

/-- What the calls ask for. -/
inductive AllAsk : List (RobotCall F) → List (RobotBody F) → Prop where
  | nil : AllAsk [] []
  | cons {c bs cs bs'} : AsksFor c bs → AllAsk cs bs' → AllAsk (c :: cs) (bs ++ bs')

theorem InTurn.asks {cs : List (RobotCall F)} {w w' : World F} {r : Res F Unit} (h : InTurn cs w r w') : ∀ {bs : List (RobotBody F)}, AllAsk cs bs →
    RobotReachable w → CallAsks bs r w w' ∧ (r = .ok () → RobotReachable w') := by
  induction h with
  | done w =>
    intro bs ha hw
    cases ha
    exact ⟨⟨fun _ => by simp, [], List.prefix_refl _, .inl (by simp)⟩, fun _ => hw⟩
  | @next c cs w w1 r w2 h1 h2 ih =>
    intro bs ha hw
    cases ha with
    | cons hc ha =>
      have h := hc.call hw
      have hw1 := hw.after c (.inl (by rw [h1]))
      rw [h1] at h hw1
      have := ih ha hw1
      exact ⟨CallAsks.trans (h.all rfl) this.1, this.2⟩
  | @last c cs w r w1 h1 hr =>
    intro bs ha hw
    cases ha with
    | cons hc ha =>
      have h := hc.call hw
      rw [h1] at h
      exact ⟨h.more _ hr, fun h => absurd h hr⟩

/-! ## Connecting -/

theorem new_asks_with (rc : Option RealtimeConfig) (w : World F) (hw : Fresh w) : Asks [robotHello w] (Robot.new rc none w).1 (asked (Robot.new rc none w).2.trace) := by
  obtain ⟨hd, -, h⟩ := C17_robot_new rc none w hw
  generalize (Robot.new rc none w).1 = r at h ⊢
  generalize (Robot.new rc none w).2 = w' at h ⊢
  have one : visible w'.trace = [.robotReq ⟨hd, robotHello w⟩] → asked w'.trace = [robotHello w] := by
    intro h
    rw [← asked_visible, h]
    rfl
  have none_ : visible w'.trace = [] → asked w'.trace = [] := by
    intro h
    rw [← asked_visible, h]
    rfl
  cases r with
  | ok u =>
    obtain ⟨s, m, v, h, -⟩ := h
    have : asked w'.trace = [robotHello w] := by
      rw [← asked_visible, h]
      rfl
    exact ⟨fun _ => this, [robotHello w], List.prefix_refl _, .inl this⟩
  | err e => exact ⟨(fun h => by cases h), h.elim (fun h => ⟨[], List.nil_prefix, .inl (none_ h.1)⟩) fun h => ⟨[robotHello w], List.prefix_refl _, .inl (one h.1)⟩⟩
  | panic m => exact ⟨(fun h => by cases h), h.elim (fun h => ⟨[], List.nil_prefix, .inl (none_ h)⟩) fun h => ⟨[robotHello w], List.prefix_refl _, .inl (one h)⟩⟩
  | blocked => exact ⟨(fun h => by cases h), h.elim (fun h => ⟨[], List.nil_prefix, .inl (none_ h)⟩) fun h => ⟨[robotHello w], List.prefix_refl _, .inl (one h)⟩⟩

theorem new_asks (w : World F) (hw : Fresh w) : Asks [robotHello w] (Robot.new none none w).1 (asked (Robot.new none none w).2.trace) := new_asks_with none w hw

theorem new_reachable_with {rc : Option RealtimeConfig} {w w1 : World F} (hw : Fresh w) (h : Robot.new rc none w = (.ok (), w1)) : RobotReachable w1 :=
  ⟨rc, none, [], w, hw, by
    show (Robot.new rc none >>= fun _ => robotCalls []) w = _
    rw [bind_ok_eq h]
    rfl⟩

theorem new_reachable {w w1 : World F} (hw : Fresh w) (h : Robot.new none none w = (.ok (), w1)) : RobotReachable w1 := new_reachable_with hw h

theorem connects_of {q : Prog F Unit} {R : World F → Res F Unit → World F → Prop} {w : World F} (h : ∀ w1, R w1 (q w1).1 (q w1).2) :
    Connects (Robot.new none none >>= fun _ => q) R w := by
  unfold Connects
  split
  · next h1 => rw [bind_ok_eq h1]; exact h _
  · next r w1 hr h1 => exact bind_not_ok h1 fun h => hr () h

theorem connects_asks {p : Prog F Unit} {R : World F → Res F Unit → World F → Prop} {w : World F} (hw : Fresh w) (h : Connects p R w)
    {P : List (RobotBody F) → Prop} (hP : ∃ bs, P bs)
    (hR : ∀ w1 r w2, RobotReachable w1 → R w1 r w2 → ∃ bs, P bs ∧ CallAsks bs r w1 w2) :
    ∃ bs, P bs ∧ Asks (robotHello w :: bs) (p w).1 (asked (p w).2.trace) := by
  have hnew := new_asks w hw
  unfold Connects at h
  split at h
  · next u w1 h1 =>
    rw [h1] at hnew
    obtain ⟨bs, hbs, h2⟩ := hR w1 _ _ (new_reachable hw h1) h
    have h3 := hnew.all rfl
    dsimp only at h3
    refine ⟨bs, hbs, fun hr => ?_, ?_⟩
    · rw [h2.all hr, h3]; rfl
    · obtain ⟨l, hl, h⟩ := h2.some
      rw [h3] at h
      refine ⟨robotHello w :: l, List.cons_prefix_cons.2 ⟨rfl, hl⟩, h.imp (fun h => h) fun ⟨h, m, hm⟩ => ⟨h, m, ?_⟩⟩
      rw [List.getLast?_cons, hm]
      rfl
  · next r w1 hr h1 =>
    obtain ⟨bs, hbs⟩ := hP
    rw [h1] at hnew
    rw [h]
    refine ⟨bs, hbs, fun h => absurd h (hr ()), ?_⟩
    obtain ⟨l, hl, h⟩ := hnew.some
    exact ⟨l, hl.trans (by simp), h⟩

/-! ## The examples -/

variable [FlExtra F]

theorem example_eq {p : Prog F Unit} {cs : List (RobotCall F)} {bs : List (RobotBody F)} (h : Example p cs bs) :
    p = (Robot.new none none >>= fun _ => inTurn cs) ∧ AllAsk cs bs := by
  have e : ∀ q : Prog F Unit, (q >>= fun _ => pure ()) = q := by
    intro q
    funext w
    obtain ⟨r, w', h⟩ : ∃ r w', q w = (r, w') := ⟨_, _, rfl⟩
    by_cases hr : r = .ok ()
    · subst hr; rw [bind_ok_eq h, h]; rfl
    · rw [bind_not_ok h hr, h]
  have us : ∀ (c : RobotCall F) (b : RobotBody F) (p : Prog F Unit), p = (Examples.prepare >>= fun _ => c.run) → AsksFor c [b] →
      p = (Robot.new none none >>= fun _ => inTurn (usual c)) ∧ AllAsk (usual c) (usualBodies b) := by
    rintro c b p rfl hc
    refine ⟨?_, .cons .default (.cons (.setter rfl) (.cons (.control (.jointMotion _ _)) (.cons hc .nil)))⟩
    unfold Examples.prepare usual inTurn inTurn inTurn inTurn inTurn
    rw [e]
    simp only [Prog.bind_assoc']
    rfl
  cases h with
  | jointPosition => exact us _ _ _ rfl (.control (.motion _ _ _ _ _ _ _))
  | jointVelocity => exact us _ _ _ rfl (.control (.motion _ _ _ _ _ _ _))
  | pose => exact us _ _ _ rfl (.control (.motion _ _ _ _ _ _ _))
  | elbow => exact us _ _ _ rfl (.control (.motion _ _ _ _ _ _ _))
  | communication => exact us _ _ _ rfl (.control (.torques _ _ _ _ _))
  | cartesianVelocity =>
    refine ⟨?_, .cons .default (.cons (.setter rfl) (.cons (.setter rfl) (.cons (.control (.jointMotion _ _)) (.cons (.control (.motion _ _ _ _ _ _ _)) .nil))))⟩
    unfold Examples.generate_cartesian_velocity_motion inTurn inTurn inTurn inTurn inTurn inTurn
    rw [e]
    rfl

/-- C95: these programs connect to the robot and make one call after the other, and the first call that does not return Ok ends the program with its result. -/
theorem C95_calls {p : Prog F Unit} {cs : List (RobotCall F)} {bs : List (RobotBody F)} (h : Example p cs bs) (w : World F) : Connects p (InTurn cs) w := by
  obtain ⟨rfl, -⟩ := example_eq h
  exact connects_of fun w1 => inTurn_spec cs w1

/-- C95: and the robot is asked for what is listed, in this order and nothing else: all of it if the program returns Ok, and otherwise the first part of it, where a
motion may have been stopped at the end. -/
theorem C95_requests {p : Prog F Unit} {cs : List (RobotCall F)} {bs : List (RobotBody F)} (h : Example p cs bs) (w : World F) (hw : Fresh w) :
    Asks (robotHello w :: bs) (p w).1 (asked (p w).2.trace) := by
  obtain ⟨_, rfl, h'⟩ := connects_asks hw (C95_calls h w) (P := fun l => l = bs) ⟨_, rfl⟩
    fun w1 r w2 hw1 h1 => ⟨bs, rfl, (InTurn.asks h1 (example_eq h).2 hw1).1⟩
  exact h'

/-! ## generate_consecutive_motions -/

theorem motions_spec : ∀ (n : Nat) (w : World F), Motions n w (Examples.consecutive n w).1 (Examples.consecutive n w).2
  | 0, w => .done w
  | n + 1, w => by
    obtain ⟨r, w1, h⟩ : ∃ r w1, (consecutiveMotion (F := F)).run w = (r, w1) := ⟨_, _, rfl⟩
    have ha := attempt_eq h
    cases r with
    | ok u =>
      have hrun : Examples.consecutive (n + 1) w = Examples.consecutive n w1 := bind_ok_eq ha
      rw [hrun]
      exact .fine h (motions_spec n w1)
    | panic m =>
      have hrun : Examples.consecutive (n + 1) w = (.panic m, w1) := bind_eq_panic ha
      rw [hrun]
      exact .failed h (by simp) (by simp)
    | blocked =>
      have hrun : Examples.consecutive (n + 1) w = (.blocked, w1) := bind_eq_blocked ha
      rw [hrun]
      exact .failed h (by simp) (by simp)
    | err e =>
      by_cases he : ∃ l m, e = .ControlException l m
      · obtain ⟨l, m, rfl⟩ := he
        have hrun : Examples.consecutive (n + 1) w = (RobotCall.automatic_error_recovery.run >>= fun _ => Examples.consecutive n) w1 := bind_ok_eq ha
        rw [hrun]
        obtain ⟨r, w2, h2⟩ : ∃ r w2, (RobotCall.automatic_error_recovery : RobotCall F).run w1 = (r, w2) := ⟨_, _, rfl⟩
        by_cases hr : r = .ok ()
        · subst hr
          rw [bind_ok_eq h2]
          exact .recovered h h2 (motions_spec n w2)
        · rw [bind_not_ok h2 hr]
          exact .lost h h2 hr
      · have hrun : Examples.consecutive (n + 1) w = (.err e, w1) := by
          refine (bind_ok_eq ha).trans ?_
          cases e with
          | ControlException l m => exact absurd ⟨l, m, rfl⟩ he
          | _ => rfl
        rw [hrun]
        exact .failed h (by simp) fun l m hm => he ⟨l, m, by injection hm⟩

/-- C95: the program connects, prepares, and makes five motions, where a ControlException does not end it but makes it ask the robot to recover. -/
theorem C95_consecutive (w : World F) : Connects Examples.generate_consecutive_motions (fun w1 r w3 => ∃ r1 w2, InTurn consecutiveStart w1 r1 w2 ∧
    (r1 = .ok () → Motions 5 w2 r w3) ∧ (r1 ≠ .ok () → r = r1 ∧ w3 = w2)) w := by
  have : (Examples.generate_consecutive_motions : Prog F Unit) =
      (Robot.new none none >>= fun _ => inTurn consecutiveStart >>= fun _ => Examples.consecutive 5) := by
    unfold Examples.generate_consecutive_motions consecutiveStart inTurn inTurn inTurn inTurn
    simp only [Prog.bind_assoc']
    rfl
  rw [this]
  refine connects_of fun w1 => ?_
  obtain ⟨r1, w2, h⟩ : ∃ r1 w2, inTurn (F := F) consecutiveStart w1 = (r1, w2) := ⟨_, _, rfl⟩
  have hs := inTurn_spec (F := F) consecutiveStart w1
  rw [h] at hs
  refine ⟨r1, w2, hs, fun hr => ?_, fun hr => ?_⟩
  · subst hr
    rw [bind_ok_eq h]
    exact motions_spec 5 w2
  · rw [bind_not_ok h hr]
    exact ⟨rfl, rfl⟩

theorem motionBodies_exists : ∀ n, ∃ l : List (RobotBody F), MotionBodies n l
  | 0 => ⟨[], .nil⟩
  | n + 1 => let ⟨_, h⟩ := motionBodies_exists n; ⟨_, .fine h⟩

theorem Spec.Motions.asks {n : Nat} {w w' : World F} {r : Res F Unit} (h : Motions n w r w') : RobotReachable w →
    ∃ bs, MotionBodies n bs ∧ CallAsks bs r w w' := by
  have ctl := IsControl.motion (F := F) _ .JointVelocities (Examples.velocity_callback (F := F) (lit (1 / 5)) (lit 4)) none none none (lit 0)
  induction h with
  | done w => exact fun _ => ⟨[], .nil, fun _ => by simp, [], List.prefix_refl _, .inl (by simp)⟩
  | @fine n w w1 r w2 h1 h2 ih =>
    intro hw
    have h := (control_asks hw ctl).1.all
    have hw1 := hw.after consecutiveMotion (.inl (by rw [h1]))
    change (consecutiveMotion.run w).1 = _ → asked (consecutiveMotion.run w).2.trace = _ at h
    rw [h1] at h hw1
    obtain ⟨bs, hbs, h3⟩ := ih hw1
    exact ⟨_, .fine hbs, CallAsks.trans (h rfl) h3⟩
  | @recovered n w l m w1 w2 r w3 h1 h2 h3 ih =>
    intro hw
    have h := (control_asks hw ctl).2
    have hw1 := hw.after consecutiveMotion (.inr ⟨_, by rw [h1]⟩)
    change ∀ l m, (consecutiveMotion.run w).1 = _ → asked (consecutiveMotion.run w).2.trace = _ ∨ asked (consecutiveMotion.run w).2.trace = _ at h
    rw [h1] at h hw1
    have hr := (AsksFor.recovery (F := F)).call hw1
    have hw2 := hw1.after .automatic_error_recovery (.inl (by rw [h2]))
    rw [h2] at hr hw2
    obtain ⟨bs, hbs, h4⟩ := ih hw2
    have h5 := CallAsks.trans (hr.all rfl) h4
    rcases h l m rfl with h | h
    · exact ⟨_, .recovered hbs, CallAsks.trans h h5⟩
    · exact ⟨_, .stopped hbs, CallAsks.trans h h5⟩
  | @lost n w l m w1 r w2 h1 h2 hr =>
    intro hw
    have h := (control_asks hw ctl).2
    have hw1 := hw.after consecutiveMotion (.inr ⟨_, by rw [h1]⟩)
    change ∀ l m, (consecutiveMotion.run w).1 = _ → asked (consecutiveMotion.run w).2.trace = _ ∨ asked (consecutiveMotion.run w).2.trace = _ at h
    rw [h1] at h hw1
    have hr' := (AsksFor.recovery (F := F)).call hw1
    rw [h2] at hr'
    obtain ⟨bs, hbs⟩ := motionBodies_exists (F := F) n
    have h5 := hr'.more bs hr
    rcases h l m rfl with h | h
    · exact ⟨_, .recovered hbs, CallAsks.trans h h5⟩
    · exact ⟨_, .stopped hbs, CallAsks.trans h h5⟩
  | @failed n w r w1 h1 hr _ =>
    intro hw
    have h := (control_asks hw ctl).1
    change CallAsks _ (consecutiveMotion.run w).1 w (consecutiveMotion.run w).2 at h
    rw [h1] at h
    obtain ⟨bs, hbs⟩ := motionBodies_exists (F := F) n
    exact ⟨_, .fine hbs, h.more bs hr⟩

/-- C95: and the robot is asked for nothing else. -/
theorem C95_consecutive_requests (w : World F) (hw : Fresh w) : ∃ l, MotionBodies 5 l ∧
    Asks (robotHello w :: consecutiveStartBodies ++ l) (Examples.generate_consecutive_motions w).1 (asked (Examples.generate_consecutive_motions w).2.trace) := by
  have hstart : AllAsk (F := F) consecutiveStart consecutiveStartBodies := .cons .default (.cons (.setter rfl) (.cons (.control (.jointMotion _ _)) .nil))
  obtain ⟨bs, ⟨l, hl, rfl⟩, h⟩ := connects_asks hw (C95_consecutive w) (P := fun bs => ∃ l, MotionBodies 5 l ∧ bs = consecutiveStartBodies ++ l)
    (let ⟨l, hl⟩ := motionBodies_exists (F := F) 5; ⟨_, l, hl, rfl⟩) (by
      rintro w1 r w3 hw1 ⟨r1, w2, h1, h2, h3⟩
      obtain ⟨ha, hw2⟩ := InTurn.asks h1 hstart hw1
      by_cases hr : r1 = .ok ()
      · obtain ⟨l, hl, h4⟩ := (h2 hr).asks (hw2 hr)
        exact ⟨_, ⟨l, hl, rfl⟩, CallAsks.trans (ha.all hr) h4⟩
      · obtain ⟨rfl, rfl⟩ := h3 hr
        obtain ⟨l, hl⟩ := motionBodies_exists (F := F) 5
        exact ⟨_, ⟨l, hl, rfl⟩, ha.more l hr⟩)
  exact ⟨l, hl, h⟩

end Verif
