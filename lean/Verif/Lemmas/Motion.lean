import Verif.Spec.Motion
import Verif.Lemmas.Calls
import Mathlib.Data.List.Induction
/-!
From the automaton of a control call to statements about lists of events.
-/
set_option linter.unusedSectionVars false
namespace Verif
open Prog Spec
variable {F : Type} [Fl F] [Wire F] [Geo F]

/-! ## New events -/

theorem newEvents_of_grows {w w' : World F} (h : Grows w w') : visible w'.trace = visible w.trace ++ newEvents w w' := by
  obtain ⟨es, h⟩ := h
  unfold newEvents
  rw [h, List.drop_left, visible_append]

theorem newEvents_eq {w w' : World F} {tr : List (Ev F)} (h : Grows w w') (h' : visible w'.trace = visible w.trace ++ tr) : newEvents w w' = tr := by
  rw [newEvents_of_grows h] at h'
  exact List.append_cancel_left h'

theorem call_grows (c : RobotCall F) (w : World F) : Grows w (c.run w).2 := (pres_call (T := Grows) (fun _ => trivial) c).post w

theorem lastAccepted_snoc (tr : List (Ev F)) (s : RobotStateIntern F) : lastAccepted (tr ++ [.accepted s]) = some s := by
  simp [lastAccepted, accepted]

theorem lastAccepted_other (tr : List (Ev F)) (e : Ev F) (h : accepted [e] = []) : lastAccepted (tr ++ [e]) = lastAccepted tr := by
  simp [lastAccepted, h]

theorem lastAccepted_requests (tr : List (Ev F)) (rs : List (RobotReq F)) : lastAccepted (tr ++ rs.map .robotReq) = lastAccepted tr := by
  have : accepted (rs.map (Ev.robotReq (F := F))) = [] := by
    unfold accepted
    rw [List.filterMap_eq_nil_iff]
    intro e he
    obtain ⟨r, -, rfl⟩ := List.mem_map.1 he
    rfl
  unfold lastAccepted
  rw [accepted_append, this, List.append_nil]

/-! ## Runs -/

section
variable {σ : Type} {k : MotionKind} {call : ControlCall F σ k} {c0 : σ}

theorem run_cases {ph0 ph : Phase F σ} {tr : List (Ev F)} (h : Run call c0 ph0 tr ph) :
    (tr = [] ∧ ph = ph0) ∨ ∃ tr' ph' e, tr = tr' ++ [e] ∧ Run call c0 ph0 tr' ph' ∧ Step call c0 ph' e ph := by
  cases h with
  | nil => exact .inl ⟨rfl, rfl⟩
  | snoc h1 h2 => exact .inr ⟨_, _, _, rfl, h1, h2⟩

/-- Every event of a run is a step after the events before it. -/
theorem Spec.Run.before_all {ph0 ph : Phase F σ} {tr : List (Ev F)} (h : Run call c0 ph0 tr ph) :
    Before (fun pre e => ∃ ph1 ph2, Run call c0 ph0 pre ph1 ∧ Step call c0 ph1 e ph2) tr := by
  induction h with
  | nil => intro pre e post h; simp at h
  | @snoc tr ph' e ph'' h1 h2 ih =>
    intro pre e' post h
    rcases List.eq_nil_or_concat post with rfl | ⟨post, x, rfl⟩
    · obtain ⟨h3, h4⟩ := List.append_inj' h rfl
      subst h3
      cases h4
      exact ⟨ph', ph'', h1, h2⟩
    · rw [List.concat_eq_append, show pre ++ e' :: (post ++ [x]) = (pre ++ e' :: post) ++ [x] by simp] at h
      exact ih pre e' post (List.append_inj' h rfl).1

/-- After a prefix of a run comes a step. -/
theorem Spec.Run.split {ph0 ph : Phase F σ} {a b : List (Ev F)} (h : Run call c0 ph0 (a ++ b) ph) :
    ∃ ph1, Run call c0 ph0 a ph1 ∧ Run call c0 ph1 b ph := by
  induction b using List.reverseRecOn generalizing ph with
  | nil => exact ⟨ph, by simpa using h, .nil _⟩
  | append_singleton b e ih =>
    rw [← List.append_assoc] at h
    rcases run_cases h with ⟨h, -⟩ | ⟨tr', ph', e', h1, h2, h3⟩
    · simp at h
    · obtain ⟨h4, h5⟩ := List.append_inj' h1 rfl
      subst h4
      cases h5
      obtain ⟨ph1, g1, g2⟩ := ih h2
      exact ⟨ph1, g1, g2.snoc h3⟩

theorem Spec.Run.step_of_cons {ph0 ph : Phase F σ} {e : Ev F} {b : List (Ev F)} (h : Run call c0 ph0 (e :: b) ph) :
    ∃ ph1, Step call c0 ph0 e ph1 ∧ Run call c0 ph1 b ph := by
  obtain ⟨ph1, h1, h2⟩ := Run.split (a := [e]) (b := b) h
  rcases run_cases h1 with ⟨h, -⟩ | ⟨tr', ph', e', h3, h4, h5⟩
  · simp at h
  · have : tr' = [] ∧ e' = e := by
      cases tr' with
      | nil => simp only [List.nil_append, List.cons.injEq, and_true] at h3; exact ⟨rfl, h3.symm⟩
      | cons x xs => simp at h3
    obtain ⟨rfl, rfl⟩ := this
    rcases run_cases h4 with ⟨-, rfl⟩ | ⟨tr', _, _, h, -⟩
    · exact ⟨ph1, h5, h2⟩
    · simp at h

theorem Spec.Run.last {ctx tr : List (Ev F)} {ph0 ph : Phase F σ} (h0 : lastAccepted ctx = some ph0.last)
    (h : Run call c0 ph0 tr ph) : lastAccepted (ctx ++ tr) = some ph.last := by
  induction h with
  | nil => simpa using h0
  | @snoc tr ph' e ph'' h1 h2 ih =>
    rw [← List.append_assoc]
    cases h2 <;> first
      | exact lastAccepted_snoc _ _
      | exact (lastAccepted_other _ _ rfl).trans ih

end

/-! ## Histories -/

/-- `Before` after the events `ctx`. -/
def BeforeFrom (P : List (Ev F) → Ev F → Prop) (ctx tr : List (Ev F)) : Prop := ∀ pre e post, tr = pre ++ e :: post → P (ctx ++ pre) e

theorem before_iff (P : List (Ev F) → Ev F → Prop) (tr : List (Ev F)) : Before P tr ↔ BeforeFrom P [] tr := by
  unfold Before BeforeFrom; simp

theorem BeforeFrom.nil (P : List (Ev F) → Ev F → Prop) (ctx : List (Ev F)) : BeforeFrom P ctx [] := by
  intro pre e post h; simp at h

theorem BeforeFrom.append {P : List (Ev F) → Ev F → Prop} {ctx a b : List (Ev F)} (h1 : BeforeFrom P ctx a) (h2 : BeforeFrom P (ctx ++ a) b) :
    BeforeFrom P ctx (a ++ b) := by
  intro pre e post h
  rcases List.append_eq_append_iff.1 h with ⟨x, rfl, hb⟩ | ⟨x, ha, hx⟩
  · have := h2 x e post hb
    rwa [List.append_assoc] at this
  · cases x with
    | nil =>
      simp only [List.append_nil] at ha
      subst ha
      have := h2 [] e post (by simpa using hx.symm)
      simpa using this
    | cons y ys =>
      simp only [List.cons_append, List.cons.injEq] at hx
      obtain ⟨rfl, rfl⟩ := hx
      exact h1 pre e ys ha

theorem BeforeFrom.one {P : List (Ev F) → Ev F → Prop} {ctx : List (Ev F)} {e : Ev F} (h : P ctx e) : BeforeFrom P ctx [e] := by
  intro pre e' post h'
  cases pre with
  | nil => cases h'; simpa using h
  | cons x xs => simp at h'

/-- What must be shown of every event of a history. -/
structure EventRule (P : List (Ev F) → Ev F → Prop) : Prop where
  request : ∀ pre r, (∀ m, r.request ≠ .Move m) → P pre (.robotReq r)
  accepted : ∀ pre s, P pre (.accepted s)
  shown : ∀ pre s b, P (pre ++ [.accepted s]) (.readCb (RobotState.ofIntern s) b)
  control : ∀ {σ : Type} {k : MotionKind} (call : ControlCall F σ k) (c0 : σ) (s : RobotStateIntern F) (ctx pre : List (Ev F)) (ph ph' : Phase F σ) (e : Ev F),
    Fits call → lastAccepted ctx = some s → Run call c0 (.before s) pre ph → Step call c0 ph e ph' → P (ctx ++ pre) e

variable {P : List (Ev F) → Ev F → Prop}

theorem EventRule.requests (h : EventRule P) (ctx : List (Ev F)) (rs : List (RobotReq F)) (hr : ∀ r ∈ rs, ∀ m, r.request ≠ .Move m) :
    BeforeFrom P ctx (rs.map .robotReq) := by
  intro pre e post he
  have : e ∈ rs.map (Ev.robotReq (F := F)) := by rw [he]; simp
  obtain ⟨r, h1, rfl⟩ := List.mem_map.1 this
  exact h.request _ r (hr r h1)

theorem EventRule.run {σ : Type} {k : MotionKind} {call : ControlCall F σ k} {c0 : σ} {s : RobotStateIntern F} {ctx tr : List (Ev F)} {ph : Phase F σ}
    (h : EventRule P) (hf : Fits call) (hs : lastAccepted ctx = some s) (hr : Run call c0 (.before s) tr ph) : BeforeFrom P ctx tr := by
  intro pre e post he
  obtain ⟨ph1, ph2, h1, h2⟩ := hr.before_all pre e post he
  exact h.control call c0 s ctx pre ph1 ph2 e hf hs h1 h2

theorem EventRule.piece (h : EventRule P) {ctx tr : List (Ev F)} {s s' : RobotStateIntern F} (hs : lastAccepted ctx = some s) (hp : Piece s tr s') :
    BeforeFrom P ctx tr ∧ lastAccepted (ctx ++ tr) = some s' := by
  cases hp with
  | request s r hr => exact ⟨.one (h.request _ r hr), (lastAccepted_other _ _ rfl).trans hs⟩
  | state s s' hlt => exact ⟨.one (h.accepted _ _), lastAccepted_snoc _ _⟩
  | shown s s' b hlt =>
    exact ⟨.append (a := [.accepted s']) (.one (h.accepted _ _)) (.one (h.shown _ s' b)), by
      rw [List.append_cons]; exact (lastAccepted_other _ _ rfl).trans (lastAccepted_snoc _ _)⟩
  | control call c0 s tr ph hf hr => exact ⟨h.run hf hs hr, hr.last (ph0 := .before _) hs⟩

theorem EventRule.pieces (h : EventRule P) {ctx tr : List (Ev F)} {s s' : RobotStateIntern F} (hs : lastAccepted ctx = some s) (hp : Pieces s tr s') :
    BeforeFrom P ctx tr ∧ lastAccepted (ctx ++ tr) = some s' := by
  induction hp with
  | nil => exact ⟨.nil _ _, by simpa using hs⟩
  | snoc _ hp ih =>
    obtain ⟨h1, h2⟩ := ih
    obtain ⟨h3, h4⟩ := h.piece h2 hp
    exact ⟨h1.append h3, by rw [← List.append_assoc]; exact h4⟩

theorem EventRule.history (h : EventRule P) {tr : List (Ev F)} {s : RobotStateIntern F} (hh : HistoryOf tr s) : Before P tr ∧ lastAccepted tr = some s := by
  obtain ⟨rs, s0, tr', h1, rfl, h3⟩ := hh
  obtain ⟨g1, g2⟩ := h.pieces (lastAccepted_snoc (rs.map .robotReq) s0) h3
  refine ⟨(before_iff _ _).2 (.append (.append (h.requests _ rs h1) (.one (h.accepted _ _))) ?_), g2⟩
  simpa using g1

/-- A rule for every event holds in every history, also in one that ends with a panic or with a call that still waits. -/
theorem EventRule.session (h : EventRule P) (rc : Option RealtimeConfig) (ls : Option Nat) (cs : List (RobotCall F)) (w : World F) (hw : Fresh w) :
    Before P (visible (robotSession rc ls cs w).2.trace) := by
  have key : Seen (robotSession rc ls cs w).2 := by
    have h1 := session_alive rc ls cs w hw
    unfold Post at h1
    cases hr : (robotSession rc ls cs w).1 with
    | ok _ => rw [hr] at h1; obtain ⟨s, h2, -⟩ := h1.history; exact .inl ⟨s, h2⟩
    | err e => rw [hr] at h1; exact h1
    | panic m => rw [hr] at h1; exact h1
    | blocked => rw [hr] at h1; exact h1
  rcases key with ⟨s, h2⟩ | ⟨rs, h2, h3⟩
  · exact (h.history h2).1
  · rw [h3, before_iff]
    exact h.requests _ rs h2

/-- What holds of every event, whatever came before. -/
theorem eventRule_true : EventRule (F := F) fun _ _ => True := ⟨by simp, by simp, by simp, by simp⟩

/-- A control call on a robot: its new events are a run of the automaton, from the last state. -/
theorem control_events {w : World F} (hw : RobotReachable w) {c : RobotCall F} {σ : Type} {k : MotionKind} {call : ControlCall F σ k} {c0 : σ}
    (hc : IsControl c call c0) : ∃ s0 ph, lastAccepted (visible w.trace) = some s0 ∧ LastState w s0 ∧
      Run call c0 (.before s0) (newEvents w (c.run w).2) ph ∧
      (RealTimeMissing w → (c.run w).2 = w ∧ ∃ m, (c.run w).1 = .err (.RealTimeException m)) ∧
      match (c.run w).1 with
      | .ok _ => LastState (c.run w).2 ph.last ∧ ∃ s m t, ph = .finishing s m t ∧ Finished k call.controller w (c.run w).2 s
      | .err e => LastState (c.run w).2 ph.last ∧ ((newEvents w (c.run w).2 = [] ∧ RealTimeMissing w ∧ ∃ m, e = .RealTimeException m) ∨
          (∃ s, ph = .starting s ∧ ¬ ShowsModes k call.controller s ∧ StartFailure w (c.run w).2 e) ∨
          (∃ s, ph = .stopping s ∧ Stopped call c0 w s0 (newEvents w (c.run w).2) (c.run w).2 s e))
      | .panic _ => True
      | .blocked => ∀ s, ph ≠ .refused s := by
  obtain ⟨hk, s0, hh, hs⟩ := RobotReachable.alive hw
  obtain ⟨hrt, tr, ph, h1, h2, h3⟩ := control_call_view hc w hk s0 hs
  have hn := newEvents_eq (call_grows c w) h1
  refine ⟨s0, ph, (eventRule_true.history hh).2, hs, hn ▸ h2, hrt, ?_⟩
  rw [hn]
  exact h3

/-! ## Calls without motions -/

/-- Nothing that belongs to a motion. -/
def PlainEv (e : Ev F) : Prop := ¬ IsMove e ∧ ¬ IsCommand e ∧ ¬ IsCallback e

/-- Nothing that belongs to a motion happens. -/
def PlainStep (w w' : World F) : Prop := ∃ es, w'.trace = w.trace ++ es ∧ ∀ e ∈ es, PlainEv e

theorem PlainStep.nil {w w' : World F} (h : w'.trace = w.trace) : PlainStep w w' := ⟨[], by simp [h], by simp⟩

theorem PlainStep.one {w w' : World F} (e : Ev F) (h : w'.trace = w.trace ++ [e]) (he : PlainEv e) : PlainStep w w' := ⟨[e], h, by simpa using he⟩

instance : Pre (PlainStep (F := F)) where
  refl _ := .nil rfl
  trans := by
    rintro a b c ⟨x, hx, gx⟩ ⟨y, hy, gy⟩
    refine ⟨x ++ y, by rw [hy, hx, List.append_assoc], ?_⟩
    intro e he
    rcases List.mem_append.1 he with he | he
    · exact gx e he
    · exact gy e he

theorem plain_of (e : Ev F) (h1 : ∀ h m, e ≠ .robotReq ⟨h, .Move m⟩) (h2 : ∀ a c, e ≠ .udpSend a c) (h3 : ∀ k s dt o, e ≠ .motionCb k s dt o)
    (h4 : ∀ s dt o, e ≠ .controlCb s dt o) : PlainEv e := by
  refine ⟨fun ⟨h, m, he⟩ => h1 h m he, ?_, ?_⟩
  · cases e <;> simp_all [IsCommand]
  · cases e <;> simp only [IsCallback, not_false_eq_true]
    · exact fun _ => h3 _ _ _ _ rfl
    · exact fun _ => h4 _ _ _ rfl

macro "plain_ev" : tactic => `(tactic| (refine plain_of _ ?_ ?_ ?_ ?_ <;> (intros; first | simp | (intro h; cases h))))

instance : TTcp (PlainStep (F := F)) where
  tick _ _ _ _ := .nil rfl
  poll _ := .nil rfl
  read w n := .one _ rfl (by plain_ev)
  pend _ _ _ := .nil rfl
  head _ _ _ := .nil rfl
  store w := .one _ rfl (by plain_ev)
  remove _ _ := .nil rfl

instance : TReq (PlainStep (F := F)) (fun b => ∀ m, b ≠ .Move m) where
  next _ := .nil rfl
  req w r h := .one _ rfl (plain_of _ (by intro h' m he; cases he; exact h m rfl) (by simp) (by simp) (by simp))

instance : TAcc (PlainStep (F := F)) where
  upoll _ := .nil rfl
  recv w d ds _ := .one _ rfl (by plain_ev)
  addr _ _ := .nil rfl
  acc w s := .one _ rfl (by plain_ev)

instance : TRob (PlainStep (F := F)) where
  rob _ _ _ _ _ := .nil rfl

theorem plain_call (c : RobotCall F) (hc : ¬ IsControlMethod c) : Pres PlainStep c.run := by
  cases c <;> unfold RobotCall.run <;> simp only
  case read => exact pres_robot_read _ _ fun _ _ _ => .one _ rfl (by plain_ev)
  case read_once => unfold Robot.read_once; pres [pres_robotImpl_read_once]
  case set_collision_behavior => exact pres_set_collision_behavior _ _ _ _ _ _ _ _ (by simp)
  case set_joint_impedance => exact pres_set_joint_impedance _ (by simp)
  case set_cartesian_impedance => exact pres_set_cartesian_impedance _ (by simp)
  case set_guiding_mode => exact pres_set_guiding_mode _ _ (by simp)
  case set_K => exact pres_set_K _ (by simp)
  case set_EE => exact pres_set_EE _ (by simp)
  case set_load => exact pres_set_load _ _ _ (by simp)
  case set_filters => exact pres_set_filters _ _ _ _ _ (by simp)
  case automatic_error_recovery => exact pres_automatic_error_recovery (by simp)
  case stop => exact pres_stop (by simp)
  case get_virtual_wall => pres [pres_get_virtual_wall _ (by simp)]
  case set_default_behavior =>
    unfold Robot.set_default_behavior
    pres [pres_set_collision_behavior _ _ _ _ _ _ _ _ (by simp), pres_set_joint_impedance _ (by simp),
      pres_set_cartesian_impedance _ (by simp)]
  case load_model => pres [pres_load_model (fun _ _ => .nil rfl) (by simp) _]
  case server_version =>
    unfold Robot.server_version
    pres [pres_server_version]
  all_goals exact absurd trivial hc

end Verif
