import Verif.Spec.MirrorProgram
import Verif.Props.ModelPrograms
/-!
# The mirror example from its start to its end: C102
-/
set_option linter.unusedSectionVars false
namespace Verif
open Prog Spec Fl Examples
variable {F : Type}

namespace MirrorProgram

/-- A result without its value. -/
def void {α : Type} : Res F α → Res F Unit
  | .ok _ => .ok ()
  | .err e => .err e
  | .panic m => .panic m
  | .blocked => .blocked

theorem void_ok {α : Type} {r : Res F α} (h : void r = .ok ()) : ∃ a, r = .ok a := by
  cases r with
  | ok a => exact ⟨a, rfl⟩
  | _ => cases h

variable [Fl F] [Wire F] [Geo F]

/-! ## The preparation -/

/-- `k` is the calls in turn, and then reads the state of the user's robot. -/
def Does (cs : List (Side × RobotCall F)) (k : Duo F (RobotState F)) : Prop := ∀ p, PairTurn (cs ++ [(.user, .read_once)]) p (void (k p).1) (k p).2 ∧
  ∀ st, (k p).1 = .ok st → ∃ u, PairTurn cs p (.ok ()) ⟨u, (k p).2.mirror⟩ ∧ Robot.read_once u = (.ok st, (k p).2.user)

theorem does_read : Does [] (onUser Robot.read_once : Duo F (RobotState F)) := by
  rintro ⟨u, m⟩
  unfold onUser
  have hrun : (RobotCall.read_once : RobotCall F).run u = Prog.bind Robot.read_once (fun _ => Prog.pure ()) u := rfl
  unfold Prog.bind at hrun
  cases h : (Robot.read_once : Prog F (RobotState F)) u with
  | mk r u1 =>
    rw [h] at hrun
    simp only
    cases r with
    | ok st => exact ⟨.user hrun (.done _), fun st' hst => ⟨u, .done _, by rw [h]; cases hst; rfl⟩⟩
    | err e => exact ⟨.userLast hrun (by simp [void]), fun _ h => by cases h⟩
    | panic m => exact ⟨.userLast hrun (by simp [void]), fun _ h => by cases h⟩
    | blocked => exact ⟨.userLast hrun (by simp [void]), fun _ h => by cases h⟩

theorem does_user {α : Type} {c : RobotCall F} {q : Prog F α} {f : α → Duo F (RobotState F)} {cs : List (Side × RobotCall F)}
    (hq : ∀ w, c.run w = (void (q w).1, (q w).2)) (hf : ∀ a, Does cs (f a)) : Does ((.user, c) :: cs) (onUser q >>= f) := by
  rintro ⟨u, m⟩
  change PairTurn _ _ (void (Duo.bind _ _ _).1) (Duo.bind _ _ _).2 ∧ ∀ st, (Duo.bind _ _ _).1 = _ → ∃ u, PairTurn _ _ _ ⟨_, (Duo.bind _ _ _).2.mirror⟩ ∧ _ = (_, (Duo.bind _ _ _).2.user)
  unfold Duo.bind onUser
  have hrun := hq u
  cases h : q u with
  | mk r u1 =>
    rw [h] at hrun
    simp only
    cases r with
    | ok a =>
      refine ⟨.user hrun (hf a ⟨u1, m⟩).1, fun st hst => ?_⟩
      obtain ⟨u2, h1, h2⟩ := (hf a ⟨u1, m⟩).2 st hst
      exact ⟨u2, .user hrun h1, h2⟩
    | err e => exact ⟨.userLast hrun (by simp [void]), fun _ h => by cases h⟩
    | panic m => exact ⟨.userLast hrun (by simp [void]), fun _ h => by cases h⟩
    | blocked => exact ⟨.userLast hrun (by simp [void]), fun _ h => by cases h⟩

theorem does_mirror {α : Type} {c : RobotCall F} {q : Prog F α} {f : α → Duo F (RobotState F)} {cs : List (Side × RobotCall F)}
    (hq : ∀ w, c.run w = (void (q w).1, (q w).2)) (hf : ∀ a, Does cs (f a)) : Does ((.mirror, c) :: cs) (onMirror q >>= f) := by
  rintro ⟨u, m⟩
  change PairTurn _ _ (void (Duo.bind _ _ _).1) (Duo.bind _ _ _).2 ∧ ∀ st, (Duo.bind _ _ _).1 = _ → ∃ u, PairTurn _ _ _ ⟨_, (Duo.bind _ _ _).2.mirror⟩ ∧ _ = (_, (Duo.bind _ _ _).2.user)
  unfold Duo.bind onMirror
  have hrun := hq m
  cases h : q m with
  | mk r m1 =>
    rw [h] at hrun
    simp only
    cases r with
    | ok a =>
      refine ⟨.mirror hrun (hf a ⟨u, m1⟩).1, fun st hst => ?_⟩
      obtain ⟨u2, h1, h2⟩ := (hf a ⟨u, m1⟩).2 st hst
      exact ⟨u2, .mirror hrun h1, h2⟩
    | err e => exact ⟨.mirrorLast hrun (by simp [void]), fun _ h => by cases h⟩
    | panic m => exact ⟨.mirrorLast hrun (by simp [void]), fun _ h => by cases h⟩
    | blocked => exact ⟨.mirrorLast hrun (by simp [void]), fun _ h => by cases h⟩

theorem turn_unique : ∀ {cs : List (Side × RobotCall F)} {p p1 p2 : Pair F} {r1 r2 : Res F Unit}, PairTurn cs p r1 p1 → PairTurn cs p r2 p2 → r1 = r2 ∧ p1 = p2
  | _, _, _, _, _, _, .done _, .done _ => ⟨rfl, rfl⟩
  | _, _, _, _, _, _, .user h1 h2, .user g1 g2 => by rw [h1] at g1; cases g1; exact turn_unique h2 g2
  | _, _, _, _, _, _, .user h1 h2, .userLast g1 g2 => by rw [h1] at g1; cases g1; exact absurd rfl g2
  | _, _, _, _, _, _, .userLast h1 h2, .user g1 g2 => by rw [h1] at g1; cases g1; exact absurd rfl h2
  | _, _, _, _, _, _, .userLast h1 h2, .userLast g1 g2 => by rw [h1] at g1; cases g1; exact ⟨rfl, rfl⟩
  | _, _, _, _, _, _, .mirror h1 h2, .mirror g1 g2 => by rw [h1] at g1; cases g1; exact turn_unique h2 g2
  | _, _, _, _, _, _, .mirror h1 h2, .mirrorLast g1 g2 => by rw [h1] at g1; cases g1; exact absurd rfl g2
  | _, _, _, _, _, _, .mirrorLast h1 h2, .mirror g1 g2 => by rw [h1] at g1; cases g1; exact absurd rfl h2
  | _, _, _, _, _, _, .mirrorLast h1 h2, .mirrorLast g1 g2 => by rw [h1] at g1; cases g1; exact ⟨rfl, rfl⟩

theorem turn_append : ∀ {cs ds : List (Side × RobotCall F)} {p p1 p2 : Pair F} {r : Res F Unit}, PairTurn cs p (.ok ()) p1 → PairTurn ds p1 r p2 → PairTurn (cs ++ ds) p r p2
  | _, _, _, _, _, _, .done _, h => h
  | _, _, _, _, _, _, .user h1 h2, h => .user h1 (turn_append h2 h)
  | _, _, _, _, _, _, .mirror h1 h2, h => .mirror h1 (turn_append h2 h)
  | _, _, _, _, _, _, .userLast _ h2, _ => absurd rfl h2
  | _, _, _, _, _, _, .mirrorLast _ h2, _ => absurd rfl h2

theorem run_void {α : Type} {q : Prog F α} (w : World F) : Prog.bind q (fun _ => Prog.pure ()) w = (void (q w).1, (q w).2) := by
  unfold Prog.bind
  cases h : q w with
  | mk r w1 => cases r <;> rfl

theorem void_unit (r : Res F Unit) : void r = r := by cases r <;> rfl

/-- The preparation after the connections. -/
def rest : Duo F (RobotState F) := do
  let _ ← onMirror (Robot.load_model true)
  onMirror (Robot.set_collision_behavior (fun _ => lit 100) (fun _ => lit 100) (fun _ => lit 100) (fun _ => lit 100) (fun _ => lit 100) (fun _ => lit 100)
    (fun _ => lit 100) (fun _ => lit 100))
  onMirror (Robot.set_joint_impedance ![lit 3000, lit 3000, lit 3000, lit 2500, lit 2500, lit 2000, lit 2000])
  onMirror (Robot.set_cartesian_impedance ![lit 3000, lit 3000, lit 3000, lit 300, lit 300, lit 300])
  onUser (Robot.set_collision_behavior (fun _ => lit 100) (fun _ => lit 100) (fun _ => lit 100) (fun _ => lit 100) (fun _ => lit 100) (fun _ => lit 100)
    (fun _ => lit 100) (fun _ => lit 100))
  onUser (Robot.set_joint_impedance ![lit 3000, lit 3000, lit 3000, lit 2500, lit 2500, lit 2000, lit 2000])
  onUser (Robot.set_cartesian_impedance ![lit 3000, lit 3000, lit 3000, lit 300, lit 300, lit 300])
  let initial_state ← onUser Robot.read_once
  pure initial_state

theorem rest_does : Does settingUp (rest : Duo F (RobotState F)) := by
  refine does_mirror (c := .load_model true) (fun w => run_void w) fun _ => ?_
  refine does_mirror (fun w => by rw [void_unit]; rfl) fun _ => ?_
  refine does_mirror (fun w => by rw [void_unit]; rfl) fun _ => ?_
  refine does_mirror (fun w => by rw [void_unit]; rfl) fun _ => ?_
  refine does_user (fun w => by rw [void_unit]; rfl) fun _ => ?_
  refine does_user (fun w => by rw [void_unit]; rfl) fun _ => ?_
  refine does_user (fun w => by rw [void_unit]; rfl) fun _ => ?_
  exact does_read (F := F)

theorem prepare_eq (u m : World F) : (mirror_prepare : Duo F (RobotState F)) ⟨u, m⟩ =
    match Robot.new none none u with
    | (.ok _, u1) =>
      (match Robot.new none none m with
      | (.ok _, m1) => rest ⟨u1, m1⟩
      | (.err e, m1) => (.err e, ⟨u1, m1⟩)
      | (.panic e, m1) => (.panic e, ⟨u1, m1⟩)
      | (.blocked, m1) => (.blocked, ⟨u1, m1⟩))
    | (.err e, u1) => (.err e, ⟨u1, m⟩)
    | (.panic e, u1) => (.panic e, ⟨u1, m⟩)
    | (.blocked, u1) => (.blocked, ⟨u1, m⟩) := by
  change Duo.bind (onUser (Robot.new none none)) (fun _ => Duo.bind (onMirror (Robot.new none none)) fun _ => rest) ⟨u, m⟩ = _
  unfold Duo.bind onUser
  cases h : (Robot.new none none : Prog F Unit) u with
  | mk r u1 =>
    simp only
    cases r with
    | ok a =>
      unfold onMirror
      simp only
      cases h2 : (Robot.new none none : Prog F Unit) m with
      | mk r m1 =>
        simp only
        cases r <;> rfl
    | err e => rfl
    | panic e => rfl
    | blocked => rfl

/-! ## What is asked for -/

/-- What the calls for one of the robots ask for. -/
def bodies (s : Side) (l : List (Side × RobotCall F × List (RobotBody F))) : List (RobotBody F) := (l.filter (·.1 = s)).flatMap (·.2.2)

/-- Asking both robots for at most what is in `l`, and for all of it if it returns Ok. -/
structure PairAsks (bu bm : List (RobotBody F)) (p : Pair F) (r : Res F Unit) (p' : Pair F) : Prop where
  all : r = .ok () → asked p'.user.trace = asked p.user.trace ++ bu ∧ asked p'.mirror.trace = asked p.mirror.trace ++ bm ∧ RobotReachable p'.user ∧ RobotReachable p'.mirror
  user : ∃ k, k <+: bu ∧ asked p'.user.trace = asked p.user.trace ++ k
  mirror : ∃ k, k <+: bm ∧ asked p'.mirror.trace = asked p.mirror.trace ++ k

theorem next {w w' : World F} (c : RobotCall F) (h : RobotReachable w) (e : c.run w = (.ok (), w')) : RobotReachable w' := by
  have := h.after c (.inl (by rw [e]))
  rw [e] at this
  exact this

theorem turn_asks : ∀ (l : List (Side × RobotCall F × List (RobotBody F))), (∀ x ∈ l, ∀ w, RobotReachable w → SomeAsk x.2.2 w (x.2.1.run w).1 (x.2.1.run w).2) →
    ∀ {p p' : Pair F} {r : Res F Unit}, PairTurn (l.map fun x => (x.1, x.2.1)) p r p' → RobotReachable p.user → RobotReachable p.mirror →
      PairAsks (bodies .user l) (bodies .mirror l) p r p'
  | [], _, p, p', r, h, hu, hm => by
    cases h
    exact ⟨fun _ => ⟨(List.append_nil _).symm, (List.append_nil _).symm, hu, hm⟩, ⟨[], List.prefix_rfl, (List.append_nil _).symm⟩, [], List.prefix_rfl, (List.append_nil _).symm⟩
  | (s, c, b) :: l, hl, p, p', r, h, hu, hm => by
    have hc := hl _ List.mem_cons_self
    have hl' := fun x hx => hl x (List.mem_cons_of_mem _ hx)
    cases h with
    | user h1 h2 =>
      have ha := hc _ hu
      simp only [h1] at ha
      have ih := turn_asks l hl' h2 (next c hu h1) hm
      have e := ha.all _ rfl
      obtain ⟨k, hk, hk'⟩ := ih.user
      refine ⟨fun hr => ?_, ⟨b ++ k, (List.prefix_append_right_inj b).2 hk, by rw [hk', e, List.append_assoc]⟩, ih.mirror⟩
      obtain ⟨i1, i2, i3⟩ := ih.all hr
      exact ⟨by rw [i1, e, List.append_assoc]; rfl, i2, i3⟩
    | mirror h1 h2 =>
      have ha := hc _ hm
      simp only [h1] at ha
      have ih := turn_asks l hl' h2 hu (next c hm h1)
      have e := ha.all _ rfl
      obtain ⟨k, hk, hk'⟩ := ih.mirror
      refine ⟨fun hr => ?_, ih.user, ⟨b ++ k, (List.prefix_append_right_inj b).2 hk, by rw [hk', e, List.append_assoc]⟩⟩
      obtain ⟨i1, i2, i3⟩ := ih.all hr
      exact ⟨i1, by rw [i2, e, List.append_assoc]; rfl, i3⟩
    | userLast h1 h2 =>
      have ha := hc _ hu
      simp only [h1] at ha
      obtain ⟨k, hk, hk'⟩ := ha.some
      exact ⟨fun h => absurd h h2, ⟨k, hk.trans (List.prefix_append _ _), hk'⟩, [], List.nil_prefix, (List.append_nil _).symm⟩
    | mirrorLast h1 h2 =>
      have ha := hc _ hm
      simp only [h1] at ha
      obtain ⟨k, hk, hk'⟩ := ha.some
      exact ⟨fun h => absurd h h2, ⟨[], List.nil_prefix, (List.append_nil _).symm⟩, k, hk.trans (List.prefix_append _ _), hk'⟩

/-- The preparation after the model is loaded, with the requests. -/
def settings : List (Side × RobotCall F × List (RobotBody F)) :=
  (impedanceCalls.zip impedanceBodies).map (fun x => (.mirror, x.1, [x.2])) ++ (impedanceCalls.zip impedanceBodies).map (fun x => (.user, x.1, [x.2])) ++ [(.user, .read_once, [])]

theorem settings_ask : ∀ x ∈ (settings : List (Side × RobotCall F × List (RobotBody F))), ∀ w, RobotReachable w → SomeAsk x.2.2 w (x.2.1.run w).1 (x.2.1.run w).2 := by
  have h1 : ∀ x ∈ (impedanceCalls.zip impedanceBodies : List (RobotCall F × RobotBody F)), ∀ w, RobotReachable w → SomeAsk [x.2] w (x.1.run w).1 (x.1.run w).2 := by
    intro x hx w hw
    simp only [impedanceCalls, impedanceBodies, List.zip_cons_cons, List.zip_nil_right, List.mem_cons, List.not_mem_nil, or_false] at hx
    rcases hx with rfl | rfl | rfl
    · exact OneExchange.someAsk (C18_setter _ _ rfl w hw)
    · exact OneExchange.someAsk (C18_setter _ _ rfl w hw)
    · exact OneExchange.someAsk (C18_setter _ _ rfl w hw)
  intro x hx w hw
  simp only [settings, List.mem_append, List.mem_map, List.mem_singleton] at hx
  rcases hx with (⟨y, hy, rfl⟩ | ⟨y, hy, rfl⟩) | rfl
  · exact h1 y hy w hw
  · exact h1 y hy w hw
  · refine SomeAsk.nothing ?_
    have h := (read_once_silent w).asked
    change asked (Prog.bind Robot.read_once (fun _ => Prog.pure ()) w).2.trace = _
    rw [run_void]
    exact h

theorem preparation_eq : (preparation : List (Side × RobotCall F)) = (.mirror, .load_model true) :: settings.map fun x => (x.1, x.2.1) := rfl

theorem preparation_asks {p p' : Pair F} {r : Res F Unit} (h : PairTurn preparation p r p') (hu : RobotReachable p.user) (hm : RobotReachable p.mirror) :
    PairAsks impedanceBodies (modelBodies p.mirror ++ impedanceBodies) p r p' := by
  have load : SomeAsk (modelBodies p.mirror) p.mirror ((RobotCall.load_model true).run p.mirror).1 ((RobotCall.load_model true).run p.mirror).2 := by
    have h := load_model_asks true hm.tcp
    change SomeAsk _ _ (Prog.bind (Robot.load_model true) (fun _ => Prog.pure ()) p.mirror).1 (Prog.bind (Robot.load_model true) (fun _ => Prog.pure ()) p.mirror).2
    rw [run_void]
    exact ⟨fun a ha => by obtain ⟨b, hb⟩ := void_ok (r := (Robot.load_model true p.mirror).1) ha; exact h.all b hb, h.some⟩
  rw [preparation_eq] at h
  cases h with
  | mirror h1 h2 =>
    simp only [h1] at load
    have e := load.all _ rfl
    have ih := turn_asks settings settings_ask h2 hu (next _ hm h1)
    change PairAsks impedanceBodies impedanceBodies _ _ _ at ih
    obtain ⟨k, hk, hk'⟩ := ih.mirror
    refine ⟨fun hr => ?_, ih.user, ⟨_ ++ k, (List.prefix_append_right_inj _).2 hk, by rw [hk', e, List.append_assoc]⟩⟩
    obtain ⟨i1, i2, i3⟩ := ih.all hr
    exact ⟨i1, by rw [i2, e, List.append_assoc], i3⟩
  | mirrorLast h1 h2 =>
    simp only [h1] at load
    obtain ⟨k, hk, hk'⟩ := load.some
    exact ⟨fun h => absurd h h2, ⟨[], List.nil_prefix, (List.append_nil _).symm⟩, k, hk.trans (List.prefix_append _ _), hk'⟩

/-! ## Ends -/

theorem asked_prefix {a b : List (Ev F)} (h : a <+: b) : asked a <+: asked b := by
  obtain ⟨c, rfl⟩ := h
  rw [asked_append]
  exact List.prefix_append _ _

theorem atMost_prefix {bs new new' : List (RobotBody F)} (h : AtMost bs new) (hp : new' <+: new) : AtMost bs new' := by
  obtain ⟨l, hl, h⟩ := h
  rcases h with rfl | ⟨rfl, hm⟩
  · exact ⟨new', hp.trans hl, .inl rfl⟩
  · rcases List.prefix_concat_iff.1 hp with h | h
    · exact ⟨l, hl, .inr ⟨h, hm⟩⟩
    · exact ⟨new', h.trans hl, .inl rfl⟩

theorem atMost_of_prefix {bs new : List (RobotBody F)} (h : new <+: bs) : AtMost bs new := ⟨new, h, .inl rfl⟩

theorem call_atMost {b : RobotBody F} {start : List (RobotBody F)} {w w' : World F} {r : Res F Unit} (hs : asked w.trace = start) (h : CallAsks [b] r w w') (more : List (RobotBody F)) :
    AtMost (start ++ b :: more) (asked w'.trace) := by
  obtain ⟨l, hl, h⟩ := h.some
  refine ⟨start ++ l, (List.prefix_append_right_inj start).2 (hl.trans (by simp)), ?_⟩
  rw [hs] at h
  refine h.imp id fun ⟨h, m, hm⟩ => ⟨h, m, ?_⟩
  rw [List.getLast?_append, hm]
  rfl

theorem grows (c : RobotCall F) (w : World F) : w.trace <+: (c.run w).2.trace := by
  obtain ⟨es, h⟩ := pres_call (T := Grows) (fun _ => trivial) c w
  exact ⟨es, h.symm⟩

theorem cutOff_prefix (cut : ℕ) (w w' : World F) : cutOff cut w w' <+: w'.trace := List.take_prefix _ _

theorem prefix_cutOff {cut : ℕ} {w w' : World F} (h : w.trace <+: w'.trace) : w.trace <+: cutOff cut w w' := by
  unfold cutOff
  rw [List.prefix_take_iff]
  exact ⟨h, by omega⟩

theorem moves_append (a b : List (RobotBody F)) : moves (a ++ b) = moves a + moves b := by simp [moves]

theorem moves_prefix {a b : List (RobotBody F)} (h : a <+: b) : moves a ≤ moves b := by
  obtain ⟨c, rfl⟩ := h
  rw [moves_append]
  omega

theorem atMost_moves {bs new : List (RobotBody F)} (h : AtMost bs new) : moves new ≤ moves bs := by
  obtain ⟨l, hl, h⟩ := h
  have := moves_prefix hl
  rcases h with rfl | ⟨rfl, -⟩
  · exact this
  · rw [moves_append]
    exact this

theorem moves_userStart (w : World F) : moves (userStart w) = 0 := rfl

theorem moves_mirrorStart (w : World F) : moves (mirrorStart w) = 0 := by
  unfold mirrorStart modelBodies
  cases w.model_file <;> rfl

end MirrorProgram
open MirrorProgram
variable [Fl F] [Wire F] [Geo F] [GeoExtra F]

namespace MirrorProgram

/-- The whole program, seen from the calls it makes. -/
inductive Course (model : ModelLibrary F) (received : ℕ → Option (Arr F 16)) (u m : World F) : Keyboard → MirrorEnd F → Prop where
  /-- no connection to the user's robot -/
  | first {key r u1} : Robot.new none none u = (r, u1) → r ≠ .ok () → Course model received u m key ⟨r, u1.trace, m.trace⟩
  | second {key u1 r m1} : Robot.new none none u = (.ok (), u1) → Robot.new none none m = (r, m1) → r ≠ .ok () → Course model received u m key ⟨r, u1.trace, m1.trace⟩
  | third {key u1 m1 r u2 m2} : Robot.new none none u = (.ok (), u1) → Robot.new none none m = (.ok (), m1) → PairTurn preparation ⟨u1, m1⟩ r ⟨u2, m2⟩ → r ≠ .ok () →
      Course model received u m key ⟨r, u2.trace, m2.trace⟩
  | ready {key st u2 m2} {e : MirrorEnd F} : BothReady u m st u2 m2 → key ≠ .enter → (∀ r, e.result = .ok r → False) → (∀ x, e.result ≠ .err x) → e.user = u2.trace → e.mirror = m2.trace →
      Course model received u m key e
  | run {st u2 m2} (cut : ℕ) : BothReady u m st u2 m2 → Course model received u m .enter (mirror_run model received cut st ⟨u2, m2⟩)

theorem course (model : ModelLibrary F) (key : Keyboard) (received : ℕ → Option (Arr F 16)) (cut : ℕ) (u m : World F) :
    Course model received u m key (mirror_robot model key received cut ⟨u, m⟩) := by
  have hp := prepare_eq u m
  unfold mirror_robot
  cases h1 : (Robot.new none none : Prog F Unit) u with
  | mk r u1 =>
    rw [h1] at hp
    cases r with
    | err e => simp only at hp; rw [hp]; exact .first h1 (by simp)
    | panic e => simp only at hp; rw [hp]; exact .first h1 (by simp)
    | blocked => simp only at hp; rw [hp]; exact .first h1 (by simp)
    | ok a =>
      cases h2 : (Robot.new none none : Prog F Unit) m with
      | mk r m1 =>
        rw [h2] at hp
        cases r with
        | err e => simp only at hp; rw [hp]; exact .second h1 h2 (by simp)
        | panic e => simp only at hp; rw [hp]; exact .second h1 h2 (by simp)
        | blocked => simp only at hp; rw [hp]; exact .second h1 h2 (by simp)
        | ok b =>
          simp only at hp
          rw [hp]
          obtain ⟨ht, hr⟩ := rest_does (F := F) ⟨u1, m1⟩
          cases h3 : (rest : Duo F (RobotState F)) ⟨u1, m1⟩ with
          | mk r p2 =>
            rw [h3] at ht hr
            obtain ⟨u2, m2⟩ := p2
            cases r with
            | err e => exact .third h1 h2 ht (by simp)
            | panic e => exact .third h1 h2 ht (by simp)
            | blocked => exact .third h1 h2 ht (by simp)
            | ok st =>
              obtain ⟨u0, h0, h0'⟩ := hr st rfl
              have ready : BothReady u m st u2 m2 := ⟨u1, m1, u0, h1, h2, h0, h0'⟩
              cases key with
              | enter => exact .run cut ready
              | fails => exact .ready ready (by simp) (by simp) (by simp) rfl rfl
              | silence => exact .ready ready (by simp) (by simp) (by simp) rfl rfl

theorem new_ends {w w1 : World F} {r : Res F Unit} (hw : Fresh w) (h : Robot.new none none w = (r, w1)) : asked w1.trace <+: [robotHello w] ∧ (r = .ok () → asked w1.trace = [robotHello w]) := by
  have h0 : asked w.trace = [] := by rw [hw.1]; rfl
  have ha := new_someAsk none hw
  rw [h] at ha
  obtain ⟨k, hk, hk'⟩ := ha.some
  rw [h0] at hk'
  exact ⟨by rw [hk']; exact hk, fun hr => by rw [ha.all () hr, h0]; rfl⟩

theorem ready_asks {u m u1 m1 : World F} {r : Res F Unit} {u2 m2 : World F} (hu : Fresh u) (hm : Fresh m) (h1 : Robot.new none none u = (.ok (), u1))
    (h2 : Robot.new none none m = (.ok (), m1)) (h3 : PairTurn preparation ⟨u1, m1⟩ r ⟨u2, m2⟩) :
    asked u2.trace <+: userStart u ∧ asked m2.trace <+: mirrorStart m ∧
      (r = .ok () → asked u2.trace = userStart u ∧ asked m2.trace = mirrorStart m ∧ RobotReachable u2 ∧ RobotReachable m2) := by
  have ha := preparation_asks h3 (new_reachable hu h1) (new_reachable hm h2)
  have hf := new_file none m
  rw [h2] at hf
  have hb : modelBodies m1 = modelBodies m := by unfold modelBodies; rw [← hf]
  change PairAsks impedanceBodies (modelBodies m1 ++ impedanceBodies) _ _ _ at ha
  rw [hb] at ha
  have eu := (new_ends hu h1).2 rfl
  have em := (new_ends hm h2).2 rfl
  obtain ⟨k, hk, hk'⟩ := ha.user
  obtain ⟨l, hl, hl'⟩ := ha.mirror
  refine ⟨?_, ?_, fun hr => ?_⟩
  · change asked u2.trace = asked u1.trace ++ k at hk'
    rw [hk', eu]
    exact (List.prefix_append_right_inj [_]).2 hk
  · change asked m2.trace = asked m1.trace ++ l at hl'
    rw [hl', em]
    exact (List.prefix_append_right_inj [_]).2 hl
  · obtain ⟨a1, a2, a3⟩ := ha.all hr
    change asked u2.trace = asked u1.trace ++ _ at a1
    change asked m2.trace = asked m1.trace ++ _ at a2
    exact ⟨by rw [a1, eu]; rfl, by rw [a2, em]; rfl, a3⟩

theorem ready_turn {u m u' m' : World F} {st : RobotState F} (h : BothReady u m st u' m') :
    ∃ u1 m1, Robot.new none none u = (.ok (), u1) ∧ Robot.new none none m = (.ok (), m1) ∧ PairTurn preparation ⟨u1, m1⟩ (.ok ()) ⟨u', m'⟩ := by
  obtain ⟨u1, m1, u2, h1, h2, h3, h4⟩ := h
  refine ⟨u1, m1, h1, h2, turn_append h3 (.user ?_ (.done _))⟩
  change Prog.bind _ _ _ = _
  unfold Prog.bind
  rw [h4]
  rfl

theorem ready_unique {u m u1 m1 u2 m2 : World F} {s1 s2 : RobotState F} (h1 : BothReady u m s1 u1 m1) (h2 : BothReady u m s2 u2 m2) : s1 = s2 ∧ u1 = u2 ∧ m1 = m2 := by
  obtain ⟨_, _, _, a1, a2, a3, a4⟩ := h1
  obtain ⟨_, _, _, b1, b2, b3, b4⟩ := h2
  rw [a1] at b1
  cases b1
  rw [a2] at b2
  cases b2
  obtain ⟨-, h⟩ := turn_unique a3 b3
  cases h
  rw [a4] at b4
  cases b4
  exact ⟨rfl, rfl, rfl⟩

/-- What is known of the end of a program that both robots were ready for. -/
structure RunEnds (model : ModelLibrary F) (received : ℕ → Option (Arr F 16)) (st : RobotState F) (u2 m2 : World F) (su sm : List (RobotBody F)) (e : MirrorEnd F) : Prop where
  user : AtMost (su ++ twoMoves) (asked e.user)
  mirror : AtMost (sm ++ twoMoves) (asked e.mirror)
  startUser : su <+: asked e.user
  startMirror : sm <+: asked e.mirror
  two : (toStart.run u2).1 = .ok () ∧ (toStart.run m2).1 = .ok () ∨ moves (asked e.user) ≤ moves su + 1 ∧ moves (asked e.mirror) ≤ moves sm + 1
  failed : ∀ r m3, toStart.run m2 = (r, m3) → r ≠ .ok () → e.result = r ∧ e.mirror = m3.trace
  unjoined : ∀ m3 r u3, toStart.run m2 = (.ok (), m3) → toStart.run u2 = (r, u3) → r ≠ .ok () → r ≠ .blocked → (∃ msg, e.result = .panic msg) ∧ e.mirror = m3.trace
  waiting : ∀ m3 u3, toStart.run m2 = (.ok (), m3) → toStart.run u2 = (.blocked, u3) → e.result = .blocked ∧ e.mirror = m3.trace
  control : ∀ m3 u3, toStart.run m2 = (.ok (), m3) → toStart.run u2 = (.ok (), u3) → e.result = ((followUser model received st.O_T_EE).run m3).1 ∧
    e.mirror = ((followUser model received st.O_T_EE).run m3).2.trace ∧ e.user <+: (followHand.run u3).2.trace

theorem run_ends (model : ModelLibrary F) (received : ℕ → Option (Arr F 16)) (cut : ℕ) (st : RobotState F) {u2 m2 : World F} (hu : RobotReachable u2) (hm : RobotReachable m2) :
    RunEnds model received st u2 m2 (asked u2.trace) (asked m2.trace) (mirror_run model received cut st ⟨u2, m2⟩) := by
  have au := (control_asks hu (.jointMotion (lit (1 / 10)) startPosition)).1
  have am := (control_asks hm (.jointMotion (lit (1 / 10)) startPosition)).1
  have gu := grows toStart u2
  have gm := grows toStart m2
  change CallAsks [moveBody .JointPositions .JointImpedance] (toStart.run u2).1 u2 (toStart.run u2).2 at au
  change CallAsks [moveBody .JointPositions .JointImpedance] (toStart.run m2).1 m2 (toStart.run m2).2 at am
  have tu := call_atMost rfl au [moveBody .JointVelocities .ExternalController]
  have tm := call_atMost rfl am [moveBody .JointVelocities .ExternalController]
  have nu := atMost_moves (call_atMost rfl au [])
  have nm := atMost_moves (call_atMost rfl am [])
  rw [moves_append] at nu nm
  change _ ≤ _ + 1 at nu
  change _ ≤ _ + 1 at nm
  have e : mirror_run model received cut st ⟨u2, m2⟩ = (let (joined, user) := toStart.run u2
      let (moved, mirror) := toStart.run m2
      match moved with
      | .err e => ⟨.err e, cutOff cut u2 user, mirror.trace⟩
      | .panic m => ⟨.panic m, cutOff cut u2 user, mirror.trace⟩
      | .blocked => ⟨.blocked, user.trace, mirror.trace⟩
      | .ok _ =>
        match joined with
        | .err _ => ⟨.panic "called `Result::unwrap()` on an `Err` value: Any { .. }", user.trace, mirror.trace⟩
        | .panic _ => ⟨.panic "called `Result::unwrap()` on an `Err` value: Any { .. }", user.trace, mirror.trace⟩
        | .blocked => ⟨.blocked, user.trace, mirror.trace⟩
        | .ok _ =>
          let (_, user') := followHand.run user
          let (result, mirror') := (followUser model received st.O_T_EE).run mirror
          match result with
          | .blocked => ⟨.blocked, user'.trace, mirror'.trace⟩
          | result => ⟨result, cutOff cut user user', mirror'.trace⟩) := rfl
  rw [e]
  clear e
  cases hU : toStart.run u2 with
  | mk ru u3 =>
    rw [hU] at au gu tu nu
    cases hM : toStart.run m2 with
    | mk rm m3 =>
      rw [hM] at am gm tm nm
      simp only at gu gm tu tm nu nm ⊢
      have cutCase : ∀ r : Res F Unit, r ≠ .ok () → rm = r → RunEnds model received st u2 m2 (asked u2.trace) (asked m2.trace) ⟨r, cutOff cut u2 u3, m3.trace⟩ := by
        rintro r hr rfl
        have hc := asked_prefix (cutOff_prefix cut u2 u3)
        exact ⟨atMost_prefix tu hc, tm, asked_prefix (prefix_cutOff gu), asked_prefix gm, .inr ⟨(moves_prefix hc).trans nu, nm⟩,
          (fun r m3' h _ => by rw [hM] at h; cases h; exact ⟨rfl, rfl⟩), (fun _ _ _ h => by rw [hM] at h; cases h; exact absurd rfl hr),
          (fun _ _ h => by rw [hM] at h; cases h; exact absurd rfl hr), fun _ _ h => by rw [hM] at h; cases h; exact absurd rfl hr⟩
      cases rm with
      | err x => exact cutCase _ (by simp) rfl
      | panic x => exact cutCase _ (by simp) rfl
      | blocked =>
        exact ⟨tu, tm, asked_prefix gu, asked_prefix gm, .inr ⟨nu, nm⟩, (fun r m3' h _ => by rw [hM] at h; cases h; exact ⟨rfl, rfl⟩), (fun _ _ _ h => by rw [hM] at h; cases h),
          (fun _ _ h => by rw [hM] at h; cases h), fun _ _ h => by rw [hM] at h; cases h⟩
      | ok x =>
        have stuck : ∀ r : Res F Unit, ru ≠ .ok () → (ru = .blocked → r = .blocked) → (ru ≠ .blocked → ∃ msg, r = .panic msg) →
            RunEnds model received st u2 m2 (asked u2.trace) (asked m2.trace) ⟨r, u3.trace, m3.trace⟩ := by
          intro r h1 h2 h3
          exact ⟨tu, tm, asked_prefix gu, asked_prefix gm, .inr ⟨nu, nm⟩, (fun r m3' h hr => by rw [hM] at h; cases h; exact absurd rfl hr),
            (fun m3' r' u3' h h' _ hb => by rw [hM] at h; rw [hU] at h'; cases h; cases h'; exact ⟨h3 hb, rfl⟩),
            (fun m3' u3' h h' => by rw [hM] at h; rw [hU] at h'; cases h; cases h'; exact ⟨h2 rfl, rfl⟩),
            fun m3' u3' h h' => by rw [hU] at h'; cases h'; exact absurd rfl h1⟩
        cases ru with
        | err y => exact stuck _ (by simp) (by simp) (fun _ => ⟨_, rfl⟩)
        | panic y => exact stuck _ (by simp) (by simp) (fun _ => ⟨_, rfl⟩)
        | blocked => exact stuck _ (by simp) (fun _ => rfl) (fun h => absurd rfl h)
        | ok y =>
          simp only
          have hu3 := next toStart hu hU
          have hm3 := next toStart hm hM
          have au' := (control_asks hu3 (.torques Unit (fun c _ _ => (c, .new fun _ => lit 0)) none none ())).1
          have am' := (control_asks hm3 (.torques (ℕ × Arr F 16) (fun c st dt => ((c.1 + 1, (mirror_callback model c.2 (received c.1) st dt).1),
            (mirror_callback model c.2 (received c.1) st dt).2)) none none (0, st.O_T_EE))).1
          change CallAsks [moveBody .JointVelocities .ExternalController] (followHand.run u3).1 u3 (followHand.run u3).2 at au'
          change CallAsks [moveBody .JointVelocities .ExternalController] ((followUser model received st.O_T_EE).run m3).1 m3 ((followUser model received st.O_T_EE).run m3).2 at am'
          have tu' := call_atMost rfl au' []
          have tm' := call_atMost rfl am' []
          rw [au.all rfl, List.append_assoc] at tu'
          rw [am.all rfl, List.append_assoc] at tm'
          have gu' := grows followHand u3
          have gm' := grows (followUser model received st.O_T_EE) m3
          cases hU' : followHand.run u3 with
          | mk ru' u4 =>
            rw [hU'] at tu' gu'
            cases hM' : (followUser model received st.O_T_EE).run m3 with
            | mk rm' m4 =>
              rw [hM'] at tm' gm'
              simp only at tu' tm' gu' gm' ⊢
              have fin : ∀ tr : List (Ev F), tr <+: u4.trace → u3.trace <+: tr → RunEnds model received st u2 m2 (asked u2.trace) (asked m2.trace) ⟨rm', tr, m4.trace⟩ := by
                intro tr h1 h2
                exact ⟨atMost_prefix tu' (asked_prefix h1), tm', asked_prefix (gu.trans h2), asked_prefix (gm.trans gm'), .inl ⟨by rw [hU], by rw [hM]⟩,
                  (fun r m3' h hr => by rw [hM] at h; cases h; exact absurd rfl hr), (fun m3' r' u3' h h' hr _ => by rw [hU] at h'; cases h'; exact absurd rfl hr),
                  (fun m3' u3' h h' => by rw [hU] at h'; cases h'),
                  fun m3' u3' h h' => by rw [hM] at h; rw [hU] at h'; cases h; cases h'; rw [hM', hU']; exact ⟨rfl, rfl, h1⟩⟩
              have cutPre := cutOff_prefix cut u3 u4
              have preCut := prefix_cutOff (cut := cut) gu'
              cases rm' with
              | blocked => exact fin _ List.prefix_rfl gu'
              | ok z => exact fin _ cutPre preCut
              | err z => exact fin _ cutPre preCut
              | panic z => exact fin _ cutPre preCut

end MirrorProgram

variable (model : ModelLibrary F) (key : Keyboard) (received : ℕ → Option (Arr F 16)) (cut : ℕ) {u m : World F}

/-- **C102**: whatever happens, each robot is asked for the connection, its settings (the mirror, before them, for the model if there is no file), one motion to the start position and one
with torques, in this order; what was asked for is the first few of that, and if the last of them is a motion there may be a request to stop it behind it. -/
theorem C102_requests (hu : Fresh u) (hm : Fresh m) : AtMost (userStart u ++ twoMoves) (asked (mirror_robot model key received cut ⟨u, m⟩).user) ∧
    AtMost (mirrorStart m ++ twoMoves) (asked (mirror_robot model key received cut ⟨u, m⟩).mirror) := by
  have hc := course model key received cut u m
  generalize mirror_robot model key received cut ⟨u, m⟩ = e at hc ⊢
  have hu0 : asked u.trace = [] := by rw [hu.1]; rfl
  have hm0 : asked m.trace = [] := by rw [hm.1]; rfl
  have start : ∀ {k : List (RobotBody F)} (a b : List (RobotBody F)), k <+: a → AtMost (a ++ b) k := fun a b h => atMost_of_prefix (h.trans (List.prefix_append _ _))
  have one : ∀ (a : RobotBody F) (b : List (RobotBody F)), [a] <+: a :: b := fun a b => ⟨b, rfl⟩
  cases hc with
  | first h1 hr => exact ⟨start _ _ ((new_ends hu h1).1.trans (one _ _)), by rw [hm0]; exact start _ _ List.nil_prefix⟩
  | second h1 h2 hr => exact ⟨start _ _ ((new_ends hu h1).1.trans (one _ _)), start _ _ ((new_ends hm h2).1.trans (one _ _))⟩
  | third h1 h2 h3 hr =>
    have h := ready_asks hu hm h1 h2 h3
    exact ⟨start _ _ h.1, start _ _ h.2.1⟩
  | ready h hk h1 h2 h3 h4 =>
    obtain ⟨u1, m1, g1, g2, g3⟩ := ready_turn h
    have h := ready_asks hu hm g1 g2 g3
    rw [h3, h4]
    exact ⟨start _ _ h.1, start _ _ h.2.1⟩
  | @run st _ _ cut h =>
    obtain ⟨u1, m1, g1, g2, g3⟩ := ready_turn h
    obtain ⟨e1, e2, r1, r2⟩ := (ready_asks hu hm g1 g2 g3).2.2 rfl
    have h := run_ends model received cut st r1 r2
    rw [e1, e2] at h
    exact ⟨h.user, h.mirror⟩

/-- **C102**: neither robot is asked to move before both are connected and have accepted all settings, and Enter is pressed. Neither is asked for the motion with torques before
both have reached the start position. -/
theorem C102_order (hu : Fresh u) (hm : Fresh m) :
    let e := mirror_robot model key received cut ⟨u, m⟩
    (1 ≤ moves (asked e.user) ∨ 1 ≤ moves (asked e.mirror) → key = .enter ∧ userStart u <+: asked e.user ∧ mirrorStart m <+: asked e.mirror ∧ ∃ st u' m', BothReady u m st u' m') ∧
    (2 ≤ moves (asked e.user) ∨ 2 ≤ moves (asked e.mirror) → ∃ st u' m', BothReady u m st u' m' ∧ (toStart.run u').1 = .ok () ∧ (toStart.run m').1 = .ok ()) := by
  intro e
  have hc : Course model received u m key e := course model key received cut u m
  have hu0 : asked u.trace = [] := by rw [hu.1]; rfl
  have hm0 : asked m.trace = [] := by rw [hm.1]; rfl
  have none_ : asked e.user <+: userStart u → asked e.mirror <+: mirrorStart m → moves (asked e.user) = 0 ∧ moves (asked e.mirror) = 0 := by
    intro h1 h2
    have g1 := moves_prefix h1
    have g2 := moves_prefix h2
    rw [moves_userStart] at g1
    rw [moves_mirrorStart] at g2
    omega
  have still : asked e.user <+: userStart u → asked e.mirror <+: mirrorStart m →
    (1 ≤ moves (asked e.user) ∨ 1 ≤ moves (asked e.mirror) → key = .enter ∧ userStart u <+: asked e.user ∧ mirrorStart m <+: asked e.mirror ∧ ∃ st u' m', BothReady u m st u' m') ∧
    (2 ≤ moves (asked e.user) ∨ 2 ≤ moves (asked e.mirror) → ∃ st u' m', BothReady u m st u' m' ∧ (toStart.run u').1 = .ok () ∧ (toStart.run m').1 = .ok ()) := by
    intro h1 h2
    obtain ⟨g1, g2⟩ := none_ h1 h2
    rw [g1, g2]
    exact ⟨fun h => by omega, fun h => by omega⟩
  have one : ∀ (a : RobotBody F) (b : List (RobotBody F)), [a] <+: a :: b := fun a b => ⟨b, rfl⟩
  clear_value e
  cases hc with
  | first h1 hr => exact still ((new_ends hu h1).1.trans (one _ _)) (by rw [hm0]; exact List.nil_prefix)
  | second h1 h2 hr => exact still ((new_ends hu h1).1.trans (one _ _)) ((new_ends hm h2).1.trans (one _ _))
  | third h1 h2 h3 hr =>
    have h := ready_asks hu hm h1 h2 h3
    exact still h.1 h.2.1
  | ready h hk h1 h2 h3 h4 =>
    obtain ⟨u1, m1, g1, g2, g3⟩ := ready_turn h
    have h := ready_asks hu hm g1 g2 g3
    exact still (by rw [h3]; exact h.1) (by rw [h4]; exact h.2.1)
  | @run st u2 m2 cut hready =>
    obtain ⟨u1, m1, g1, g2, g3⟩ := ready_turn hready
    obtain ⟨e1, e2, r1, r2⟩ := (ready_asks hu hm g1 g2 g3).2.2 rfl
    have h := run_ends model received cut st r1 r2
    rw [e1, e2] at h
    refine ⟨fun _ => ⟨rfl, h.startUser, h.startMirror, st, u2, m2, hready⟩, fun h2 => ⟨st, u2, m2, hready, ?_⟩⟩
    rcases h.two with h | ⟨h3, h4⟩
    · exact h
    · rw [moves_userStart] at h3
      rw [moves_mirrorStart] at h4
      omega

/-- **C102**: if a connection fails, or a call of the preparation, then that is the result, and neither robot is asked for anything more. -/
theorem C102_preparation (u m : World F) :
    let e := mirror_robot model key received cut ⟨u, m⟩
    (∀ r u1, Robot.new none none u = (r, u1) → r ≠ .ok () → e = ⟨r, u1.trace, m.trace⟩) ∧
    ∀ u1, Robot.new none none u = (.ok (), u1) → (∀ r m1, Robot.new none none m = (r, m1) → r ≠ .ok () → e = ⟨r, u1.trace, m1.trace⟩) ∧
      ∀ m1, Robot.new none none m = (.ok (), m1) → ∃ r u2 m2, PairTurn preparation ⟨u1, m1⟩ r ⟨u2, m2⟩ ∧ (r ≠ .ok () → e = ⟨r, u2.trace, m2.trace⟩) ∧
        (r = .ok () → ∃ st, BothReady u m st u2 m2) := by
  intro e
  have hc : Course model received u m key e := course model key received cut u m
  clear_value e
  cases hc with
  | first h1 hr =>
    refine ⟨fun r' u1' h' _ => ?_, fun u1' h' => ?_⟩
    · rw [h1] at h'; cases h'; rfl
    · rw [h1] at h'; cases h'; exact absurd rfl hr
  | second h1 h2 hr =>
    refine ⟨fun r' u1' h' hr' => ?_, fun u1' h' => ?_⟩
    · rw [h1] at h'; cases h'; exact absurd rfl hr'
    · rw [h1] at h'; cases h'
      refine ⟨fun r' m1' h' _ => ?_, fun m1' h' => ?_⟩
      · rw [h2] at h'; cases h'; rfl
      · rw [h2] at h'; cases h'; exact absurd rfl hr
  | third h1 h2 h3 hr =>
    refine ⟨fun r' u1' h' hr' => ?_, fun u1' h' => ?_⟩
    · rw [h1] at h'; cases h'; exact absurd rfl hr'
    · rw [h1] at h'; cases h'
      refine ⟨fun r' m1' h' hr' => ?_, fun m1' h' => ?_⟩
      · rw [h2] at h'; cases h'; exact absurd rfl hr'
      · rw [h2] at h'; cases h'
        exact ⟨_, _, _, h3, fun _ => rfl, fun h => absurd h hr⟩
  | ready h hk _ _ _ _ =>
    have hready := h
    obtain ⟨u1, m1, h1, h2, h3⟩ := ready_turn h
    refine ⟨fun r' u1' h' hr' => ?_, fun u1' h' => ?_⟩
    · rw [h1] at h'; cases h'; exact absurd rfl hr'
    · rw [h1] at h'; cases h'
      refine ⟨fun r' m1' h' hr' => ?_, fun m1' h' => ?_⟩
      · rw [h2] at h'; cases h'; exact absurd rfl hr'
      · rw [h2] at h'; cases h'
        exact ⟨_, _, _, h3, fun h => absurd rfl h, fun _ => ⟨_, hready⟩⟩
  | run cut h =>
    have hready := h
    obtain ⟨u1, m1, h1, h2, h3⟩ := ready_turn h
    refine ⟨fun r' u1' h' hr' => ?_, fun u1' h' => ?_⟩
    · rw [h1] at h'; cases h'; exact absurd rfl hr'
    · rw [h1] at h'; cases h'
      refine ⟨fun r' m1' h' hr' => ?_, fun m1' h' => ?_⟩
      · rw [h2] at h'; cases h'; exact absurd rfl hr'
      · rw [h2] at h'; cases h'
        exact ⟨_, _, _, h3, fun h => absurd rfl h, fun _ => ⟨_, hready⟩⟩

/-- **C102**: what the result is once both robots are ready and Enter is pressed. If the mirror does not reach the start position then that is the result. If the user's robot does not,
the program panics, or waits for it forever. If both do, the result is that of controlling the mirror, which starts from the pose that the user's robot had at the beginning; what becomes
of the control of the user's robot has no influence on it. -/
theorem C102_result (hu : Fresh u) (hm : Fresh m) {st : RobotState F} {u' m' : World F} (h : BothReady u m st u' m') :
    let e := mirror_robot model .enter received cut ⟨u, m⟩
    (∀ r m1, toStart.run m' = (r, m1) → r ≠ .ok () → e.result = r ∧ e.mirror = m1.trace) ∧
    ∀ m1, toStart.run m' = (.ok (), m1) → match toStart.run u' with
      | (.ok _, u1) => e.result = ((followUser model received st.O_T_EE).run m1).1 ∧ e.mirror = ((followUser model received st.O_T_EE).run m1).2.trace ∧
          e.user <+: (followHand.run u1).2.trace
      | (.blocked, _) => e.result = .blocked ∧ e.mirror = m1.trace
      | (_, _) => (∃ msg, e.result = .panic msg) ∧ e.mirror = m1.trace := by
  intro e
  have hc : Course model received u m .enter e := course model .enter received cut u m
  clear_value e
  cases hc with
  | first h1 hr =>
    obtain ⟨u1, m1, g1, g2, g3⟩ := ready_turn h
    rw [h1] at g1
    cases g1
    exact absurd rfl hr
  | second h1 h2 hr =>
    obtain ⟨u1, m1, g1, g2, g3⟩ := ready_turn h
    rw [h2] at g2
    cases g2
    exact absurd rfl hr
  | third h1 h2 h3 hr =>
    obtain ⟨u1, m1, g1, g2, g3⟩ := ready_turn h
    rw [h1] at g1
    cases g1
    rw [h2] at g2
    cases g2
    exact absurd (turn_unique h3 g3).1 hr
  | ready _ hk => exact absurd rfl hk
  | run cut h' =>
    obtain ⟨rfl, rfl, rfl⟩ := ready_unique h h'
    obtain ⟨u1, m1, g1, g2, g3⟩ := ready_turn h
    obtain ⟨-, -, r1, r2⟩ := (ready_asks hu hm g1 g2 g3).2.2 rfl
    have hr := run_ends model received cut st r1 r2
    refine ⟨hr.failed, fun m3 hm3 => ?_⟩
    cases hU : toStart.run u' with
    | mk ru u3 =>
      cases ru with
      | ok a => exact hr.control m3 u3 hm3 hU
      | err x => exact hr.unjoined m3 _ u3 hm3 hU (by simp) (by simp)
      | panic x => exact hr.unjoined m3 _ u3 hm3 hU (by simp) (by simp)
      | blocked => exact hr.waiting m3 u3 hm3 hU

/-- **C102**: the control of the mirror never finishes by itself. -/
theorem C102_control {w : World F} (hw : RobotReachable w) (pose : Arr F 16) : ((followUser model received pose).run w).1 ≠ .ok () := by
  intro hok
  have hc : IsControl (followUser model received pose) _ _ := .torques _ _ _ _ _
  obtain ⟨pre, y, hx, hfin⟩ := call_thread_ok hw hc rfl (fun _ _ _ => ⟨rfl, rfl⟩) hok
  have := (call_thread hw hc rfl (fun _ _ _ => ⟨rfl, rfl⟩) pre y [] hx).1
  rw [this] at hfin
  cases hfin

/-- **C102**: so the program never returns Ok. -/
theorem C102_never_ok (hu : Fresh u) (hm : Fresh m) : (mirror_robot model key received cut ⟨u, m⟩).result ≠ .ok () := by
  have hc := course model key received cut u m
  intro hok
  generalize he : mirror_robot model key received cut ⟨u, m⟩ = e at hc hok
  cases hc with
  | first h1 hr => exact hr hok
  | second h1 h2 hr => exact hr hok
  | third h1 h2 h3 hr => exact hr hok
  | ready _ _ h => exact h _ hok
  | @run st u' m' cut' h =>
    obtain ⟨u1, m1, g1, g2, g3⟩ := ready_turn h
    obtain ⟨-, -, r1, r2⟩ := (ready_asks hu hm g1 g2 g3).2.2 rfl
    have hr := run_ends model received cut' st r1 r2
    cases hM : toStart.run m' with
    | mk rm m3 =>
      by_cases hrm : rm = .ok ()
      · subst hrm
        cases hU : toStart.run u' with
        | mk ru u3 =>
          cases ru with
          | ok a =>
            rw [(hr.control m3 u3 hM hU).1] at hok
            exact C102_control model received (next toStart r2 hM) _ hok
          | err x =>
            obtain ⟨⟨msg, h⟩, -⟩ := hr.unjoined m3 _ u3 hM hU (by simp) (by simp)
            rw [h] at hok
            cases hok
          | panic x =>
            obtain ⟨⟨msg, h⟩, -⟩ := hr.unjoined m3 _ u3 hM hU (by simp) (by simp)
            rw [h] at hok
            cases hok
          | blocked =>
            rw [(hr.waiting m3 u3 hM hU).1] at hok
            cases hok
      · exact hrm ((hr.failed _ _ hM hrm).1.symm.trans hok)

end Verif
