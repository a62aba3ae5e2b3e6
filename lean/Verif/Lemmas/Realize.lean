import Verif.Lemmas.ToyRun
import Verif.Spec.Coop
/-!
A schedule for a given motion: the connection is made, the Move request is accepted, every state arrives when it is awaited, and the end is
confirmed.
-/
set_option linter.unusedSectionVars false
namespace Verif
open Spec
namespace Realize
open Toy (quiet tcp udp response handshake cfg)

section
variable {F : Type} [Fl F] [Wire F] [Geo F]

/-- A world before the connection is made. -/
def world (s : List Tick) : World F where
  cfg := cfg
  script := s
  ker := {}
  net := {}
  rob := RobotImpl.init 50 .Enforce
  model_file := none
  trace := []

theorem fresh (s : List Tick) : Fresh (world (F := F) s) := ⟨rfl, rfl⟩

/-- A connected robot with this schedule before it. -/
def robot (rest : List Tick) : World F := (robotSession none none [] (world (handshake ++ rest))).2

variable (F) in
/-- The first state. -/
@[irreducible] def s1 : RobotStateIntern F := (Option.get ((RobotStateIntern.codec F).dec (Toy.state 1)) (by kernel_rfl)).1

variable (rest : List Tick)

theorem robot_facts : ((robotSession none none [] (world (F := F) (handshake ++ rest))).1, (robot (F := F) rest).script, (robot (F := F) rest).net.command_id,
    (robot (F := F) rest).ker.tcpRx, (robot (F := F) rest).ker.tcpEof, (robot (F := F) rest).ker.udpRx, (robot (F := F) rest).net.pending_response,
    responses (robot (F := F) rest).trace, (robot (F := F) rest).cfg) = (.ok (), rest, 1, [], false, [], [], [(0, Toy.connected)], cfg) := by kernel_rfl

theorem robot_last : ((robot (F := F) rest).rob.motion_generator_mode, (robot (F := F) rest).rob.controller_mode, (robot (F := F) rest).rob.message_id) =
    (some (s1 F).motion_generator_mode, (s1 F).controller_mode, (s1 F).message_id) := by kernel_rfl

theorem s1_idle : ¬ Running (s1 F) := by
  have h1 : (s1 F).motion_generator_mode = .Idle := by kernel_rfl
  have h2 : (s1 F).controller_mode = .Other := by kernel_rfl
  rintro (h | h)
  · exact h h1
  · rw [h2] at h; cases h

theorem s1_id : (s1 F).message_id = 1 := by kernel_rfl

theorem robot_session : robotSession none none [] (world (F := F) (handshake ++ rest)) = (.ok (), robot rest) := by
  have h := robot_facts (F := F) rest
  generalize hr : robot (F := F) rest = w at h ⊢
  unfold robot at hr
  generalize robotSession (F := F) none none [] (world (handshake ++ rest)) = p at h hr ⊢
  simp only [Prod.mk.injEq] at h
  rw [← hr, ← h.1]

theorem robot_reachable : RobotReachable (robot (F := F) rest) := ⟨none, none, [], _, fresh _, robot_session rest⟩

theorem robot_script : (robot (F := F) rest).script = rest := by
  have h := robot_facts (F := F) rest
  generalize robot (F := F) rest = w at h ⊢
  simp only [Prod.mk.injEq] at h
  exact h.2.1
theorem robot_id : (robot (F := F) rest).net.command_id = 1 := by
  have h := robot_facts (F := F) rest
  generalize robot (F := F) rest = w at h ⊢
  simp only [Prod.mk.injEq] at h
  exact h.2.2.1
theorem robot_udp : (robot (F := F) rest).ker.udpRx = [] := by
  have h := robot_facts (F := F) rest
  generalize robot (F := F) rest = w at h ⊢
  simp only [Prod.mk.injEq] at h
  exact h.2.2.2.2.2.1

theorem robot_idle : Idle (robot (F := F) rest) := by
  have h := robot_facts (F := F) rest
  generalize robot (F := F) rest = w at h ⊢
  simp only [Prod.mk.injEq] at h
  obtain ⟨-, -, h1, h2, h3, h4, h5, h6, -⟩ := h
  constructor
  case rx => exact h2
  case eof => exact h3
  case pending => exact h5
  case absent =>
    intro bs h
    rw [h6, h1] at h
    simp at h
  case ids => rw [h1]; decide
  case ready => exact fun h => absurd h4 h

theorem robot_rt : ¬ RealTimeMissing (robot (F := F) rest) := by
  have h := robot_facts (F := F) rest
  generalize robot (F := F) rest = w at h ⊢
  simp only [Prod.mk.injEq] at h
  obtain ⟨-, -, -, -, -, -, -, -, h⟩ := h
  rintro ⟨-, h'⟩
  rw [h] at h'
  exact h' ⟨rfl, rfl, rfl, rfl⟩

theorem robot_lastState : LastState (robot (F := F) rest) (s1 F) := by
  have h := robot_last (F := F) rest
  generalize robot (F := F) rest = w at h ⊢
  simp only [Prod.mk.injEq] at h
  exact h

end

section
variable {F : Type} [Wire F]

theorem fine_quiet (n : Nat) : Fine (List.replicate n quiet) := fun t ht => by rw [List.eq_of_mem_replicate ht]; exact ⟨rfl, rfl⟩

theorem arrives {s : RobotStateIntern F} {data : Bytes} (h : HoldsState s data) : ∃ ts, StateArrives s [] ts ∧ TcpSilent ts := by
  refine ⟨udp data :: List.replicate 4 quiet, .there [] [] 7 _ _ _ h rfl (by simp [StateSized]) ?_ ?_ rfl, ?_⟩
  · intro t ht
    rcases List.mem_cons.1 ht with rfl | ht
    · exact ⟨rfl, rfl⟩
    · exact fine_quiet 4 t ht
  · intro t ht
    rw [List.eq_of_mem_replicate (n := 4) ht]; rfl
  · intro t ht
    rcases List.mem_cons.1 ht with rfl | ht
    · rfl
    · rw [List.eq_of_mem_replicate (n := 4) ht]; rfl

/-- What happens in a motion that is not stopped, when all states can be sent. -/
def Plain : Ev F → Prop
  | .accepted s => ∃ data, HoldsState s data
  | .udpSend .. => True
  | e => IsCallback e

theorem supplied : ∀ {tr : List (Ev F)}, (∀ e ∈ tr, Plain e) → ∃ ts, Supplies [] tr ts ∧ TcpSilent ts
  | [], _ => ⟨[], .nil _, by simp [TcpSilent]⟩
  | e :: tr, h => by
    obtain ⟨ts, h1, h2⟩ := supplied (tr := tr) fun e he => h e (List.mem_cons_of_mem _ he)
    have he := h e (List.mem_cons_self ..)
    cases e with
    | accepted s =>
      obtain ⟨data, hd⟩ := he
      obtain ⟨ts', h3, h4⟩ := arrives hd
      exact ⟨_, .state h3 h1, fun t ht => (List.mem_append.1 ht).elim (h4 t) (h2 t)⟩
    | udpSend a c =>
      refine ⟨quiet :: ts, .command (fine_quiet 1) h1, fun t ht => ?_⟩
      rcases List.mem_cons.1 ht with rfl | ht
      · rfl
      · exact h2 t ht
    | motionCb => exact ⟨ts, .callback trivial h1, h2⟩
    | controlCb => exact ⟨ts, .callback trivial h1, h2⟩
    | _ => exact False.elim he

theorem suppliedStart : ∀ {ss : List (RobotStateIntern F)}, (∀ s ∈ ss, ∃ data, HoldsState s data) → ∃ ts, SuppliesStart [] ss ts ∧ TcpSilent ts
  | [], _ => ⟨[], .nil _, by simp [TcpSilent]⟩
  | s :: ss, h => by
    obtain ⟨ts, h1, h2⟩ := suppliedStart (ss := ss) fun e he => h e (List.mem_cons_of_mem _ he)
    obtain ⟨data, hd⟩ := h s (List.mem_cons_self ..)
    obtain ⟨ts', h3, h4⟩ := arrives hd
    refine ⟨quiet :: ts' ++ ts, .state (fine_quiet 1) h3 h1, fun t ht => ?_⟩
    rcases List.mem_append.1 ht with ht | ht
    · rcases List.mem_cons.1 ht with rfl | ht
      · rfl
      · exact h4 t ht
    · exact h2 t ht

theorem answer_ok (s : UInt8) (h : s = 0 ∨ s = 1) : IsMoveAnswer 1 (response 1 1 s) := by
  rcases h with rfl | rfl
  · exact ⟨⟨⟨.Move, 1, 13⟩, .Success⟩, by kernel_rfl, rfl, rfl, rfl⟩
  · exact ⟨⟨⟨.Move, 1, 13⟩, .MotionStarted⟩, by kernel_rfl, rfl, rfl, rfl⟩

theorem cooperates {waiting : List (RobotStateIntern F)} {tr : List (Ev F)} (hw : ∀ s ∈ waiting, ∃ data, HoldsState s data) (ht : ∀ e ∈ tr, Plain e) :
    ∃ p, Cooperates 1 [] waiting tr p := by
  obtain ⟨start, h1, h2⟩ := suppliedStart hw
  obtain ⟨motion, h3, h4⟩ := supplied ht
  refine ⟨⟨quiet, [], tcp (response 1 1 1), quiet, quiet, quiet, start, motion, [], tcp (response 1 1 0), quiet, quiet, quiet, []⟩, ?_⟩
  constructor
  case fine =>
    constructor
    · intro t ht
      simp only [Plan.opening, List.cons_append, List.nil_append, List.mem_cons, List.not_mem_nil, or_false] at ht
      rcases ht with rfl | rfl | rfl | rfl | rfl <;> exact ⟨rfl, rfl⟩
    · intro t ht
      simp only [Plan.closing, List.nil_append, List.mem_cons, List.not_mem_nil, or_false] at ht
      rcases ht with rfl | rfl | rfl | rfl <;> exact ⟨rfl, rfl⟩
  case accepts =>
    refine ⟨_, answer_ok 1 (.inr rfl), rfl, ?_⟩
    intro t ht
    simp only [List.cons_append, List.nil_append, List.mem_cons, List.not_mem_nil, or_false, or_self] at ht
    rw [ht]; rfl
  case starts => exact ⟨h1, h2⟩
  case moves => exact h3
  case confirms =>
    refine ⟨_, answer_ok 0 (.inl rfl), ?_, .inl ⟨?_, rfl⟩⟩
    · intro t ht
      simp only [List.mem_cons, List.not_mem_nil, or_false, or_self] at ht
      rw [ht]; rfl
    · rw [List.append_nil]; exact h4

end

section
variable {F : Type} [Fl F] [Geo F] {σ : Type} {k : MotionKind} {call : ControlCall F σ k} {c0 : σ}

theorem step_event {ph ph' : Phase F σ} {e : Ev F} (h : Step call c0 ph e ph') : (∃ r, e = .robotReq r) ∨ (∃ s, e = .accepted s) ∨ (∃ a c, e = .udpSend a c) ∨
    IsCallback e := by
  cases h
  all_goals first
    | exact .inl ⟨_, rfl⟩
    | exact .inr (.inl ⟨_, rfl⟩)
    | exact .inr (.inr (.inl ⟨_, _, rfl⟩))
    | exact .inr (.inr (.inr trivial))

theorem run_event {ph ph' : Phase F σ} {tr : List (Ev F)} (h : Run call c0 ph tr ph') : ∀ e ∈ tr, (∃ r, e = .robotReq r) ∨ (∃ s, e = .accepted s) ∨
    (∃ a c, e = .udpSend a c) ∨ IsCallback e := by
  induction h with
  | nil => intro e he; cases he
  | snoc _ hs ih =>
    intro e he
    rcases List.mem_append.1 he with he | he
    · exact ih e he
    · rw [List.mem_singleton.1 he]; exact step_event hs

end
end Realize
end Verif
