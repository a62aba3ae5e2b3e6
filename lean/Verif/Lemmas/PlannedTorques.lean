import Verif.Lemmas.Threads
import Verif.Lemmas.PlannedJoints
/-!
Lemmas: control calls with torques only, whose callback depends on the time only (compare Lemmas/Planned.lean).
-/
set_option linter.unusedSectionVars false
namespace Verif
open Prog Spec Codec

/-- A state with these desired torques and this success rate. -/
def loadedState {F : Type} [Fl F] (id : UInt64) (tau : Arr F 7) (rate : F) (g : MotionGeneratorMode) (c : ControllerMode) (r : RobotMode) : RobotStateIntern F :=
  { RobotStateIntern.dummy F with message_id := id, tau_J_d := tau, control_command_success_rate := rate, motion_generator_mode := g, controller_mode := c, robot_mode := r }

theorem loadedState_holds {F : Type} [Fl F] [Wire F] {id : UInt64} {tau : Arr F 7} {rate : F} {g : MotionGeneratorMode} {c : ControllerMode} {r : RobotMode}
    (h0 : Wire.ofBits (Wire.toBits (Fl.lit 0 : F)) = (Fl.lit 0 : F)) (ht : Kept tau) (hr : Wire.ofBits (Wire.toBits rate) = rate) :
    ∃ data, HoldsState (loadedState (F := F) id tau rate g c r) data := by
  have z : ∀ n, Keeps (arr (f64 F) n) (n * 8) (fun _ => Fl.lit 0 : Arr F n) := fun n => arr_keeps fun _ => f64_keeps h0
  have z1 : Keeps (f64 F) 8 (Fl.lit 0 : F) := f64_keeps h0
  have h : Keeps (RobotStateIntern.codec F) 2373 (loadedState id tau rate g c r) :=
    iso_keeps (n := 2373) (x := loadedState id tau rate g c r) (seq_keeps (u64_lawful.keeps _) <|
      seq_keeps (z 16) <|
      seq_keeps (z 16) <|
      seq_keeps (z 16) <|
      seq_keeps (z 16) <|
      seq_keeps (z 16) <|
      seq_keeps (z 16) <|
      seq_keeps z1 <|
      seq_keeps (z 9) <|
      seq_keeps (z 3) <|
      seq_keeps z1 <|
      seq_keeps (z 9) <|
      seq_keeps (z 3) <|
      seq_keeps (z 2) <|
      seq_keeps (z 2) <|
      seq_keeps (z 7) <|
      seq_keeps ht.keeps <|
      seq_keeps (z 7) <|
      seq_keeps (z 7) <|
      seq_keeps (z 7) <|
      seq_keeps (z 7) <|
      seq_keeps (z 7) <|
      seq_keeps (z 7) <|
      seq_keeps (z 7) <|
      seq_keeps (z 6) <|
      seq_keeps (z 7) <|
      seq_keeps (z 6) <|
      seq_keeps (z 7) <|
      seq_keeps (z 6) <|
      seq_keeps (z 6) <|
      seq_keeps (z 6) <|
      seq_keeps (z 3) <|
      seq_keeps (z 2) <|
      seq_keeps (z 2) <|
      seq_keeps (z 2) <|
      seq_keeps (z 16) <|
      seq_keeps (z 6) <|
      seq_keeps (z 6) <|
      seq_keeps (z 7) <|
      seq_keeps (z 7) <|
      seq_keeps (MotionGeneratorMode.codec_lawful.keeps _) <|
      seq_keeps (ControllerMode.codec_lawful.keeps _) <|
      seq_keeps (RoboErrorHelperStruct.codec_lawful.keeps _) <|
      seq_keeps (RobotMode.codec_lawful.keeps _) (f64_keeps hr)) rfl
  refine ⟨_, h.len, ?_⟩
  have := h.rt []
  rwa [List.append_nil] at this

section
variable {F : Type} [Fl F] [Geo F] {σ : Type} {f : σ → RobotState F → Nat → σ × Torques F}

/-- A plan for a call with torques: what the callback has captured, what it returns and the torques that are sent; `m` is the motion part of every command. -/
structure IsTorquePlanOf (call : ControlCall F σ .JointVelocities) (f : σ → RobotState F → Nat → σ × Torques F) (c0 : σ) (cs : ℕ → σ) (o : ℕ → Torques F) (m : MotionGeneratorCommand F)
    (ts : ℕ → Arr F 7) (R : ℕ → RobotState F → Prop) : Prop where
  torque : call.torque = some f
  still : ∀ c st dt, call.motion c st dt = (c, ({ dq := fun _ => Fl.lit 0, motion_finished := false } : JointVelocities F))
  start : cs 0 = c0
  called : ∀ n st, R n st → f (cs n) st (periodOf n) = (cs (n + 1), o n)
  stays : ∀ n st, R n st → (Motion.convert_motion (k := .JointVelocities) ({ dq := fun _ => Fl.lit 0, motion_finished := false } : JointVelocities F) st
    (msBefore (fun _ => m) n) call.cutoff call.limit_rate) = .ok m
  converted : ∀ n st, R n st → ControlLoop.convert_torques call.limit_rate call.cutoff st (o n).tau_J = .ok (ts n)

namespace IsTorquePlanOf
variable {call : ControlCall F σ .JointVelocities} {c0 : σ} {cs : ℕ → σ} {o : ℕ → Torques F} {m : MotionGeneratorCommand F} {ts : ℕ → Arr F 7} {R : ℕ → RobotState F → Prop}

/-- What the motion part returns. -/
def zeroOut : Motion F .JointVelocities := ({ dq := fun _ => Fl.lit 0, motion_finished := false } : JointVelocities F)

/-- The events of the first `n` cycles after the first state. -/
def events (o : ℕ → Torques F) (m : MotionGeneratorCommand F) (ts : ℕ → Arr F 7) (s : ℕ → RobotStateIntern F) : ℕ → List (Ev F)
  | 0 => []
  | n + 1 => events o m ts s n ++ [.motionCb .JointVelocities (RobotState.ofIntern (s n)) (periodOf n) zeroOut, .controlCb (RobotState.ofIntern (s n)) (periodOf n) (o n),
      .udpSend 0 ⟨(s n).message_id, m, ⟨ts n⟩⟩, .accepted (s (n + 1))]

/-- The last cycle. -/
def ending (o : ℕ → Torques F) (m : MotionGeneratorCommand F) (ts : ℕ → Arr F 7) (s : ℕ → RobotStateIntern F) (sE : RobotStateIntern F) (N : ℕ) : List (Ev F) :=
  [.motionCb .JointVelocities (RobotState.ofIntern (s N)) (periodOf N) zeroOut, .controlCb (RobotState.ofIntern (s N)) (periodOf N) (o N),
    .udpSend 0 ⟨(s N).message_id, { m with motion_generation_finished := true }, ⟨ts N⟩⟩, .accepted sE]

def tsBefore (ts : ℕ → Arr F 7) : ℕ → ControllerCommand F
  | 0 => noTorques
  | n + 1 => ⟨ts n⟩

variable [Wire F] {N : ℕ} {s2 sE : RobotStateIntern F} {s : ℕ → RobotStateIntern F}

theorem run_ready (hp : IsTorquePlanOf call f c0 cs o m ts R) (hr : RobotFor call R N s2 s sE) (hfin : ∀ n < N, (o n).is_finished = false) : ∀ n : ℕ, n ≤ N →
    Run call c0 (.before (Realize.s1 F)) (.robotReq (IsPlanOf.request call) :: .accepted s2 :: .accepted (s 0) :: events o m ts s n)
      (.ready (cs n) (s n) (IsPlanOf.timeOf n) (msBefore (fun _ => m) n) (tsBefore ts n)) := by
  intro n
  induction n with
  | zero =>
    intro _
    have p1 := Run.snoc (.nil (.before (Realize.s1 F))) (Step.move (call := call) (c0 := c0) _ ⟨.Move, 1, 0⟩ Realize.s1_idle rfl)
    have p2 := p1.snoc (.wait _ s2 (fun h => Realize.s1_idle (.inl (by rw [h.1]; nofun))) (by rw [Realize.s1_id, hr.id2]; decide))
    have p3 := p2.snoc (.first _ (s 0) (by rw [hr.id2, hr.ids 0 (Nat.zero_le _)]; decide) (hr.healthy 0 (Nat.zero_le _)))
    rw [IsPlanOf.time_eq hr (Nat.zero_le _), ← hp.start] at p3
    exact hp.start ▸ p3
  | succ n ih =>
    intro hn
    have h1 := ih (by omega)
    have hpe := IsPlanOf.period_ok hr (n := n) (by omega)
    have hR := hr.planned n (by omega)
    have h2 := h1.snoc (Step.motionFirst (call := call) (c0 := c0) _ _ _ _ _ (periodOf n) _ zeroOut m (by rw [hp.torque]; nofun) hpe.2 hpe.1 (hp.still _ _ _) (hp.stays n _ hR) rfl)
    have h2' := h2.snoc (Step.torque (call := call) (c0 := c0) f _ _ _ _ _ (periodOf n) _ (o n) (ts n) hp.torque hpe.2 hpe.1 (hp.called n _ hR) (hp.converted n _ hR)
      (hfin n (by omega)))
    have h3 := h2'.snoc (.send _ _ _ _ 0)
    have h4 := h3.snoc (.next _ _ _ _ (s (n + 1)) (by
      rw [UInt64.lt_iff_toNat_lt, IsPlanOf.id_toNat hr (by omega), IsPlanOf.id_toNat hr hn]; omega) (hr.healthy (n + 1) hn))
    rw [IsPlanOf.time_eq hr (by omega)] at h4
    have e : Ev.robotReq (IsPlanOf.request call) :: .accepted s2 :: .accepted (s 0) :: events o m ts s (n + 1) =
        ((((.robotReq (IsPlanOf.request call) :: .accepted s2 :: .accepted (s 0) :: events o m ts s n) ++
          [.motionCb .JointVelocities (RobotState.ofIntern (s n)) (periodOf n) zeroOut]) ++ [.controlCb (RobotState.ofIntern (s n)) (periodOf n) (o n)]) ++
          [.udpSend 0 ⟨(s n).message_id, m, ⟨ts n⟩⟩]) ++ [.accepted (s (n + 1))] := by
      simp [events]
    rw [e]
    exact h4

theorem run_all (hp : IsTorquePlanOf call f c0 cs o m ts R) (hr : RobotFor call R N s2 s sE) (hfin : ∀ n < N, (o n).is_finished = false) (hend : (o N).is_finished = true) :
    Run call c0 (.before (Realize.s1 F)) (.robotReq (IsPlanOf.request call) :: ([s2].map .accepted ++ .accepted (s 0) :: (events o m ts s N ++ ending o m ts s sE N)))
      (.finishing sE m ⟨ts N⟩) := by
  have h1 := run_ready hp hr hfin N le_rfl
  have hpe := IsPlanOf.period_ok hr (n := N) le_rfl
  have hR := hr.planned N le_rfl
  have h2 := h1.snoc (Step.motionFirst (call := call) (c0 := c0) _ _ _ _ _ (periodOf N) _ zeroOut m (by rw [hp.torque]; nofun) hpe.2 hpe.1 (hp.still _ _ _) (hp.stays N _ hR) rfl)
  have h2' := h2.snoc (Step.torqueEnd (call := call) (c0 := c0) f _ _ _ _ _ (periodOf N) _ (o N) (ts N) hp.torque hpe.2 hpe.1 (hp.called N _ hR) (hp.converted N _ hR) hend)
  have h3 := h2'.snoc (.finish _ _ _ 0 (IsPlanOf.running hr))
  have h4 := h3.snoc (.finishNext _ _ _ sE (by rw [UInt64.lt_iff_toNat_lt, IsPlanOf.id_toNat hr le_rfl, IsPlanOf.idE_toNat hr]; omega))
  have e : Ev.robotReq (IsPlanOf.request call) :: ([s2].map .accepted ++ .accepted (s 0) :: (events o m ts s N ++ ending o m ts s sE N)) =
      ((((.robotReq (IsPlanOf.request call) :: .accepted s2 :: .accepted (s 0) :: events o m ts s N) ++
        [.motionCb .JointVelocities (RobotState.ofIntern (s N)) (periodOf N) zeroOut]) ++ [.controlCb (RobotState.ofIntern (s N)) (periodOf N) (o N)]) ++
        [.udpSend 0 ⟨(s N).message_id, { m with motion_generation_finished := true }, ⟨ts N⟩⟩]) ++ [.accepted sE] := by
    simp [ending]
  rw [e]
  exact h4

theorem events_mem {n : ℕ} {e : Ev F} (h : e ∈ events o m ts s n) :
    (∃ k st dt out, e = .motionCb k st dt out) ∨ (∃ st dt out, e = .controlCb st dt out) ∨ (∃ a x, e = .udpSend a x) ∨ ∃ j ≤ n, e = .accepted (s j) := by
  induction n with
  | zero => cases h
  | succ n ih =>
    unfold events at h
    simp only [List.mem_append, List.mem_cons, List.not_mem_nil, or_false] at h
    rcases h with h | rfl | rfl | rfl | rfl
    · rcases ih h with h | h | h | ⟨j, hj, h⟩
      · exact .inl h
      · exact .inr (.inl h)
      · exact .inr (.inr (.inl h))
      · exact .inr (.inr (.inr ⟨j, by omega, h⟩))
    · exact .inl ⟨_, _, _, _, rfl⟩
    · exact .inr (.inl ⟨_, _, _, rfl⟩)
    · exact .inr (.inr (.inl ⟨_, _, rfl⟩))
    · exact .inr (.inr (.inr ⟨n + 1, le_rfl, rfl⟩))

theorem events_exchanges (n : ℕ) : (events o m ts s n).foldl exchangeStep (none, []) =
    (none, (List.range n).map fun j => (RobotState.ofIntern (s j), (⟨(s j).message_id, m, ⟨ts j⟩⟩ : RobotCommand F))) := by
  induction n with
  | zero => rfl
  | succ n ih =>
    unfold events
    rw [List.foldl_append, ih, List.range_succ, List.map_append]
    rfl

theorem events_records (n : ℕ) : torqueRecords (events o m ts s n) = (List.range n).map fun j => ((RobotState.ofIntern (s j), periodOf j), o j) := by
  induction n with
  | zero => rfl
  | succ n ih =>
    unfold events
    rw [torqueRecords, List.filterMap_append, List.range_succ, List.map_append, ← ih]
    rfl

theorem records_alike {tr tr' : List (Ev F)} (h : List.Forall₂ Alike tr tr') : torqueRecords tr = torqueRecords tr' := by
  induction h with
  | nil => rfl
  | @cons a b l l' h1 _ ih =>
    unfold torqueRecords at ih ⊢
    rw [List.filterMap_cons, List.filterMap_cons, ih]
    unfold Alike at h1
    cases a <;> simp only at h1 <;> (obtain ⟨_, rfl, -⟩ := h1; rfl)

/-- A planned call happens. -/
theorem happens (hp : IsTorquePlanOf call f c0 cs o m ts R) (hr : RobotFor call R N s2 s sE) (hfin : ∀ n < N, (o n).is_finished = false) (hend : (o N).is_finished = true)
    {c : RobotCall F} (hc : IsControl c call c0) :
    ∃ w, RobotReachable w ∧ (c.run w).1 = .ok () ∧ torqueRecords (newEvents w (c.run w).2) = (List.range (N + 1)).map (fun j => ((RobotState.ofIntern (s j), periodOf j), o j)) ∧
      exchanges (newEvents w (c.run w).2) = (List.range N).map (fun j => (RobotState.ofIntern (s j), (⟨(s j).message_id, m, ⟨ts j⟩⟩ : RobotCommand F))) ++
        [(RobotState.ofIntern (s N), ⟨(s N).message_id, { m with motion_generation_finished := true }, ⟨ts N⟩⟩)] := by
  obtain ⟨w, g1, g2, g3⟩ := C65_every_such_motion_happens hc (run_all hp hr hfin hend) hr.still
    (by
      intro r hr
      rcases List.mem_append.1 hr with hr | hr
      · rcases events_mem hr with ⟨_, _, _, _, h⟩ | ⟨_, _, _, h⟩ | ⟨_, _, h⟩ | ⟨_, _, h⟩ <;> cases h
      · simp [ending] at hr)
    ⟨s2, rfl, hr.modes2⟩
    (by
      intro z hs
      rcases List.mem_append.1 hs with hs | hs
      · simp at hs
        rw [hs]
        exact hr.data2
      · rcases List.mem_cons.1 hs with hs | hs
        · cases hs
          exact hr.data 0 (Nat.zero_le _)
        · rcases List.mem_append.1 hs with hs | hs
          · rcases events_mem hs with ⟨_, _, _, _, h⟩ | ⟨_, _, _, h⟩ | ⟨_, _, h⟩ | ⟨n, hn, h⟩ <;> cases h
            exact hr.data n hn
          · simp [ending] at hs
            rw [hs]
            exact hr.dataE)
  refine ⟨w, g1, g2, ?_, ?_⟩
  · rw [← records_alike g3]
    show torqueRecords (events o m ts s N ++ ending o m ts s sE N) = _
    rw [torqueRecords, List.filterMap_append, List.range_succ, List.map_append, ← events_records]
    rfl
  · rw [← exchanges_alike g3]
    show ((events o m ts s N ++ ending o m ts s sE N).foldl exchangeStep (none, [])).2 = _
    rw [List.foldl_append, events_exchanges]
    rfl

end IsTorquePlanOf

/-- The states of a robot that reports these torques and success rates. -/
theorem torque_robot_for [Wire F] {k : MotionKind} {call : ControlCall F σ k} {R : ℕ → RobotState F → Prop} {N : ℕ} (hN : N ≤ 2 ^ 40) (tau : ℕ → Arr F 7) (rate : ℕ → F)
    (k0 : Wire.ofBits (Wire.toBits (Fl.lit 0 : F)) = (Fl.lit 0 : F)) (kt : ∀ n ≤ N, Kept (tau n)) (kr : ∀ n ≤ N, Wire.ofBits (Wire.toBits (rate n)) = rate n)
    (hR : ∀ n st, n ≤ N → st.tau_J_d = tau n → st.control_command_success_rate = rate n → st.dq_d = (fun _ => Fl.lit 0) → st.ddq_d = (fun _ => Fl.lit 0) → R n st) :
    RobotFor call R N (loadedState 2 (fun _ => Fl.lit 0) (Fl.lit 0) (generatorOf k) (controllerOf call.controller) .Move)
      (fun n => loadedState (UInt64.ofNat (n + 3)) (tau n) (rate n) (generatorOf k) (controllerOf call.controller) .Move)
      (loadedState (UInt64.ofNat (N + 4)) (fun _ => Fl.lit 0) (Fl.lit 0) .Idle .Other .Idle) where
  small := hN
  id2 := rfl
  modes2 := ⟨rfl, rfl⟩
  ids _ _ := rfl
  healthy _ _ := ⟨rfl, rfl, rfl⟩
  planned n hn := hR n _ hn rfl rfl rfl rfl
  idE := rfl
  still := by rintro (h | h) <;> first | exact h rfl | cases h
  data2 := loadedState_holds k0 (fun _ => k0) k0
  data n hn := loadedState_holds k0 (kt n hn) (kr n hn)
  dataE := loadedState_holds k0 (fun _ => k0) k0

end
end Verif
